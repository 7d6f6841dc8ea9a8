import Verif.Model.Text

/-! Specification of numerals: their value. -/

namespace Verif

/-- Value of a digit in bases up to sixteen, for lower case digits. -/
def digitVal (c : Char) : Option Nat :=
  if '0'.toNat ≤ c.toNat ∧ c.toNat ≤ '9'.toNat then some (c.toNat - '0'.toNat)
  else if 'a'.toNat ≤ c.toNat ∧ c.toNat ≤ 'f'.toNat then some (c.toNat - 'a'.toNat + 10)
  else none

/-- Value of the numeral that starts with a value and follows with digits. -/
def numeralFrom (base : Nat) (value : Nat) : Text → Option Nat
  | [] => some value
  | c :: cs =>
    match digitVal c with
    | none => none
    | some d => if d < base then numeralFrom base (base * value + d) cs else none

/-- Value of a numeral; the empty text isn't a numeral. -/
def numeral (base : Nat) (t : Text) : Option Nat := if t = [] then none else numeralFrom base 0 t

/-- Value of a decimal integer literal, perhaps with sign. -/
def integerLiteral : Text → Option Int
  | '-' :: ds => (numeral 10 ds).map fun n => -(n : Int)
  | ds => (numeral 10 ds).map fun n => (n : Int)

end Verif
