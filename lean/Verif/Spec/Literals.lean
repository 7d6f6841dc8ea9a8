import Verif.Spec.Trees
import Verif.Model.Tree

/-!
# Specification: the values of literals

Strings with back quotes are verbatim, without carriage returns. Strings with double quotes are in one
line and have the escape sequences of the Go language. Integers are decimal and fit in 64 bits.
-/

namespace Verif.Language

/-- The digits, in order. Those that aren't decimal can also be in upper case. -/
def digitsInOrder : List (List Char) :=
  [['0'], ['1'], ['2'], ['3'], ['4'], ['5'], ['6'], ['7'], ['8'], ['9'],
   ['a', 'A'], ['b', 'B'], ['c', 'C'], ['d', 'D'], ['e', 'E'], ['f', 'F']]

/-- The character is the digit with the given value. -/
def IsDigit (c : Char) (n : Nat) : Prop := ∃ cs, digitsInOrder[n]? = some cs ∧ c ∈ cs

/-- The text is a number in the given base: the most significant digit is the first one. -/
inductive Numeral (base : Nat) : Text → Nat → Prop
  | nil : Numeral base [] 0
  | snoc (text : Text) (v : Nat) (c : Char) (n : Nat) : Numeral base text v → IsDigit c n → n < base →
      Numeral base (text ++ [c]) (base * v + n)

/-- The escape sequences of one character. -/
def simpleEscapes : List (Char × Char) :=
  [('a', Char.ofNat 7), ('b', Char.ofNat 8), ('f', Char.ofNat 12), ('n', '\n'), ('r', '\r'),
   ('t', '\t'), ('v', Char.ofNat 11), ('\\', '\\'), ('"', '"')]

/-- The text, after the backslash, is an escape sequence for the character. -/
inductive Escape : Text → Char → Prop
  | simple (c d : Char) : (c, d) ∈ simpleEscapes → Escape [c] d
  | hex (digits : Text) (v : Nat) : digits.length = 2 → Numeral 16 digits v →
      Escape ('x' :: digits) (Char.ofNat v)
  | octal (digits : Text) (v : Nat) : digits.length = 3 → Numeral 8 digits v → v < 256 →
      Escape digits (Char.ofNat v)
  | short (digits : Text) (c : Char) : digits.length = 4 → Numeral 16 digits c.toNat →
      Escape ('u' :: digits) c
  | long (digits : Text) (c : Char) : digits.length = 8 → Numeral 16 digits c.toNat →
      Escape ('U' :: digits) c

/-- The content of a string with double quotes, and its value. -/
inductive Content : Text → Text → Prop
  | nil : Content [] []
  | plain (c : Char) (text value : Text) : c ≠ '"' → c ≠ '\n' → c ≠ '\\' → Content text value →
      Content (c :: text) (c :: value)
  | escape (sequence : Text) (c : Char) (text value : Text) : Escape sequence c → Content text value →
      Content ('\\' :: sequence ++ text) (c :: value)

/-- The value of a string literal. -/
def StringIs (literal value : Text) : Prop :=
  (∃ content, literal = '`' :: (content ++ ['`']) ∧ '`' ∉ content ∧
    value = content.filter fun c => c ≠ '\r') ∨
  ∃ content, literal = '"' :: (content ++ ['"']) ∧ Content content value

/-- The value of a literal. -/
def LiteralIs : LiteralTree → Literal → Prop
  | .bool b, v => v = .bool b
  | .integer text, v => ∃ n : Nat, Numeral 10 text n ∧ n < 2 ^ 63 ∧ v = .int n
  | .string text, v => ∃ value, StringIs text value ∧ v = .str value

end Verif.Language
