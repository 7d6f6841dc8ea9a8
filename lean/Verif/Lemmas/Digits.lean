import Verif.Spec.Digits
import Verif.Model.Binding

/-! Lemmas about numerals. -/

namespace Verif

theorem digitVal_digitChar : ∀ n, n < 16 → digitVal n.digitChar = some n := by decide

theorem numeralFrom_append (base value : Nat) (t u : Text) :
    numeralFrom base value (t ++ u) = (numeralFrom base value t).bind fun v => numeralFrom base v u := by
  induction t generalizing value with
  | nil => rfl
  | cons c cs ih =>
    simp only [List.cons_append, numeralFrom]
    split
    · rfl
    · split
      · exact ih _
      · rfl

theorem numeralFrom_toDigits (base : Nat) (hb : 1 < base) (hb' : base ≤ 16) (n : Nat) :
    numeralFrom base 0 (Nat.toDigits base n) = some n := by
  induction n using Nat.strongRecOn with
  | ind n ih =>
    rw [Nat.toDigits_eq_if hb]
    split
    · rename_i h
      simp [numeralFrom, digitVal_digitChar n (by omega), h]
    · rename_i h
      rw [numeralFrom_append, ih (n / base) (Nat.div_lt_self (by omega) hb)]
      have hm : n % base < base := Nat.mod_lt _ (by omega)
      simp only [Option.bind_some, numeralFrom, digitVal_digitChar _ (Nat.lt_of_lt_of_le hm hb'), hm,
        if_true]
      congr 1
      exact Nat.div_add_mod n base

theorem toDigits_ne_nil (base : Nat) (hb : 1 < base) (n : Nat) : Nat.toDigits base n ≠ [] := by
  rw [Nat.toDigits_eq_if hb]
  split <;> simp

theorem numeral_toDigits (base : Nat) (hb : 1 < base) (hb' : base ≤ 16) (n : Nat) :
    numeral base (Nat.toDigits base n) = some n := by
  unfold numeral
  rw [if_neg (toDigits_ne_nil base hb n), numeralFrom_toDigits base hb hb']

theorem numeral_natText (n : Nat) : numeral 10 (natText n) = some n :=
  numeral_toDigits 10 (by decide) (by decide) n

theorem isDigit_natText (n : Nat) (c : Char) (h : c ∈ natText n) : c.isDigit = true :=
  Nat.isDigit_of_mem_toDigits (by decide) (by decide) h

theorem integerLiteral_natText (n : Nat) : integerLiteral (natText n) = some (n : Int) := by
  unfold integerLiteral
  split
  · rename_i ds h
    have := isDigit_natText n '-' (by rw [h]; simp)
    simp at this
  · rw [numeral_natText]
    rfl

theorem integerLiteral_intText (i : Int) : integerLiteral (intText i) = some i := by
  match i with
  | .ofNat n => exact integerLiteral_natText n
  | .negSucc n =>
    simp only [intText, integerLiteral, numeral_natText]
    rfl

end Verif
