/-! Characters in terms of their code points. -/

namespace Verif

theorem isLower_iff (c : Char) : c.isLower = true ↔ 97 ≤ c.toNat ∧ c.toNat ≤ 122 := by
  simp only [Char.isLower, Bool.and_eq_true, decide_eq_true_eq, ge_iff_le, UInt32.le_iff_toNat_le]
  rfl

theorem isUpper_iff (c : Char) : c.isUpper = true ↔ 65 ≤ c.toNat ∧ c.toNat ≤ 90 := by
  simp only [Char.isUpper, decide_eq_true_eq, ge_iff_le, UInt32.le_iff_toNat_le]
  rfl

theorem isDigit_iff (c : Char) : c.isDigit = true ↔ 48 ≤ c.toNat ∧ c.toNat ≤ 57 := by
  simp only [Char.isDigit, Bool.and_eq_true, decide_eq_true_eq, ge_iff_le, UInt32.le_iff_toNat_le]
  rfl

theorem char_eq_iff (a b : Char) : a = b ↔ a.toNat = b.toNat :=
  ⟨fun h => by rw [h], fun h => Char.ext (UInt32.toNat_inj.mp h)⟩

theorem toNat_toLower (c : Char) :
    c.toLower.toNat = if 65 ≤ c.toNat ∧ c.toNat ≤ 90 then c.toNat + 32 else c.toNat := by
  have h := isUpper_iff c
  simp only [Char.isUpper, decide_eq_true_eq] at h
  unfold Char.toLower
  by_cases hu : c.val ≥ 'A'.val ∧ c.val ≤ 'Z'.val
  · rw [dif_pos hu, if_pos (h.mp hu)]
    have h2 := h.mp hu
    show (c.val + ('a'.val - 'A'.val)).toNat = c.val.toNat + 32
    have h3 : c.val.toNat ≤ 90 := h2.2
    rw [UInt32.toNat_add]
    show (c.val.toNat + 32) % 2^32 = _
    omega
  · rw [dif_neg hu, if_neg (fun e => hu (h.mpr e))]

theorem toNat_toUpper (c : Char) :
    c.toUpper.toNat = if 97 ≤ c.toNat ∧ c.toNat ≤ 122 then c.toNat - 32 else c.toNat := by
  have h := isLower_iff c
  simp only [Char.isLower, Bool.and_eq_true, decide_eq_true_eq] at h
  unfold Char.toUpper
  by_cases hu : 'a'.val ≤ c.val ∧ c.val ≤ 'z'.val
  · rw [dif_pos hu, if_pos (h.mp hu)]
    have h2 := h.mp hu
    show (c.val + ('A'.val - 'a'.val)).toNat = c.val.toNat - 32
    have h3 : c.val.toNat ≤ 122 := h2.2
    have h4 : 97 ≤ c.val.toNat := h2.1
    rw [UInt32.toNat_add]
    show (c.val.toNat + 4294967264) % 2^32 = _
    omega
  · rw [dif_neg hu, if_neg (fun e => hu (h.mpr e))]

theorem isAlphanum_iff (c : Char) :
    c.isAlphanum = true ↔ c.isUpper = true ∨ c.isLower = true ∨ c.isDigit = true := by
  simp [Char.isAlphanum, Char.isAlpha, or_assoc]

theorem bool_eq_false_iff_not (b : Bool) : b = false ↔ ¬ b = true := by cases b <;> simp

theorem toLower_toLower_char (c : Char) : c.toLower.toLower = c.toLower := by
  rw [char_eq_iff, toNat_toLower, toNat_toLower]
  grind

theorem toLower_of_isLower (c : Char) (h : c.isLower = true) : c.toLower = c := by
  rw [isLower_iff] at h
  rw [char_eq_iff, toNat_toLower]
  split <;> omega

theorem toLower_toUpper_of (c : Char) (h : c.isLower = true ∨ c.isDigit = true) :
    c.toUpper.toLower = c := by
  rw [isLower_iff, isDigit_iff] at h
  rw [char_eq_iff, toNat_toLower, toNat_toUpper]
  split <;> split <;> omega

theorem isUpper_or_digit_toUpper (c : Char) (h : c.isLower = true ∨ c.isDigit = true) :
    (c.toUpper.isUpper || c.toUpper.isDigit) = true := by
  rw [isLower_iff, isDigit_iff] at h
  rw [Bool.or_eq_true, isUpper_iff, isDigit_iff, toNat_toUpper]
  split <;> omega

theorem isLower_of_upper_or_digit (c : Char) (h : (c.isUpper || c.isDigit) = true) :
    c.isLower = false := by
  rw [Bool.or_eq_true, isUpper_iff, isDigit_iff] at h
  rw [bool_eq_false_iff_not, isLower_iff]
  omega

theorem upper_or_digit_of_alphanum (c : Char) (h : c.isAlphanum = true)
    (hl : c.isLower = false) : (c.isUpper || c.isDigit) = true := by
  rw [isAlphanum_iff] at h
  rw [Bool.or_eq_true]
  simp_all

end Verif
