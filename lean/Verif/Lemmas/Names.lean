import Verif.Model.Names

/-! Helper lemmas about texts and names. -/

namespace Verif

theorem Char.toNat_inj' {a b : Char} (h : a.toNat = b.toNat) : a = b := by
  apply Char.ext
  exact UInt32.toNat_inj.mp h

theorem compareText_range (a b : Text) :
    compareText a b = -1 ∨ compareText a b = 0 ∨ compareText a b = 1 := by
  fun_induction compareText a b <;> simp_all

theorem compareText_swap (a b : Text) : compareText b a = - compareText a b := by
  fun_induction compareText a b with
  | case1 => simp [compareText]
  | case2 => simp [compareText]
  | case3 => simp [compareText]
  | case4 a as b bs h =>
    have h' : ¬ b.toNat < a.toNat := by omega
    simp [compareText, h, h']
  | case5 a as b bs h h' => simp [compareText, h']
  | case6 a as b bs h h' ih => simp only [compareText, h, h', if_false, ih]

theorem compareText_zero (a b : Text) : compareText a b = 0 ↔ a = b := by
  fun_induction compareText a b with
  | case1 => simp
  | case2 => simp
  | case3 => simp
  | case4 a as b bs h =>
    have : a ≠ b := by rintro rfl; omega
    simp [this]
  | case5 a as b bs h h' =>
    have : a ≠ b := by rintro rfl; omega
    simp [this]
  | case6 a as b bs h h' ih =>
    have : a = b := Char.toNat_inj' (by omega)
    simp [ih, this]

theorem compareText_lt (a b : Text) : compareText a b = -1 ↔ a < b := by
  fun_induction compareText a b with
  | case1 => simp
  | case2 => simp
  | case3 => simp
  | case4 a as b bs h =>
    have h1 : a < b := h
    simp [List.cons_lt_cons_iff, h1]
  | case5 a as b bs h h' =>
    have h1 : ¬ a < b := h
    have : a ≠ b := by rintro rfl; omega
    simp [List.cons_lt_cons_iff, h1, this]
  | case6 a as b bs h h' ih =>
    have h1 : ¬ a < b := h
    have : a = b := Char.toNat_inj' (by omega)
    subst this
    simp [ih]

theorem Name.compare_swap (a b : Name) : Name.compare b a = - Name.compare a b := by
  fun_induction Name.compare a b with
  | case1 => simp [Name.compare]
  | case2 => simp [Name.compare]
  | case3 => simp [Name.compare]
  | case4 w ws v vs h =>
    have h0 : compareText w.text v.text ≠ 0 := by simpa using h
    simp [Name.compare, compareText_swap w.text, h0]
  | case5 w ws v vs h ih =>
    have h' : compareText v.text w.text = 0 := by
      rw [compareText_swap w.text]; simpa using h
    simp [Name.compare, h', ih]

theorem Name.compare_zero (a b : Name) :
    Name.compare a b = 0 ↔ a.map Word.text = b.map Word.text := by
  fun_induction Name.compare a b with
  | case1 => simp
  | case2 => simp
  | case3 => simp
  | case4 w ws v vs h =>
    have h0 : compareText w.text v.text ≠ 0 := by simpa using h
    have h' : w.text ≠ v.text := fun e => h0 ((compareText_zero _ _).mpr e)
    simp [h0, h']
  | case5 w ws v vs h ih =>
    have h' : w.text = v.text := by rw [← compareText_zero]; simpa using h
    simp [ih, h']

theorem Name.compare_lt (a b : Name) :
    Name.compare a b = -1 ↔ a.map Word.text < b.map Word.text := by
  fun_induction Name.compare a b with
  | case1 => simp
  | case2 => simp
  | case3 => simp
  | case4 w ws v vs h =>
    have h0 : compareText w.text v.text ≠ 0 := by simpa using h
    have h' : w.text ≠ v.text := fun e => h0 ((compareText_zero _ _).mpr e)
    simp [List.cons_lt_cons_iff, h', compareText_lt]
  | case5 w ws v vs h ih =>
    have h' : w.text = v.text := by rw [← compareText_zero]; simpa using h
    simp [ih, h']

theorem Name.compare_range (a b : Name) :
    Name.compare a b = -1 ∨ Name.compare a b = 0 ∨ Name.compare a b = 1 := by
  fun_induction Name.compare a b with
  | case1 => simp
  | case2 => simp
  | case3 => simp
  | case4 w ws v vs h => exact compareText_range _ _
  | case5 w ws v vs h ih => exact ih

/-! ## Join and split -/

theorem joinText_cons (sep t : Text) (ts : List Text) (h : ts ≠ []) :
    joinText sep (t :: ts) = t ++ sep ++ joinText sep ts := by
  cases ts with
  | nil => exact absurd rfl h
  | cons u us => rfl

theorem joinText_nil_sep (ts : List Text) : joinText [] ts = ts.flatten := by
  induction ts with
  | nil => rfl
  | cons t ts ih =>
    cases ts with
    | nil => simp [joinText]
    | cons u us => rw [joinText_cons _ _ _ (by simp), ih]; simp

theorem splitOn_ne_nil (sep : Char) (t : Text) : splitOn sep t ≠ [] := by
  fun_induction splitOn sep t <;> simp_all

theorem joinText_splitOn (sep : Char) (t : Text) : joinText [sep] (splitOn sep t) = t := by
  fun_induction splitOn sep t with
  | case1 => rfl
  | case2 cs ih =>
    rw [joinText_cons _ _ _ (splitOn_ne_nil _ _), ih]; simp
  | case3 c cs h ho ih => exact absurd ho (splitOn_ne_nil _ _)
  | case4 c cs h w ws ho ih =>
    rw [ho] at ih
    cases ws with
    | nil => simp [joinText] at ih ⊢; exact ih
    | cons v vs =>
      rw [joinText_cons _ _ _ (by simp)] at ih ⊢
      simp only [List.cons_append, ih]

theorem splitOn_no_sep (sep : Char) (t : Text) : ∀ w ∈ splitOn sep t, sep ∉ w := by
  fun_induction splitOn sep t with
  | case1 => simp
  | case2 cs ih => simpa using ih
  | case3 c cs h ho ih => exact absurd ho (splitOn_ne_nil _ _)
  | case4 c cs h w ws ho ih =>
    rw [ho] at ih
    intro x hx
    rcases List.mem_cons.mp hx with rfl | hx
    · simp only [List.mem_cons, not_or]
      exact ⟨fun e => h e.symm, ih w (by simp)⟩
    · exact ih x (by simp [hx])

theorem splitOn_append_of_not_mem (sep : Char) (w t : Text) (h : sep ∉ w) :
    splitOn sep (w ++ sep :: t) = w :: splitOn sep t := by
  induction w with
  | nil => simp [splitOn]
  | cons c cs ih =>
    simp only [List.mem_cons, not_or] at h
    have hc : c ≠ sep := fun e => h.1 e.symm
    simp only [List.cons_append, splitOn, hc, if_false, ih h.2]

theorem splitOn_of_not_mem (sep : Char) (w : Text) (h : sep ∉ w) : splitOn sep w = [w] := by
  induction w with
  | nil => simp [splitOn]
  | cons c cs ih =>
    simp only [List.mem_cons, not_or] at h
    have hc : c ≠ sep := fun e => h.1 e.symm
    simp only [splitOn, hc, if_false, ih h.2]

theorem splitOn_joinText (sep : Char) (ws : List Text) (hne : ws ≠ [])
    (h : ∀ w ∈ ws, sep ∉ w) : splitOn sep (joinText [sep] ws) = ws := by
  induction ws with
  | nil => exact absurd rfl hne
  | cons w ws ih =>
    cases ws with
    | nil => simpa [joinText] using splitOn_of_not_mem sep w (h w (by simp))
    | cons v vs =>
      rw [joinText_cons _ _ _ (by simp)]
      rw [List.append_assoc, List.singleton_append,
        splitOn_append_of_not_mem _ _ _ (h w (by simp)), ih (by simp)]
      intro x hx; exact h x (by simp [hx])

end Verif
