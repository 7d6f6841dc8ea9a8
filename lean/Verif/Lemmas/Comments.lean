import Verif.Model.Comments
import Verif.Spec.Comments

/-! # Lemmas about documentation comments -/

namespace Verif

theorem commentMap_find_delete (m : CommentMap) (i j : Nat) :
    (m.delete i).find j = if i = j then none else m.find j := by
  induction m with
  | nil => simp [CommentMap.delete, CommentMap.find]
  | cons e rest ih =>
    obtain ⟨k, t⟩ := e
    unfold CommentMap.delete at ih ⊢
    by_cases hk : k = i
    · subst hk
      rw [List.filter_cons_of_neg (by simp), ih]
      by_cases hj : k = j
      · simp [hj]
      · simp [hj, CommentMap.find]
    · rw [List.filter_cons_of_pos (by simpa using hk)]
      simp only [CommentMap.find]
      rw [ih]
      by_cases hj : k = j
      · subst hj
        simp; exact fun h => hk h.symm
      · simp [hj]

theorem takeComments_append (m : CommentMap) (lines : List Text) (n : Nat) :
    takeComments m lines n = ((takeComments m [] n).1, (takeComments m [] n).2 ++ lines) := by
  induction n generalizing m lines with
  | zero => rfl
  | succ n ih =>
    unfold takeComments
    cases m.find n with
    | none => rfl
    | some t =>
      dsimp only
      rw [ih, ih (lines := [t])]
      simp

theorem isBlock_unique {comment : Nat → Option Text} {line : Nat} {a b : List Text}
    (ha : IsBlock comment line a) (hb : IsBlock comment line b) : a = b := by
  have key : ∀ {a b : List Text}, IsBlock comment line a → IsBlock comment line b →
      ¬ a.length < b.length := by
    intro a b ha hb hlt
    have h1 := ha.stops (Nat.lt_of_lt_of_le hlt hb.fits)
    have h2 := hb.lines (b.length - a.length - 1) (by omega)
    have he : line - b.length + (b.length - a.length - 1) = line - a.length - 1 := by
      have := hb.fits; omega
    rw [he, h1, List.getElem?_eq_getElem (by omega)] at h2
    cases h2
  have hl : a.length = b.length := by
    have h1 := key ha hb
    have h2 := key hb ha
    omega
  apply List.ext_getElem? 
  intro i
  by_cases hi : i < a.length
  · rw [← ha.lines i hi, ← hb.lines i (by omega), hl]
  · rw [List.getElem?_eq_none (by omega), List.getElem?_eq_none (by omega)]

theorem takeComments_spec (m : CommentMap) (n : Nat) :
    IsBlock m.find n (takeComments m [] n).2 ∧
    ∀ i, (takeComments m [] n).1.find i =
      if n - (takeComments m [] n).2.length ≤ i ∧ i < n then none else m.find i := by
  induction n generalizing m with
  | zero => exact ⟨⟨Nat.le_refl _, fun i h => (nomatch h), fun h => (nomatch h)⟩, fun i => by simp [takeComments]⟩
  | succ n ih =>
    cases hf : m.find n with
    | none =>
      have hstep : takeComments m [] (n + 1) = (m, []) := by simp [takeComments, hf]
      rw [hstep]
      refine ⟨⟨Nat.zero_le _, fun i h => (nomatch h), fun _ => by simpa using hf⟩, fun i => ?_⟩
      rw [if_neg]
      simp only [List.length_nil]
      omega
    | some t =>
      have hstep : takeComments m [] (n + 1) = ((takeComments (m.delete n) [] n).1,
          (takeComments (m.delete n) [] n).2 ++ [t]) := by
        rw [← takeComments_append]
        simp [takeComments, hf]
      rw [hstep]
      obtain ⟨h1, h2⟩ := ih (m.delete n)
      generalize takeComments (m.delete n) [] n = r at h1 h2
      obtain ⟨m', ls⟩ := r
      dsimp only at h1 h2 ⊢
      have hfit := h1.fits
      have hlen : (ls ++ [t]).length = ls.length + 1 := by simp
      refine ⟨⟨by rw [hlen]; omega, fun i hi => ?_, fun hlt => ?_⟩, fun i => ?_⟩
      · rw [hlen] at hi ⊢
        have he : n + 1 - (ls.length + 1) + i = n - ls.length + i := by omega
        rw [he]
        by_cases hi' : i < ls.length
        · have := h1.lines i hi'
          rw [commentMap_find_delete, if_neg (by omega)] at this
          rw [this, List.getElem?_append_left hi']
        · have : i = ls.length := by omega
          subst this
          have he : n - ls.length + ls.length = n := by omega
          rw [he, hf]
          simp
      · rw [hlen] at hlt ⊢
        have := h1.stops (by omega)
        rw [commentMap_find_delete, if_neg (by omega)] at this
        have he : n + 1 - (ls.length + 1) - 1 = n - ls.length - 1 := by omega
        rw [he, this]
      · rw [h2 i, hlen, commentMap_find_delete]
        by_cases hin : i = n
        · subst hin
          rw [if_neg (by omega), if_pos rfl, if_pos (by omega)]
        · by_cases hc : n - ls.length ≤ i ∧ i < n
          · rw [if_pos hc, if_pos (by omega)]
          · rw [if_neg hc, if_neg (by omega), if_neg (by omega)]

theorem isUnicodeSpace_iff (c : Char) : isUnicodeSpace c = true ↔ c.toNat ∈ spaceCodes := by
  have hc : ∀ d : Char, c = d ↔ c.toNat = d.toNat :=
    fun d => ⟨fun h => by rw [h], fun h => Char.ext (UInt32.toNat_inj.mp h)⟩
  have e1 : '\t'.toNat = 9 := rfl
  have e2 : '\n'.toNat = 10 := rfl
  have e3 : '\r'.toNat = 13 := rfl
  have e4 : ' '.toNat = 32 := rfl
  simp only [isUnicodeSpace, Bool.or_eq_true, Bool.and_eq_true, decide_eq_true_eq, hc, e1, e2, e3,
    e4, spaceCodes, List.mem_cons, List.not_mem_nil, or_false]
  omega

theorem cutPrefix_some {text p rest : Text} : cutPrefix text p = some rest ↔ text = p ++ rest := by
  induction p generalizing text with
  | nil => cases text <;> simp [cutPrefix, eq_comm]
  | cons c p ih =>
    cases text with
    | nil => simp [cutPrefix]
    | cons d text =>
      simp only [cutPrefix]
      by_cases h : d = c
      · subst h; simp [ih]
      · simp [h]

theorem removeMarks_some {lines rests : List Text} :
    removeMarks lines = some rests ↔ lines = rests.map fun t => t!"//" ++ t := by
  induction lines generalizing rests with
  | nil => cases rests <;> simp [removeMarks]
  | cons line lines ih =>
    unfold removeMarks
    split
    · rename_i rest
      cases rests with
      | nil => simp
      | cons r rs =>
        cases hl : removeMarks lines with
        | none =>
          simp only [Option.map_none, List.map_cons, List.cons_append, List.nil_append,
            List.cons.injEq, true_and, reduceCtorEq, false_iff]
          intro ⟨_, h⟩
          rw [ih.mpr h] at hl
          cases hl
        | some xs =>
          have := ih.mp hl
          simp only [Option.map_some, Option.some.injEq, List.cons.injEq, List.map_cons,
            List.cons_append, List.nil_append, true_and]
          constructor
          · rintro ⟨rfl, rfl⟩
            exact ⟨rfl, this⟩
          · rintro ⟨rfl, h⟩
            refine ⟨rfl, ?_⟩
            have h' := ih.mpr h
            rw [hl] at h'
            cases h'
            rfl
    · rename_i hne
      cases rests with
      | nil => simp
      | cons r rs =>
        simp only [List.map_cons, List.cons_append, List.nil_append, List.cons.injEq,
          reduceCtorEq, false_iff]
        rintro ⟨rfl, -⟩
        exact hne _ rfl

theorem removePrefix_some {indent : Text} {lines texts : List Text} :
    removePrefix indent lines = some texts ↔
      CommentsOf indent (lines.map fun t => t!"//" ++ t) texts := by
  induction lines generalizing texts with
  | nil =>
    constructor
    · intro h
      cases h
      exact .nil
    · intro h
      cases h
      rfl
  | cons line lines ih =>
    constructor
    · intro h
      unfold removePrefix at h
      split at h
      · cases hc : cutPrefix line indent with
        | none => rw [hc] at h; cases h
        | some rest =>
          rw [hc] at h
          obtain ⟨ts, hts, rfl⟩ := Option.map_eq_some_iff.mp h
          exact .cons _ _ _ _ (.inl (by rw [cutPrefix_some.mp hc])) (ih.mp hts)
      · rename_i hl
        have hl : line = [] := Classical.byContradiction fun h => hl h
        obtain ⟨ts, hts, rfl⟩ := Option.map_eq_some_iff.mp h
        exact .cons _ _ _ _ (.inr ⟨by simp [hl], hl⟩) (ih.mp hts)
    · intro h
      cases h with
      | cons _ t _ ts h1 h2 =>
        have h2' := ih.mpr h2
        unfold removePrefix
        by_cases hl : line = []
        · subst hl
          rw [if_neg (by simp), h2']
          rcases h1 with h1 | h1
          · have : indent ++ t = [] := by simpa using h1
            have ht := (List.append_eq_nil_iff.mp this).2
            rw [ht]
            rfl
          · rw [h1.2]; rfl
        · rw [if_pos hl]
          rcases h1 with h1 | h1
          · have : line = indent ++ t := by simpa using h1
            rw [cutPrefix_some.mpr this, h2']
            rfl
          · exact absurd (by simpa using h1.1) hl

theorem takeWhile_split {p : Char → Bool} {l : Text} (h : l.all p = false) :
    ∃ c rest, l = l.takeWhile p ++ c :: rest ∧ p c = false := by
  induction l with
  | nil => simp at h
  | cons d l ih =>
    cases hd : p d with
    | false => exact ⟨d, l, by simp [hd], hd⟩
    | true =>
      rw [List.all_cons, hd, Bool.true_and] at h
      obtain ⟨c, rest, h1, h2⟩ := ih h
      refine ⟨c, rest, ?_, h2⟩
      rw [List.takeWhile_cons_of_pos hd, List.cons_append, ← h1]

theorem mem_takeWhile {p : Char → Bool} {l : Text} {x : Char} (h : x ∈ l.takeWhile p) :
    p x = true := by
  induction l with
  | nil => cases h
  | cons d l ih =>
    cases hd : p d with
    | false => rw [List.takeWhile_cons_of_neg (by simp [hd])] at h; cases h
    | true =>
      rw [List.takeWhile_cons_of_pos hd] at h
      rcases List.mem_cons.mp h with rfl | h
      · exact hd
      · exact ih h

theorem takeWhile_exact {p : Char → Bool} {a : Text} {c : Char} {rest : Text}
    (ha : ∀ x ∈ a, p x = true) (hc : p c = false) : (a ++ c :: rest).takeWhile p = a := by
  induction a with
  | nil => simp [hc]
  | cons x a ih =>
    rw [List.cons_append, List.takeWhile_cons_of_pos (ha x (List.mem_cons_self ..)),
      ih fun y hy => ha y (List.mem_cons_of_mem _ hy)]

theorem isUnicodeSpace_false (c : Char) : isUnicodeSpace c = false ↔ c.toNat ∉ spaceCodes := by
  rw [← isUnicodeSpace_iff]; simp

theorem formatDoc_text (block : List Text) (doc : Text) :
    formatDoc block = .done (.text doc) ↔ Documents block doc := by
  unfold formatDoc
  constructor
  · intro h
    split at h
    · cases h
    · rename_i hm
      cases h
      exact .inl ⟨by simpa using removeMarks_some.mp hm, rfl⟩
    · rename_i first rest hm
      split at h
      · cases h
      · rename_i hs
        have hs : first.all isUnicodeSpace = false := by simpa using hs
        have hlines := removeMarks_some.mp hm
        split at h
        · cases h
        · rename_i texts hp
          cases h
          obtain ⟨c, tail, h1, h2⟩ := takeWhile_split hs
          have hp' := removePrefix_some.mp hp
          cases hp' with
          | cons _ t _ ts g1 g2 =>
            refine .inr ⟨first.takeWhile isUnicodeSpace, t, _, ts, ?_, ?_, ?_, g2, rfl⟩
            · intro x hx
              exact (isUnicodeSpace_iff x).mp (mem_takeWhile hx)
            · rcases g1 with g1 | g1
              · have : first = first.takeWhile isUnicodeSpace ++ t := by simpa using g1
                have he := this.symm.trans h1
                have := List.append_cancel_left he
                exact ⟨c, tail, this, (isUnicodeSpace_false c).mp h2⟩
              · have : first = [] := by simpa using g1.1
                subst this
                simp at hs
            · rcases g1 with g1 | g1
              · rw [← g1]; exact hlines
              · have : first = [] := by simpa using g1.1
                subst this
                simp at hs
  · rintro (⟨rfl, rfl⟩ | ⟨indent, first, rest, texts, h1, ⟨c, tail, rfl, h2⟩, rfl, h3, rfl⟩)
    · rfl
    · -- The marks of the rest:
      have hrest : ∀ {cs ts : List Text}, CommentsOf indent cs ts →
          ∃ ls : List Text, cs = ls.map fun t => t!"//" ++ t := by
        intro cs ts h
        induction h with
        | nil => exact ⟨[], rfl⟩
        | cons c t cs ts hc _ ih =>
          obtain ⟨ls, rfl⟩ := ih
          rcases hc with rfl | ⟨rfl, -⟩
          · exact ⟨(indent ++ t) :: ls, rfl⟩
          · exact ⟨[] :: ls, rfl⟩
      obtain ⟨ls, rfl⟩ := hrest h3
      have hm : removeMarks ((t!"//" ++ (indent ++ c :: tail)) :: ls.map fun t => t!"//" ++ t) =
          some ((indent ++ c :: tail) :: ls) := removeMarks_some.mpr rfl
      rw [hm]
      dsimp only
      have hc := (isUnicodeSpace_false c).mpr h2
      rw [if_neg (by simp [hc]), takeWhile_exact (fun x hx => (isUnicodeSpace_iff x).mpr (h1 x hx)) hc,
        removePrefix_some.mpr (.cons _ (c :: tail) _ _ (.inl rfl) h3)]

end Verif
