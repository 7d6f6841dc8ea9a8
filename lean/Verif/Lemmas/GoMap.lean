import Verif.Lemmas.Names
import Verif.Spec.Listing

/-! Helper lemmas about maps and sorted listings. -/

namespace Verif

namespace GoMap

variable {α : Type}

theorem find_insert (m : GoMap α) (k k' : Text) (v : α) :
    (m.insert k v).find k' = if k = k' then some v else m.find k' := by
  induction m with
  | nil => simp [insert, find]
  | cons e rest ih =>
    obtain ⟨a, b⟩ := e
    unfold insert
    split
    · subst_vars
      simp only [find]
      split <;> rfl
    · simp only [find, ih]
      split
      · subst_vars
        rename_i h
        rw [if_neg fun h' : k = a => h h'.symm]
      · rfl

theorem find_delete (m : GoMap α) (k k' : Text) :
    (m.delete k).find k' = if k = k' then none else m.find k' := by
  induction m with
  | nil => simp [delete, find]
  | cons e rest ih =>
    obtain ⟨a, b⟩ := e
    unfold delete at *
    simp only [List.filter_cons, find]
    split
    · simp only [find, ih]
      split
      · rename_i h1 h2
        subst h2
        simp only [ne_eq, decide_not, Bool.not_eq_eq_eq_not, Bool.not_true,
          decide_eq_false_iff_not] at h1
        rw [if_neg fun e : k = a => h1 e.symm]
      · rfl
    · rename_i h1
      simp only [ne_eq, decide_not, Bool.not_eq_eq_eq_not, Bool.not_true,
          decide_eq_false_iff_not, Decidable.not_not] at h1
      subst h1
      rw [ih]
      split
      · rfl
      · rfl

theorem keys_insert (m : GoMap α) (k : Text) (v : α) :
    (m.insert k v).keys = if k ∈ m.keys then m.keys else m.keys ++ [k] := by
  induction m with
  | nil => simp [insert, keys]
  | cons e rest ih =>
    obtain ⟨a, b⟩ := e
    unfold keys at *
    rw [insert]
    by_cases h : a = k
    · subst h; simp
    · simp only [h, if_false, List.map_cons, ih, List.mem_cons, List.cons_append]
      have h' : ¬ k = a := fun e => h e.symm
      simp only [h', false_or]
      split <;> rfl

theorem find_some_mem {m : GoMap α} {k : Text} {v : α} (h : m.find k = some v) : (k, v) ∈ m := by
  induction m with
  | nil => simp [find] at h
  | cons e rest ih =>
    obtain ⟨a, b⟩ := e
    simp only [find] at h
    split at h
    · simp_all
    · exact List.mem_cons_of_mem _ (ih h)

theorem find_none {m : GoMap α} {k : Text} : m.find k = none ↔ k ∉ m.keys := by
  induction m with
  | nil => simp [find, keys]
  | cons e rest ih =>
    obtain ⟨a, b⟩ := e
    unfold keys at *
    simp only [find, List.map_cons, List.mem_cons, not_or]
    split
    · subst_vars; simp
    · rename_i h
      rw [ih]
      exact ⟨fun hh => ⟨fun e => h e.symm, hh⟩, fun hh => hh.2⟩

theorem find_of_mem {m : GoMap α} {k : Text} {v : α} (hnd : m.keys.Nodup) (h : (k, v) ∈ m) :
    m.find k = some v := by
  induction m with
  | nil => simp at h
  | cons e rest ih =>
    obtain ⟨a, b⟩ := e
    unfold keys at *
    simp only [List.map_cons, List.nodup_cons] at hnd
    simp only [find]
    rcases List.mem_cons.mp h with h | h
    · simp only [Prod.mk.injEq] at h; simp [h.1, h.2]
    · have : a ≠ k := by
        rintro rfl
        exact hnd.1 (List.mem_map.mpr ⟨_, h, rfl⟩)
      simp only [this, if_false]
      exact ih hnd.2 h

theorem insert_mem {m : GoMap α} {k : Text} {v : α} {e : Text × α} (h : e ∈ m.insert k v) :
    e = (k, v) ∨ e ∈ m := by
  induction m with
  | nil => simpa [insert] using h
  | cons x rest ih =>
    obtain ⟨a, b⟩ := x
    unfold insert at h
    split at h
    · rcases List.mem_cons.mp h with h | h
      · exact Or.inl h
      · exact Or.inr (List.mem_cons_of_mem _ h)
    · rcases List.mem_cons.mp h with h | h
      · exact Or.inr (by simp [h])
      · rcases ih h with h | h
        · exact Or.inl h
        · exact Or.inr (List.mem_cons_of_mem _ h)

theorem insert_of_not_mem {m : GoMap α} {k : Text} {v : α} (h : k ∉ m.keys) :
    m.insert k v = m ++ [(k, v)] := by
  induction m with
  | nil => rfl
  | cons x rest ih =>
    obtain ⟨a, b⟩ := x
    unfold keys at *
    simp only [List.map_cons, List.mem_cons, not_or] at h
    unfold insert
    have : ¬ a = k := fun e => h.1 e.symm
    simp only [this, if_false, List.cons_append]
    rw [ih h.2]

end GoMap

section Named

variable {α : Type} (nameOf : α → Name)

theorem texts_of_toText_ne {a b : Name} (h : a.toText ≠ b.toText) :
    a.map Word.text ≠ b.map Word.text := by
  intro e
  exact h (by simp [Name.toText, e])

theorem texts_lt_of {a b : List Text} (h : ¬ b < a) (hne : a ≠ b) : a < b := by
  by_cases hlt : a < b
  · exact hlt
  · exact absurd (List.le_antisymm (List.not_lt.mp h) (List.not_lt.mp hlt)) hne

theorem less_iff (a b : Name) : Name.less a b = true ↔ a.map Word.text < b.map Word.text := by
  simp [Name.less, Name.compare_lt]

theorem insertByName_perm (x : α) (l : List α) : (insertByName nameOf x l).Perm (x :: l) := by
  induction l with
  | nil => simp [insertByName]
  | cons y ys ih =>
    unfold insertByName
    split
    · exact List.Perm.refl _
    · exact (List.Perm.cons y ih).trans (List.Perm.swap x y ys)

theorem insertByName_sorted (x : α) (l : List α)
    (h : l.Pairwise fun a b => ¬ ((nameOf b).map Word.text < (nameOf a).map Word.text)) :
    (insertByName nameOf x l).Pairwise
      fun a b => ¬ ((nameOf b).map Word.text < (nameOf a).map Word.text) := by
  induction l with
  | nil => simp [insertByName]
  | cons y ys ih =>
    rw [List.pairwise_cons] at h
    unfold insertByName
    split
    · rename_i hlt
      rw [less_iff] at hlt
      rw [List.pairwise_cons]
      refine ⟨?_, by rw [List.pairwise_cons]; exact h⟩
      intro z hz
      rcases List.mem_cons.mp hz with rfl | hz
      · exact fun hh => List.lt_asymm hlt hh
      · intro hh
        have := h.1 z hz
        exact this (List.lt_trans hh hlt)
    · rename_i hlt
      rw [less_iff] at hlt
      rw [List.pairwise_cons]
      refine ⟨?_, ih h.2⟩
      intro z hz
      rcases List.mem_cons.mp ((insertByName_perm nameOf x ys).mem_iff.mp hz) with rfl | hz
      · exact hlt
      · exact h.1 z hz

theorem sortByName_fold (l acc : List α)
    (h : acc.Pairwise fun a b => ¬ ((nameOf b).map Word.text < (nameOf a).map Word.text)) :
    let r := l.foldl (fun acc x => insertByName nameOf x acc) acc
    r.Perm (l ++ acc) ∧
    r.Pairwise fun a b => ¬ ((nameOf b).map Word.text < (nameOf a).map Word.text) := by
  induction l generalizing acc with
  | nil => exact ⟨List.Perm.refl _, h⟩
  | cons x l ih =>
    have := ih (insertByName nameOf x acc) (insertByName_sorted nameOf x acc h)
    refine ⟨this.1.trans ?_, this.2⟩
    have hp := (insertByName_perm nameOf x acc).append_left l
    exact hp.trans List.perm_middle

theorem sortByName_spec (l : List α) : IsSortOf nameOf (sortByName nameOf l) l := by
  have := sortByName_fold nameOf l [] List.Pairwise.nil
  simp only [List.append_nil] at this
  exact this

/-- Sorted permutations of lists with different names are unique. -/
theorem isSortOf_unique {r₁ r₂ l₁ l₂ : List α} (h₁ : IsSortOf nameOf r₁ l₁)
    (h₂ : IsSortOf nameOf r₂ l₂) (hp : l₁.Perm l₂)
    (hd : l₁.Pairwise fun a b => (nameOf a).map Word.text ≠ (nameOf b).map Word.text) :
    r₁ = r₂ := by
  have hperm : r₁.Perm r₂ := h₁.1.trans (hp.trans h₂.1.symm)
  have hd₁ : r₁.Pairwise fun a b => (nameOf a).map Word.text ≠ (nameOf b).map Word.text :=
    (List.Perm.pairwise_iff (fun h => Ne.symm h) h₁.1).mpr hd
  have hd₂ : r₂.Pairwise fun a b => (nameOf a).map Word.text ≠ (nameOf b).map Word.text :=
    (List.Perm.pairwise_iff (fun h => Ne.symm h) hperm).mp hd₁
  have strict : ∀ {r : List α}, r.Pairwise (fun a b => (nameOf a).map Word.text ≠ (nameOf b).map Word.text) →
      r.Pairwise (fun a b => ¬ ((nameOf b).map Word.text < (nameOf a).map Word.text)) →
      r.Pairwise (fun a b => (nameOf a).map Word.text < (nameOf b).map Word.text) := by
    intro r ha hb
    refine (ha.and hb).imp ?_
    intro a b hab
    exact texts_lt_of hab.2 hab.1
  refine List.Perm.eq_of_pairwise
    (le := fun a b => (nameOf a).map Word.text < (nameOf b).map Word.text)
    ?_ (strict hd₁ h₁.2) (strict hd₂ h₂.2) hperm
  intro a b _ _ hab hba
  exact absurd hba (List.lt_asymm hab)

theorem isSortOf_strict {r l : List α} (h : IsSortOf nameOf r l)
    (hd : l.Pairwise fun a b => (nameOf a).map Word.text ≠ (nameOf b).map Word.text) :
    StrictlySorted nameOf r := by
  have hd₁ : r.Pairwise fun a b => (nameOf a).map Word.text ≠ (nameOf b).map Word.text :=
    (List.Perm.pairwise_iff (fun h => Ne.symm h) h.1).mpr hd
  refine (hd₁.and h.2).imp ?_
  intro a b hab
  exact texts_lt_of hab.2 hab.1

theorem conceptMap_distinct {m : GoMap α} (h : ConceptMap nameOf m) :
    m.values.Pairwise fun a b => (nameOf a).map Word.text ≠ (nameOf b).map Word.text := by
  have h1 := h.nodup
  rw [List.nodup_iff_pairwise_ne, List.pairwise_map] at h1
  unfold GoMap.values
  rw [List.pairwise_map]
  refine List.Pairwise.imp_of_mem ?_ h1
  intro a b ha hb hab
  rw [h.named a ha, h.named b hb] at hab
  exact texts_of_toText_ne hab

theorem conceptMap_add {m : GoMap α} (h : ConceptMap nameOf m) (c : Option α) :
    ConceptMap nameOf (addConcept nameOf m c) := by
  cases c with
  | none => exact h
  | some c =>
    constructor
    · have := GoMap.keys_insert m (nameOf c).toText c
      unfold GoMap.keys at this
      simp only [addConcept]
      rw [this]
      split
      · exact h.nodup
      · rename_i hn
        rw [List.nodup_append]
        refine ⟨h.nodup, by simp, ?_⟩
        intro a ha b hb
        simp only [List.mem_singleton] at hb
        subst hb
        rintro rfl
        exact hn ha
    · intro e he
      rcases GoMap.insert_mem he with rfl | he
      · rfl
      · exact h.named e he

theorem conceptMap_adds {m : GoMap α} (h : ConceptMap nameOf m) (cs : List (Option α)) :
    ConceptMap nameOf (addConcepts nameOf m cs) := by
  induction cs generalizing m with
  | nil => exact h
  | cons c cs ih => exact ih (conceptMap_add nameOf h c)

theorem addConcepts_fresh (m : GoMap α) (cs : List α)
    (hd : (cs.map fun c => (nameOf c).toText).Nodup)
    (hm : ∀ c ∈ cs, (nameOf c).toText ∉ m.keys) :
    addConcepts nameOf m (cs.map some) = m ++ cs.map fun c => ((nameOf c).toText, c) := by
  induction cs generalizing m with
  | nil => simp [addConcepts]
  | cons c cs ih =>
    simp only [List.map_cons, List.nodup_cons, List.mem_map, not_exists, not_and] at hd
    have h1 := GoMap.insert_of_not_mem (v := c) (hm c (by simp))
    have := ih (m.insert (nameOf c).toText c) hd.2 (by
      intro x hx
      rw [h1]
      simp only [GoMap.keys, List.map_append, List.map_cons, List.map_nil, List.mem_append,
        List.mem_singleton, not_or]
      exact ⟨hm x (by simp [hx]), fun e => hd.1 x hx e⟩)
    simp only [addConcepts, List.map_cons, List.foldl_cons, addConcept] at *
    rw [this, h1]
    simp

end Named

end Verif
