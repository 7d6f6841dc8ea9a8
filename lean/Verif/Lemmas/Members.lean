import Verif.Spec.Members
import Verif.Lemmas.Declarations
import Verif.Lemmas.Char

/-! # Lemmas about the members of the generated types -/

namespace Verif.Members

open Decls (Exported)

theorem privateName_field (n : Name) : Go.privateName n = privateField n := by
  unfold privateField
  by_cases h : lowerCamel n ∈ goKeywords
  · rw [if_pos h, (c29_private n).2.2 h]
  · rw [if_neg h, (c29_private n).2.1 h]

theorem toLower_not_upper (c : Char) : c.toLower.isUpper = false := by
  rw [Bool.eq_false_iff, ne_eq, isUpper_iff, toNat_toLower]
  split <;> omega

theorem lowerCamel_private {n : Name} (h : Proper n) : ¬ Exported (lowerCamel n) := by
  obtain ⟨w, ws, rfl, hw⟩ := h
  cases ht : w.text with
  | nil => exact absurd ht hw
  | cons c t =>
    simp only [lowerCamel, ht, List.map_cons, List.cons_append]
    rintro ⟨d, x, e, hd⟩
    cases e
    rw [toLower_not_upper] at hd
    cases hd

theorem field_private {n : Name} (h : Proper n) : ¬ Exported (privateField n) := by
  unfold privateField
  split
  · rename_i hk
    have : ∀ k ∈ goKeywords, ∃ c x, k = c :: x ∧ c.isUpper = false := by
      intro k hk
      cases k with
      | nil => exact absurd hk (by decide)
      | cons c x => exact ⟨c, x, rfl, by
          have h : ∀ k ∈ goKeywords, (k.head?.map Char.isUpper) = some false := by decide
          simpa using h _ hk⟩
    obtain ⟨c, x, e, hc⟩ := this _ hk
    rw [e]
    rintro ⟨d, y, e', hd⟩
    cases e'
    rw [hc] at hd
    cases hd
  · exact lowerCamel_private h

/-- The fields and methods of a struct: those that are always there and those of the model. -/
theorem struct_nodup (F fs M gs : List Text) (hF : ∀ x ∈ F ++ fs, ¬ Exported x)
    (hM : ∀ x ∈ M ++ gs, Exported x) :
    ((F ++ fs) ++ (M ++ gs)).Nodup ↔
      (F.Nodup ∧ fs.Nodup ∧ ∀ f ∈ fs, f ∉ F) ∧ M.Nodup ∧ gs.Nodup ∧ ∀ g ∈ gs, g ∉ M := by
  rw [List.nodup_append, List.nodup_append, List.nodup_append]
  constructor
  · rintro ⟨⟨h1, h2, h3⟩, ⟨h4, h5, h6⟩, _⟩
    exact ⟨⟨h1, h2, fun f hf hF => h3 f hF f hf rfl⟩, h4, h5, fun g hg hM => h6 g hM g hg rfl⟩
  · rintro ⟨⟨h1, h2, h3⟩, h4, h5, h6⟩
    refine ⟨⟨h1, h2, fun a ha b hb e => h3 b hb (e ▸ ha)⟩,
      ⟨h4, h5, fun a ha b hb e => h6 b hb (e ▸ ha)⟩, fun a ha b hb e => hF a ha (e ▸ hM b hb)⟩

theorem getters_perm {α : Type} (f : α → Text) (l : List α) :
    (l.flatMap fun a => [f a, t!"Get" ++ f a]).Perm (l.map f ++ (l.map f).map (t!"Get" ++ ·)) := by
  induction l with
  | nil => exact .refl _
  | cons a l ih =>
    simp only [List.flatMap_cons, List.map_cons, List.cons_append, List.nil_append]
    refine .cons _ ?_
    exact (List.Perm.cons _ ih).trans List.perm_middle.symm

theorem getters_nodup {α : Type} (f : α → Text) (l : List α) :
    (l.flatMap fun a => [f a, t!"Get" ++ f a]).Nodup ↔
      (l.map f).Nodup ∧ ∀ a ∈ l, ∀ b ∈ l, f a ≠ t!"Get" ++ f b := by
  rw [(getters_perm f l).nodup_iff, List.nodup_append]
  constructor
  · rintro ⟨h1, _, h3⟩
    refine ⟨h1, fun a ha b hb e => h3 (f a) (List.mem_map.mpr ⟨a, ha, rfl⟩) (t!"Get" ++ f b)
      (List.mem_map.mpr ⟨f b, List.mem_map.mpr ⟨b, hb, rfl⟩, rfl⟩) e⟩
  · rintro ⟨h1, h2⟩
    refine ⟨h1, ?_, ?_⟩
    · rw [List.Nodup, List.pairwise_map]
      exact h1.imp fun h e => h (List.append_cancel_left e)
    · intro x hx y hy e
      obtain ⟨a, ha, rfl⟩ := List.mem_map.mp hx
      obtain ⟨z, hz, rfl⟩ := List.mem_map.mp hy
      obtain ⟨b, hb, rfl⟩ := List.mem_map.mp hz
      exact h2 a ha b hb e

theorem mem_getters {α : Type} (f : α → Text) (l : List α) (x : Text) :
    (x ∈ l.flatMap fun a => [f a, t!"Get" ++ f a]) ↔ ∃ a ∈ l, x = f a ∨ x = t!"Get" ++ f a := by
  simp [List.mem_flatMap]

theorem attributeFields_perm (as : List Attr) :
    (attributeFields as).Perm (as.map fun a => privateField a.label.name) := by
  unfold attributeFields
  rw [← List.map_append]
  have hp : ((as.filter fun a => !a.isBoolean) ++ as.filter fun a => a.isBoolean).Perm as := by
    refine List.perm_append_comm.trans ?_
    exact List.filter_append_perm (fun a => a.isBoolean) as
  have e : fieldName = fun a : Attr => privateField a.label.name := by
    funext a; exact privateName_field _
  rw [e]
  exact hp.map _

theorem Exported.get {x : Text} : Exported (t!"Get" ++ x) := ⟨_, _, rfl, by decide⟩

theorem not_exported_of {x : Text} (h : (x.head?.map Char.isUpper) = some false) : ¬ Exported x := by
  rintro ⟨c, y, rfl, hc⟩
  simp [hc] at h

theorem exported_of {x : Text} (h : (x.head?.map Char.isUpper) = some true) : Exported x := by
  cases x with
  | nil => cases h
  | cons c y => exact ⟨c, y, rfl, by simpa using h⟩

theorem privateField_eq_iff (n : Name) (x : Text) (hx : x ∉ goKeywords) (hu : x.getLast? ≠ some '_') :
    privateField n = x ↔ lowerCamel n = x := by
  unfold privateField
  constructor
  · intro h
    split at h
    · exact absurd (by rw [← h]; simp) hu
    · exact h
  · intro h
    rw [if_neg (by rw [h]; exact hx), h]

theorem parameterField_eq (p : Parameter) : Go.parameterField p = fieldOf p := by
  unfold Go.parameterField Go.avoidBuiltin fieldOf Go.builtinFields
  rw [privateName_field]
  have h1 := privateField_eq_iff p.name t!"err" (by decide) (by decide)
  have h2 := privateField_eq_iff p.name t!"status" (by decide) (by decide)
  by_cases e1 : lowerCamel p.name = t!"err"
  · rw [if_pos e1, h1.mpr e1]; rfl
  · by_cases e2 : lowerCamel p.name = t!"status"
    · rw [if_neg e1, if_pos e2, h2.mpr e2]; rfl
    · rw [if_neg e1, if_neg e2, if_neg]
      simp only [List.contains_iff_mem, List.mem_cons, List.not_mem_nil, or_false, not_or]
      exact ⟨fun h => e1 (h1.mp h), fun h => e2 (h2.mp h)⟩

theorem parameterGetter_eq (p : Parameter) : Go.parameterGetter p = getterOf p := by
  unfold Go.parameterGetter Go.avoidBuiltin getterOf Go.builtinGetters
  by_cases e1 : Go.nameOf p.annotations p.name = t!"Error"
  · rw [if_pos e1, e1]; rfl
  · by_cases e2 : Go.nameOf p.annotations p.name = t!"Status"
    · rw [if_neg e1, if_pos e2, e2]; rfl
    · rw [if_neg e1, if_neg e2, if_neg]
      simp only [List.contains_iff_mem, List.mem_cons, List.not_mem_nil, or_false, not_or]
      exact ⟨e1, e2⟩

theorem parameterSetter_eq (p : Parameter) :
    Go.parameterSetter p = Go.nameOf p.annotations p.name := rfl

theorem fieldOf_private {p : Parameter} (h : Proper p.name) : ¬ Exported (fieldOf p) := by
  unfold fieldOf
  split
  · exact not_exported_of rfl
  · split
    · exact not_exported_of rfl
    · exact field_private h

theorem getterOf_exported {p : Parameter} (h : Exported (Go.nameOf p.annotations p.name)) :
    Exported (getterOf p) := by
  unfold getterOf
  split
  · exact exported_of rfl
  · split
    · exact exported_of rfl
    · exact h

theorem fieldOf_ne (p : Parameter) : fieldOf p ≠ t!"err" ∧ fieldOf p ≠ t!"status" := by
  have h1 := privateField_eq_iff p.name t!"err" (by decide) (by decide)
  have h2 := privateField_eq_iff p.name t!"status" (by decide) (by decide)
  unfold fieldOf
  split
  · exact ⟨by decide, by decide⟩
  · split
    · exact ⟨by decide, by decide⟩
    · rename_i e1 e2
      exact ⟨fun h => e1 (h1.mp h), fun h => e2 (h2.mp h)⟩

theorem getterOf_ne (p : Parameter) : getterOf p ≠ t!"Error" ∧ getterOf p ≠ t!"Status" := by
  unfold getterOf
  split
  · exact ⟨by decide, by decide⟩
  · split
    · exact ⟨by decide, by decide⟩
    · rename_i e1 e2
      exact ⟨e1, e2⟩

theorem inputs_eq (m : Method) : Binding.requestParameters m = inputs m := rfl
theorem outputs_eq (m : Method) : Binding.responseParameters m = outputs m := rfl

end Verif.Members
