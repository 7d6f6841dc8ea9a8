import Verif.Spec.Binding
import Verif.Lemmas.Names
import Verif.Lemmas.Checks

/-! Lemmas about the HTTP bindings. -/

namespace Verif

theorem joinText_eq_intercalate (sep : Text) : ∀ l : List Text, joinText sep l = List.intercalate sep l
  | [] => rfl
  | [t] => by simp [joinText, List.intercalate]
  | t :: u :: ts => by
    have ih := joinText_eq_intercalate sep (u :: ts)
    simp only [joinText, ih]
    simp [List.intercalate, List.intersperse]

theorem snake_eq (n : Name) : n.snake = snakeCase n := by
  unfold Name.snake Name.lowerJoined snakeCase
  rw [joinText_eq_intercalate]
  rfl

theorem nom_methods :
    Nom.add = plainName [t!"add"] ∧ Nom.post = plainName [t!"post"] ∧
    Nom.get = plainName [t!"get"] ∧ Nom.list = plainName [t!"list"] ∧
    Nom.update = plainName [t!"update"] ∧
    Nom.asyncUpdate = plainName [t!"async", t!"update"] ∧
    Nom.delete = plainName [t!"delete"] ∧
    Nom.asyncDelete = plainName [t!"async", t!"delete"] ∧
    Nom.search = plainName [t!"search"] := by decide

theorem named_plain (m : Method) (n : Name) : m.named n = decide (m.name = n) := by
  by_cases h : m.name = n
  · simp [h, (named_iff m n).mpr h]
  · have : m.named n ≠ true := fun h' => h ((named_iff m n).mp h')
    simp [h, this]

theorem snakeCase_ne_nil (n : Name) (h : ∃ w ∈ n, w.text ≠ []) : snakeCase n ≠ [] := by
  obtain ⟨w, hw, ht⟩ := h
  rw [← snake_eq]
  unfold Name.snake Name.lowerJoined
  have key : ∀ l : List Text, (∃ t ∈ l, t ≠ []) → joinText t!"_" l ≠ [] := by
    intro l
    match l with
    | [] => simp
    | [t] => simp [joinText]
    | t :: u :: ts => simp [joinText]
  apply key
  refine ⟨toLower w.text, List.mem_map.mpr ⟨w, hw, rfl⟩, ?_⟩
  simpa [toLower] using ht

theorem annotationText_of_namedBy (as : List Annotation) (annotation name : Text)
    (h : NamedBy as annotation name) : annotationText as annotation t!"name" = name := by
  obtain ⟨before, a, after, rfl, ha, hb, hf⟩ := h
  have hfind : getAnnotation (before ++ a :: after) annotation = some a := by
    unfold getAnnotation
    rw [List.find?_append]
    have : before.find? (fun b => b.name == annotation) = none := by
      rw [List.find?_eq_none]
      intro b hb'
      simpa using hb b hb'
    simp [this, ha]
  unfold annotationText
  rw [hfind]
  simp only [hf]
  rfl

theorem annotationText_of_notNamedBy (as : List Annotation) (annotation : Text)
    (h : NotNamedBy as annotation) : annotationText as annotation t!"name" = [] := by
  unfold annotationText
  split
  · rfl
  · rename_i a heq
    unfold getAnnotation at heq
    have hm := List.mem_of_find?_eq_some heq
    have hn := List.find?_some heq
    rw [h a hm (by simpa using hn)]

end Verif
