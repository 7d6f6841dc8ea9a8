import Verif.Lemmas.Binding
import Verif.Model.Docs

/-!
# Properties C57 and C58: the reference documentation
-/

namespace Verif

/-! ## C57 -/

theorem indexOfDot_append (before after : Text) (h : '.' ∉ before) :
    Docs.indexOfDot (before ++ '.' :: after) = some before.length := by
  induction before with
  | nil => simp [Docs.indexOfDot]
  | cons c cs ih =>
    simp at h
    have hc : ¬ c = '.' := fun e => h.1 e.symm
    simp [Docs.indexOfDot, hc, ih h.2]

theorem indexOfDot_none (doc : Text) (h : '.' ∉ doc) : Docs.indexOfDot doc = none := by
  induction doc with
  | nil => rfl
  | cons c cs ih =>
    simp at h
    have hc : ¬ c = '.' := fun e => h.1 e.symm
    simp [Docs.indexOfDot, hc, ih h.2]

/-- The summary of a text with a dot is what precedes the first dot, without line breaks, and the
dot; the rest is ignored. -/
theorem c57_first_sentence (before after : Text) (h : '.' ∉ before) :
    Docs.summary (before ++ '.' :: after) = before.filter (· ≠ '\n') ++ ['.'] := by
  unfold Docs.summary
  rw [if_neg (by simp), indexOfDot_append before after h]
  have e : (before ++ '.' :: after).take (before.length + 1) = before ++ ['.'] := by
    rw [List.take_append, List.take_of_length_le (Nat.le_succ _)]
    simp
  simp only [e]
  simp

/-- The summary of a text without dots is the text. -/
theorem c57_no_dot (doc : Text) (h : '.' ∉ doc) : Docs.summary doc = doc := by
  unfold Docs.summary
  rw [indexOfDot_none doc h]
  split
  · rename_i h; rw [h]
  · rfl

/-- When there is a dot the summary is one line that ends with the only dot. -/
theorem c57_one_line (doc : Text) (h : '.' ∈ doc) :
    '\n' ∉ Docs.summary doc ∧ ∃ s, Docs.summary doc = s ++ ['.'] ∧ '.' ∉ s := by
  obtain ⟨before, after, hb, hd⟩ : ∃ before after, '.' ∉ before ∧ doc = before ++ '.' :: after := by
    obtain ⟨before, after, hd, hb⟩ := List.eq_append_cons_of_mem h
    exact ⟨before, after, hb, hd⟩
  rw [hd, c57_first_sentence before after hb]
  refine ⟨by simp, _, rfl, ?_⟩
  intro hm
  exact hb (List.mem_filter.mp hm).1

/-- The property is false: without a dot the line breaks stay. -/
theorem c57_line_breaks_refuted : ∃ doc, '\n' ∈ Docs.summary doc :=
  ⟨t!"First line\nSecond line", by decide⟩

/-- The property is false: the last word of a line is glued to the first of the next. -/
theorem c57_words_glued_refuted :
    Docs.summary t!"Number of\nnodes. More" = t!"Number ofnodes." := by decide

example : Docs.summary t!"State of the cluster. Can be ready." = t!"State of the cluster." := by
  decide

/-! ## C58 -/

theorem nom_typ : Nom.typ = plainName [t!"type"] ∧ Nom.resource = plainName [t!"resource"] ∧
    Nom.index = plainName [t!"index"] := by decide

theorem joinText_concat (sep w : Text) : ∀ l : List Text, l ≠ [] →
    joinText sep (l ++ [w]) = joinText sep l ++ sep ++ w
  | [], h => absurd rfl h
  | [t], _ => by simp [joinText]
  | t :: u :: ts, _ => by
    have ih := joinText_concat sep w (u :: ts) (by simp)
    simp only [List.cons_append, joinText] at ih ⊢
    rw [ih]
    simp

theorem typeFile_eq (n : Name) (h : n ≠ []) : Docs.typeFile n = snakeCase n ++ t!"_type" := by
  unfold Docs.typeFile Markdown.file Name.cat
  rw [nom_typ.1]
  simp only [List.flatten_cons, List.flatten_nil, List.append_nil, List.map_append]
  show joinText _ (_ ++ [t!"type"]) = _
  rw [joinText_concat _ _ _ (by simpa using h)]
  unfold snakeCase
  rw [joinText_eq_intercalate]
  simp [toLower]

theorem resourceFile_eq (n : Name) (h : n ≠ []) :
    Docs.resourceFile n = snakeCase n ++ t!"_resource" := by
  unfold Docs.resourceFile Markdown.file Name.cat
  rw [nom_typ.2.1]
  simp only [List.flatten_cons, List.flatten_nil, List.append_nil, List.map_append]
  show joinText _ (_ ++ [t!"resource"]) = _
  rw [joinText_concat _ _ _ (by simpa using h)]
  unfold snakeCase
  rw [joinText_eq_intercalate]
  simp [toLower]

/-- The page of a type is its snake case name with the suffix `_type`, and the page of a resource
has the suffix `_resource`, so they are never the same. -/
theorem c58_files (n k : Name) (hn : n ≠ []) (hk : k ≠ []) :
    Docs.typeFile n = snakeCase n ++ t!"_type" ∧
    Docs.resourceFile k = snakeCase k ++ t!"_resource" ∧
    Docs.typeFile n ≠ Docs.resourceFile k ∧
    Docs.typeFile n ≠ Markdown.file Nom.index ∧ Docs.resourceFile k ≠ Markdown.file Nom.index := by
  refine ⟨typeFile_eq n hn, resourceFile_eq k hk, ?_, ?_, ?_⟩
  · rw [typeFile_eq n hn, resourceFile_eq k hk]
    intro h
    have := congrArg (fun l => l.reverse.take 3) h
    simp at this
  · rw [typeFile_eq n hn]
    intro h
    have := congrArg (fun l => l.reverse.take 3) h
    revert this
    simp [Markdown.file, nom_typ.2.2, plainName, toLower, joinText]
  · rw [resourceFile_eq k hk]
    intro h
    have := congrArg (fun l => l.reverse.take 3) h
    revert this
    simp [Markdown.file, nom_typ.2.2, plainName, toLower, joinText]

/-- Different snake case names have different pages. -/
theorem c58_pages_differ (n k : Name) (hn : n ≠ []) (hk : k ≠ []) :
    (Docs.typeFile n = Docs.typeFile k ↔ snakeCase n = snakeCase k) ∧
    (Docs.resourceFile n = Docs.resourceFile k ↔ snakeCase n = snakeCase k) := by
  rw [typeFile_eq n hn, typeFile_eq k hk, resourceFile_eq n hn, resourceFile_eq k hk]
  constructor <;> exact ⟨List.append_cancel_right, fun h => by rw [h]⟩

/-- Links to resources, and to enumerated types, structs and classes, have a page. -/
theorem c58_links_have_pages_partial (vs : List Docs.DocVersion) (v : Docs.DocVersion) (hv : v ∈ vs) :
    (∀ r ∈ v.resources, Docs.resourceFile r ∈ Docs.links vs ∧ Docs.resourceFile r ∈ Docs.pages vs) ∧
    (∀ t ∈ v.types, Docs.typeFile t.name ∈ Docs.links vs) ∧
    (∀ t ∈ v.types, t.kind = .enum ∨ t.kind = .struct ∨ t.kind = .class →
      Docs.typeFile t.name ∈ Docs.pages vs) := by
  refine ⟨?_, ?_, ?_⟩
  · intro r hr
    constructor
    · apply List.mem_append_left
      exact List.mem_flatMap.mpr ⟨v, hv, List.mem_map.mpr ⟨r, hr, rfl⟩⟩
    · apply List.mem_cons_of_mem
      exact List.mem_flatMap.mpr ⟨v, hv, List.mem_append_left _ (List.mem_map.mpr ⟨r, hr, rfl⟩)⟩
  · intro t ht
    apply List.mem_append_right
    exact List.mem_flatMap.mpr ⟨v, hv, List.mem_map.mpr ⟨t, ht, rfl⟩⟩
  · intro t ht hk
    apply List.mem_cons_of_mem
    refine List.mem_flatMap.mpr ⟨v, hv, List.mem_append_right _ (List.mem_map.mpr ⟨t, ?_, rfl⟩)⟩
    rw [List.mem_filter]
    refine ⟨ht, ?_⟩
    rcases hk with h | h | h <;> simp [h, Kind.isStruct]

/-- Pages are exactly the index and those. -/
theorem c58_pages_iff (vs : List Docs.DocVersion) (file : Text) :
    file ∈ Docs.pages vs ↔
      file = t!"index" ∨ ∃ v ∈ vs,
        (∃ r ∈ v.resources, file = Docs.resourceFile r) ∨
        (∃ t ∈ v.types, (t.kind = .enum ∨ t.kind = .struct ∨ t.kind = .class) ∧
          file = Docs.typeFile t.name) := by
  unfold Docs.pages
  have hi : Markdown.file Nom.index = t!"index" := by decide
  rw [List.mem_cons, hi]
  apply or_congr Iff.rfl
  rw [List.mem_flatMap]
  apply exists_congr
  intro v
  apply and_congr_right
  intro _
  rw [List.mem_append]
  apply or_congr
  · simp only [List.mem_map]
    apply exists_congr
    intro r
    apply and_congr_right
    intro _
    exact ⟨fun h => h.symm, fun h => h.symm⟩
  · simp only [List.mem_map, List.mem_filter]
    constructor
    · rintro ⟨t, ⟨h1, h2⟩, rfl⟩
      refine ⟨t, h1, ?_, rfl⟩
      revert h2
      cases t.kind <;> simp [Kind.isStruct]
    · rintro ⟨t, h1, h2, rfl⟩
      refine ⟨t, ⟨h1, ?_⟩, rfl⟩
      rcases h2 with h | h | h <;> simp [h, Kind.isStruct]

/-- The property is false: every version has built-in types, which the index links and that have
no page. -/
theorem c58_broken_link_refuted (v : Docs.DocVersion)
    (h : (⟨parseUsingCase t!"Boolean", .scalar⟩ : Docs.DocType) ∈ v.types)
    (hn : ∀ r ∈ v.resources, r ≠ [])
    (hu : ∀ t ∈ v.types, t.kind ≠ .scalar → t.name ≠ [] ∧ snakeCase t.name ≠ t!"boolean") :
    t!"boolean_type" ∈ Docs.links [v] ∧ t!"boolean_type" ∉ Docs.pages [v] := by
  have hf : Docs.typeFile (parseUsingCase t!"Boolean") = t!"boolean_type" := by decide
  constructor
  · rw [← hf]
    exact (c58_links_have_pages_partial [v] v List.mem_cons_self).2.1 _ h
  · rw [c58_pages_iff]
    rintro (h' | ⟨w, hw, h'⟩)
    · revert h'; decide
    · simp only [List.mem_singleton] at hw
      subst hw
      rcases h' with ⟨r, hr, h'⟩ | ⟨t, ht, hk, h'⟩
      · rw [← hf] at h'
        exact (c58_files _ r (by decide) (hn r hr)).2.2.1 h'
      · have hns : t.kind ≠ .scalar := by rcases hk with h | h | h <;> simp [h]
        have := hu t ht hns
        rw [typeFile_eq _ this.1] at h'
        have e : t!"boolean_type" = t!"boolean" ++ t!"_type" := rfl
        rw [e] at h'
        exact this.2 (List.append_cancel_right h').symm

/-- The property is false: types of the same name in two services have the same page, so one of
them overwrites the other. -/
theorem c58_overwritten_refuted :
    ∃ v w : Docs.DocVersion, v.resources = [] ∧ w.resources = [] ∧
      (v.types.map fun t => t.name).Nodup ∧ (w.types.map fun t => t.name).Nodup ∧
      ¬ (Docs.pages [v, w]).Nodup :=
  ⟨⟨[], [⟨parseUsingCase t!"Cluster", .class⟩]⟩, ⟨[], [⟨parseUsingCase t!"Cluster", .class⟩]⟩,
    by decide⟩

example : Docs.pages [⟨[parseUsingCase t!"Clusters"],
      [⟨parseUsingCase t!"Boolean", .scalar⟩, ⟨parseUsingCase t!"Cluster", .class⟩]⟩] =
    [t!"index", t!"clusters_resource", t!"cluster_type"] := by decide

/-- Names shown and tags of the documentation. -/
theorem c58_display (n : Name) :
    Markdown.display n = n.camel ∧ Markdown.tag n = t!"`" ++ snakeCase n ++ t!"`" := by
  refine ⟨rfl, ?_⟩
  unfold Markdown.tag snakeCase
  rw [joinText_eq_intercalate]
  rfl

end Verif
