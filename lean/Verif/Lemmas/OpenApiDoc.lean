import Verif.Spec.OpenApiDoc

/-! Lemmas about what the OpenAPI documents contain. -/

namespace Verif

namespace OpenApi

/-- One of the members has the reference. -/
def MembersRef (members : List (Text × Json)) (r : Text) : Prop :=
  ∃ m ∈ members, m = (t!"$ref", .str r) ∨ HasRef m.2 r

/-- One of the items has the reference. -/
def ItemsRef (items : List Json) (r : Text) : Prop := ∃ j ∈ items, HasRef j r

section

variable {r : Text}

theorem hasRef_obj {ms : List (Text × Json)} : HasRef (.obj ms) r ↔ MembersRef ms r := by
  constructor
  · intro h
    cases h with
    | here h => exact ⟨_, h, .inl rfl⟩
    | member hm h => exact ⟨_, hm, .inr h⟩
  · rintro ⟨⟨k, j⟩, hm, h | h⟩
    · rw [h] at hm; exact .here hm
    · exact .member hm h

theorem hasRef_arr {js : List Json} : HasRef (.arr js) r ↔ ItemsRef js r := by
  constructor
  · intro h
    cases h with
    | item hm h => exact ⟨_, hm, h⟩
  · rintro ⟨j, hm, h⟩
    exact .item hm h

theorem hasRef_str {s : Text} : HasRef (.str s) r ↔ False :=
  ⟨fun h => (by cases h), False.elim⟩

theorem hasRef_bool {b : Bool} : HasRef (.bool b) r ↔ False :=
  ⟨fun h => (by cases h), False.elim⟩

theorem membersRef_nil : MembersRef [] r ↔ False := by simp [MembersRef]

theorem membersRef_cons {k : Text} {j : Json} {ms : List (Text × Json)} :
    MembersRef ((k, j) :: ms) r ↔ ((k = t!"$ref" ∧ j = .str r) ∨ HasRef j r) ∨ MembersRef ms r := by
  simp [MembersRef]

theorem membersRef_append {a b : List (Text × Json)} :
    MembersRef (a ++ b) r ↔ MembersRef a r ∨ MembersRef b r := by
  simp only [MembersRef, List.mem_append, or_and_right, exists_or]

theorem membersRef_map_obj {α : Type} {f : α → Text} {g : α → List (Text × Json)} {l : List α} :
    MembersRef (l.map fun x => (f x, .obj (g x))) r ↔ ∃ x ∈ l, MembersRef (g x) r := by
  simp only [MembersRef, List.mem_map]
  constructor
  · rintro ⟨m, ⟨x, hx, rfl⟩, h | h⟩
    · simp at h
    · exact ⟨x, hx, hasRef_obj.1 h⟩
  · rintro ⟨x, hx, h⟩
    exact ⟨_, ⟨x, hx, rfl⟩, .inr (hasRef_obj.2 h)⟩

theorem membersRef_flatMap {α : Type} {f : α → List (Text × Json)} {l : List α} :
    MembersRef (l.flatMap f) r ↔ ∃ x ∈ l, MembersRef (f x) r := by
  simp only [MembersRef, List.mem_flatMap]
  constructor
  · rintro ⟨m, ⟨x, hx, hm⟩, h⟩
    exact ⟨x, hx, m, hm, h⟩
  · rintro ⟨x, hx, m, hm, h⟩
    exact ⟨m, ⟨x, hx, hm⟩, h⟩

theorem itemsRef_nil : ItemsRef [] r ↔ False := by simp [ItemsRef]

theorem itemsRef_cons {j : Json} {js : List Json} :
    ItemsRef (j :: js) r ↔ HasRef j r ∨ ItemsRef js r := by simp [ItemsRef]

theorem itemsRef_append {a b : List Json} : ItemsRef (a ++ b) r ↔ ItemsRef a r ∨ ItemsRef b r := by
  simp only [ItemsRef, List.mem_append, or_and_right, exists_or]

theorem itemsRef_map {α : Type} {f : α → Json} {l : List α} :
    ItemsRef (l.map f) r ↔ ∃ x ∈ l, HasRef (f x) r := by
  simp only [ItemsRef, List.mem_map]
  constructor
  · rintro ⟨_, ⟨x, hx, rfl⟩, h⟩; exact ⟨x, hx, h⟩
  · rintro ⟨x, hx, h⟩; exact ⟨_, ⟨x, hx, rfl⟩, h⟩

theorem membersRef_description {doc : Text} : MembersRef (description doc) r ↔ False := by
  unfold description
  split
  · exact membersRef_nil
  · simp [membersRef_cons, membersRef_nil, hasRef_str]

/-- Evaluation of references. -/
macro "refs_simp" "[" ts:Lean.Parser.Tactic.simpLemma,* "]" : tactic =>
  `(tactic| simp [hasRef_obj, hasRef_arr, hasRef_str, hasRef_bool, membersRef_nil, membersRef_cons,
    membersRef_append, membersRef_description, itemsRef_nil, itemsRef_cons, itemsRef_append,
    itemsRef_map, $ts,*])

theorem schemaRef_refs {v : VersionView} {id : TypeId} {ms : List (Text × Json)}
    (h : SchemaRef v id ms) :
    MembersRef ms r ↔ ∃ cell, Leaf v id cell ∧ r = t!"#/components/schemas/" ++ cell.name.camel := by
  induction h with
  | @builtin id name members hm hb =>
    obtain ⟨cell, owner, hc, ho, hf⟩ := hb
    have hnot : ∀ c, ¬ NotBuiltin v id c := by
      rintro c ⟨hc', owner', ho', hn⟩
      rw [hc] at hc'
      simp only [Option.some.injEq] at hc'
      subst hc'
      rw [ho] at ho'
      simp only [Option.some.injEq] at ho'
      subst ho'
      exact hn _ hm hf
    have : ¬ ∃ cell, Leaf v id cell ∧ r = t!"#/components/schemas/" ++ cell.name.camel := by
      rintro ⟨c, hl, _⟩
      cases hl with
      | named hn _ => exact hnot _ hn
      | element hn _ _ _ => exact hnot _ hn
    simp only [this, iff_false]
    simp only [builtinSchemas, List.mem_cons, Prod.mk.injEq, List.not_mem_nil, or_false] at hm
    rcases hm with ⟨_, rfl⟩ | ⟨_, rfl⟩ | ⟨_, rfl⟩ | ⟨_, rfl⟩ | ⟨_, rfl⟩ | ⟨_, rfl⟩ | ⟨_, rfl⟩ <;>
      refs_simp []
  | @named id cell hnot hk =>
    have : MembersRef [(t!"$ref", .str (t!"#/components/schemas/" ++ cell.name.camel))] r ↔
        r = t!"#/components/schemas/" ++ cell.name.camel := by
      simp only [membersRef_cons, membersRef_nil, hasRef_str, or_false, true_and, Json.str.injEq]
      exact eq_comm
    rw [this]
    constructor
    · intro h; exact ⟨cell, .named hnot hk, h⟩
    · rintro ⟨c, hl, h⟩
      cases hl with
      | named hn _ =>
        have := hnot.1.symm.trans hn.1
        simp only [Option.some.injEq] at this
        rw [this]; exact h
      | element hn hk' _ _ =>
        have := hnot.1.symm.trans hn.1
        simp only [Option.some.injEq] at this
        rw [this] at hk
        rcases hk' with e | e <;> simp [e] at hk
  | @list id cell element members hnot hk hel _ ih =>
    have : MembersRef [(t!"type", .str t!"array"), (t!"items", .obj members)] r ↔
        MembersRef members r := by refs_simp []
    rw [this, ih]
    constructor
    · rintro ⟨c, hl, h⟩; exact ⟨c, .element hnot (.inl hk) hel hl, h⟩
    · rintro ⟨c, hl, h⟩
      cases hl with
      | named hn hk' =>
        have := hnot.1.symm.trans hn.1
        simp only [Option.some.injEq] at this
        rw [← this] at hk'
        simp [hk] at hk'
      | element hn _ hel' hl =>
        have := hnot.1.symm.trans hn.1
        simp only [Option.some.injEq] at this
        rw [← this, hel] at hel'
        simp only [Option.some.injEq] at hel'
        rw [hel']
        exact ⟨c, hl, h⟩
  | @map id cell element members hnot hk hel _ ih =>
    have : MembersRef [(t!"type", .str t!"object"), (t!"additionalProperties", .obj members)] r ↔
        MembersRef members r := by refs_simp []
    rw [this, ih]
    constructor
    · rintro ⟨c, hl, h⟩; exact ⟨c, .element hnot (.inr hk) hel hl, h⟩
    · rintro ⟨c, hl, h⟩
      cases hl with
      | named hn hk' =>
        have := hnot.1.symm.trans hn.1
        simp only [Option.some.injEq] at this
        rw [← this] at hk'
        simp [hk] at hk'
      | element hn _ hel' hl =>
        have := hnot.1.symm.trans hn.1
        simp only [Option.some.injEq] at this
        rw [← this, hel] at hel'
        simp only [Option.some.injEq] at hel'
        rw [hel']
        exact ⟨c, hl, h⟩

variable {schema : TypeId → List (Text × Json)}

theorem content_refs {ms : List (Text × Json)} : MembersRef [content ms] r ↔ MembersRef ms r := by
  unfold content
  refs_simp []

theorem reference_refs {name : Text} :
    MembersRef (reference name) r ↔ r = t!"#/components/schemas/" ++ name := by
  unfold reference
  simp only [membersRef_cons, membersRef_nil, hasRef_str, or_false, true_and, Json.str.injEq]
  exact eq_comm

theorem errorResponse_refs : MembersRef [errorResponse] r ↔ r = t!"#/components/schemas/Error" := by
  unfold errorResponse
  simp only [membersRef_cons, membersRef_nil, hasRef_obj, membersRef_append, membersRef_description,
    content_refs, reference_refs]
  simp

theorem parametersObject_refs {ps : List Parameter} :
    MembersRef (parametersObject schema ps) r ↔ ∃ p ∈ ps, MembersRef (schema p.typ.id) r := by
  unfold parametersObject
  refs_simp [membersRef_map_obj]

theorem bodySchema_refs {m : Method} {ps : List Parameter} :
    MembersRef (bodySchema schema m ps) r ↔ ∃ p ∈ ps, MembersRef (schema p.typ.id) r := by
  unfold bodySchema
  split
  · exact parametersObject_refs
  · split
    · simp
    · exact parametersObject_refs

theorem queryParameter_refs {p : Parameter} :
    HasRef (queryParameter schema p) r ↔ MembersRef (schema p.typ.id) r := by
  unfold queryParameter
  refs_simp []

theorem operationParameters_refs {path : List Locator} {m : Method} :
    ItemsRef (operationParameters schema path m) r ↔
      ∃ p ∈ Binding.requestQueryParameters m, MembersRef (schema p.typ.id) r := by
  unfold operationParameters
  simp only [itemsRef_append, itemsRef_map, queryParameter_refs]
  have : ∀ l : Locator, ¬ HasRef (pathParameter l) r := by
    intro l
    unfold pathParameter
    refs_simp []
  simp [this]

theorem operation_refs {path : List Locator} {m : Method} :
    HasRef (operation schema path m) r ↔ r = t!"#/components/schemas/Error" ∨
      ∃ p ∈ m.parameters, (p.isIn ∨ p.isOut) ∧ MembersRef (schema p.typ.id) r := by
  have h1 : MembersRef (if operationParameters schema path m = [] then []
     else [(t!"parameters", .arr (operationParameters schema path m))]) r ↔
      ∃ p ∈ Binding.requestQueryParameters m, MembersRef (schema p.typ.id) r := by
    rw [← operationParameters_refs (path := path)]
    split
    · rename_i h; rw [h]; simp [membersRef_nil, itemsRef_nil]
    · refs_simp []
  have h2 : MembersRef (if Binding.requestBodyParameters m = [] then []
     else [(t!"requestBody",
       .obj [content (bodySchema schema m (Binding.requestBodyParameters m))])]) r ↔
      ∃ p ∈ Binding.requestBodyParameters m, MembersRef (schema p.typ.id) r := by
    split
    · rename_i h; rw [h]; simp [membersRef_nil]
    · simp [membersRef_cons, membersRef_nil, hasRef_obj, content_refs, bodySchema_refs]
  have h3 : MembersRef (if Binding.responseParameters m = [] then []
             else [content (bodySchema schema m (Binding.responseParameters m))]) r ↔
      ∃ p ∈ Binding.responseParameters m, MembersRef (schema p.typ.id) r := by
    split
    · rename_i h; rw [h]; simp [membersRef_nil]
    · simp [content_refs, bodySchema_refs]
  have h4 : ∀ (k : Text) (x : List (Text × Json)),
      MembersRef [(k, .obj x), errorResponse] r ↔
        MembersRef x r ∨ r = t!"#/components/schemas/Error" := by
    intro k x
    rw [membersRef_cons, errorResponse_refs, hasRef_obj]
    simp
  unfold operation
  simp only [hasRef_obj, membersRef_append, membersRef_description, h1, h2, h3, membersRef_cons, h4,
    membersRef_nil, false_or, or_false, reduceCtorEq, and_false]
  constructor
  · rintro ((⟨p, hp, h⟩ | ⟨p, hp, h⟩) | (⟨p, hp, h⟩ | h))
    · refine .inr ⟨p, ?_, ?_, h⟩ <;>
      · unfold Binding.requestQueryParameters at hp
        split at hp
        · simp only [List.mem_filter, Bool.and_eq_true] at hp
          first | exact hp.1 | exact .inl hp.2.1
        · simp at hp
    · refine .inr ⟨p, ?_, ?_, h⟩ <;>
      · unfold Binding.requestBodyParameters at hp
        split at hp
        · simp only [List.mem_filter] at hp
          first | exact hp.1 | exact .inl hp.2
        · simp only [List.mem_filter, Bool.and_eq_true] at hp
          first | exact hp.1 | exact .inl hp.2.1
    · refine .inr ⟨p, ?_, ?_, h⟩ <;>
      · unfold Binding.responseParameters at hp
        simp only [List.mem_filter] at hp
        first | exact hp.1 | exact .inr hp.2
    · exact .inl h
  · rintro (h | ⟨p, hp, hin | hout, h⟩)
    · exact .inr (.inr h)
    · by_cases hact : m.isAction = true
      · exact .inl (.inr ⟨p, by simp [Binding.requestBodyParameters, hact, hp, hin], h⟩)
      · by_cases hsc : p.typ.isScalar = true
        · exact .inl (.inl ⟨p, by simp [Binding.requestQueryParameters, hact, hp, hin, hsc], h⟩)
        · exact .inl (.inr ⟨p, by simp [Binding.requestBodyParameters, hact, hp, hin, hsc], h⟩)
    · exact .inr (.inl ⟨p, by simp [Binding.responseParameters, hp, hout], h⟩)

theorem membersRef_map {α : Type} {f : α → Text} {g : α → Json} {l : List α}
    (hs : ∀ x ∈ l, ∀ s, g x ≠ .str s) :
    MembersRef (l.map fun x => (f x, g x)) r ↔ ∃ x ∈ l, HasRef (g x) r := by
  simp only [MembersRef, List.mem_map]
  constructor
  · rintro ⟨m, ⟨x, hx, rfl⟩, h | h⟩
    · simp only [Prod.mk.injEq] at h; exact absurd h.2 (hs x hx _)
    · exact ⟨x, hx, h⟩
  · rintro ⟨x, hx, h⟩
    exact ⟨_, ⟨x, hx, rfl⟩, .inr h⟩

theorem operation_ne_str {path : List Locator} {m : Method} {s : Text} :
    operation schema path m ≠ .str s := by
  unfold operation
  simp

theorem resourceItems_refs {key : Text} {path : List Locator} {methods : List Method} :
    MembersRef (resourceItems schema key path methods) r ↔
      ∃ m ∈ methods, HasRef (operation schema path m) r := by
  unfold resourceItems
  simp only [membersRef_append]
  have h1 : MembersRef (if (methods.filter fun m => Binding.methodSegment m = []) = [] then []
      else [(key, .obj ((methods.filter fun m => Binding.methodSegment m = []).map fun m =>
        ((Binding.method m).map Char.toLower, operation schema path m)))]) r ↔
      ∃ m ∈ methods.filter (fun m => Binding.methodSegment m = []),
        HasRef (operation schema path m) r := by
    split
    · rename_i h; rw [h]; simp [membersRef_nil]
    · rw [membersRef_cons, hasRef_obj, membersRef_map (fun _ _ _ => operation_ne_str)]
      simp [membersRef_nil]
  rw [h1, membersRef_map_obj]
  have h2 : ∀ m, MembersRef [((Binding.method m).map Char.toLower, operation schema path m)] r ↔
      HasRef (operation schema path m) r := by
    intro m
    simp [membersRef_cons, membersRef_nil, operation_ne_str]
  simp only [h2, List.mem_filter, decide_eq_true_eq]
  constructor
  · rintro (⟨m, hm, h⟩ | ⟨m, hm, h⟩)
    · exact ⟨m, hm.1, h⟩
    · exact ⟨m, hm.1, h⟩
  · rintro ⟨m, hm, h⟩
    by_cases hz : Binding.methodSegment m = []
    · exact .inl ⟨m, ⟨hm, hz⟩, h⟩
    · exact .inr ⟨m, ⟨hm, hz⟩, h⟩

theorem metadataItem_refs {key : Text} :
    MembersRef [metadataItem key] r ↔
      r = t!"#/components/schemas/Metadata" ∨ r = t!"#/components/schemas/Error" := by
  unfold metadataItem
  have h4 : ∀ (k : Text) (x : List (Text × Json)),
      MembersRef [(k, .obj x), errorResponse] r ↔
        MembersRef x r ∨ r = t!"#/components/schemas/Error" := by
    intro k x
    rw [membersRef_cons, errorResponse_refs, hasRef_obj]
    simp
  simp only [membersRef_cons, hasRef_obj, membersRef_append, membersRef_description, h4,
    content_refs, reference_refs, membersRef_nil]
  simp

theorem stringProperty_refs {name doc : Text} : ¬ MembersRef [stringProperty name doc] r := by
  unfold stringProperty
  refs_simp []

theorem typeSchema_refs {t : TypeCell} :
    MembersRef (typeSchema schema t) r ↔ (t.kind = .class ∨ t.kind = .struct) ∧
      ∃ a ∈ t.attributes, MembersRef (schema a.typ) r := by
  unfold typeSchema
  split
  · rename_i hk
    refs_simp [hk]
  · rename_i hk
    have h3 : ∀ (a b c : Text) (x y z : Text) (rest : List (Text × Json)),
        MembersRef (stringProperty a x :: stringProperty b y :: stringProperty c z :: rest) r ↔
          MembersRef rest r := by
      intro a b c x y z rest
      have e : stringProperty a x :: stringProperty b y :: stringProperty c z :: rest
        = [stringProperty a x] ++ ([stringProperty b y] ++ ([stringProperty c z] ++ rest)) := rfl
      rw [e]
      simp only [membersRef_append, stringProperty_refs, false_or]
    refs_simp [hk, h3, membersRef_map_obj]
  · rename_i hk
    refs_simp [hk, membersRef_map_obj]
  · rename_i h1 h2 h3
    simp only [membersRef_nil, false_iff, not_and]
    intro h
    rcases h with h | h
    · exact absurd h h2
    · exact absurd h h3

set_option maxRecDepth 4000 in
theorem schemas_refs {v : VersionView} :
    MembersRef (schemas schema v) r ↔ ∃ t ∈ v.types, (t.kind = .class ∨ t.kind = .struct) ∧
      ∃ a ∈ t.attributes, MembersRef (schema a.typ) r := by
  unfold schemas
  have h1 : ¬ MembersRef [metadataSchema] r := by
    unfold metadataSchema
    simp only [membersRef_cons, hasRef_obj, membersRef_append, membersRef_description,
      membersRef_nil, stringProperty_refs]
    simp
  have h2 : ¬ MembersRef [errorSchema] r := by
    unfold errorSchema stringProperty
    refs_simp []
  simp only [membersRef_append, h1, h2, membersRef_flatMap, typeSchema_refs, false_or, or_false]

theorem document_refs {v : VersionView} {root : ResId} {entries : List (Text × List Locator)} :
    HasRef (document schema v root entries) r ↔
      r = t!"#/components/schemas/Metadata" ∨ r = t!"#/components/schemas/Error" ∨
      ∃ id, Uses v root (entries.map Prod.snd) id ∧ MembersRef (schema id) r := by
  have hp : MembersRef (pathItems schema v root entries) r ↔
      r = t!"#/components/schemas/Metadata" ∨ r = t!"#/components/schemas/Error" ∨
      (∃ m ∈ v.graph.methods root, HasRef (operation schema [] m) r) ∨
      ∃ e ∈ entries, ∃ m ∈ methodsAt v e.2, HasRef (operation schema e.2 m) r := by
    unfold pathItems
    simp only [membersRef_append, metadataItem_refs, resourceItems_refs, membersRef_flatMap, or_assoc]
  unfold document
  refs_simp [hp, schemas_refs]
  constructor
  · rintro ((h | h | ⟨m, hm, h⟩ | ⟨k, path, he, m, hm, h⟩) | ⟨t, ht, hk, a, ha, h⟩)
    · exact .inl h
    · exact .inr (.inl h)
    · rcases operation_refs.1 h with h | ⟨p, hp, hio, h⟩
      · exact .inr (.inl h)
      · exact .inr (.inr ⟨_, .root hm hp hio, h⟩)
    · rcases operation_refs.1 h with h | ⟨p, hp, hio, h⟩
      · exact .inr (.inl h)
      · exact .inr (.inr ⟨_, .resource (List.mem_map.2 ⟨_, he, rfl⟩) hm hp hio, h⟩)
    · exact .inr (.inr ⟨_, .property ht hk ha, h⟩)
  · rintro (h | h | ⟨id, hu, h⟩)
    · exact .inl (.inl h)
    · exact .inl (.inr (.inl h))
    · cases hu with
      | root hm hp hio =>
        exact .inl (.inr (.inr (.inl ⟨_, hm, operation_refs.2 (.inr ⟨_, hp, hio, h⟩)⟩)))
      | resource hpath hm hp hio =>
        obtain ⟨⟨k, path⟩, he, rfl⟩ := List.mem_map.1 hpath
        exact .inl (.inr (.inr (.inr ⟨k, path, he, _, hm, operation_refs.2 (.inr ⟨_, hp, hio, h⟩)⟩)))
      | property ht hk ha => exact .inr ⟨_, ht, hk, _, ha, h⟩

theorem document_resolves {v : VersionView} {root : ResId} {entries : List (Text × List Locator)} :
    Resolves (document schema v root entries) r ↔
      ∃ k ∈ schemaNames v, r = t!"#/components/schemas/" ++ k := by
  have hkeys : ∀ k, (∃ j, (k, j) ∈ schemas schema v) ↔ k ∈ schemaNames v := by
    intro k
    unfold schemas schemaNames
    have ht : ∀ t : TypeCell, (∃ j, (k, j) ∈ typeSchema schema t) ↔
        (t.kind = .enum ∨ t.kind = .class ∨ t.kind = .struct) ∧ k = t.name.camel := by
      intro t
      unfold typeSchema
      split <;> rename_i hk <;> simp_all
    simp only [List.mem_append, List.mem_singleton, List.mem_flatMap, List.mem_map, List.mem_filter,
      decide_eq_true_eq, exists_or, metadataSchema, errorSchema, Prod.mk.injEq]
    constructor
    · rintro ((⟨j, h, _⟩ | ⟨j, t, htt, h⟩) | ⟨j, h, _⟩)
      · exact .inl (.inl h)
      · have := (ht t).1 ⟨j, h⟩
        exact .inl (.inr ⟨t, ⟨htt, this.1⟩, this.2.symm⟩)
      · exact .inr h
    · rintro ((h | ⟨t, ⟨htt, hk⟩, h⟩) | h)
      · exact .inl (.inl ⟨_, h, rfl⟩)
      · obtain ⟨j, hj⟩ := (ht t).2 ⟨hk, h.symm⟩
        exact .inl (.inr ⟨j, t, htt, hj⟩)
      · exact .inr ⟨_, h, rfl⟩
  unfold Resolves Member document
  constructor
  · rintro ⟨components, ss, key, value, ⟨ms, hms, hm⟩, ⟨ms2, rfl, hm2⟩, ⟨ms3, rfl, hm3⟩, h⟩
    rw [Json.obj.injEq] at hms
    subst hms
    simp at hm
    subst hm
    simp at hm2
    subst hm2
    exact ⟨key, (hkeys key).1 ⟨value, hm3⟩, h⟩
  · rintro ⟨k, hk, h⟩
    obtain ⟨j, hj⟩ := (hkeys k).2 hk
    exact ⟨_, _, k, j, ⟨_, rfl, .tail _ (.tail _ (.tail _ (.tail _ (.head _))))⟩,
      ⟨_, rfl, .head _⟩, ⟨_, rfl, hj⟩, h⟩

end

end OpenApi

end Verif
