import Verif.Lemmas.OpenApiDoc
import Verif.Lemmas.ClientPaths

/-! Lemmas about the keys and the path parameters of the OpenAPI documents. -/

namespace Verif

namespace OpenApi

/-! ## Unique keys -/

/-- The keys of the members are different, and the same happens inside them. -/
def MembersUnique (members : List (Text × Json)) : Prop :=
  (members.map Prod.fst).Nodup ∧ ∀ m ∈ members, UniqueKeys m.2

theorem uniqueKeys_obj {ms : List (Text × Json)} : UniqueKeys (.obj ms) ↔ MembersUnique ms := by
  constructor
  · intro h
    exact ⟨h ms (.self _), fun m hm members hi => h members (.member hm hi)⟩
  · rintro ⟨h1, h2⟩ members hi
    generalize hd : Json.obj ms = doc at hi
    cases hi with
    | self => simp only [Json.obj.injEq] at hd; subst hd; exact h1
    | member hm hi =>
      simp only [Json.obj.injEq] at hd; subst hd
      exact h2 _ hm members hi
    | item => simp at hd

theorem uniqueKeys_arr {js : List Json} : UniqueKeys (.arr js) ↔ ∀ j ∈ js, UniqueKeys j := by
  constructor
  · intro h j hj members hi
    exact h members (.item hj hi)
  · intro h members hi
    generalize hd : Json.arr js = doc at hi
    cases hi with
    | self => simp at hd
    | member => simp at hd
    | item hm hi =>
      simp only [Json.arr.injEq] at hd; subst hd
      exact h _ hm members hi

theorem uniqueKeys_str {s : Text} : UniqueKeys (.str s) ↔ True := by
  refine ⟨fun _ => trivial, fun _ members hi => ?_⟩
  generalize hd : Json.str s = doc at hi
  cases hi <;> simp at hd

theorem uniqueKeys_bool {b : Bool} : UniqueKeys (.bool b) ↔ True := by
  refine ⟨fun _ => trivial, fun _ members hi => ?_⟩
  generalize hd : Json.bool b = doc at hi
  cases hi <;> simp at hd

theorem membersUnique_nil : MembersUnique [] ↔ True := by simp [MembersUnique]

theorem membersUnique_cons {k : Text} {j : Json} {ms : List (Text × Json)} :
    MembersUnique ((k, j) :: ms) ↔ (k ∉ ms.map Prod.fst ∧ UniqueKeys j) ∧ MembersUnique ms := by
  simp only [MembersUnique, List.map_cons, List.nodup_cons, List.forall_mem_cons]
  grind

/-- Evaluation of unique keys. -/
macro "unique_simp" "[" ts:Lean.Parser.Tactic.simpLemma,* "]" : tactic =>
  `(tactic| simp [uniqueKeys_obj, uniqueKeys_arr, uniqueKeys_str, uniqueKeys_bool,
    membersUnique_nil, membersUnique_cons, $ts,*])

theorem membersUnique_description {doc : Text} {ms : List (Text × Json)}
    (h : t!"description" ∉ ms.map Prod.fst) :
    MembersUnique (description doc ++ ms) ↔ MembersUnique ms := by
  unfold description
  split
  · simp
  · rw [List.singleton_append, membersUnique_cons]
    simp only [h, uniqueKeys_str]
    simp

theorem schemaRef_unique {v : VersionView} {id : TypeId} {ms : List (Text × Json)}
    (h : SchemaRef v id ms) : MembersUnique ms ∧ t!"description" ∉ ms.map Prod.fst := by
  induction h with
  | builtin hm _ =>
    simp only [builtinSchemas, List.mem_cons, Prod.mk.injEq, List.not_mem_nil, or_false] at hm
    rcases hm with ⟨_, rfl⟩ | ⟨_, rfl⟩ | ⟨_, rfl⟩ | ⟨_, rfl⟩ | ⟨_, rfl⟩ | ⟨_, rfl⟩ | ⟨_, rfl⟩ <;>
      unique_simp []
  | named => unique_simp []
  | list _ _ _ _ ih => unique_simp [ih.1]
  | map _ _ _ _ ih => unique_simp [ih.1]

/-- The schema of a type has unique keys, and doesn't have a description. -/
def Tidy (ms : List (Text × Json)) : Prop := MembersUnique ms ∧ t!"description" ∉ ms.map Prod.fst

section

variable {schema : TypeId → List (Text × Json)}

theorem Tidy.description {ms : List (Text × Json)} (h : Tidy ms) (doc : Text) :
    MembersUnique (description doc ++ ms) := (membersUnique_description h.2).2 h.1

theorem content_unique {ms : List (Text × Json)} :
    UniqueKeys (content ms).2 ↔ MembersUnique ms := by
  unfold content
  unique_simp []

theorem reference_unique {name : Text} : MembersUnique (reference name) := by
  unfold reference
  unique_simp []

theorem errorResponse_unique : UniqueKeys errorResponse.2 := by
  unfold errorResponse
  simp only [uniqueKeys_obj]
  rw [membersUnique_description (by simp [content])]
  refine ⟨by simp, ?_⟩
  intro m hm
  rw [List.mem_singleton.1 hm, content_unique]
  exact reference_unique

theorem parametersObject_unique {ps : List Parameter} (h : ∀ p ∈ ps, Tidy (schema p.typ.id)) :
    MembersUnique (parametersObject schema ps) ↔ (ps.map fun p => p.name.snake).Nodup := by
  unfold parametersObject
  unique_simp []
  simp only [MembersUnique, List.map_map, Function.comp_def, and_iff_left_iff_imp]
  intro _ m hm
  obtain ⟨p, hp, rfl⟩ := List.mem_map.1 hm
  rw [uniqueKeys_obj]
  exact (h p hp).description _

theorem bodySchema_unique {m : Method} {ps : List Parameter} (h : ∀ p ∈ ps, Tidy (schema p.typ.id)) :
    MembersUnique (bodySchema schema m ps) ↔ (ps.map fun p => p.name.snake).Nodup := by
  unfold bodySchema
  split
  · exact parametersObject_unique h
  · split
    · simp [(h _ List.mem_cons_self).1]
    · exact parametersObject_unique h

theorem natText_status (m : Method) : natText (Binding.defaultStatus m) ≠ t!"default" := by
  unfold Binding.defaultStatus
  repeat' split
  all_goals decide

theorem operationParameters_unique {path : List Locator} {m : Method}
    (h : ∀ p ∈ Binding.requestQueryParameters m, Tidy (schema p.typ.id)) :
    ∀ j ∈ operationParameters schema path m, UniqueKeys j := by
  intro j hj
  rcases List.mem_append.1 hj with hj | hj
  · obtain ⟨l, _, rfl⟩ := List.mem_map.1 hj
    unfold pathParameter
    unique_simp []
  · obtain ⟨p, hp, rfl⟩ := List.mem_map.1 hj
    unfold queryParameter description
    split <;> unique_simp [(h p hp).1]

theorem usedParameters {m : Method} {P : Parameter → Prop}
    (h : ∀ p ∈ m.parameters, (p.isIn ∨ p.isOut) → P p) :
    (∀ p ∈ Binding.requestQueryParameters m, P p) ∧ (∀ p ∈ Binding.requestBodyParameters m, P p) ∧
      ∀ p ∈ Binding.responseParameters m, P p := by
  refine ⟨?_, ?_, ?_⟩
  · intro p hp
    unfold Binding.requestQueryParameters at hp
    split at hp
    · simp only [List.mem_filter, Bool.and_eq_true] at hp
      exact h p hp.1 (.inl hp.2.1)
    · simp at hp
  · intro p hp
    unfold Binding.requestBodyParameters at hp
    split at hp
    · simp only [List.mem_filter] at hp
      exact h p hp.1 (.inl hp.2)
    · simp only [List.mem_filter, Bool.and_eq_true] at hp
      exact h p hp.1 (.inl hp.2.1)
  · intro p hp
    unfold Binding.responseParameters at hp
    simp only [List.mem_filter] at hp
    exact h p hp.1 (.inr hp.2)

theorem operation_unique {path : List Locator} {m : Method}
    (h : ∀ p ∈ m.parameters, (p.isIn ∨ p.isOut) → Tidy (schema p.typ.id)) :
    UniqueKeys (operation schema path m) ↔
      ((Binding.requestBodyParameters m).map fun p => p.name.snake).Nodup ∧
      ((Binding.responseParameters m).map fun p => p.name.snake).Nodup := by
  obtain ⟨hq, hb, hr⟩ := usedParameters h
  have hp : ∀ j ∈ operationParameters schema path m, UniqueKeys j := operationParameters_unique hq
  have hbody := bodySchema_unique (m := m) hb
  have hresp := bodySchema_unique (m := m) hr
  have hstatus := natText_status m
  have herr : errorResponse = (t!"default", errorResponse.2) := rfl
  have hsuccess : UniqueKeys (.obj (description t!"Success." ++
            (if Binding.responseParameters m = [] then []
             else [content (bodySchema schema m (Binding.responseParameters m))]))) ↔
      ((Binding.responseParameters m).map fun p => p.name.snake).Nodup := by
    rw [uniqueKeys_obj, membersUnique_description (by split <;> simp [content])]
    split
    · rename_i hz; simp [hz, membersUnique_nil]
    · rw [show content (bodySchema schema m (Binding.responseParameters m))
        = (t!"content", (content (bodySchema schema m (Binding.responseParameters m))).2) from rfl,
        membersUnique_cons, content_unique, hresp]
      simp [membersUnique_nil]
  have hresponses : UniqueKeys (.obj
        [ (natText (Binding.defaultStatus m), .obj (description t!"Success." ++
            (if Binding.responseParameters m = [] then []
             else [content (bodySchema schema m (Binding.responseParameters m))]))),
          errorResponse ]) ↔
      ((Binding.responseParameters m).map fun p => p.name.snake).Nodup := by
    rw [uniqueKeys_obj, membersUnique_cons, hsuccess, herr, membersUnique_cons]
    simp [membersUnique_nil, errorResponse_unique, hstatus]
  have hrequest : UniqueKeys (.obj [content (bodySchema schema m (Binding.requestBodyParameters m))])
      ↔ ((Binding.requestBodyParameters m).map fun p => p.name.snake).Nodup := by
    rw [uniqueKeys_obj, show content (bodySchema schema m (Binding.requestBodyParameters m))
        = (t!"content", (content (bodySchema schema m (Binding.requestBodyParameters m))).2) from rfl,
        membersUnique_cons, content_unique, hbody]
    simp [membersUnique_nil]
  unfold operation
  rw [uniqueKeys_obj, List.append_assoc, List.append_assoc, membersUnique_description]
  · by_cases h1 : operationParameters schema path m = []
    · by_cases h2 : Binding.requestBodyParameters m = []
      · simp only [h1, h2, if_true, List.nil_append, List.append_nil, List.cons_append]
        rw [membersUnique_cons, hresponses]
        simp [membersUnique_nil]
      · simp only [h1, h2, if_true, if_false, List.nil_append, List.append_nil, List.cons_append]
        rw [membersUnique_cons, membersUnique_cons, hresponses, hrequest]
        simp [membersUnique_nil]
    · have harr : UniqueKeys (.arr (operationParameters schema path m)) := uniqueKeys_arr.2 hp
      by_cases h2 : Binding.requestBodyParameters m = []
      · simp only [h1, h2, if_true, if_false, List.nil_append, List.append_nil, List.cons_append]
        rw [membersUnique_cons, membersUnique_cons, hresponses]
        simp [membersUnique_nil, harr]
      · simp only [h1, h2, if_false, List.nil_append, List.append_nil, List.cons_append]
        rw [membersUnique_cons, membersUnique_cons, membersUnique_cons, hresponses, hrequest]
        simp [membersUnique_nil, harr]
  · simp only [List.map_append, List.mem_append, not_or]
    refine ⟨?_, ?_, by simp⟩
    · split <;> simp
    · split <;> simp

theorem resourceItems_keys {key : Text} {path : List Locator} {methods : List Method} :
    (resourceItems schema key path methods).map Prod.fst = resourceKeys key methods := by
  unfold resourceItems resourceKeys
  simp only [List.map_append, List.map_map, Function.comp_def]
  congr 1
  by_cases h : ∃ m ∈ methods, Binding.methodSegment m = []
  · rw [if_pos h, if_neg]
    · rfl
    · intro e
      obtain ⟨m, hm, hz⟩ := h
      rw [List.filter_eq_nil_iff] at e
      exact e m hm (by simpa using hz)
  · rw [if_neg h, if_pos]
    · rfl
    · rw [List.filter_eq_nil_iff]
      intro m hm
      simp only [decide_eq_true_eq]
      exact fun hz => h ⟨m, hm, hz⟩

theorem resourceItems_values {key : Text} {path : List Locator} {methods : List Method}
    (h : ∀ m ∈ methods, ∀ p ∈ m.parameters, (p.isIn ∨ p.isOut) → Tidy (schema p.typ.id)) :
    (∀ e ∈ resourceItems schema key path methods, UniqueKeys e.2) ↔ DistinctMethods methods := by
  unfold resourceItems DistinctMethods
  simp only [List.forall_mem_append]
  have hown : (∀ e ∈ (methods.filter fun m => Binding.methodSegment m ≠ []).map (fun m =>
      (key ++ '/' :: Binding.methodSegment m,
        Json.obj [((Binding.method m).map Char.toLower, operation schema path m)])),
        UniqueKeys e.2) ↔
      ∀ m ∈ methods, Binding.methodSegment m ≠ [] → UniqueKeys (operation schema path m) := by
    simp only [List.forall_mem_map, List.mem_filter, decide_eq_true_eq, uniqueKeys_obj,
      membersUnique_cons, membersUnique_nil]
    simp
  have hshared : (∀ e ∈ (if (methods.filter fun m => Binding.methodSegment m = []) = [] then []
      else [(key, Json.obj ((methods.filter fun m => Binding.methodSegment m = []).map fun m =>
        ((Binding.method m).map Char.toLower, operation schema path m)))]), UniqueKeys e.2) ↔
      ((methods.filter fun m => Binding.methodSegment m = []).map fun m =>
        (Binding.method m).map Char.toLower).Nodup ∧
      ∀ m ∈ methods, Binding.methodSegment m = [] → UniqueKeys (operation schema path m) := by
    split
    · rename_i hz
      rw [hz]
      simp only [List.not_mem_nil, false_implies, implies_true, List.map_nil, List.nodup_nil,
        true_and, true_iff]
      intro m hm hseg
      rw [List.filter_eq_nil_iff] at hz
      exact absurd (by simpa using hseg) (hz m hm)
    · simp only [List.mem_singleton, forall_eq, uniqueKeys_obj, MembersUnique, List.map_map,
        Function.comp_def, List.forall_mem_map, List.mem_filter, decide_eq_true_eq, and_imp]
  rw [hown, hshared]
  constructor
  · rintro ⟨⟨hv, h1⟩, h2⟩
    refine ⟨hv, fun m hm => ?_⟩
    rw [← operation_unique (path := path) (h m hm)]
    by_cases hz : Binding.methodSegment m = []
    · exact h1 m hm hz
    · exact h2 m hm hz
  · rintro ⟨hv, hall⟩
    exact ⟨⟨hv, fun m hm _ => (operation_unique (h m hm)).2 (hall m hm)⟩,
      fun m hm _ => (operation_unique (h m hm)).2 (hall m hm)⟩

theorem metadataItem_unique {key : Text} : UniqueKeys (metadataItem key).2 := by
  have herr : errorResponse = (t!"default", errorResponse.2) := rfl
  have hc : UniqueKeys (.obj (description t!"Success." ++ [content (reference t!"Metadata")])) := by
    rw [uniqueKeys_obj, membersUnique_description (by simp [content])]
    refine ⟨by simp, ?_⟩
    intro m hm
    rw [List.mem_singleton.1 hm, content_unique]
    exact reference_unique
  unfold metadataItem
  simp only [uniqueKeys_obj, membersUnique_cons, membersUnique_nil]
  refine ⟨⟨by simp, ?_⟩, trivial⟩
  rw [membersUnique_description (by simp), membersUnique_cons, uniqueKeys_obj, membersUnique_cons, herr,
    membersUnique_cons]
  simp [membersUnique_nil, errorResponse_unique, hc]

theorem pathItems_unique {v : VersionView} {root : ResId} {entries : List (Text × List Locator)}
    (h1 : ∀ m ∈ v.graph.methods root, ∀ p ∈ m.parameters, (p.isIn ∨ p.isOut) →
      Tidy (schema p.typ.id))
    (h2 : ∀ e ∈ entries, ∀ m ∈ methodsAt v e.2, ∀ p ∈ m.parameters, (p.isIn ∨ p.isOut) →
      Tidy (schema p.typ.id)) :
    MembersUnique (pathItems schema v root entries) ↔ (pathKeys v root entries).Nodup ∧
      DistinctMethods (v.graph.methods root) ∧ ∀ e ∈ entries, DistinctMethods (methodsAt v e.2) := by
  unfold MembersUnique
  have hkeys : (pathItems schema v root entries).map Prod.fst = pathKeys v root entries := by
    unfold pathItems pathKeys
    simp only [List.map_append, List.map_flatMap, resourceItems_keys]
    rfl
  rw [hkeys]
  unfold pathItems
  simp only [List.forall_mem_append, List.mem_singleton, forall_eq, metadataItem_unique, true_and,
    resourceItems_values h1, List.mem_flatMap, forall_exists_index, and_imp]
  refine and_congr_right fun _ => and_congr_right fun _ => ?_
  constructor
  · intro h e he
    exact (resourceItems_values (h2 e he)).1 fun x hx => h x e he hx
  · intro h x e he hx
    exact (resourceItems_values (h2 e he)).2 (h e he) x hx

theorem stringProperty_unique {name doc : Text} : UniqueKeys (stringProperty name doc).2 := by
  unfold stringProperty
  rw [uniqueKeys_obj, membersUnique_description (by simp)]
  unique_simp []

theorem properties_values {attributes : List Attribute}
    (h : ∀ a ∈ attributes, Tidy (schema a.typ)) :
    ∀ m ∈ attributes.map (fun a =>
      (Binding.attributeName a, Json.obj (description a.doc ++ schema a.typ))), UniqueKeys m.2 := by
  intro m hm
  obtain ⟨a, ha, rfl⟩ := List.mem_map.1 hm
  rw [uniqueKeys_obj]
  exact (h a ha).description _

theorem typeSchema_values {t : TypeCell}
    (h : t.kind = .class ∨ t.kind = .struct → ∀ a ∈ t.attributes, Tidy (schema a.typ)) :
    (∀ e ∈ typeSchema schema t, UniqueKeys e.2) ↔ DistinctProperties t := by
  unfold typeSchema DistinctProperties
  split
  · rename_i hk
    simp only [hk, reduceCtorEq, false_implies, and_self, iff_true, List.mem_singleton, forall_eq]
    rw [uniqueKeys_obj, membersUnique_description (by simp)]
    unique_simp []
  · rename_i hk
    simp only [hk, reduceCtorEq, false_implies, true_and, true_implies, List.mem_singleton, forall_eq]
    rw [uniqueKeys_obj, membersUnique_description (by simp), membersUnique_cons, uniqueKeys_obj,
      MembersUnique, List.forall_mem_append]
    have h1 := properties_values (h (.inl hk))
    constructor
    · rintro ⟨⟨_, hn, _⟩, _⟩
      simp only [List.map_append, List.map_map] at hn
      exact hn
    · intro hn
      refine ⟨⟨by simp, ?_, ?_, h1⟩, membersUnique_nil.2 trivial⟩
      · simp only [List.map_append, List.map_map]
        exact hn
      · simp only [List.forall_mem_cons]
        exact ⟨stringProperty_unique, stringProperty_unique, stringProperty_unique, by simp⟩
  · rename_i hk
    simp only [hk, reduceCtorEq, false_implies, and_true, true_implies, List.mem_singleton, forall_eq]
    rw [uniqueKeys_obj, membersUnique_description (by simp), membersUnique_cons, uniqueKeys_obj,
      MembersUnique]
    have h1 := properties_values (h (.inr hk))
    constructor
    · rintro ⟨⟨_, hn, _⟩, _⟩
      simp only [List.map_map] at hn
      exact hn
    · intro hn
      refine ⟨⟨by simp, ?_, h1⟩, membersUnique_nil.2 trivial⟩
      simp only [List.map_map]
      exact hn
  · rename_i h1 h2 h3
    simp only [List.not_mem_nil, false_implies, implies_true, true_iff]
    exact ⟨fun e => absurd e h3, fun e => absurd e h2⟩

theorem schemas_keys {v : VersionView} : (schemas schema v).map Prod.fst = schemaNames v := by
  unfold schemas schemaNames
  simp only [List.map_append, List.map_flatMap, List.map_cons, List.map_nil]
  congr 2
  induction v.types with
  | nil => rfl
  | cons t ts ih =>
    rw [List.flatMap_cons, ih, List.filter_cons]
    unfold typeSchema
    split <;> rename_i hk <;> simp_all

set_option maxRecDepth 4000 in
theorem schemas_unique {v : VersionView}
    (h : ∀ t ∈ v.types, t.kind = .class ∨ t.kind = .struct → ∀ a ∈ t.attributes,
      Tidy (schema a.typ)) :
    MembersUnique (schemas schema v) ↔ (schemaNames v).Nodup ∧
      ∀ t ∈ v.types, DistinctProperties t := by
  unfold MembersUnique
  rw [schemas_keys]
  have h1 : UniqueKeys metadataSchema.2 := by
    unfold metadataSchema
    rw [uniqueKeys_obj, membersUnique_description (by simp)]
    unique_simp [stringProperty]
    rw [membersUnique_description (by simp)]
    unique_simp []
  have h2 : UniqueKeys errorSchema.2 := by
    unfold errorSchema
    unique_simp [stringProperty, description]
  unfold schemas
  simp only [List.forall_mem_append, List.mem_singleton, forall_eq, h1, h2, true_and, and_true,
    List.mem_flatMap, forall_exists_index, and_imp]
  refine and_congr_right fun _ => ?_
  constructor
  · intro hx t ht
    exact (typeSchema_values (h t ht)).1 fun e he => hx e t ht he
  · intro hx e t ht he
    exact (typeSchema_values (h t ht)).2 (hx t ht) e he

theorem document_unique {v : VersionView} {root : ResId} {entries : List (Text × List Locator)}
    (hs : ∀ id, Uses v root (entries.map Prod.snd) id → SchemaRef v id (schema id)) :
    UniqueKeys (document schema v root entries) ↔
      ((pathKeys v root entries).Nodup ∧ DistinctMethods (v.graph.methods root) ∧
        ∀ e ∈ entries, DistinctMethods (methodsAt v e.2)) ∧
      (schemaNames v).Nodup ∧ ∀ t ∈ v.types, DistinctProperties t := by
  have tidy : ∀ id, Uses v root (entries.map Prod.snd) id → Tidy (schema id) :=
    fun id hu => schemaRef_unique (hs id hu)
  rw [← pathItems_unique (schema := schema)
      (fun m hm p hp hio => tidy _ (.root hm hp hio))
      (fun e he m hm p hp hio => tidy _ (.resource (List.mem_map.2 ⟨e, he, rfl⟩) hm hp hio)),
    ← schemas_unique (schema := schema) (fun t ht hk a ha => tidy _ (.property ht hk ha))]
  unfold document
  unique_simp []

/-! ## Path parameters -/

theorem operation_pathParameters {path : List Locator} {m : Method} :
    pathParameterNames (operation schema path m) =
      (path.filter fun l => l.isVariable).map fun l => Binding.locatorSegment l ++ t!"_id" := by
  have hl : itemsOf (lookup t!"parameters" (operation schema path m))
      = operationParameters schema path m := by
    unfold operation lookup description
    by_cases h1 : m.doc = [] <;> by_cases h2 : operationParameters schema path m = [] <;>
      by_cases h3 : Binding.requestBodyParameters m = [] <;>
      simp [h1, h2, h3, itemsOf]
  unfold pathParameterNames
  rw [hl]
  unfold operationParameters
  rw [List.filterMap_append, List.filterMap_map, List.filterMap_map]
  have h1 : ∀ ls : List Locator, ls.filterMap (pathParameterName ∘ pathParameter) = ls.map fun l => Binding.locatorSegment l ++ t!"_id" := by
    intro ls
    induction ls with
    | nil => rfl
    | cons l ls ih =>
      rw [List.filterMap_cons, ih]
      simp [pathParameter, lookup, pathParameterName]
  have h2 : ∀ ps : List Parameter, ps.filterMap (pathParameterName ∘ queryParameter schema) = [] := by
    intro ps
    induction ps with
    | nil => rfl
    | cons p ps ih =>
      rw [List.filterMap_cons, ih]
      unfold queryParameter description
      by_cases hd : p.doc = [] <;> simp [lookup, hd, pathParameterName]
  rw [h1, h2, List.append_nil]

theorem templateVariables_key {v : VersionView} (h : PlainSegments v) {path : List Locator}
    (hp : ∀ l ∈ path, ∃ r, l ∈ v.graph.locators r) (extra : List Text)
    (he : ∀ s ∈ extra, ConstantPart s) :
    templateVariables (pathKey v path ++ absolute extra) =
      (path.filter fun l => l.isVariable).map fun l => Binding.locatorSegment l ++ t!"_id" := by
  have hkey : pathKey v path ++ absolute extra = absolute ([t!"api", v.serviceSegment,
      v.versionSegment] ++ (path.map fun l => if l.isVariable then
        '{' :: Binding.locatorSegment l ++ t!"_id}" else Binding.locatorSegment l) ++ extra) := by
    simp [pathKey, absolute]
  have hfix : ∀ s ∈ [[], t!"api", v.serviceSegment, v.versionSegment], ConstantPart s := by
    intro s hs
    simp only [List.mem_cons, List.not_mem_nil, or_false] at hs
    rcases hs with rfl | rfl | rfl | rfl
    · exact ⟨by simp, rfl⟩
    · exact ⟨by simp, rfl⟩
    · exact h.service
    · exact h.version
  unfold templateVariables
  rw [hkey, splitOn_absolute]
  · have e : ∀ (x y : List Text), [] :: ([t!"api", v.serviceSegment, v.versionSegment] ++ x ++ y)
        = [[], t!"api", v.serviceSegment, v.versionSegment] ++ (x ++ y) := fun x y => by simp
    have none : ∀ l : List Text, (∀ s ∈ l, ConstantPart s) → l.filter isTemplateVariable = [] := by
      intro l hl
      rw [List.filter_eq_nil_iff]
      intro s hs
      simp [(hl s hs).2]
    rw [e, List.filter_append, List.filter_append, none _ hfix, none _ he, List.nil_append,
      List.append_nil]
    clear hkey
    induction path with
    | nil => rfl
    | cons l ls ih =>
      have ih := ih fun k hk => hp k (List.mem_cons_of_mem _ hk)
      rw [List.map_cons]
      cases hv : l.isVariable with
      | true =>
        have ht : isTemplateVariable ('{' :: Binding.locatorSegment l ++ t!"_id}") = true := by
          have := isTemplateVariable_brackets (Binding.locatorSegment l ++ t!"_id")
          simpa using this
        have hd : (('{' :: Binding.locatorSegment l ++ t!"_id}").drop 1).dropLast
            = Binding.locatorSegment l ++ t!"_id" := by
          have : ('{' :: Binding.locatorSegment l ++ t!"_id}").drop 1
              = (Binding.locatorSegment l ++ t!"_id") ++ ['}'] := by simp
          rw [this, List.dropLast_concat]
        simp only [hv, if_true]
        rw [List.filter_cons, if_pos ht, List.map_cons, hd, ih, List.filter_cons, if_pos hv,
          List.map_cons]
      | false =>
        obtain ⟨r, hr⟩ := hp l List.mem_cons_self
        have ht := ((h.locators r l hr).2 hv).2
        simp only [hv, Bool.false_eq_true, if_false]
        rw [List.filter_cons, if_neg (by simp [ht]), ih, List.filter_cons, if_neg (by simp [hv])]
  · intro s hs
    rcases List.mem_append.1 hs with hs | hs
    · rcases List.mem_append.1 hs with hs | hs
      · exact (hfix s (List.mem_cons_of_mem _ hs)).1
      · obtain ⟨l, hl, rfl⟩ := List.mem_map.1 hs
        obtain ⟨r, hr⟩ := hp l hl
        have hslash := (h.locators r l hr).1
        split
        · simp [hslash]
        · exact hslash
    · exact (he s hs).1

theorem pathsLoop_locators {g : Graph} : ∀ (fuel : Nat) (pending results ps : List (List Locator)),
    pathsLoop g fuel pending results = .done ps →
    (∀ p ∈ pending, ∀ l ∈ p, ∃ r, l ∈ g.locators r) →
    (∀ p ∈ results, ∀ l ∈ p, ∃ r, l ∈ g.locators r) →
    ∀ p ∈ ps, ∀ l ∈ p, ∃ r, l ∈ g.locators r
  | fuel, [], results, ps, h, _, hr => by
    rw [pathsLoop] at h
    cases h
    exact hr
  | 0, _ :: _, results, ps, h, _, _ => by simp [pathsLoop] at h
  | fuel + 1, current :: pending, results, ps, h, hp, hr => by
    rw [pathsLoop] at h
    cases hl : current.getLast? with
    | none => simp [hl] at h
    | some last =>
      cases ht : last.target with
      | none => simp [hl, ht] at h
      | some target =>
        simp only [hl, ht] at h
        refine pathsLoop_locators fuel _ _ ps h ?_ ?_
        · intro p hpp l hlp
          rcases List.mem_append.1 hpp with hpp | hpp
          · exact hp p (List.mem_cons_of_mem _ hpp) l hlp
          · obtain ⟨k, hk, rfl⟩ := List.mem_map.1 hpp
            rcases List.mem_append.1 hlp with hlp | hlp
            · exact hp current List.mem_cons_self l hlp
            · rw [List.mem_singleton.1 hlp]; exact ⟨target, hk⟩
        · intro p hpp
          rcases List.mem_append.1 hpp with hpp | hpp
          · exact hr p hpp
          · rw [List.mem_singleton.1 hpp]; exact hp current List.mem_cons_self

theorem paths_locators {g : Graph} {fuel : Nat} {root : Option ResId} {ps : List (List Locator)}
    (h : paths g fuel root = .done ps) : ∀ p ∈ ps, ∀ l ∈ p, ∃ r, l ∈ g.locators r := by
  cases root with
  | none => simp [paths] at h
  | some r =>
    simp only [paths] at h
    refine pathsLoop_locators fuel _ _ ps h ?_ (by simp)
    intro p hp l hl
    obtain ⟨k, hk, rfl⟩ := List.mem_map.1 hp
    rw [List.mem_singleton.1 hl]
    exact ⟨r, hk⟩

theorem resourceItems_operation {key : Text} {path : List Locator} {methods : List Method}
    {k verb : Text} {item op : Json} (h : (k, item) ∈ resourceItems schema key path methods)
    (ho : Member item verb op) :
    ∃ m ∈ methods, op = operation schema path m ∧ k = key ++ absolute
      (if Binding.methodSegment m = [] then [] else [Binding.methodSegment m]) := by
  obtain ⟨ms, rfl, hop⟩ := ho
  unfold resourceItems at h
  rcases List.mem_append.1 h with h | h
  · split at h
    · simp at h
    · simp only [List.mem_singleton, Prod.mk.injEq, Json.obj.injEq] at h
      obtain ⟨rfl, rfl⟩ := h
      obtain ⟨m, hm, he⟩ := List.mem_map.1 hop
      simp only [Prod.mk.injEq] at he
      simp only [List.mem_filter, decide_eq_true_eq] at hm
      exact ⟨m, hm.1, he.2.symm, by simp [hm.2, absolute]⟩
  · obtain ⟨m, hm, he⟩ := List.mem_map.1 h
    simp only [Prod.mk.injEq, Json.obj.injEq] at he
    obtain ⟨rfl, rfl⟩ := he
    simp only [List.mem_singleton, Prod.mk.injEq] at hop
    simp only [List.mem_filter, decide_eq_true_eq] at hm
    exact ⟨m, hm.1, hop.2, by simp [hm.2, absolute]⟩

theorem document_operation {v : VersionView} {root : ResId} {entries : List (Text × List Locator)}
    {path verb : Text} {op : Json} (h : Operation (document schema v root entries) path verb op) :
    (path = pathKey v [] ∧ Member (metadataItem (pathKey v [])).2 verb op) ∨
    (∃ m ∈ v.graph.methods root, op = operation schema [] m ∧ path = pathKey v [] ++ absolute
      (if Binding.methodSegment m = [] then [] else [Binding.methodSegment m])) ∨
    ∃ e ∈ entries, ∃ m ∈ methodsAt v e.2, op = operation schema e.2 m ∧ path = e.1 ++ absolute
      (if Binding.methodSegment m = [] then [] else [Binding.methodSegment m]) := by
  obtain ⟨paths, item, ⟨ms, hms, hpaths⟩, hitem, hop⟩ := h
  unfold document at hms
  rw [Json.obj.injEq] at hms
  subst hms
  simp at hpaths
  subst hpaths
  obtain ⟨ms, hms, hitem⟩ := hitem
  rw [Json.obj.injEq] at hms
  subst hms
  unfold pathItems at hitem
  rcases List.mem_append.1 hitem with hitem | hitem
  · rcases List.mem_append.1 hitem with hitem | hitem
    · rw [List.mem_singleton, metadataItem, Prod.mk.injEq] at hitem
      obtain ⟨rfl, rfl⟩ := hitem
      exact .inl ⟨rfl, hop⟩
    · exact .inr (.inl (resourceItems_operation hitem hop))
  · obtain ⟨e, he, hitem⟩ := List.mem_flatMap.1 hitem
    exact .inr (.inr ⟨e, he, resourceItems_operation hitem hop⟩)

end

end OpenApi

end Verif
