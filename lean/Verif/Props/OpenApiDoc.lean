import Verif.Props.OpenApi
import Verif.Lemmas.OpenApiKeys

/-!
# References, templates and keys of the OpenAPI documents (C54, C55 and C56)

C54: every schema reference of the document names a schema of the document, if the types of the
version refer only to types of the version.

C55: the variables of the template of each path are the path parameters of each of its operations, in
the same order.

C56: no object of the document repeats a key. This is false; the theorems say exactly when it is true.
-/

namespace Verif

open OpenApi

/-! ## C54 -/

/-- The references of the document: the ones of metadata and errors, and those of the types with name
that describing the types used requires. -/
theorem c54_references (v : VersionView) (fuel errors : Nat) (ts : List Tok)
    (h : generateSpec v fuel errors = .done (.written ts)) (doc : Json) (hd : ts = doc.tokens) :
    ∃ root ps entries, v.root = some root ∧
      paths v.graph fuel v.root = .done ps ∧ PathEntries v ps entries ∧
      (∀ r, HasRef doc r ↔
        r = t!"#/components/schemas/Metadata" ∨ r = t!"#/components/schemas/Error" ∨
        ∃ id cell, Uses v root (entries.map Prod.snd) id ∧ Leaf v id cell ∧
          r = t!"#/components/schemas/" ++ cell.name.camel) ∧
      ∀ r, Resolves doc r ↔ ∃ k ∈ schemaNames v, r = t!"#/components/schemas/" ++ k := by
  obtain ⟨_, root, ps, entries, schema, hroot, hps, he, hs, rfl⟩ := c68_document v fuel errors ts h
  obtain rfl := c68_tokens_determine _ _ hd
  refine ⟨root, ps, entries, hroot, hps, he, ?_, fun r => document_resolves⟩
  intro r
  rw [document_refs]
  refine or_congr_right (or_congr_right ?_)
  constructor
  · rintro ⟨id, hu, hm⟩
    obtain ⟨cell, hl, hr⟩ := (schemaRef_refs (hs id hu)).1 hm
    exact ⟨id, cell, hu, hl, hr⟩
  · rintro ⟨id, cell, hu, hl, hr⟩
    exact ⟨id, hu, (schemaRef_refs (hs id hu)).2 ⟨cell, hl, hr⟩⟩

/-- C54. All the references of the document name schemas of the document, if the types with name that
are mentioned, by the types of the version and by its methods, are types of the version. -/
theorem c54_resolve (v : VersionView) (fuel errors : Nat) (ts : List Tok)
    (h : generateSpec v fuel errors = .done (.written ts)) (doc : Json) (hd : ts = doc.tokens)
    (hl : ∀ root paths id cell, Uses v root paths id → Leaf v id cell → cell ∈ v.types) :
    ∀ r, HasRef doc r → Resolves doc r := by
  obtain ⟨root, ps, entries, _, _, _, hrefs, hres⟩ := c54_references v fuel errors ts h doc hd
  intro r hr
  rw [hres]
  rcases (hrefs r).1 hr with rfl | rfl | ⟨id, cell, hu, hleaf, rfl⟩
  · exact ⟨t!"Metadata", by simp [schemaNames], rfl⟩
  · exact ⟨t!"Error", by simp [schemaNames], rfl⟩
  · have hk : cell.kind = .enum ∨ cell.kind = .class ∨ cell.kind = .struct := by
      have : ∀ id cell, Leaf v id cell →
          cell.kind = .enum ∨ cell.kind = .class ∨ cell.kind = .struct := by
        intro id cell hleaf
        induction hleaf with
        | named _ hk => exact hk
        | element _ _ _ _ ih => exact ih
      exact this id cell hleaf
    refine ⟨cell.name.camel, ?_, rfl⟩
    simp only [schemaNames, List.mem_append, List.mem_map, List.mem_filter, decide_eq_true_eq]
    exact .inl (.inr ⟨cell, ⟨hl _ _ _ _ hu hleaf, hk⟩, rfl⟩)

/-- All the references resolve exactly when the names of all the types with name that are mentioned
are names of schemas. -/
theorem c54_resolve_iff (v : VersionView) (fuel errors : Nat) (ts : List Tok)
    (h : generateSpec v fuel errors = .done (.written ts)) (doc : Json) (hd : ts = doc.tokens) :
    ∃ root ps entries, v.root = some root ∧
      paths v.graph fuel v.root = .done ps ∧ PathEntries v ps entries ∧
      ((∀ r, HasRef doc r → Resolves doc r) ↔
        ∀ id cell, Uses v root (entries.map Prod.snd) id → Leaf v id cell →
          cell.name.camel ∈ schemaNames v) := by
  obtain ⟨root, ps, entries, hroot, hps, he, hrefs, hres⟩ := c54_references v fuel errors ts h doc hd
  refine ⟨root, ps, entries, hroot, hps, he, ?_, ?_⟩
  · intro hall id cell hu hleaf
    obtain ⟨k, hk, e⟩ := (hres _).1 (hall _ ((hrefs _).2 (.inr (.inr ⟨id, cell, hu, hleaf, rfl⟩))))
    rw [List.append_cancel_left_eq] at e
    rw [e]; exact hk
  · intro hall r hr
    rw [hres]
    rcases (hrefs r).1 hr with rfl | rfl | ⟨id, cell, hu, hleaf, rfl⟩
    · exact ⟨t!"Metadata", by simp [schemaNames], rfl⟩
    · exact ⟨t!"Error", by simp [schemaNames], rfl⟩
    · exact ⟨_, hall id cell hu hleaf, rfl⟩

/-! The version of the example meets the hypotheses. -/

example : ∀ root paths id cell, Uses exApi root paths id → Leaf exApi id cell →
    cell ∈ exApi.types := by
  intro root paths id cell hu hleaf
  clear hu
  have hall : ∀ c ∈ exApi.heap, c.kind = .enum ∨ c.kind = .class ∨ c.kind = .struct →
      c ∈ exApi.types := by decide
  induction hleaf with
  | named hn hk => exact hall _ (List.mem_of_getElem? hn.1) hk
  | element _ _ _ _ ih => exact ih

/-- The version of the example, where clusters have also an attribute whose type is a class of another
version. -/
def exApiForeign : VersionView :=
  { exApi with
    heap := exApi.heap.modify 15 (fun c =>
        { c with attributes := c.attributes ++ [{ name := plainName [t!"account"], typ := 17 }] })
      ++ [{ name := plainName [t!"account"], kind := .class, owner := some 1 }]
    tables := fun id =>
      if id = 0 then exApiTypes.types else [((plainName [t!"account"]).toText, 17)] }

/-- The condition is necessary: references to types of other versions, like those of the attributes
that link to other services, don't resolve. -/
theorem c54_foreign_refuted : ∃ v fuel ts, generateSpec v fuel 0 = .done (.written ts) ∧
    ∀ doc : Json, ts = doc.tokens → ¬ ∀ r, HasRef doc r → Resolves doc r := by
  have hw : ∃ ts, generateSpec exApiForeign 10 0 = .done (.written ts) := ⟨_, rfl⟩
  obtain ⟨ts, hw⟩ := hw
  refine ⟨exApiForeign, 10, ts, hw, fun doc hd hall => ?_⟩
  obtain ⟨root, ps, entries, hroot, hps, he, hiff⟩ := c54_resolve_iff exApiForeign 10 0 ts hw doc hd
  have hm : ∃ t ∈ exApiForeign.types, t.kind = .class ∧ ∃ a ∈ t.attributes, a.typ = 17 := by decide
  obtain ⟨t, ht, hk, a, ha, hat⟩ := hm
  have hu : Uses exApiForeign root (entries.map Prod.snd) 17 := hat ▸ .property ht (.inl hk) ha
  have hleaf : Leaf exApiForeign 17
      { name := plainName [t!"account"], kind := .class, owner := some 1 } :=
    .named ⟨rfl, 1, rfl, by decide⟩ (.inr (.inl rfl))
  exact absurd (hiff.1 hall 17 _ hu hleaf) (by decide)

/-! ## C55 -/

/-- C55, if the segments don't contain slashes, and those of constants don't look like variables. -/
theorem c55_parameters_partial (v : VersionView) (fuel errors : Nat) (ts : List Tok)
    (h : generateSpec v fuel errors = .done (.written ts)) (hp : PlainSegments v)
    (doc : Json) (hd : ts = doc.tokens) (path verb : Text) (op : Json)
    (hop : Operation doc path verb op) : pathParameterNames op = templateVariables path := by
  obtain ⟨_, root, ps, entries, schema, hroot, hps, he, hs, rfl⟩ := c68_document v fuel errors ts h
  obtain rfl := c68_tokens_determine _ _ hd
  have seg : ∀ r m, m ∈ v.graph.methods r → ∀ s ∈ (if Binding.methodSegment m = [] then []
      else [Binding.methodSegment m]), ConstantPart s := by
    intro r m hm s hsm
    split at hsm
    · simp at hsm
    · rw [List.mem_singleton.1 hsm]; exact hp.methods r m hm
  rcases document_operation hop with ⟨rfl, ms, hms, hop⟩ | ⟨m, hm, rfl, rfl⟩ | ⟨e, hee, m, hm, rfl, rfl⟩
  · have ht := templateVariables_key hp (path := []) (by simp) [] (by simp)
    rw [show absolute [] = ([] : Text) from rfl, List.append_nil] at ht
    rw [ht]
    rw [metadataItem, Json.obj.injEq] at hms
    subst hms
    simp only [List.mem_singleton, Prod.mk.injEq] at hop
    obtain ⟨_, rfl⟩ := hop
    rfl
  · rw [operation_pathParameters, templateVariables_key hp (by simp) _ (seg root m hm)]
  · obtain ⟨before, after, hsplit, hkey, _⟩ := he.last e hee
    rw [hkey, operation_pathParameters, templateVariables_key hp]
    · exact paths_locators hps e.2 (by rw [hsplit]; simp)
    · unfold methodsAt at hm
      cases hl : e.2.getLast? with
      | none => simp [hl] at hm
      | some l =>
        cases ht : l.target with
        | none => simp [hl, ht] at hm
        | some r =>
          simp only [hl, ht] at hm
          exact seg r m hm

/-! The version of the example meets the hypotheses. -/

theorem exApi_plain : PlainSegments exApi where
  service := by constructor <;> decide
  version := by constructor <;> decide
  locators := by
    intro r l hl
    match r, hl with
    | 0, hl =>
      rw [List.mem_singleton.1 hl]
      exact ⟨by decide, fun _ => by constructor <;> decide⟩
    | 1, hl =>
      rw [List.mem_singleton.1 hl]
      exact ⟨by decide, fun h => by cases h⟩
    | 2, hl => cases hl
    | r + 3, hl => cases hl
  methods := by
    intro r m hm
    match r, hm with
    | 0, hm => cases hm
    | 1, hm =>
      rcases List.mem_cons.1 hm with rfl | hm
      · constructor <;> decide
      · rw [List.mem_singleton.1 hm]
        constructor <;> decide
    | 2, hm =>
      rw [List.mem_singleton.1 hm]
      constructor <;> decide
    | r + 3, hm => cases hm

/-- Every method of the resources that the paths lead to has an operation, whose path parameters are
the variables of the path. -/
theorem c55_operations (v : VersionView) (fuel errors : Nat) (ts : List Tok)
    (h : generateSpec v fuel errors = .done (.written ts)) (doc : Json) (hd : ts = doc.tokens) :
    ∃ ps entries, paths v.graph fuel v.root = .done ps ∧ PathEntries v ps entries ∧
      ∀ e ∈ entries, ∀ m ∈ methodsAt v e.2, ∃ op,
        Operation doc (e.1 ++ (if Binding.methodSegment m = [] then [] else
          '/' :: Binding.methodSegment m)) ((Binding.method m).map Char.toLower) op ∧
        pathParameterNames op =
          (e.2.filter fun l => l.isVariable).map fun l => Binding.locatorSegment l ++ t!"_id" := by
  obtain ⟨_, root, ps, entries, schema, hroot, hps, he, hs, rfl⟩ := c68_document v fuel errors ts h
  obtain rfl := c68_tokens_determine _ _ hd
  refine ⟨ps, entries, hps, he, fun e hee m hm => ⟨operation schema e.2 m, ?_, operation_pathParameters⟩⟩
  refine ⟨.obj (pathItems schema v root entries), ?_⟩
  have hin : ∀ item, item ∈ resourceItems schema e.1 e.2 (methodsAt v e.2) →
      item ∈ pathItems schema v root entries := fun item hi =>
    List.mem_append.2 (.inr (List.mem_flatMap.2 ⟨e, hee, hi⟩))
  by_cases hseg : Binding.methodSegment m = []
  · rw [if_pos hseg, List.append_nil]
    have hne : (methodsAt v e.2).filter (fun m => Binding.methodSegment m = []) ≠ [] := by
      intro h0
      have : m ∈ (methodsAt v e.2).filter (fun m => Binding.methodSegment m = []) :=
        List.mem_filter.2 ⟨hm, by simpa using hseg⟩
      rw [h0] at this
      cases this
    refine ⟨.obj (((methodsAt v e.2).filter fun m => Binding.methodSegment m = []).map fun m =>
      ((Binding.method m).map Char.toLower, operation schema e.2 m)), ⟨_, rfl, by simp⟩,
      ⟨_, rfl, hin _ (List.mem_append.2 (.inl ?_))⟩, ⟨_, rfl, ?_⟩⟩
    · rw [if_neg hne]
      exact List.mem_singleton.2 rfl
    · exact List.mem_map.2 ⟨m, List.mem_filter.2 ⟨hm, by simpa using hseg⟩, rfl⟩
  · rw [if_neg hseg]
    refine ⟨.obj [((Binding.method m).map Char.toLower, operation schema e.2 m)],
      ⟨_, rfl, by simp⟩, ⟨_, rfl, hin _ (List.mem_append.2 (.inr ?_))⟩, ⟨_, rfl, ?_⟩⟩
    · exact List.mem_map.2 ⟨m, List.mem_filter.2 ⟨hm, by simpa using hseg⟩, rfl⟩
    · exact List.mem_singleton.2 rfl

/-- The version of the example, with a name for the locator of the clusters that looks like a
variable. -/
def exApiBraces : VersionView :=
  { exApi with
    graph := exApiGraph.modify 0 fun r =>
      { r with locators := r.locators.map fun l =>
          { l with annotations :=
              [{ name := t!"http", parameters := [(t!"name", .str t!"{region}")] }] } } }

/-- Its paths. -/
def exBracesPaths : List (List Locator) :=
  let clusters : Locator :=
    { name := plainName [t!"clusters"], owner := 0, target := some 1,
      annotations := [{ name := t!"http", parameters := [(t!"name", .str t!"{region}")] }] }
  let cluster : Locator :=
    { name := plainName [t!"cluster"], owner := 1, target := some 2, isVariable := true }
  [[clusters], [clusters, cluster]]

/-- The condition about the constant segments is necessary: the document has operations with variables
that aren't among their parameters. -/
theorem c55_constants_refuted : ∃ v fuel ts, generateSpec v fuel 0 = .done (.written ts) ∧
    ∀ doc : Json, ts = doc.tokens → ∃ path verb op, Operation doc path verb op ∧
      pathParameterNames op ≠ templateVariables path := by
  have hw : ∃ ts, generateSpec exApiBraces 10 0 = .done (.written ts) := ⟨_, rfl⟩
  obtain ⟨ts, hw⟩ := hw
  refine ⟨exApiBraces, 10, ts, hw, fun doc hd => ?_⟩
  obtain ⟨ps, entries, hps, he, hop⟩ := c55_operations exApiBraces 10 0 ts hw doc hd
  have hps' : paths exApiBraces.graph 10 exApiBraces.root = .done exBracesPaths := by decide
  rw [hps', Run.done.injEq] at hps
  subst hps
  obtain rfl := c68_entries_unique _ _ _ _ he (entriesOf_spec _ _)
  have hm : ∃ e ∈ entriesOf exApiBraces exBracesPaths, ∃ m ∈ methodsAt exApiBraces e.2,
      ((e.2.filter fun l => l.isVariable).map fun l => Binding.locatorSegment l ++ t!"_id") ≠
        templateVariables (e.1 ++ (if Binding.methodSegment m = [] then [] else
          '/' :: Binding.methodSegment m)) := by decide
  obtain ⟨e, hee, m, hm, hne⟩ := hm
  obtain ⟨op, hop, hpar⟩ := hop e hee m hm
  exact ⟨_, _, op, hop, by rw [hpar]; exact hne⟩

/-! ## C56 -/

/-- C56, exactly when it is true: the paths have different keys, the methods of each resource can be
told apart, the types have different names, that aren't those of the metadata and error schemas, and
the properties of each type have different names. -/
theorem c56_unique_partial (v : VersionView) (fuel errors : Nat) (ts : List Tok)
    (h : generateSpec v fuel errors = .done (.written ts)) (doc : Json) (hd : ts = doc.tokens) :
    ∃ root ps entries, v.root = some root ∧
      paths v.graph fuel v.root = .done ps ∧ PathEntries v ps entries ∧
      (UniqueKeys doc ↔
        ((pathKeys v root entries).Nodup ∧ DistinctMethods (v.graph.methods root) ∧
          ∀ e ∈ entries, DistinctMethods (methodsAt v e.2)) ∧
        (schemaNames v).Nodup ∧ ∀ t ∈ v.types, DistinctProperties t) := by
  obtain ⟨_, root, ps, entries, schema, hroot, hps, he, hs, rfl⟩ := c68_document v fuel errors ts h
  obtain rfl := c68_tokens_determine _ _ hd
  exact ⟨root, ps, entries, hroot, hps, he, document_unique hs⟩

/-! The document of the example has no repeated keys. -/

/-- The paths of the example. -/
def exApiPaths : List (List Locator) :=
  let clusters : Locator := { name := plainName [t!"clusters"], owner := 0, target := some 1 }
  let cluster : Locator :=
    { name := plainName [t!"cluster"], owner := 1, target := some 2, isVariable := true }
  [[clusters], [clusters, cluster]]

instance (methods : List Method) : Decidable (DistinctMethods methods) := by
  unfold DistinctMethods; infer_instance

instance (t : TypeCell) : Decidable (DistinctProperties t) := by
  unfold DistinctProperties; infer_instance

example (ts : List Tok) (h : generateSpec exApi 10 0 = .done (.written ts)) (doc : Json)
    (hd : ts = doc.tokens) : UniqueKeys doc := by
  obtain ⟨root, ps, entries, hroot, hps, he, hiff⟩ := c56_unique_partial exApi 10 0 ts h doc hd
  cases hroot
  have hps' : paths exApi.graph 10 exApi.root = .done exApiPaths := by decide
  rw [hps', Run.done.injEq] at hps
  subst hps
  obtain rfl := c68_entries_unique _ _ _ _ he (entriesOf_spec _ _)
  exact hiff.2 (by decide)

/-- The document repeats the path of the version if the root has a method without segment: it is also
the path of the metadata. -/
theorem c56_root_refuted (v : VersionView) (fuel errors : Nat) (ts : List Tok)
    (h : generateSpec v fuel errors = .done (.written ts)) (doc : Json) (hd : ts = doc.tokens)
    (root : ResId) (hroot : v.root = some root) (m : Method) (hm : m ∈ v.graph.methods root)
    (hs : m.isAction = false) : ¬ UniqueKeys doc := by
  obtain ⟨root', ps, entries, hroot', hps, he, hiff⟩ := c56_unique_partial v fuel errors ts h doc hd
  obtain rfl : root = root' := by rw [hroot] at hroot'; exact Option.some.inj hroot'
  intro hu
  have hn := (hiff.1 hu).1.1
  have hex : ∃ m ∈ v.graph.methods root, Binding.methodSegment m = [] :=
    ⟨m, hm, by simp [Binding.methodSegment, hs]⟩
  simp [pathKeys, resourceKeys, if_pos hex] at hn

/-- The document repeats a verb if a resource at the end of a path has two methods, that aren't
actions, with the same verb: for example, to get the object and to list the collection. -/
theorem c56_verbs_refuted (v : VersionView) (fuel errors : Nat) (ts : List Tok)
    (h : generateSpec v fuel errors = .done (.written ts)) (doc : Json) (hd : ts = doc.tokens)
    (ps : List (List Locator)) (hps : paths v.graph fuel v.root = .done ps) (path : List Locator)
    (hp : path ∈ ps) (ho : ∀ other ∈ ps, pathKey v other = pathKey v path → other = path)
    (before between after : List Method) (a b : Method)
    (hm : methodsAt v path = before ++ a :: between ++ b :: after)
    (ha : a.isAction = false) (hb : b.isAction = false)
    (hab : Binding.method a = Binding.method b) : ¬ UniqueKeys doc := by
  obtain ⟨root, ps', entries, hroot, hps', he, hiff⟩ := c56_unique_partial v fuel errors ts h doc hd
  obtain rfl : ps = ps' := by rw [hps] at hps'; exact Run.done.inj hps'
  intro hu
  obtain ⟨e, hee, hek⟩ := he.complete path hp
  obtain ⟨b', a', hsplit, hkey, _⟩ := he.last e hee
  have hep : e.2 = path := ho e.2 (by rw [hsplit]; simp) (hkey.symm.trans hek)
  have hn := ((hiff.1 hu).1.2.2 e hee).1
  rw [hep, hm] at hn
  simp [Binding.methodSegment, ha, hb, List.nodup_append, hab] at hn

/-- The document repeats a schema if the version has an enumerated or struct type named `Metadata` or
`Error`. -/
theorem c56_schemas_refuted (v : VersionView) (fuel errors : Nat) (ts : List Tok)
    (h : generateSpec v fuel errors = .done (.written ts)) (doc : Json) (hd : ts = doc.tokens)
    (t : TypeCell) (ht : t ∈ v.types) (hk : t.kind = .enum ∨ t.kind = .class ∨ t.kind = .struct)
    (hn : t.name.camel = t!"Metadata" ∨ t.name.camel = t!"Error") : ¬ UniqueKeys doc := by
  obtain ⟨root, ps, entries, hroot, hps, he, hiff⟩ := c56_unique_partial v fuel errors ts h doc hd
  intro hu
  have hnd := (hiff.1 hu).2.1
  unfold schemaNames at hnd
  have hmem : t.name.camel ∈ (v.types.filter fun t => t.kind = .enum ∨ t.kind = .class ∨
      t.kind = .struct).map (fun t => t.name.camel) :=
    List.mem_map.2 ⟨t, List.mem_filter.2 ⟨ht, by simpa using hk⟩, rfl⟩
  rw [List.nodup_append, List.nodup_append] at hnd
  rcases hn with hn | hn
  · exact hnd.1.2.2 _ (List.mem_singleton.2 rfl) _ hmem hn.symm
  · exact hnd.2.2 _ (List.mem_append.2 (.inr hmem)) _ (List.mem_singleton.2 rfl) hn

/-! A version that meets the hypotheses of the last three theorems: the one of the example with a
method in the root, two methods with the same verb in the collection, and a class for errors. -/

/-- The version of the example, with a method to get the root, another to get the collection of
clusters, and a class named `Error`. -/
def exApiRepeated : VersionView :=
  { exApi with
    heap := exApi.heap ++ [{ name := plainName [t!"error"], kind := .class, owner := some 0 }]
    tables := fun _ => exApiTypes.types ++ [(t!"error", 17)]
    graph := (exApiGraph.modify 0 fun r => { r with methods := [{ name := Nom.get }] }).modify 1
      fun r => { r with methods := { name := Nom.get } :: r.methods } }

example : (∃ ts, generateSpec exApiRepeated 10 0 = .done (.written ts)) ∧
    (∃ m ∈ exApiRepeated.graph.methods 0, m.isAction = false) ∧
    (∃ t ∈ exApiRepeated.types, t.kind = .class ∧ t.name.camel = t!"Error") ∧
    paths exApiRepeated.graph 10 exApiRepeated.root = .done exApiPaths ∧
    (∀ other ∈ exApiPaths, pathKey exApiRepeated other = pathKey exApiRepeated (exApiPaths.headD []) →
      other = exApiPaths.headD []) ∧
    ∃ a b after, methodsAt exApiRepeated (exApiPaths.headD []) = [] ++ a :: [] ++ b :: after ∧
      a.isAction = false ∧ b.isAction = false ∧ Binding.method a = Binding.method b :=
  ⟨⟨_, rfl⟩, by decide, by decide, by decide, by decide,
    ⟨_, _, _, rfl, by decide, by decide, by decide⟩⟩

end Verif
