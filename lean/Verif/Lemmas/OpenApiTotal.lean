import Verif.Lemmas.OpenApiPaths
import Verif.Lemmas.Resources

/-! Lemmas about when the OpenAPI generator finishes without errors. -/

namespace Verif

namespace OpenApi

/-- With enough fuel the calls are generated, and don't report errors. -/
def Eventually (f : Nat → Run (List Call)) : Prop :=
  ∃ n, ∀ fuel, n ≤ fuel → ∃ calls, f fuel = .done calls ∧ reports calls = 0

theorem Eventually.bind {f : Nat → Run (List Call)} {k : List Call → Run (List Call)}
    (h : Eventually f)
    (hk : ∀ calls, reports calls = 0 → ∃ r, k calls = .done r ∧ reports r = 0) :
    Eventually fun fuel => (f fuel).bind k := by
  obtain ⟨n, hn⟩ := h
  refine ⟨n, fun fuel hf => ?_⟩
  obtain ⟨c, hc, hr⟩ := hn fuel hf
  obtain ⟨r, hr1, hr2⟩ := hk c hr
  exact ⟨r, by simp only [hc, Run.bind]; exact hr1, hr2⟩

theorem Eventually.bind' {f : Nat → Run (List Call)} {k : Nat → List Call → Run (List Call)}
    (h : Eventually f)
    (hk : ∃ n, ∀ fuel, n ≤ fuel → ∀ calls, reports calls = 0 →
      ∃ r, k fuel calls = .done r ∧ reports r = 0) :
    Eventually fun fuel => (f fuel).bind (k fuel) := by
  obtain ⟨n, hn⟩ := h
  obtain ⟨m, hm⟩ := hk
  refine ⟨max n m, fun fuel hf => ?_⟩
  obtain ⟨c, hc, hr⟩ := hn fuel (by omega)
  obtain ⟨r, hr1, hr2⟩ := hm fuel (by omega) c hr
  exact ⟨r, by simp only [hc, Run.bind]; exact hr1, hr2⟩

theorem Eventually.const {calls : List Call} (h : reports calls = 0) :
    Eventually fun _ => .done calls := ⟨0, fun _ _ => ⟨calls, rfl, h⟩⟩

theorem Eventually.forEach {α : Type} {f : Nat → α → Run (List Call)} : ∀ (xs : List α),
    (∀ x ∈ xs, Eventually fun fuel => f fuel x) → Eventually fun fuel => Verif.forEach (f fuel) xs
  | [], _ => Eventually.const (by simp [reports])
  | x :: xs, h => by
    obtain ⟨n, hn⟩ := h x List.mem_cons_self
    obtain ⟨m, hm⟩ := Eventually.forEach xs fun y hy => h y (List.mem_cons_of_mem _ hy)
    refine ⟨max n m, fun fuel hf => ?_⟩
    obtain ⟨a, ha, hra⟩ := hn fuel (by omega)
    obtain ⟨b, hb, hrb⟩ := hm fuel (by omega)
    refine ⟨a ++ b, ?_, by rw [reports_append]; omega⟩
    simp only at ha hb
    simp only [Verif.forEach, ha, hb, Run.bind]

section

variable {v : VersionView}

/-- The calls that aren't reports. -/
macro "no_reports" "[" ts:Lean.Parser.Tactic.simpLemma,* "]" : tactic =>
  `(tactic| simp [reports_append, reports_description, reports, $ts,*])

theorem generateSchemaReference_eventually {id : TypeId} {ms : List (Text × Json)}
    (h : SchemaRef v id ms) : Eventually fun fuel => generateSchemaReference v fuel (some id) := by
  induction h with
  | @builtin id name members hm hb =>
    obtain ⟨cell, owner, hc, ho, hf⟩ := hb
    refine ⟨1, fun fuel hfuel => ?_⟩
    obtain ⟨fuel, rfl⟩ := Nat.exists_eq_add_of_le' hfuel
    simp only [generateSchemaReference, hc, ho]
    by_cases h1 : v.builtin owner Nom.boolean = some id
    · exact ⟨_, by rw [if_pos h1], rfl⟩
    by_cases h2 : v.builtin owner Nom.integer = some id
    · exact ⟨_, by rw [if_neg h1, if_pos h2], rfl⟩
    by_cases h3 : v.builtin owner Nom.long = some id
    · exact ⟨_, by rw [if_neg h1, if_neg h2, if_pos h3], rfl⟩
    by_cases h4 : v.builtin owner Nom.float = some id
    · exact ⟨_, by rw [if_neg h1, if_neg h2, if_neg h3, if_pos h4], rfl⟩
    by_cases h5 : v.builtin owner Nom.string = some id
    · exact ⟨_, by rw [if_neg h1, if_neg h2, if_neg h3, if_neg h4, if_pos h5], rfl⟩
    by_cases h6 : v.builtin owner Nom.date = some id
    · exact ⟨_, by rw [if_neg h1, if_neg h2, if_neg h3, if_neg h4, if_neg h5, if_pos h6], rfl⟩
    by_cases h7 : v.builtin owner Nom.interface = some id
    · exact ⟨_, by rw [if_neg h1, if_neg h2, if_neg h3, if_neg h4, if_neg h5, if_neg h6, if_pos h7],
        rfl⟩
    exfalso
    simp only [builtinSchemas, List.mem_cons, Prod.mk.injEq, List.not_mem_nil, or_false] at hm
    rcases hm with ⟨rfl, _⟩ | ⟨rfl, _⟩ | ⟨rfl, _⟩ | ⟨rfl, _⟩ | ⟨rfl, _⟩ | ⟨rfl, _⟩ | ⟨rfl, _⟩
    · exact h1 hf
    · exact h2 hf
    · exact h3 hf
    · exact h4 hf
    · exact h5 hf
    · exact h6 hf
    · exact h7 hf
  | @named id cell hnot hk =>
    obtain ⟨hc, owner, ho, hnot⟩ := hnot
    refine ⟨1, fun fuel hfuel => ?_⟩
    obtain ⟨fuel, rfl⟩ := Nat.exists_eq_add_of_le' hfuel
    simp only [generateSchemaReference, hc, ho]
    have hb : ∀ b ∈ builtinSchemas, ¬ v.builtin owner b.1 = some id := hnot
    simp only [builtinSchemas, List.forall_mem_cons] at hb
    have h1 : ¬ v.builtin owner Nom.boolean = some id := hb.1
    have h2 : ¬ v.builtin owner Nom.integer = some id := hb.2.1
    have h3 : ¬ v.builtin owner Nom.long = some id := hb.2.2.1
    have h4 : ¬ v.builtin owner Nom.float = some id := hb.2.2.2.1
    have h5 : ¬ v.builtin owner Nom.string = some id := hb.2.2.2.2.1
    have h6 : ¬ v.builtin owner Nom.date = some id := hb.2.2.2.2.2.1
    have h7 : ¬ v.builtin owner Nom.interface = some id := hb.2.2.2.2.2.2.1
    have hk : (cell.isEnum || cell.kind.isStruct) = true := by
      simpa [TypeCell.isEnum, Kind.isStruct] using hk
    exact ⟨_, by rw [if_neg h1, if_neg h2, if_neg h3, if_neg h4, if_neg h5, if_neg h6, if_neg h7,
      if_pos hk], rfl⟩
  | @list id cell element members hnot hk hel _ ih =>
    obtain ⟨n, ih⟩ := ih
    obtain ⟨hc, owner, ho, hnot⟩ := hnot
    refine ⟨n + 1, fun fuel hfuel => ?_⟩
    obtain ⟨fuel, rfl⟩ : ∃ k, fuel = k + 1 := ⟨fuel - 1, by omega⟩
    obtain ⟨calls, hcalls, hr⟩ := ih fuel (by omega)
    simp only at hcalls
    simp only [generateSchemaReference, hc, ho]
    have hb : ∀ b ∈ builtinSchemas, ¬ v.builtin owner b.1 = some id := hnot
    simp only [builtinSchemas, List.forall_mem_cons] at hb
    have h1 : ¬ v.builtin owner Nom.boolean = some id := hb.1
    have h2 : ¬ v.builtin owner Nom.integer = some id := hb.2.1
    have h3 : ¬ v.builtin owner Nom.long = some id := hb.2.2.1
    have h4 : ¬ v.builtin owner Nom.float = some id := hb.2.2.2.1
    have h5 : ¬ v.builtin owner Nom.string = some id := hb.2.2.2.2.1
    have h6 : ¬ v.builtin owner Nom.date = some id := hb.2.2.2.2.2.1
    have h7 : ¬ v.builtin owner Nom.interface = some id := hb.2.2.2.2.2.2.1
    have hk1 : ¬ (cell.isEnum || cell.kind.isStruct) = true := by
      simp [TypeCell.isEnum, Kind.isStruct, hk]
    have hk2 : cell.isList = true := by simp [TypeCell.isList, hk]
    refine ⟨_, by rw [if_neg h1, if_neg h2, if_neg h3, if_neg h4, if_neg h5, if_neg h6, if_neg h7,
      if_neg hk1, if_pos hk2, hel, hcalls]; rfl, ?_⟩
    rw [reports_append, reports_append, hr]; rfl
  | @map id cell element members hnot hk hel _ ih =>
    obtain ⟨n, ih⟩ := ih
    obtain ⟨hc, owner, ho, hnot⟩ := hnot
    refine ⟨n + 1, fun fuel hfuel => ?_⟩
    obtain ⟨fuel, rfl⟩ : ∃ k, fuel = k + 1 := ⟨fuel - 1, by omega⟩
    obtain ⟨calls, hcalls, hr⟩ := ih fuel (by omega)
    simp only at hcalls
    simp only [generateSchemaReference, hc, ho]
    have hb : ∀ b ∈ builtinSchemas, ¬ v.builtin owner b.1 = some id := hnot
    simp only [builtinSchemas, List.forall_mem_cons] at hb
    have h1 : ¬ v.builtin owner Nom.boolean = some id := hb.1
    have h2 : ¬ v.builtin owner Nom.integer = some id := hb.2.1
    have h3 : ¬ v.builtin owner Nom.long = some id := hb.2.2.1
    have h4 : ¬ v.builtin owner Nom.float = some id := hb.2.2.2.1
    have h5 : ¬ v.builtin owner Nom.string = some id := hb.2.2.2.2.1
    have h6 : ¬ v.builtin owner Nom.date = some id := hb.2.2.2.2.2.1
    have h7 : ¬ v.builtin owner Nom.interface = some id := hb.2.2.2.2.2.2.1
    have hk1 : ¬ (cell.isEnum || cell.kind.isStruct) = true := by
      simp [TypeCell.isEnum, Kind.isStruct, hk]
    have hk2 : ¬ cell.isList = true := by simp [TypeCell.isList, hk]
    have hk3 : cell.isMap = true := by simp [TypeCell.isMap, hk]
    refine ⟨_, by rw [if_neg h1, if_neg h2, if_neg h3, if_neg h4, if_neg h5, if_neg h6, if_neg h7,
      if_neg hk1, if_neg hk2, if_pos hk3, hel, hcalls]; rfl, ?_⟩
    rw [reports_append, reports_append, hr]; rfl

/-- The type can be described. -/
def Described (v : VersionView) (id : TypeId) : Prop := ∃ ms, SchemaRef v id ms

theorem Described.eventually {id : TypeId} (h : Described v id) :
    Eventually fun fuel => generateSchemaReference v fuel (some id) := by
  obtain ⟨ms, h⟩ := h
  exact generateSchemaReference_eventually h

theorem generateParameterProperty_eventually {p : Parameter} (h : Described v p.typ.id) :
    Eventually fun fuel => generateParameterProperty v fuel p :=
  h.eventually.bind fun c hc => ⟨_, rfl, by
    rw [reports_append, reports_append, reports_append, reports_description, hc]; rfl⟩

theorem generateParametersSchema_eventually {m : Method} {ps : List Parameter} (hne : ps ≠ [])
    (h : ∀ p ∈ ps, Described v p.typ.id) :
    Eventually fun fuel => generateParametersSchema v fuel m ps := by
  cases ps with
  | nil => exact absurd rfl hne
  | cons p ps =>
    simp only [generateParametersSchema]
    split
    · exact (Eventually.forEach (f := fun fuel => generateParameterProperty v fuel) (p :: ps)
        fun q hq => generateParameterProperty_eventually (h q hq)).bind
        fun c hc => ⟨_, rfl, by rw [reports_append, reports_append, hc]; rfl⟩
    · exact (h p List.mem_cons_self).eventually

theorem reports_pathParameters : ∀ ls : List Locator,
    reports (ls.flatMap generatePathParameter) = 0
  | [] => rfl
  | l :: ls => by
    rw [List.flatMap_cons, reports_append, reports_pathParameters ls]; rfl

theorem generateURLParameters_eventually {path : List Locator} {m : Method}
    (h : ∀ p ∈ Binding.requestQueryParameters m, Described v p.typ.id) :
    Eventually fun fuel => generateURLParameters v fuel path m := by
  simp only [generateURLParameters]
  split
  · refine (Eventually.forEach (f := fun fuel => generateQueryParameter v fuel)
      (Binding.requestQueryParameters m) fun q hq => ?_).bind
      fun c hc => ⟨_, rfl, by
        rw [reports_append, reports_append, reports_append, reports_pathParameters, hc]; rfl⟩
    exact (h q hq).eventually.bind fun c hc => ⟨_, rfl, by
      rw [reports_append, reports_append, reports_append, reports_append, reports_description, hc]
      rfl⟩
  · exact Eventually.const rfl

theorem generateDefaultResponse_reports : reports generateDefaultResponse = 0 := by
  unfold generateDefaultResponse
  rw [reports_append, reports_append, reports_description]; rfl

theorem generateResponses_eventually {m : Method}
    (h : ∀ p ∈ Binding.responseParameters m, Described v p.typ.id) :
    Eventually fun fuel => generateResponses v fuel m := by
  simp only [generateResponses]
  refine Eventually.bind ?_ fun c hc => ⟨_, rfl, by
    simp only [reports_append, reports_description, hc, generateDefaultResponse_reports]; rfl⟩
  split
  · rename_i hpos
    exact (generateParametersSchema_eventually (List.length_pos_iff.1 hpos) h).bind
      fun c hc => ⟨_, rfl, by rw [reports_append, reports_append, hc]; rfl⟩
  · exact Eventually.const rfl

theorem generateRequestBody_eventually {m : Method}
    (h : ∀ p ∈ Binding.requestBodyParameters m, Described v p.typ.id) :
    Eventually fun fuel => generateRequestBody v fuel m := by
  simp only [generateRequestBody]
  split
  · rename_i hpos
    exact (generateParametersSchema_eventually (List.length_pos_iff.1 hpos) h).bind
      fun c hc => ⟨_, rfl, by rw [reports_append, reports_append, hc]; rfl⟩
  · exact Eventually.const rfl

/-- The parameters that are used can be described. -/
def DescribedMethod (v : VersionView) (m : Method) : Prop :=
  ∀ p ∈ m.parameters, (p.isIn ∨ p.isOut) → Described v p.typ.id

theorem generateMethod_eventually {path : List Locator} {m : Method} (h : DescribedMethod v m) :
    Eventually fun fuel => generateMethod v fuel path m := by
  obtain ⟨a, ha⟩ := generateURLParameters_eventually (v := v) (path := path) (m := m) (by
    intro p hp
    unfold Binding.requestQueryParameters at hp
    split at hp
    · simp only [List.mem_filter, Bool.and_eq_true] at hp
      exact h p hp.1 (.inl hp.2.1)
    · simp at hp)
  obtain ⟨b, hb⟩ := generateRequestBody_eventually (v := v) (m := m) (by
    intro p hp
    unfold Binding.requestBodyParameters at hp
    split at hp
    · simp only [List.mem_filter] at hp
      exact h p hp.1 (.inl hp.2)
    · simp only [List.mem_filter, Bool.and_eq_true] at hp
      exact h p hp.1 (.inl hp.2.1))
  obtain ⟨c, hc⟩ := generateResponses_eventually (v := v) (m := m) (by
    intro p hp
    unfold Binding.responseParameters at hp
    simp only [List.mem_filter] at hp
    exact h p hp.1 (.inr hp.2))
  refine ⟨max a (max b c), fun fuel hf => ?_⟩
  obtain ⟨x, hx, hxr⟩ := ha fuel (by omega)
  obtain ⟨y, hy, hyr⟩ := hb fuel (by omega)
  obtain ⟨z, hz, hzr⟩ := hc fuel (by omega)
  simp only at hx hy hz
  refine ⟨_, by simp only [generateMethod, hx, hy, hz, Run.bind]; rfl, ?_⟩
  simp only [reports_append, reports_description, hxr, hyr, hzr]; rfl

theorem generateResourcePaths_eventually {key : Text} {path : List Locator} {r : ResId}
    (h : ∀ m ∈ v.graph.methods r, DescribedMethod v m) :
    Eventually fun fuel => generateResourcePaths v fuel key path (some r) := by
  simp only [generateResourcePaths]
  have h2 : Eventually fun fuel => forEach (fun m =>
      (generateMethod v fuel path m).bind fun method =>
        .done ([.startObject (some (key ++ t!"/" ++ Binding.methodSegment m))] ++ method
          ++ [.endObject])) ((v.graph.methods r).filter fun m => Binding.methodSegment m ≠ []) := by
    refine Eventually.forEach (f := fun fuel m => (generateMethod v fuel path m).bind fun method =>
        .done ([.startObject (some (key ++ t!"/" ++ Binding.methodSegment m))] ++ method
          ++ [.endObject])) _ fun m hm => ?_
    exact (generateMethod_eventually (h m (List.mem_filter.1 hm).1)).bind
      fun c hc => ⟨_, rfl, by rw [reports_append, reports_append, hc]; rfl⟩
  have h1 : Eventually fun fuel =>
      if ((v.graph.methods r).filter fun m => Binding.methodSegment m = []).length > 0 then
        (forEach (generateMethod v fuel path)
          ((v.graph.methods r).filter fun m => Binding.methodSegment m = [])).bind fun methods =>
          .done ([.startObject (some key)] ++ methods ++ [.endObject])
      else .done [] := by
    split
    · exact (Eventually.forEach (f := fun fuel => generateMethod v fuel path) _
        fun m hm => generateMethod_eventually (h m (List.mem_filter.1 hm).1)).bind
        fun c hc => ⟨_, rfl, by rw [reports_append, reports_append, hc]; rfl⟩
    · exact Eventually.const rfl
  obtain ⟨a, ha⟩ := h1
  obtain ⟨b, hb⟩ := h2
  refine ⟨max a b, fun fuel hf => ?_⟩
  obtain ⟨x, hx, hxr⟩ := ha fuel (by omega)
  obtain ⟨y, hy, hyr⟩ := hb fuel (by omega)
  refine ⟨x ++ y, ?_, by rw [reports_append]; omega⟩
  simp only at hx hy
  simp only
  rw [hx]
  simp only [Run.bind] at hy ⊢
  rw [hy]

theorem pathsLoop_targets {g : Graph} : ∀ (fuel : Nat) (pending results ps : List (List Locator)),
    pathsLoop g fuel pending results = .done ps →
    (∀ p ∈ results, ∃ l t, p.getLast? = some l ∧ l.target = some t) →
    ∀ p ∈ ps, ∃ l t, p.getLast? = some l ∧ l.target = some t
  | fuel, [], results, ps, h, hr => by
    rw [pathsLoop] at h
    cases h
    exact hr
  | 0, _ :: _, results, ps, h, _ => by simp [pathsLoop] at h
  | fuel + 1, current :: pending, results, ps, h, hr => by
    rw [pathsLoop] at h
    cases hl : current.getLast? with
    | none => simp [hl] at h
    | some last =>
      cases ht : last.target with
      | none => simp [hl, ht] at h
      | some target =>
        simp only [hl, ht] at h
        refine pathsLoop_targets fuel _ _ ps h ?_
        intro p hp
        rcases List.mem_append.1 hp with hp | hp
        · exact hr p hp
        · rw [List.mem_singleton.1 hp]; exact ⟨last, target, hl, ht⟩

theorem generatePathEntry_eventually {ps : List (List Locator)} {key : Text}
    (hk : key ∈ (pathIndex v ps).keys)
    (ht : ∀ p ∈ ps, ∃ l t, p.getLast? = some l ∧ l.target = some t)
    (h : ∀ m ∈ methodsAt v (((pathIndex v ps).find key).getD []), DescribedMethod v m) :
    Eventually fun fuel => generatePathEntry v fuel (pathIndex v ps) key := by
  cases hf : (pathIndex v ps).find key with
  | none => exact absurd hk (GoMap.find_none.1 hf)
  | some p =>
    obtain ⟨before, after, hps, _, _⟩ := pathIndex_find v ps key p hf
    obtain ⟨l, t, hl, hlt⟩ := ht p (by rw [hps]; simp)
    simp only [generatePathEntry, hf, Option.getD_some, hl, hlt]
    refine generateResourcePaths_eventually ?_
    intro m hm
    refine h m ?_
    simpa [hf, methodsAt, hl, hlt] using hm

theorem paths_mono {g : Graph} {fuel more : Nat} {root : Option ResId} {ps : List (List Locator)}
    (h : paths g fuel root = .done ps) (hle : fuel ≤ more) : paths g more root = .done ps := by
  obtain ⟨n, rfl⟩ := Nat.exists_eq_add_of_le hle
  cases root with
  | none => simp [paths] at h
  | some r =>
    simp only [paths] at h ⊢
    exact pathsLoop_mono _ _ _ _ _ h

theorem generateMetadataPath_reports : reports (generateMetadataPath v) = 0 := by
  unfold generateMetadataPath
  simp only [reports_append, reports_description, generateDefaultResponse_reports]; rfl

theorem generatePaths_eventually {root : ResId} {fuel : Nat} {ps : List (List Locator)}
    (hroot : v.root = some root) (hps : paths v.graph fuel v.root = .done ps)
    (hr : ∀ m ∈ v.graph.methods root, DescribedMethod v m)
    (he : ∀ e ∈ entriesOf v ps, ∀ m ∈ methodsAt v e.2, DescribedMethod v m) :
    Eventually fun fuel => generatePaths v fuel := by
  have ht : ∀ p ∈ ps, ∃ l t, p.getLast? = some l ∧ l.target = some t := by
    rw [hroot] at hps
    exact pathsLoop_targets _ _ _ _ hps (by simp)
  have h1 := generateResourcePaths_eventually (v := v) (r := root)
    (key := absolutePath v.serviceSegment v.versionSegment []) (path := []) hr
  have h2 := Eventually.forEach (f := fun fuel => generatePathEntry v fuel (pathIndex v ps))
    (sortTexts (pathIndex v ps).keys) (by
      intro k hk
      exact generatePathEntry_eventually ((sortTexts_perm _).mem_iff.1 hk) ht
        (he (k, _) (List.mem_map.2 ⟨k, hk, rfl⟩)))
  obtain ⟨a, ha⟩ := h1
  obtain ⟨b, hb⟩ := h2
  refine ⟨max fuel (max a b), fun more hf => ?_⟩
  obtain ⟨x, hx, hxr⟩ := ha more (by omega)
  obtain ⟨y, hy, hyr⟩ := hb more (by omega)
  simp only at hx hy
  refine ⟨_, by
    simp only [generatePaths, paths_mono hps (show fuel ≤ more by omega), Run.bind]
    rw [hroot, hx]
    simp only
    rw [hy], ?_⟩
  simp only [reports_append, generateMetadataPath_reports, hxr, hyr]; rfl

theorem generateStringProperty_reports (name doc : Text) :
    reports (generateStringProperty name doc) = 0 := by
  unfold generateStringProperty
  rw [reports_append, reports_append, reports_description]; rfl

theorem generateEnumSchema_reports (t : TypeCell) : reports (generateEnumSchema t) = 0 := by
  unfold generateEnumSchema
  have : reports (t.values.map fun value => .item (.str (Binding.enumValueName value))) = 0 := by
    induction t.values with
    | nil => rfl
    | cons x xs ih => rw [List.map_cons, ← List.singleton_append, reports_append, ih]; rfl
  simp only [reports_append, reports_description, this]; rfl

theorem generateSchema_eventually {t : TypeCell}
    (h : t.kind = .class ∨ t.kind = .struct → ∀ a ∈ t.attributes, Described v a.typ) :
    Eventually fun fuel => generateSchema v fuel t := by
  unfold generateSchema
  split
  · exact Eventually.const (generateEnumSchema_reports t)
  · split
    · rename_i hk
      have hk : t.kind = .class ∨ t.kind = .struct := by simpa [Kind.isStruct] using hk
      refine (Eventually.forEach (f := fun fuel => generateStructProperty v fuel) t.attributes
        fun a ha => (h hk a ha).eventually.bind fun c hc => ⟨_, rfl, by
          simp only [reports_append, reports_description, hc]; rfl⟩).bind fun c hc => ⟨_, rfl, ?_⟩
      have : reports (if t.isClass then
          generateStringProperty t!"kind" (kindDescription (schemaName t)) ++
          generateStringProperty t!"id" t!"Unique identifier of the object." ++
          generateStringProperty t!"href" t!"Self link."
        else []) = 0 := by
        split
        · simp only [reports_append, generateStringProperty_reports]
        · rfl
      simp only [reports_append, reports_description, hc] at this ⊢
      rw [this]; rfl
    · exact Eventually.const rfl

theorem generateComponents_eventually
    (h : ∀ t ∈ v.types, t.kind = .class ∨ t.kind = .struct → ∀ a ∈ t.attributes,
      Described v a.typ) :
    Eventually fun fuel => generateComponents v fuel := by
  refine (Eventually.forEach (f := fun fuel => generateSchema v fuel) v.types
    fun t ht => generateSchema_eventually (h t ht)).bind fun c hc => ⟨_, rfl, ?_⟩
  have h1 : reports generateMetadataSchema = 0 := by
    unfold generateMetadataSchema
    simp only [reports_append, reports_description, generateStringProperty_reports]; rfl
  have h2 : reports generateErrorSchema = 0 := by
    unfold generateErrorSchema
    simp only [reports_append, reports_description, generateStringProperty_reports]; rfl
  simp only [reports_append, h1, h2, hc]; rfl

theorem generateSpecSource_eventually {root : ResId} {fuel : Nat} {ps : List (List Locator)}
    (hroot : v.root = some root) (hps : paths v.graph fuel v.root = .done ps)
    (hr : ∀ m ∈ v.graph.methods root, DescribedMethod v m)
    (he : ∀ e ∈ entriesOf v ps, ∀ m ∈ methodsAt v e.2, DescribedMethod v m)
    (h : ∀ t ∈ v.types, t.kind = .class ∨ t.kind = .struct → ∀ a ∈ t.attributes,
      Described v a.typ) :
    Eventually fun fuel => generateSpecSource v fuel := by
  obtain ⟨a, ha⟩ := generatePaths_eventually hroot hps hr he
  obtain ⟨b, hb⟩ := generateComponents_eventually h
  refine ⟨max a b, fun more hf => ?_⟩
  obtain ⟨x, hx, hxr⟩ := ha more (by omega)
  obtain ⟨y, hy, hyr⟩ := hb more (by omega)
  simp only at hx hy
  refine ⟨_, by
    simp only [generateSpecSource, hx, Run.bind]
    rw [hy], ?_⟩
  have h1 : reports (generateInfo v) = 0 := rfl
  simp only [reports_append, h1, hxr, hyr]; rfl

end

end OpenApi

end Verif
