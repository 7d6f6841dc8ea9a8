import Verif.Lemmas.ListTypes
import Verif.Model.Binding

/-!
# Properties C18 to C21, C23, C24 and C60: what the reader does with declarations

`Reader.fresh.decls ds` is the reader after the declarations `ds` of one version.
-/

namespace Verif

open Reader

/-- Some declarations used in the examples: a class with a list, a map, a link and a reference to
itself, an enumerated type, a structure, two resources and an error. -/
def exampleDecls : List Decl :=
  [ .class t!"Cluster" [] []
      [ { name := t!"Name", ref := .plain t!"String" },
        { name := t!"Groups", ref := .list t!"Group", link := true },
        { name := t!"Labels", ref := .map t!"String" t!"String" },
        { name := t!"State", ref := .plain t!"State" },
        { name := t!"Parent", ref := .plain t!"Cluster" } ],
    .enum t!"State" [] [] [{ name := t!"Ready" }, { name := t!"Error" }],
    .resource t!"Root" [] []
      [ .locator { name := t!"Clusters", members := [.target t!"Clusters"] } ],
    .struct t!"Group" [] [] [{ name := t!"Size", ref := .plain t!"Integer" }],
    .error t!"NotFound" t!"Not found." [] [t!"404"],
    .resource t!"Clusters" [] []
      [ .method
          { name := t!"List"
            parameters :=
              [ { name := t!"Page", ref := .plain t!"Integer", directions := [.input, .output] },
                { name := t!"Items", ref := .list t!"Cluster", directions := [.output] } ] },
        .locator
          { name := t!"Cluster", members := [.target t!"Clusters", .variableName t!"ID"] } ] ]

/-- Decidable form of the absence of clashes. -/
def noNameClashCheck (ds : List Decl) : Bool :=
  (derivedTypes ds).all (fun k => !(declaredTypes ds).contains k) &&
  (derivedTypes ds).all (fun k => builtinKeys.contains k || !(mentionedTypes ds).contains k) &&
  (refsOf ds).all fun e => (refsOf ds).all fun f =>
    !(e.isDerived && f.isDerived && e.key = f.key) || e.mentions = f.mentions

theorem noNameClash_of_check (ds : List Decl) (h : noNameClashCheck ds = true) : NoNameClash ds := by
  simp only [noNameClashCheck, Bool.and_eq_true, List.all_eq_true, Bool.or_eq_true,
    Bool.not_eq_true', List.contains_eq_mem, decide_eq_false_iff_not, decide_eq_true_eq] at h
  obtain ⟨⟨h1, h2⟩, h3⟩ := h
  refine ⟨h1, fun k hk hb => (h2 k hk).resolve_left hb, fun e he f hf h4 h5 h6 => ?_⟩
  rcases h3 e he f hf with h | h
  · simp [h4, h5, h6] at h
  · exact h

theorem example_wellNamed : WellNamed exampleDecls := by unfold WellNamed; decide

theorem example_noNameClash : NoNameClash exampleDecls := noNameClash_of_check _ (by decide)

/-! ## C18: names that aren't defined -/

/-- The types that remain undefined are exactly those that are mentioned but neither declared nor
built in. -/
theorem c18_undefined_types_partial (ds : List Decl) (h : WellNamed ds) (hc : NoNameClash ds)
    (k : Text) :
    ((fresh.decls ds).undefinedTypes.find k).isSome = true ↔
      k ∈ mentionedTypes ds ∧ k ∉ builtinKeys ∧ k ∉ declaredTypes ds :=
  after_undef ds h hc k

/-- The resources that remain undefined are exactly those that are the target of some locator but
aren't declared. -/
theorem c18_undefined_resources (ds : List Decl) (h : WellNamed ds) (k : Text) :
    ((fresh.decls ds).undefinedResources.find k).isSome = true ↔
      k ∈ mentionedResources ds ∧ k ∉ declaredResources ds :=
  after_rundef ds h k

/-- Even when there are clashes, if nothing remains undefined then every name that is used is built
in, or declared, or the name of a list or map that is used somewhere else; and every target is
declared. -/
theorem c18_used_is_declared (ds : List Decl) (h : WellNamed ds)
    (hp : (fresh.decls ds).reportUndefined.problems = []) :
    (∀ k ∈ mentionedTypes ds, k ∈ builtinKeys ∨ k ∈ declaredTypes ds ∨ k ∈ derivedTypes ds) ∧
    (∀ k ∈ mentionedResources ds, k ∈ declaredResources ds) := by
  obtain ⟨-, hu, hr⟩ := (reportUndefined_nil _).mp hp
  constructor
  · intro k hm
    have i := after_tinv ds h
    have hu' : (abs (after ds)).t.undef k = false := (gomap_nil_iff _).mp hu k
    obtain ⟨v, hv⟩ := Option.isSome_iff_exists.mp ((i.dom k).mpr (.inr (.inl hm)))
    rcases i.source k v hv with h1 | ⟨d, hd, h1⟩ | ⟨e, he, h1⟩ | h1
    · exact .inl ((fresh_keys k).mp (by rw [h1]; rfl))
    · right; left
      rw [← declared_keys 0]; exact List.mem_map.mpr ⟨d, hd, h1.1⟩
    · right; right; exact List.mem_map.mpr ⟨e, he, h1.1⟩
    · exact absurd (by rw [h1.1]; rfl) (i.kind k v hv hu')
  · intro k hm
    have := after_rundef ds h k
    by_cases hd : k ∈ declaredResources ds
    · exact hd
    · have h1 := this.mpr ⟨hm, hd⟩
      have h2 := (gomap_nil_iff _).mp hr k
      have e : (after ds).undefinedResources = (fresh.decls ds).undefinedResources := rfl
      rw [e, h2] at h1
      cases h1

/-- Pointers: the type of an attribute, the element of a list, the index of a map, the type of a
parameter, the target of a locator and the owner of a locator are always the object that the
version has with that name; and if no error was reported then the kinds of those types are known,
and those resources are declared. -/
theorem c18_pointers (ds : List Decl) (h : WellNamed ds) :
    let r := fresh.decls ds
    let Known (id : TypeId) : Prop := ∃ c, r.table.heap[id]? = some c ∧
      r.table.types.find c.name.toText = some id ∧
      (r.reportUndefined.problems = [] → c.kind ≠ .undefined)
    let RKnown (id : ResId) : Prop := ∃ c, r.graph[id]? = some c ∧
      r.resources.find c.name.toText = some id ∧
      (r.reportUndefined.problems = [] → c.name.toText ∈ declaredResources ds)
    (∀ k id, r.table.types.find k = some id → Known id) ∧
    (∀ c ∈ r.table.heap, (∀ a ∈ c.attributes, Known a.typ) ∧ (∀ e ∈ c.element, Known e) ∧
      (∀ e ∈ c.index, Known e)) ∧
    (∀ res ∈ r.graph, ∀ m ∈ res.methods, ∀ p ∈ m.parameters, Known p.typ.id) ∧
    (∀ k id, r.resources.find k = some id → ∃ c, r.graph[id]? = some c ∧ c.name.toText = k) ∧
    (∀ res ∈ r.graph, ∀ l ∈ res.locators, (∀ t ∈ l.target, RKnown t) ∧
      ∃ c, r.graph[l.owner]? = some c ∧ r.resources.find c.name.toText = some l.owner) := by
  intro r Known RKnown
  have wf : WF (· < 0) (· < 0) r := after_wf ds h
  have known : ∀ id, id < r.table.heap.length → Known id := by
    intro id hlt
    have hc : r.table.heap[id]? = some r.table.heap[id] := List.getElem?_eq_getElem hlt
    have hr := wf.reg id _ (Nat.not_lt_zero _) hc
    refine ⟨_, hc, hr, fun hp hk => ?_⟩
    obtain ⟨-, hu, -⟩ := (reportUndefined_nil _).mp hp
    have i := after_tinv ds h
    have hv : (abs (after ds)).t.types r.table.heap[id].name.toText =
        some (View.ofCell r.table.heap r.table.heap[id]) := by
      change r.typeView _ = _
      unfold Reader.typeView
      rw [hr, Option.bind_some, hc]
      rfl
    exact i.kind _ _ hv ((gomap_nil_iff _).mp hu _) hk
  have rknown : ∀ id, id < r.graph.length → ∃ c, r.graph[id]? = some c ∧
      r.resources.find c.name.toText = some id := by
    intro id hlt
    have hc : r.graph[id]? = some r.graph[id] := List.getElem?_eq_getElem hlt
    exact ⟨_, hc, wf.rreg id _ (Nat.not_lt_zero _) hc⟩
  refine ⟨?_, ?_, ?_, wf.rfind, ?_⟩
  · intro k id hf
    obtain ⟨c, hc, -⟩ := wf.find k id hf
    exact known id (List.getElem?_eq_some_iff.mp hc).1
  · intro c hc
    have hcl := wf.closed c hc
    exact ⟨fun a ha => known _ (hcl.attributes a ha), fun e he => known _ (hcl.element e he),
      fun e he => known _ (hcl.index e he)⟩
  · intro res hres m hm p hp
    exact known _ ((wf.rclosed res hres).methods m hm p hp)
  · intro res hres l hl
    have hcl := (wf.rclosed res hres).locators l hl
    refine ⟨fun t ht => ?_, rknown _ hcl.owner⟩
    obtain ⟨c, hc, hr⟩ := rknown t (hcl.target t ht)
    refine ⟨c, hc, hr, fun hp => ?_⟩
    obtain ⟨-, -, hu⟩ := (reportUndefined_nil _).mp hp
    have i := after_rinv ds h
    have hs : ((abs (after ds)).r.resources c.name.toText).isSome = true := by
      change (r.resourceView _).isSome = true
      unfold Reader.resourceView
      rw [hr, Option.bind_some, hc]
      rfl
    have hun : (abs (after ds)).r.rundef c.name.toText = false := (gomap_nil_iff _).mp hu _
    rcases (i.dom _).mp hs with hm | hd
    · rw [← resourceDecl_keys]
      by_cases hd : c.name.toText ∈ (ds.filterMap Decl.resourceDecl).map fun d => d.1.toText
      · exact hd
      · rw [(i.undef _).mpr ⟨hm, hd⟩] at hun; cases hun
    · rw [← resourceDecl_keys]; exact hd

/-- The verdict of the reader before the checks: no error is reported exactly when the declarations
are acceptable. -/
theorem c18_accepted_iff_partial (ds : List Decl) (h : WellNamed ds) (hc : NoNameClash ds) :
    (fresh.decls ds).reportUndefined.problems = [] ↔ Acceptable ds :=
  after_accept ds h hc

example : (fresh.decls exampleDecls).reportUndefined.problems = [] ∧
    (fresh.decls exampleDecls).table.heap.length = 20 := by decide

example : Acceptable exampleDecls :=
  (c18_accepted_iff_partial _ example_wellNamed example_noNameClash).mp (by decide)

/-- A misspelled name is reported. -/
example : ((fresh.decls [.class t!"A" [] [] [{ name := t!"x", ref := .list t!"Clutser" }]]
    ).undefinedTypes.find t!"clutser").isSome = true := by decide

/-! ## C19: the order of declarations -/

/-- Reading the same declarations in other order, or split in files in other way, gives the same
types, the same resources and the same errors of the version, and the same names remain
undefined. -/
theorem c19_same_content_partial (fs gs : List (List Decl)) (hp : fs.flatten.Perm gs.flatten)
    (h : WellNamed fs.flatten) (hc : NoNameClash fs.flatten)
    (hd : (declaredTypes fs.flatten).Nodup) (hr : (declaredResources fs.flatten).Nodup)
    (he : (declaredErrors fs.flatten).Nodup) (k : Text) :
    (fresh.files fs).typeView k = (fresh.files gs).typeView k ∧
    (fresh.files fs).resourceView k = (fresh.files gs).resourceView k ∧
    (fresh.files fs).errors.find k = (fresh.files gs).errors.find k ∧
    ((fresh.files fs).undefinedTypes.find k).isSome =
      ((fresh.files gs).undefinedTypes.find k).isSome ∧
    ((fresh.files fs).undefinedResources.find k).isSome =
      ((fresh.files gs).undefinedResources.find k).isSome := by
  rw [files_eq, files_eq]
  generalize fs.flatten = ds at *
  generalize gs.flatten = es at *
  have h' := perm_wellNamed hp h
  have hc' := perm_noNameClash hp hc
  have pr : (declaredResources ds).Perm (declaredResources es) := hp.filterMap _
  have pm : (mentionedResources ds).Perm (mentionedResources es) := hp.flatMap_right _
  refine ⟨?_, ?_, ?_, ?_, ?_⟩
  · exact typeAt_unique ds hc hd k _ _ (after_typeAt ds h hc k)
      (perm_typeAt hp k _ (after_typeAt es h' hc' k))
  · have i := after_rinv ds h
    have j := after_rinv es h'
    have pd := hp.filterMap Decl.resourceDecl
    change (abs (after ds)).r.resources k = (abs (after es)).r.resources k
    cases hx : (abs (after ds)).r.resources k with
    | none =>
      cases hy : (abs (after es)).r.resources k with
      | none => rfl
      | some y =>
        have := (j.dom k).mp (by rw [hy]; rfl)
        rw [resourceDecl_keys, ← pr.mem_iff, ← pm.mem_iff, ← resourceDecl_keys] at this
        have := (i.dom k).mpr this
        rw [hx] at this; cases this
    | some x =>
      have := (i.dom k).mp (by rw [hx]; rfl)
      rw [resourceDecl_keys, pr.mem_iff, pm.mem_iff, ← resourceDecl_keys] at this
      obtain ⟨y, hy⟩ := Option.isSome_iff_exists.mp ((j.dom k).mpr this)
      rw [hy]
      have hin : ∀ d, d ∈ es.filterMap Decl.resourceDecl → d.1.toText = k →
          k ∈ (ds.filterMap Decl.resourceDecl).map fun d => d.1.toText := fun d hd hk =>
        List.mem_map.mpr ⟨d, pd.mem_iff.mpr hd, hk⟩
      rcases i.source k x hx with ⟨d, hd1, hd2, hd3⟩ | ⟨hx1, hx2⟩
      · rcases j.source k y hy with ⟨d', hd1', hd2', hd3'⟩ | ⟨hy1, hy2⟩
        · have := nodup_filterMap_unique Decl.resourceDecl ds
            (by rw [resourceDecl_keys]; exact hr) d d' hd1 (pd.mem_iff.mpr hd1')
            (hd2.trans hd2'.symm)
          rw [← hd3, ← hd3', this]
        · exact absurd (List.mem_map.mpr ⟨d, pd.mem_iff.mp hd1, hd2⟩) hy2
      · rcases j.source k y hy with ⟨d', hd1', hd2', hd3'⟩ | ⟨hy1, hy2⟩
        · exact absurd (hin d' hd1' hd2') hx2
        · rw [hx1, hy1]
  · have e1 := after_e ds h
    have e2 := after_e es h'
    change (abs (after ds)).e.errors.find k = (abs (after es)).e.errors.find k
    have pe : (declaredErrors ds).Perm (declaredErrors es) := hp.filterMap _
    have d1 := edom_decls (abs Reader.fresh).e ds k
    have d2 := edom_decls (abs Reader.fresh).e es k
    have hnone : (abs Reader.fresh).e.errors.find k = none := rfl
    rw [e1, e2]
    cases hx : (ds.foldl EState.decl (abs Reader.fresh).e).errors.find k with
    | none =>
      cases hy : (es.foldl EState.decl (abs Reader.fresh).e).errors.find k with
      | none => rfl
      | some y =>
        rw [hy] at d2
        rw [hx] at d1
        rw [← pe.mem_iff] at d2
        have := d1.mpr (d2.mp rfl)
        cases this
    | some x =>
      cases hy : (es.foldl EState.decl (abs Reader.fresh).e).errors.find k with
      | none =>
        rw [hy] at d2
        rw [hx] at d1
        rw [← pe.mem_iff] at d2
        have := d2.mpr (d1.mp rfl)
        cases this
      | some y =>
        rcases efind_decls _ ds k x hx with h1 | ⟨d, hd1, n, h1, h2⟩
        · rw [hnone] at h1; cases h1
        · rcases efind_decls _ es k y hy with g1 | ⟨d', hd1', n', g1, g2⟩
          · rw [hnone] at g1; cases g1
          · have := nodup_filterMap_unique Decl.errorDecl ds (by
                have hk : ((ds.filterMap Decl.errorDecl).map fun d => d.1.toText) =
                    declaredErrors ds := by
                  unfold declaredErrors
                  rw [filterMap_comp_map]
                  congr 1
                  funext d
                  cases d <;> rfl
                rw [hk]; exact he) (n, x) (n', y)
              (List.mem_filterMap.mpr ⟨d, hd1, h1⟩)
              (List.mem_filterMap.mpr ⟨d', hp.mem_iff.mpr hd1', g1⟩) (h2.trans g2.symm)
            cases this; rfl
  · have a := after_undef ds h hc k
    have b := after_undef es h' hc' k
    rw [(perm_mentioned hp).mem_iff, (perm_declared hp).mem_iff, ← b] at a
    exact Bool.eq_iff_iff.mpr a
  · have a := after_rundef ds h k
    have b := after_rundef es h' k
    rw [pr.mem_iff, pm.mem_iff, ← b] at a
    exact Bool.eq_iff_iff.mpr a

/-- The verdict doesn't depend on the order either: some error is reported for one order exactly
when some error is reported for the other, and the number of errors about each name that is
declared several times is the same. -/
theorem c19_same_verdict_partial (fs gs : List (List Decl)) (hp : fs.flatten.Perm gs.flatten)
    (h : WellNamed fs.flatten) (hc : NoNameClash fs.flatten) :
    ((fresh.files fs).reportUndefined.problems = [] ↔
      (fresh.files gs).reportUndefined.problems = []) ∧
    ∀ k,
      countFor ReadProblem.typeDefinedName k (fresh.files fs).problems =
        countFor ReadProblem.typeDefinedName k (fresh.files gs).problems ∧
      countFor ReadProblem.resourceDefinedName k (fresh.files fs).problems =
        countFor ReadProblem.resourceDefinedName k (fresh.files gs).problems ∧
      countFor ReadProblem.errorDefinedName k (fresh.files fs).problems =
        countFor ReadProblem.errorDefinedName k (fresh.files gs).problems := by
  rw [files_eq, files_eq]
  generalize fs.flatten = ds at *
  generalize gs.flatten = es at *
  have h' := perm_wellNamed hp h
  have hc' := perm_noNameClash hp hc
  have pr : (declaredResources ds).Perm (declaredResources es) := hp.filterMap _
  have pe : (declaredErrors ds).Perm (declaredErrors es) := hp.filterMap _
  refine ⟨?_, fun k => ⟨?_, ?_, ?_⟩⟩
  · have a := after_accept ds h hc
    have b := after_accept es h' hc'
    exact a.trans (Iff.trans ⟨perm_acceptable hp, perm_acceptable hp.symm⟩ b.symm)
  · unfold countFor
    rw [← typeDups_eq, ← typeDups_eq]
    change List.count k ((typeDups (after ds).problems).map Name.toText) =
      List.count k ((typeDups (after es).problems).map Name.toText)
    rw [after_typeDups ds h hc, after_typeDups es h' hc', repeated_count, repeated_count,
      typeName_keys, typeName_keys, (perm_declared hp).count_eq]
  · unfold countFor
    rw [← resourceDups_eq, ← resourceDups_eq]
    change List.count k ((resourceDups (after ds).problems).map Name.toText) =
      List.count k ((resourceDups (after es).problems).map Name.toText)
    rw [after_resourceDups ds h, after_resourceDups es h', repeated_count, repeated_count,
      resourceName_keys, resourceName_keys, pr.count_eq]
  · unfold countFor
    rw [← errorDups_eq, ← errorDups_eq]
    change List.count k ((errorDups (after ds).problems).map Name.toText) =
      List.count k ((errorDups (after es).problems).map Name.toText)
    rw [after_errorDups ds h, after_errorDups es h', repeated_count, repeated_count,
      errorName_keys, errorName_keys, pe.count_eq]

/-- What the version contains: for each declaration of a type that is declared only once, a type
with that name and exactly what the declaration describes. -/
theorem c19_declared_types_partial (ds : List Decl) (h : WellNamed ds) (hc : NoNameClash ds)
    (hd : (declaredTypes ds).Nodup) (d : Decl) (hm : d ∈ ds) (k : Text) (kind : Kind)
    (hk : d.declaredType = some (k, kind)) (hb : k ∉ builtinKeys) :
    ∃ v, (fresh.decls ds).typeView k = some v ∧ d.Describes 0 k v ∧ v.kind = kind := by
  have hx : ∃ n x, d.typeDecl 0 = some (n, x) ∧ n.toText = k ∧ x.kind = kind := by
    cases d <;> simp only [Decl.declaredType, Option.some.injEq, Prod.mk.injEq, reduceCtorEq] at hk
    all_goals exact ⟨_, _, rfl, hk.1, hk.2⟩
  obtain ⟨n, x, hx, hn, hkind⟩ := hx
  have hmem : (n, x) ∈ (histOf 0 ds).declared := List.mem_filterMap.mpr ⟨d, hm, hx⟩
  have ha := typeAt_unique ds hc hd k _ _ (after_typeAt ds h hc k)
    (.inr (.inl ⟨hb, (n, x), hmem, hn, rfl⟩))
  refine ⟨x, ha, ?_, hkind⟩
  rw [← hn]
  exact typeDecl_describes 0 d n x hx

/-- The same for resources, without the hypothesis about clashes. -/
theorem c19_declared_resources (ds : List Decl) (h : WellNamed ds)
    (hd : (declaredResources ds).Nodup) (d : Decl) (hm : d ∈ ds) (k : Text)
    (hk : d.declaredResource = some k) :
    ∃ v, (fresh.decls ds).resourceView k = some v ∧ d.DescribesResource k v := by
  have hx : ∃ n x, d.resourceDecl = some (n, x) ∧ n.toText = k := by
    cases d <;> simp only [Decl.declaredResource, Option.some.injEq, reduceCtorEq] at hk
    exact ⟨_, _, rfl, hk⟩
  obtain ⟨n, x, hx, hn⟩ := hx
  have hmem : (n, x) ∈ ds.filterMap Decl.resourceDecl := List.mem_filterMap.mpr ⟨d, hm, hx⟩
  have hmem' : k ∈ (ds.filterMap Decl.resourceDecl).map fun d => d.1.toText :=
    List.mem_map.mpr ⟨_, hmem, hn⟩
  have i := after_rinv ds h
  obtain ⟨y, hy⟩ := Option.isSome_iff_exists.mp ((i.dom k).mpr (.inr hmem'))
  rcases i.source k y hy with ⟨d', h1, h2, h3⟩ | h1
  · have := nodup_filterMap_unique Decl.resourceDecl ds (by rw [resourceDecl_keys]; exact hd)
      (n, x) d' hmem h1 (hn.trans h2.symm)
    subst this
    subst h3
    refine ⟨x, hy, ?_⟩
    rw [← hn]
    exact resourceDecl_describes d n x hx
  · exact absurd hmem' h1.2

/-- The same for errors: the code is the last one given, or zero. -/
theorem c19_declared_errors (ds : List Decl) (h : WellNamed ds)
    (hd : (declaredErrors ds).Nodup) (name doc : Text) (as : List Annotation)
    (codes : List Text) (hm : Decl.error name doc as codes ∈ ds) :
    ∃ e, (fresh.decls ds).errors.find (keyOf name) = some e ∧
      e.supportName = some (parseUsingCase name) ∧
      e.doc = doc ∧ e.annotations = as ∧
      e.code = ((codes.map fun t => (atoi t).1).getLast?).getD 0 := by
  have hk : ((ds.filterMap Decl.errorDecl).map fun d => d.1.toText) = declaredErrors ds := by
    unfold declaredErrors
    rw [filterMap_comp_map]
    congr 1
    funext d
    cases d <;> rfl
  have he := after_e ds h
  have hdom := (edom_decls (abs Reader.fresh).e ds (keyOf name)).mpr
    (.inr (List.mem_filterMap.mpr ⟨_, hm, rfl⟩))
  obtain ⟨y, hy⟩ := Option.isSome_iff_exists.mp hdom
  have hmem : (parseUsingCase name,
      ({ supportName := some (parseUsingCase name), ownName := none, doc := doc
         annotations := as
         code := ((codes.map fun t => (atoi t).1).getLast?).getD 0 } : ErrorConcept)) ∈
      ds.filterMap Decl.errorDecl := List.mem_filterMap.mpr ⟨_, hm, rfl⟩
  rcases efind_decls _ ds (keyOf name) y hy with h1 | ⟨d, hd1, n, h1, h2⟩
  · cases h1
  · have := nodup_filterMap_unique Decl.errorDecl ds (by rw [hk]; exact hd) _ (n, y) hmem
      (List.mem_filterMap.mpr ⟨d, hd1, h1⟩) h2.symm
    refine ⟨y, ?_, ?_⟩
    · change (abs (after ds)).e.errors.find (keyOf name) = _
      rw [he]; exact hy
    · have hxy := (Prod.mk.inj this).2
      rw [← hxy]; exact ⟨rfl, rfl, rfl, rfl⟩

/-- The example and its reverse, one declaration per file. -/
example : exampleDecls.Perm (exampleDecls.reverse.map fun d => [d]).flatten ∧
    (declaredTypes exampleDecls).Nodup ∧ (declaredResources exampleDecls).Nodup ∧
    (declaredErrors exampleDecls).Nodup ∧
    (fresh.files (exampleDecls.reverse.map fun d => [d])).table.types ≠
      (fresh.files [exampleDecls]).table.types := by
  refine ⟨?_, by decide, by decide, by decide, by decide⟩
  have : (exampleDecls.reverse.map fun d => [d]).flatten = exampleDecls.reverse := by decide
  rw [this]
  exact (List.reverse_perm _).symm

/-- The order matters when the computed name of a list is written by the user: if the list is used
first the name is known, and if the name is used first then it is undefined. -/
theorem c19_refuted : ∃ ds es : List Decl, ds.Perm es ∧ WellNamed ds ∧
    (declaredTypes ds).Nodup ∧
    (fresh.decls ds).reportUndefined.problems = [] ∧
    (fresh.decls es).reportUndefined.problems ≠ [] :=
  ⟨[ .class t!"Cluster" [] [] [], .class t!"A" [] [] [{ name := t!"x", ref := .list t!"Cluster" }],
     .class t!"B" [] [] [{ name := t!"y", ref := .plain t!"ClusterList" }] ],
   [ .class t!"Cluster" [] [] [],
     .class t!"B" [] [] [{ name := t!"y", ref := .plain t!"ClusterList" }],
     .class t!"A" [] [] [{ name := t!"x", ref := .list t!"Cluster" }] ],
   by
     refine .cons _ (.swap _ _ _),
   by unfold WellNamed; decide, by decide, by decide, by decide⟩

/-! ## C20: duplicated declarations -/

/-- Whatever the order, and even with clashes, if no error is reported then no type, resource or
error was declared twice, and no built-in type was declared. -/
theorem c20_duplicates_reported (ds : List Decl) (h : WellNamed ds)
    (hp : (fresh.decls ds).problems = []) :
    (declaredTypes ds).Nodup ∧ (∀ k ∈ declaredTypes ds, k ∉ builtinKeys) ∧
    (declaredResources ds).Nodup ∧ (declaredErrors ds).Nodup := by
  obtain ⟨h1, h2, h3, -⟩ := (problems_nil _).mp hp
  have i := after_tinv ds h
  have e1 : (abs (after ds)).t.dups = [] := h1
  obtain ⟨n1, n2⟩ := i.nodup e1
  rw [declared_keys] at n1
  refine ⟨n1, ?_, ?_, ?_⟩
  · intro k hk hb
    rw [← declared_keys 0] at hk
    obtain ⟨d, hd, he⟩ := List.mem_map.mp hk
    have := n2 d hd
    rw [he] at this
    have hb := (fresh_keys k).mpr hb
    rw [this] at hb; cases hb
  · have e2 := after_resourceDups ds h
    have h2 : resourceDups (after ds).problems = [] := h2
    rw [h2] at e2
    have := ((repeated_nil _ _).mp e2.symm).1
    rwa [resourceName_keys] at this
  · have e3 := after_errorDups ds h
    have h3 : errorDups (after ds).problems = [] := h3
    rw [h3] at e3
    have := ((repeated_nil _ _).mp e3.symm).1
    rwa [errorName_keys] at this

/-- For each name, the number of errors is the number of declarations except the first one, which
is an error only for the names of built-in types. -/
theorem c20_types_count_partial (ds : List Decl) (h : WellNamed ds) (hc : NoNameClash ds) (k : Text) :
    countFor ReadProblem.typeDefinedName k (fresh.decls ds).problems =
      if k ∈ builtinKeys then (declaredTypes ds).count k else (declaredTypes ds).count k - 1 := by
  unfold countFor
  rw [← typeDups_eq]
  change List.count k ((typeDups (after ds).problems).map Name.toText) = _
  rw [after_typeDups ds h hc, repeated_count, typeName_keys]

theorem c20_resources_count (ds : List Decl) (h : WellNamed ds) (k : Text) :
    countFor ReadProblem.resourceDefinedName k (fresh.decls ds).problems =
      (declaredResources ds).count k - 1 := by
  unfold countFor
  rw [← resourceDups_eq]
  change List.count k ((resourceDups (after ds).problems).map Name.toText) = _
  rw [after_resourceDups ds h, repeated_count, resourceName_keys]
  simp

theorem c20_errors_count (ds : List Decl) (h : WellNamed ds) (k : Text) :
    countFor ReadProblem.errorDefinedName k (fresh.decls ds).problems =
      (declaredErrors ds).count k - 1 := by
  unfold countFor
  rw [← errorDups_eq]
  change List.count k ((errorDups (after ds).problems).map Name.toText) = _
  rw [after_errorDups ds h, repeated_count, errorName_keys]
  simp

/-- The first declaration is the one that counts. -/
example : countFor ReadProblem.typeDefinedName t!"state"
      (fresh.decls (exampleDecls ++ [.class t!"State" [] [] [], .enum t!"State" [] [] []])).problems
      = 2 ∧
    ((fresh.decls (exampleDecls ++ [.class t!"State" [] [] []])).typeView t!"state").map
      TypeView.kind = some .enum := by decide

/-- Different names can be reported as duplicated: a declared type whose name is the name computed
for a list that is used before. -/
theorem c20_refuted : ∃ ds : List Decl, WellNamed ds ∧ (declaredTypes ds).Nodup ∧
    (∀ k ∈ declaredTypes ds, k ∉ builtinKeys) ∧ (fresh.decls ds).problems ≠ [] :=
  ⟨[ .class t!"Cluster" [] [] [], .class t!"A" [] [] [{ name := t!"x", ref := .list t!"Cluster" }],
     .class t!"ClusterList" [] [] [] ],
   by unfold WellNamed; decide, by decide, by decide, by decide⟩

/-! ## C60: references to lists and maps -/

/-- Without clashes, a reference to a list or map resolves to a list or map of exactly those
types. -/
theorem c60_reference_partial (ds : List Decl) (h : WellNamed ds) (hc : NoNameClash ds) (e : TypeExpr)
    (he : e ∈ refsOf ds) (hd : e.isDerived = true) :
    (fresh.decls ds).typeView e.key = e.derivedView 0 := by
  have ha := after_typeAt ds h hc e.key
  have hder : e ∈ (histOf 0 ds).derived := List.mem_filter.mpr ⟨he, hd⟩
  have hk : e.key ∈ derivedTypes ds := List.mem_map.mpr ⟨e, hder, rfl⟩
  change (after ds).typeView e.key = _
  rcases ha with ⟨hb, hx⟩ | ⟨hb, d, h1, h2, h3⟩ | ⟨hb, hnd, f, h1, h2, h3⟩ | hx | hx
  · rw [hx]
    obtain ⟨v, hv⟩ := Option.isSome_iff_exists.mp ((fresh_keys _).mpr hb)
    rw [hv]
    obtain ⟨b, hb', hc' | hc'⟩ := fresh_view _ _ hv
    · exfalso
      have hend : ∀ b ∈ builtinScalars, ¬ (t!"_list" <:+ b.1) ∧ ¬ (t!"_map" <:+ b.1) := by decide
      cases e with
      | plain n => cases hd
      | list x => exact (hend b hb').1 (hc'.1 ▸ List.suffix_append _ _)
      | map x y => exact (hend b hb').2 (hc'.1 ▸ List.suffix_append _ _)
    · cases e with
      | plain n => cases hd
      | list x =>
        have : keyOf x = b.1 := List.append_cancel_right hc'.1
        rw [hc'.2, TypeExpr.derivedView, this]
      | map x y =>
        exfalso
        have h1 : keyOf x ++ t!"_" ++ keyOf y ++ t!"_map" = b.1 ++ t!"_list" := hc'.1
        have h2 := congrArg (fun l => l.reverse.head?) h1
        simp [List.reverse_append] at h2
  · exact absurd (by rw [← declared_keys 0]; exact List.mem_map.mpr ⟨d, h1, h2⟩)
      (hc.notDeclared _ hk)
  · rw [h3]
    have m1 := List.mem_filter.mp h1
    exact derivedView_unique 0 f e m1.2 hd (hc.distinct f m1.1 e he m1.2 hd h2)
  · exact absurd hk hx.2.2.1
  · exact absurd hk hx.2.2.1

/-- A map of strings and a list of a class in the example. -/
example : (.map t!"String" t!"String") ∈ refsOf exampleDecls ∧
    ((fresh.decls exampleDecls).typeView t!"string_string_map").map TypeView.index =
      some (some t!"string") ∧
    ((fresh.decls exampleDecls).typeView t!"group_list").map TypeView.element =
      some (some t!"group") := by decide

/-- A declared type takes the place of the list, without any error. -/
theorem c60_list_refuted : ∃ (ds : List Decl) (e : TypeExpr), WellNamed ds ∧ e ∈ refsOf ds ∧
    e.isDerived = true ∧ (fresh.decls ds).reportUndefined.problems = [] ∧
    ((fresh.decls ds).typeView e.key).map TypeView.kind = some .class :=
  ⟨[ .class t!"Cluster" [] [] [], .class t!"ClusterList" [] [] [],
     .class t!"A" [] [] [{ name := t!"x", ref := .list t!"Cluster" }] ],
   .list t!"Cluster", by unfold WellNamed; decide, by decide, by decide, by decide, by decide⟩

/-- A map takes the place of other map, without any error: `[Foo]BarBaz` and `[FooBar]Baz`. -/
theorem c60_map_refuted : ∃ (ds : List Decl) (e : TypeExpr), WellNamed ds ∧ e ∈ refsOf ds ∧
    e.isDerived = true ∧ (fresh.decls ds).reportUndefined.problems = [] ∧
    ((fresh.decls ds).typeView e.key).map TypeView.index ≠ some ((e.mentions.head?)) :=
  ⟨[ .class t!"Foo" [] [] [], .class t!"BarBaz" [] [] [], .class t!"FooBar" [] [] [],
     .class t!"Baz" [] [] [],
     .class t!"A" [] []
       [{ name := t!"x", ref := .map t!"Foo" t!"BarBaz" },
        { name := t!"y", ref := .map t!"FooBar" t!"Baz" }] ],
   .map t!"FooBar" t!"Baz", by unfold WellNamed; decide, by decide, by decide, by decide,
   by decide⟩

/-! ## C21: list types -/

/-- Whatever the declarations, every list of the version has as element the type whose name it
extends, and every map has as index and element the types that form its name. -/
theorem c21_elements (ds : List Decl) (h : WellNamed ds) (k : Text) (v : TypeView)
    (hv : (fresh.decls ds).typeView k = some v) :
    (v.kind = .list → ∃ e, v.element = some e ∧ k = e ++ t!"_list" ∧
      ((fresh.decls ds).typeView e).isSome = true) ∧
    (v.kind = .map → ∃ i e, v.index = some i ∧ v.element = some e ∧
      k = i ++ t!"_" ++ e ++ t!"_map" ∧ ((fresh.decls ds).typeView i).isSome = true ∧
      ((fresh.decls ds).typeView e).isSome = true) := by
  have i := after_tinv ds h
  have hm : ∀ e ∈ (histOf 0 ds).derived, ∀ n ∈ e.mentions,
      ((fresh.decls ds).typeView n).isSome = true := by
    intro e he n hn
    exact (i.dom n).mpr (.inr (.inl (List.mem_flatMap.mpr ⟨e, (List.mem_filter.mp he).1, hn⟩)))
  rcases i.source k v hv with h1 | ⟨d, hd, h1, h2⟩ | ⟨e, he, h1, h2⟩ | ⟨h1, -⟩
  · obtain ⟨b, hb, ⟨-, hx⟩ | ⟨hk, hx⟩⟩ := fresh_view k v h1
    · have hs : ∀ b ∈ builtinScalars, b.2 ≠ .list ∧ b.2 ≠ .map := by decide
      have hkind : v.kind = b.2 := by rw [hx]
      exact ⟨fun hl => absurd (hkind ▸ hl) (hs b hb).1, fun hl => absurd (hkind ▸ hl) (hs b hb).2⟩
    · refine ⟨fun _ => ⟨b.1, by rw [hx], hk, ?_⟩, fun hl => by rw [hx] at hl; cases hl⟩
      have hin : ∀ b ∈ builtinScalars, b.1 ∈ builtinKeys := by decide
      exact (i.dom b.1).mpr (.inl ((fresh_keys _).mpr (hin b hb)))
  · obtain ⟨d', -, hd'⟩ := List.mem_filterMap.mp hd
    have hkind : v.kind ≠ .list ∧ v.kind ≠ .map := by
      rw [← h2]
      cases d' <;> simp [Decl.typeDecl] at hd' <;> subst hd' <;> simp [declaredView]
    exact ⟨fun hl => absurd hl hkind.1, fun hl => absurd hl hkind.2⟩
  · cases e with
    | plain n => cases h2
    | list x =>
      simp only [TypeExpr.derivedView, Option.some.injEq] at h2
      subst h2
      exact ⟨fun _ => ⟨_, rfl, h1.symm, hm _ he _ (by simp [TypeExpr.mentions, TypeExpr.names])⟩,
        fun hl => (nomatch hl)⟩
    | map x y =>
      simp only [TypeExpr.derivedView, Option.some.injEq] at h2
      subst h2
      exact ⟨fun hl => (nomatch hl), fun _ => ⟨_, _, rfl, rfl, h1.symm,
        hm _ he _ (by simp [TypeExpr.mentions, TypeExpr.names]),
        hm _ he _ (by simp [TypeExpr.mentions, TypeExpr.names])⟩⟩
  · rw [h1]
    exact ⟨fun hl => (nomatch hl), fun hl => (nomatch hl)⟩

/-- The step that completes the version, for any table of types: nothing that was there changes;
every type that isn't a list gets a list; the types that are created are lists, and the element of
each is the type whose name the list extends. -/
theorem c21_completion (t : TypeTable) (hn : (t.types.map Prod.fst).Nodup) (hc : TypesNamed t) :
    let t' := addListTypes t
    t'.version = t.version ∧ TypesNamed t' ∧
    (∀ (id : Nat) c, t.heap[id]? = some c → t'.heap[id]? = some c) ∧
    (∀ k id, t.types.find k = some id → t'.types.find k = some id) ∧
    (∀ k id c, k ≠ [] → t'.types.find k = some id → t'.heap[id]? = some c → c.kind ≠ .list →
      ∃ id', t'.types.find (k ++ t!"_list") = some id') ∧
    (∀ k id, (∀ k id, t.types.find k = some id → k ≠ []) → t'.types.find k = some id →
      t.types.find k = none →
      ∃ k0 id0 c0 c, t.types.find k0 = some id0 ∧ t.heap[id0]? = some c0 ∧ c0.kind ≠ .list ∧
        k = k0 ++ t!"_list" ∧ t'.heap[id]? = some c ∧ c.name = c0.name ++ parseUsingCase t!"List" ∧
        c = { name := c.name, kind := .list, element := some id0, owner := some t.version }) := by
  intro t'
  have i : ListInv t t' t.types.values := addListTypes_inv t hn hc
  refine ⟨i.version, i.consistent, i.heap, i.keep, ?_, ?_⟩
  · intro k id c hk hf hh hl
    have hnl : c.name ≠ [] := by
      intro he
      obtain ⟨c', h1, h2⟩ := i.consistent k id hf
      rw [hh] at h1; cases h1
      rw [he] at h2; exact hk h2.symm
    have hkey : c.name.toText = k := by
      obtain ⟨c', h1, h2⟩ := i.consistent k id hf
      rw [hh] at h1; cases h1; exact h2
    rcases i.source k id hf with h | ⟨-, -, id0, c0, h1, h2, h3, h4, h5⟩
    · have hm : id ∈ t.types.values := List.mem_map.mpr ⟨_, GoMap.find_some_mem h, rfl⟩
      obtain ⟨c', h1, h2⟩ := hc k id h
      have h3 := i.heap id c' h1
      rw [hh] at h3; cases h3
      have := i.done id hm c h1 hl
      rw [listName_toText _ hnl, hkey] at this
      exact Option.isSome_iff_exists.mp this
    · rw [hh] at h5; cases h5; exact absurd rfl hl
  · intro k id hne hf hnone
    rcases i.source k id hf with h | ⟨-, -, id0, c0, h1, h2, h3, h4, h5⟩
    · rw [hnone] at h; cases h
    · obtain ⟨e, he, rfl⟩ := List.mem_map.mp h1
      have hfind := GoMap.find_of_mem hn he
      obtain ⟨c', g1, g2⟩ := hc e.1 e.2 hfind
      rw [h2] at g1; cases g1
      have hnl : c0.name ≠ [] := by
        intro he'
        rw [he'] at g2; exact hne _ _ hfind g2.symm
      refine ⟨e.1, e.2, c0, _, hfind, h2, h3, ?_, h5, ?_, rfl⟩
      · rw [h4, listName_toText _ hnl, g2]
      · simp [Name.cat, Nom.list]

/-- The names of the types of a version aren't empty. -/
theorem c21_names (ds : List Decl) (h : WellNamed ds) (hd : ∀ d ∈ ds, ∀ k kind,
    d.declaredType = some (k, kind) → k ≠ []) (k : Text) (id : TypeId)
    (hf : (fresh.decls ds).table.types.find k = some id) : k ≠ [] := by
  have wf := after_wf ds h
  obtain ⟨c, hc, -⟩ := wf.find k id hf
  have hs : ((abs (after ds)).t.types k).isSome = true := by
    change ((after ds).typeView k).isSome = true
    unfold Reader.typeView
    rw [show (after ds).table.types.find k = some id from hf, Option.bind_some, hc]
    rfl
  rcases ((after_tinv ds h).dom k).mp hs with h1 | h1 | h1 | h1
  · have h2 := (fresh_keys k).mp h1
    have : ∀ k ∈ builtinKeys, k ≠ [] := by decide
    exact this k h2
  · obtain ⟨e, he, h1⟩ := List.mem_flatMap.mp h1
    obtain ⟨n, hn, rfl⟩ := List.mem_map.mp h1
    exact keyOf_ne_nil n (h e he n hn)
  · obtain ⟨e, he, rfl⟩ := List.mem_map.mp h1
    cases e <;> simp [TypeExpr.key] <;> intro hh
    have := (List.mem_filter.mp he).2
    cases this
  · rw [declared_keys] at h1
    obtain ⟨d, hd1, hd2⟩ := List.mem_filterMap.mp h1
    cases hx : d.declaredType with
    | none => rw [hx] at hd2; cases hd2
    | some p => rw [hx] at hd2; cases hd2; exact hd d hd1 p.1 p.2 hx

/-- Reading any declarations and completing the version: every type that isn't a list has a list
type. -/
theorem c21_every_type_has_list (ds : List Decl) (h : WellNamed ds) (hd : ∀ d ∈ ds, ∀ k kind,
    d.declaredType = some (k, kind) → k ≠ []) (k : Text) (id : TypeId) (c : TypeCell) :
    let t := addListTypes (fresh.decls ds).table
    t.types.find k = some id → t.heap[id]? = some c → c.kind ≠ .list →
    ∃ id', t.types.find (k ++ t!"_list") = some id' := by
  intro t hf hh hl
  have wf := after_wf ds h
  have hn : ((fresh.decls ds).table.types.map Prod.fst).Nodup := nodup_after ds
  obtain ⟨-, -, -, -, h1, h2⟩ := c21_completion (fresh.decls ds).table hn wf.find
  refine h1 k id c ?_ hf hh hl
  cases hx : (fresh.decls ds).table.types.find k with
  | some y => exact c21_names ds h hd k y hx
  | none =>
    obtain ⟨k0, -, -, -, -, -, -, h3, -⟩ := h2 k id (c21_names ds h hd) hf hx
    rw [h3]; simp

/-- In the example two types get a new list, the others already have one. -/
example : let t := addListTypes (fresh.decls exampleDecls).table
    t.heap.length = 22 ∧ (t.types.find t!"string_string_map_list").isSome = true ∧
    (t.types.find t!"state_list").isSome = true := by decide

/-! ## C23: directions of parameters -/

/-- The flags of a parameter depend only on which directions are listed. -/
theorem c23_directions (p : Parameter) (hi : p.isIn = false) (ho : p.isOut = false)
    (directions : List Direction) :
    let q := setDirections p directions
    (q.isIn = true ↔ Direction.input ∈ directions) ∧
    (q.isOut = true ↔ directions = [] ∨ Direction.output ∈ directions) ∧
    q = { p with isIn := q.isIn, isOut := q.isOut } := by
  intro q
  have hq : q = _ := setDirections_eq p directions hi ho
  rw [hq]
  simp

/-- The parameters of the methods of a resource that is declared once are those of its
declaration, with those flags. -/
theorem c23_parameters (ds : List Decl) (h : WellNamed ds) (hd : (declaredResources ds).Nodup)
    (name doc : Text) (as : List Annotation) (members : List ResourceMember)
    (hm : Decl.resource name doc as members ∈ ds) :
    ∃ v, (fresh.decls ds).resourceView (keyOf name) = some v ∧
      ∀ m, .method m ∈ members → ∃ mv ∈ v.methods, mv.name = parseUsingCase m.name ∧
        mv.parameters.length = m.parameters.length ∧
        ∀ p ∈ m.parameters, ∃ pv ∈ mv.parameters, pv.name = parseUsingCase p.name ∧
          pv.typ = p.ref.key ∧ (pv.isIn = true ↔ Direction.input ∈ p.directions) ∧
          (pv.isOut = true ↔ p.directions = [] ∨ Direction.output ∈ p.directions) := by
  obtain ⟨v, hv, hdes⟩ := c19_declared_resources ds h hd _ hm (keyOf name) rfl
  refine ⟨v, hv, fun m hmm => ?_⟩
  obtain ⟨-, -, -, ⟨methods, hall, hsort⟩, -⟩ := hdes
  have hin : m ∈ methodDecls members := List.mem_filterMap.mpr ⟨_, hmm, rfl⟩
  have : ∃ mv ∈ methods, m.Describes mv := by
    clear hsort
    generalize methodDecls members = l at hall hin
    induction hall with
    | nil => cases hin
    | cons hxy _ ih =>
      rcases List.mem_cons.mp hin with rfl | hin
      · exact ⟨_, List.mem_cons_self .., hxy⟩
      · obtain ⟨mv, h1, h2⟩ := ih hin
        exact ⟨mv, List.mem_cons_of_mem _ h1, h2⟩
  obtain ⟨mv, hmv, h1, -, -, h2⟩ := this
  refine ⟨mv, hsort.1.mem_iff.mpr hmv, h1, by simpa using h2.1.length_eq, fun p hp => ?_⟩
  refine ⟨p.view, h2.1.mem_iff.mpr (List.mem_map.mpr ⟨p, hp, rfl⟩), rfl, rfl, ?_, ?_⟩
  · simp [ParameterDecl.view, ParameterDecl.isIn]
  · simp [ParameterDecl.view, ParameterDecl.isOut]

/-- The parameters of requests and responses are those flagged. -/
theorem c23_request_response (m : Method) (p : Parameter) :
    (p ∈ Binding.requestParameters m ↔ p ∈ m.parameters ∧ p.isIn = true) ∧
    (p ∈ Binding.responseParameters m ↔ p ∈ m.parameters ∧ p.isOut = true) := by
  simp [Binding.requestParameters, Binding.responseParameters]

example : ((fresh.decls exampleDecls).resourceView t!"clusters").map
    (fun v => v.methods.map fun m => m.parameters.map fun p => (p.isIn, p.isOut)) =
    some [[(false, true), (true, true)]] := by decide

/-! ## C24: variables of locators -/

/-- The locators of a resource that is declared once are those of its declaration, and each is
variable exactly when it declares a variable. -/
theorem c24_reader (ds : List Decl) (h : WellNamed ds) (hd : (declaredResources ds).Nodup)
    (name doc : Text) (as : List Annotation) (members : List ResourceMember)
    (hm : Decl.resource name doc as members ∈ ds) :
    ∃ v, (fresh.decls ds).resourceView (keyOf name) = some v ∧
      v.locators.length = (locatorDecls members).length ∧
      ∀ l, .locator l ∈ members → ∃ lv ∈ v.locators, lv.name = parseUsingCase l.name ∧
        lv.owner = keyOf name ∧ lv.target = l.targets.getLast? ∧
        (lv.isVariable = true ↔ ∃ x, LocatorMember.variableName x ∈ l.members) := by
  obtain ⟨v, hv, hdes⟩ := c19_declared_resources ds h hd _ hm (keyOf name) rfl
  obtain ⟨-, -, -, -, hsort⟩ := hdes
  refine ⟨v, hv, by simpa using hsort.1.length_eq, fun l hl => ?_⟩
  have hin : l ∈ locatorDecls members := List.mem_filterMap.mpr ⟨_, hl, rfl⟩
  refine ⟨l.view (keyOf name), hsort.1.mem_iff.mpr (List.mem_map.mpr ⟨l, hin, rfl⟩), rfl, rfl, rfl,
    ?_⟩
  simp only [LocatorDecl.view, LocatorDecl.hasVariable, List.any_eq_true]
  constructor
  · rintro ⟨x, hx, h2⟩
    cases x with
    | target t => cases h2
    | variableName n => exact ⟨n, hx⟩
  · rintro ⟨x, hx⟩; exact ⟨_, hx, rfl⟩

example : ((fresh.decls exampleDecls).resourceView t!"clusters").map
    (fun v => v.locators.map fun l => (l.isVariable, l.target)) =
    some [(true, some t!"clusters")] := by decide

end Verif
