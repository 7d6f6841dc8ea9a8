import Verif.Lemmas.Content
import Verif.Props.Session

/-!
# Property C76: the content of a model that has several services and versions

`Session.load inputs` is the model before the checks.
-/

namespace Verif

open Session

/-- If all the directories and files can be read, and the declarations of each directory of a version
are good together with those of the previous directories of the same version, then no errors are
reported, the model has exactly the versions that have directories, and the types, resources and
errors of each version are exactly those that the declarations of its own files describe, without
regard to the other versions. -/
theorem c76_model_partial (inputs : List SourceModel) (hr : ∀ m ∈ inputs, m.Readable)
    (hg : ∀ before a b ds after, versionDirs inputs = before ++ (a, b, ds) :: after →
      GoodDecls (versionDecls before a b ++ ds)) :
    (load inputs).problems = [] ∧
    (∀ a b, ((load inputs).version a b).isSome = true ↔ ∃ ds, (a, b, ds) ∈ versionDirs inputs) ∧
    ∀ a b ds0, (a, b, ds0) ∈ versionDirs inputs → ∃ v, (load inputs).version a b = some v ∧
      TypesAre v.id (versionDecls (versionDirs inputs) a b) ((load inputs).typeView v) ∧
      ResourcesAre (versionDecls (versionDirs inputs) a b) ((load inputs).resourceView v) ∧
      ErrorsAre (versionDecls (versionDirs inputs) a b) v.errors.find := by
  have i := loadModels_inv inputs loadInv_empty hr fun before x after e =>
    hg before x.1 x.2.1 x.2.2 after e
  rw [List.nil_append] at i
  have hproblems : (inputs.foldl loadModel {}).reportUndefined.problems = [] := by
    unfold Session.reportUndefined
    dsimp only
    rw [i.problems, i.undef, i.rundef]
    rfl
  have i' : LoadInv (versionDirs inputs) (inputs.foldl loadModel {}).reportUndefined := by
    refine ⟨i.good.congr rfl rfl (.refl _), ⟨i.memory.heap, i.memory.graph⟩, hproblems, i.undef,
      i.rundef, i.apart, i.sound, ?_⟩
    intro a b hm
    obtain ⟨v, hv, h⟩ := i.complete a b hm
    have e : abs ((inputs.foldl loadModel {}).reportUndefined.enter v) =
        abs ((inputs.foldl loadModel {}).enter v) :=
      abs_enter (fun _ => rfl) (fun _ => rfl) rfl rfl (by rw [hproblems, i.problems])
    exact ⟨v, hv, by rw [e]; exact h.read, h.resources⟩
  obtain ⟨h1, h2, h3, h4⟩ := complete_good i'.good
  have hp : (load inputs).problems = [] := by rw [load_problems]; exact hproblems
  have e1 : ∀ a b, (load inputs).version a b =
      (inputs.foldl loadModel {}).reportUndefined.complete.version a b := fun _ _ => rfl
  have e2 : (load inputs).heap = (inputs.foldl loadModel {}).reportUndefined.complete.heap := rfl
  have e3 : (load inputs).graph = Reader.resolveKinds
      (inputs.foldl loadModel {}).reportUndefined.complete.heap
      (inputs.foldl loadModel {}).reportUndefined.graph := by
    rw [← complete_graph (inputs.foldl loadModel {}).reportUndefined]; rfl
  have e4 : ∀ v, (load inputs).typeView v =
      (inputs.foldl loadModel {}).reportUndefined.complete.typeView v := fun _ => rfl
  generalize (inputs.foldl loadModel {}).reportUndefined = s at *
  refine ⟨hp, ?_, ?_⟩
  · intro a b
    rw [e1]
    constructor
    · intro h
      cases hv : s.version a b with
      | none =>
        rw [h3 a b hv] at h
        cases h
      | some v =>
        obtain ⟨x, hx, he⟩ := List.mem_map.mp (i'.sound a b v hv)
        obtain ⟨rfl, rfl⟩ := Prod.mk.inj he
        exact ⟨x.2.2, hx⟩
    · rintro ⟨ds, hm⟩
      obtain ⟨v, hv, -⟩ := i'.complete a b (List.mem_map.mpr ⟨_, hm, rfl⟩)
      obtain ⟨v', hv', -⟩ := (h4 a b).exists_ v hv
      rw [hv']; rfl
  · intro a b ds0 hm
    have g : GoodDecls (versionDecls (versionDirs inputs) a b) := by
      obtain ⟨before, ds, after, e, hlast⟩ := last_dir _ a b ds0 hm
      rw [hlast]
      exact hg before a b ds after e
    obtain ⟨v, hv, hread⟩ := i'.complete a b (List.mem_map.mpr ⟨_, hm, rfl⟩)
    generalize versionDecls (versionDirs inputs) a b = ds at *
    obtain ⟨v', a1, a2, a3, a4, a5, a6, a7, a8⟩ := (h4 a b).exists_ v hv
    obtain ⟨nb, ng, r, b1, babs⟩ := hread.read
    have b2 : ∀ k, s.typeView v k = (r.decls ds).typeView k :=
      fun k => congrFun (congrArg AState.types babs) k
    have b3 : ∀ k, s.resourceView v k = (r.decls ds).resourceView k :=
      fun k => congrFun (congrArg AState.resources babs) k
    have b4 : v.errors = (r.decls ds).errors := congrArg AState.errors babs
    have good : TypesGood s.heap v.id v.types := by
      obtain ⟨l, hl, hlv⟩ := Option.bind_eq_some_iff.mp hv
      exact ((i'.good.named a l hl).2.named b v hlv).2.2
    have good' : TypesGood s.complete.heap v.id v'.types := by
      obtain ⟨l, hl, hlv⟩ := Option.bind_eq_some_iff.mp a1
      rw [← a3]
      exact ((h1.named a l hl).2.named b v' hlv).2.2
    obtain ⟨c1, c2, c3⟩ := completed_types i'.memory good good' h2 a7 a6 a8 (by
      intro k x hx
      rw [b2] at hx
      exact givenTypes_ne g.declaredNamed k (b1.onlyTypes ds g k x hx))
    refine ⟨v', by rw [e1]; exact a1, ?_, ?_, ?_⟩
    · rw [e4, a3]
      have back : ∀ k ∈ givenTypes ds, ∃ x, s.typeView v k = some x := by
        intro k hk
        unfold givenTypes at hk
        rw [List.mem_append, List.mem_append] at hk
        rcases hk with (hk | hk) | hk
        · obtain ⟨x, hx, -⟩ := b1.builtinType ds g k hk
          exact ⟨x, by rw [b2]; exact hx⟩
        · obtain ⟨d, hd, hd2⟩ := List.mem_filterMap.mp hk
          obtain ⟨⟨k', kind⟩, h2, rfl⟩ := Option.map_eq_some_iff.mp hd2
          obtain ⟨x, hx, -⟩ := b1.declaredType ds g d hd k' kind h2
          exact ⟨x, by rw [b2]; exact hx⟩
        · obtain ⟨e, he, rfl⟩ := List.mem_map.mp hk
          obtain ⟨he1, he2⟩ := List.mem_filter.mp he
          have := b1.derivedType ds g e he1 he2
          cases e with
          | plain n => cases he2
          | list x => exact ⟨_, by rw [b2, this]; rfl⟩
          | map x y => exact ⟨_, by rw [b2, this]; rfl⟩
      refine ⟨?_, ?_, ?_, ?_, ?_⟩
      · intro k hk
        obtain ⟨x, hx, h⟩ := b1.builtinType ds g k hk
        exact ⟨x, c1 k x (by rw [b2]; exact hx), h⟩
      · intro d hd k kind hk
        obtain ⟨x, hx, h⟩ := b1.declaredType ds g d hd k kind hk
        exact ⟨x, c1 k x (by rw [b2]; exact hx), h⟩
      · intro e he hd
        have := b1.derivedType ds g e he hd
        cases e with
        | plain n => cases hd
        | list x => exact c1 _ _ (by rw [b2, this]; rfl)
        | map x y => exact c1 _ _ (by rw [b2, this]; rfl)
      · intro k hk x hx hkind hnot
        obtain ⟨y, hy⟩ := back k hk
        have := c1 k y hy
        rw [hx] at this
        cases this
        refine c2 k x hy hkind ?_
        cases hz : s.typeView v (k ++ t!"_list") with
        | none => rfl
        | some z =>
          rw [b2] at hz
          exact absurd (b1.onlyTypes ds g _ z hz) hnot
      · intro k x hx
        rcases c3 k x hx with h | ⟨k0, x0, h, hk, he⟩
        · rw [b2] at h
          exact .inl (b1.onlyTypes ds g k x h)
        · have h' := h
          rw [b2] at h'
          exact .inr ⟨k0, b1.onlyTypes ds g k0 x0 h', x0, c1 k0 x0 h, hk, he⟩
    · have hres : ∀ k, (load inputs).resourceView v' k = (r.decls ds).resourceView k := by
        intro k
        rw [← b3]
        unfold Session.resourceView
        rw [e2, e3, a4]
        cases hf : v.resources.find k with
        | none => rfl
        | some id =>
          rw [Option.bind_some, Option.bind_some]
          obtain ⟨res0, hres0, -⟩ := hread.resources k id hf
          have hlt := (List.getElem?_eq_some_iff.mp hres0).1
          have hg' : s.graph[id]? = some s.graph[id] := List.getElem?_eq_getElem hlt
          obtain ⟨res', hr1, hr2⟩ := resolve_view s.complete.heap s.graph _ id hg'
          rw [hr1, hg', Option.map_some, Option.map_some, hr2]
          have hlen : HeapExt s.heap s.complete.heap := by
            refine heapExt_of_keep ?_ fun i hi => ?_
            · rcases Nat.lt_or_ge s.complete.heap.length s.heap.length with h | h
              · exfalso
                have := h2 s.complete.heap.length s.heap[s.complete.heap.length]
                  (List.getElem?_eq_getElem h)
                rw [List.getElem?_eq_none (Nat.le_refl _)] at this
                cases this
              · exact h
            · rw [List.getElem?_eq_getElem hi]
              exact h2 _ _ (List.getElem?_eq_getElem hi)
          rw [ofResource_ext hlen (.refl _) (i'.memory.graph _ (List.mem_of_getElem? hg'))]
      refine ⟨?_, ?_⟩
      · intro d hd k hk
        rw [hres]
        exact b1.declaredRes ds g d hd k hk
      · intro k x hx
        rw [hres] at hx
        exact b1.onlyRes ds g k x hx
    · rw [a5, b4]
      exact b1.errorsAre ds g

/-- Each of the resources of the model has the name that it is registered with. -/
theorem c76_resource_names_partial (inputs : List SourceModel) (hr : ∀ m ∈ inputs, m.Readable)
    (hg : ∀ before a b ds after, versionDirs inputs = before ++ (a, b, ds) :: after →
      GoodDecls (versionDecls before a b ++ ds)) :
    ∀ a b v, (load inputs).version a b = some v → ∀ k id, v.resources.find k = some id →
      ∃ res, (load inputs).graph[id]? = some res ∧ res.name.toText = k := by
  have i := loadModels_inv inputs loadInv_empty hr fun before x after e =>
    hg before x.1 x.2.1 x.2.2 after e
  rw [List.nil_append] at i
  have good : ModelGood (inputs.foldl loadModel {}).reportUndefined := i.good.congr rfl rfl (.refl _)
  obtain ⟨-, -, h3, h4⟩ := complete_good good
  have e1 : ∀ a b, (load inputs).version a b =
      (inputs.foldl loadModel {}).reportUndefined.complete.version a b := fun _ _ => rfl
  have e3 : (load inputs).graph = Reader.resolveKinds
      (inputs.foldl loadModel {}).reportUndefined.complete.heap (inputs.foldl loadModel {}).graph := by
    have := complete_graph (inputs.foldl loadModel {}).reportUndefined
    exact (congrArg (Reader.resolveKinds _) this)
  intro a b v hv k id hf
  rw [e1] at hv
  cases hv0 : (inputs.foldl loadModel {}).reportUndefined.version a b with
  | none => rw [h3 a b hv0] at hv; cases hv
  | some v0 =>
    obtain ⟨v', a1, -, -, a4, -⟩ := (h4 a b).exists_ v0 hv0
    rw [hv] at a1
    cases a1
    have hv0' : (inputs.foldl loadModel {}).version a b = some v0 := hv0
    obtain ⟨v1, hv1, hread⟩ := i.complete a b (i.sound a b v0 hv0')
    rw [hv0'] at hv1
    cases hv1
    rw [a4] at hf
    obtain ⟨res, hres, hn⟩ := hread.resources k id hf
    refine ⟨Reader.resolveResource (inputs.foldl loadModel {}).reportUndefined.complete.heap res, ?_, hn⟩
    rw [e3]
    unfold Reader.resolveKinds
    rw [List.getElem?_map, hres]
    rfl

/-- If besides that the checks don't find errors, the model is returned. -/
theorem c76_read_partial (inputs : List SourceModel) (hr : ∀ m ∈ inputs, m.Readable)
    (hg : ∀ before a b ds after, versionDirs inputs = before ++ (a, b, ds) :: after →
      GoodDecls (versionDecls before a b ++ ds)) (fuel : Nat) (messages : List Message)
    (hc : Check.checkModel (load inputs).graph fuel
      ((load inputs).versions.map (load inputs).versionView) = .done messages)
    (ha : Accepted messages) :
    read (some 0) inputs fuel = .done { result := .model (load inputs), errors := 0 } := by
  obtain ⟨hp, -, -⟩ := c76_model_partial inputs hr hg
  have hf : messages.filter Message.isError = [] := by
    rw [List.filter_eq_nil_iff]
    intro m hm
    cases m with
    | error p => exact absurd hm (ha p)
    | warning p => simp [Message.isError]
  unfold Session.read
  dsimp only
  rw [hc]
  change (if 0 + (load inputs).problems.length + (messages.filter Message.isError).length > 0
    then _ else _) = _
  rw [hp, hf]
  rfl

/-- The same when there is only one directory for each version, and the declarations of each directory
are good on their own. -/
theorem c76_directories_partial (inputs : List SourceModel) (hr : ∀ m ∈ inputs, m.Readable)
    (hn : ((versionDirs inputs).map fun x => (x.1, x.2.1)).Nodup)
    (hg : ∀ a b ds, (a, b, ds) ∈ versionDirs inputs → GoodDecls ds) :
    (load inputs).problems = [] ∧
    (∀ a b, ((load inputs).version a b).isSome = true ↔ ∃ ds, (a, b, ds) ∈ versionDirs inputs) ∧
    ∀ a b ds, (a, b, ds) ∈ versionDirs inputs → ∃ v, (load inputs).version a b = some v ∧
      TypesAre v.id ds ((load inputs).typeView v) ∧
      ResourcesAre ds ((load inputs).resourceView v) ∧ ErrorsAre ds v.errors.find := by
  have one : ∀ before a b ds after, versionDirs inputs = before ++ (a, b, ds) :: after →
      versionDecls before a b = [] ∧ versionDecls (versionDirs inputs) a b = ds := by
    intro before a b ds after e
    have hn := hn
    rw [e, List.map_append, List.map_cons, List.nodup_append, List.nodup_cons] at hn
    obtain ⟨-, ⟨h1, -⟩, h2⟩ := hn
    have hb : versionDecls before a b = [] :=
      versionDecls_none _ _ _ fun hm => h2 _ hm _ (List.mem_cons_self ..) rfl
    refine ⟨hb, ?_⟩
    have ha : versionDecls after a b = [] := versionDecls_none _ _ _ h1
    unfold versionDecls at hb ha ⊢
    rw [e, List.filter_append, List.flatMap_append, List.filter_cons,
      if_pos (decide_eq_true ⟨rfl, rfl⟩), List.flatMap_cons, hb, ha, List.append_nil,
      List.nil_append]
  obtain ⟨h1, h2, h3⟩ := c76_model_partial inputs hr (by
    intro before a b ds after e
    rw [(one before a b ds after e).1]
    exact hg a b ds (by rw [e]; exact List.mem_append_right _ (List.mem_cons_self ..)))
  refine ⟨h1, h2, fun a b ds hm => ?_⟩
  obtain ⟨before, after, e⟩ := List.append_of_mem hm
  have := h3 a b ds hm
  rwa [(one before a b ds after e).2] at this

/-- The hypothesis about the declarations, as a computation. -/
theorem goodDirs_of_check (dirs : List (Text × Text × List Decl))
    (h : ∀ n < dirs.length, ∀ x ∈ dirs[n]?,
      ((∀ e ∈ refsOf (versionDecls (dirs.take n) x.1 x.2.1 ++ x.2.2), ∀ n ∈ e.names, n ≠ []) ∧
        ∀ k ∈ declaredTypes (versionDecls (dirs.take n) x.1 x.2.1 ++ x.2.2), k ≠ []) ∧
      noNameClashCheck (versionDecls (dirs.take n) x.1 x.2.1 ++ x.2.2) = true ∧
      (Reader.fresh.decls (versionDecls (dirs.take n) x.1 x.2.1 ++ x.2.2)).reportUndefined.problems
        = []) :
    ∀ before a b ds after, dirs = before ++ (a, b, ds) :: after →
      GoodDecls (versionDecls before a b ++ ds) := by
  intro before a b ds after e
  have hlt : before.length < dirs.length := by rw [e, List.length_append, List.length_cons]; omega
  obtain ⟨⟨h1, h2⟩, h3, h4⟩ := h before.length hlt (a, b, ds) (by
    rw [e, List.getElem?_append_right (Nat.le_refl _)]; simp)
  have ht : dirs.take before.length = before := by rw [e]; simp
  rw [ht] at h1 h2 h3 h4
  have hc := noNameClash_of_check _ h3
  exact ⟨h1, h2, hc, (c18_accepted_iff_partial _ h1 hc).mp h4⟩

/-- A second input that adds to one of the versions of the first, and uses what is there. -/
def exampleMore : SourceModel :=
  { services :=
      [ { name := t!"clusters_mgmt"
          versions :=
            [ { name := t!"v1"
                files :=
                  [ { decls :=
                        [ .struct t!"Addon" [] [] [{ name := t!"Cluster", ref := .plain t!"Cluster" }],
                          .resource t!"Addons" [] []
                            [ .locator { name := t!"Clusters", members := [.target t!"Clusters"] } ],
                          .error t!"Broken" [] [] [t!"7"] ] } ] } ] } ] }

theorem exampleMore_good : ∀ before a b ds after,
    versionDirs [exampleInput, exampleMore] = before ++ (a, b, ds) :: after →
      GoodDecls (versionDecls before a b ++ ds) :=
  goodDirs_of_check _ (by decide)

theorem exampleMore_readable : ∀ m ∈ [exampleInput, exampleMore], m.Readable := by
  intro m hm
  have hs : ∀ s ∈ m.services, s.isDir = true → s.status = .good ∧
      ∀ v ∈ s.versions, v.isDir = true → v.status = .good ∧
        ∀ f ∈ v.files, f.regular = true → f.readable = true ∧ f.syntaxErrors = 0 := by
    rcases List.mem_cons.mp hm with rfl | hm
    · decide
    · cases List.mem_singleton.mp hm
      decide
  refine ⟨?_, hs⟩
  rcases List.mem_cons.mp hm with rfl | hm
  · rfl
  · cases List.mem_singleton.mp hm
    rfl

/-- The example meets the hypotheses. It has two versions with different content: there is a class
`Cluster` only in the first, and a list of clusters, that isn't written anywhere, is added to it. The
first version has also the resources of both inputs. -/
example : (load [exampleInput, exampleMore]).problems = [] ∧
    ∃ v1 v2, (load [exampleInput, exampleMore]).version t!"clusters_mgmt" t!"v1" = some v1 ∧
      (load [exampleInput, exampleMore]).version t!"clusters_mgmt" t!"v2" = some v2 ∧
      (load [exampleInput, exampleMore]).typeView v1 t!"cluster_list" =
        some (listView v1.id t!"cluster") ∧
      (load [exampleInput, exampleMore]).typeView v2 t!"cluster" = none ∧
      ((load [exampleInput, exampleMore]).resourceView v1 t!"clusters").isSome = true ∧
      ((load [exampleInput, exampleMore]).resourceView v1 t!"addons").isSome = true := by
  obtain ⟨h1, h2, h3⟩ := c76_model_partial [exampleInput, exampleMore] exampleMore_readable
    exampleMore_good
  obtain ⟨v1, a1, a2, a3, -⟩ := h3 t!"clusters_mgmt" t!"v1" _ (List.mem_cons_self ..)
  obtain ⟨v2, b1, b2, -⟩ := h3 t!"clusters_mgmt" t!"v2" _
    (List.mem_cons_of_mem _ (List.mem_cons_self ..))
  refine ⟨h1, v1, v2, a1, b1, ?_, ?_, ?_, ?_⟩
  · obtain ⟨x, hx, hdes⟩ := a2.declared _ (List.mem_cons_self ..) t!"cluster" .class rfl
    refine a2.lists t!"cluster" (by decide) x hx ?_ (by decide)
    obtain ⟨-, sorted, -, rfl⟩ := hdes
    intro h
    cases h
  · cases hx : (load [exampleInput, exampleMore]).typeView v2 t!"cluster" with
    | none => rfl
    | some x =>
      rcases b2.nothingElse _ _ hx with h | ⟨k0, -, x0, -, -, h⟩
      · exact absurd h (by decide)
      · have : t!"_list" <:+ t!"cluster" := ⟨k0, h.symm⟩
        exact absurd this (by decide)
  · obtain ⟨x, hx, -⟩ := a3.declared (versionDecls (versionDirs [exampleInput, exampleMore])
      t!"clusters_mgmt" t!"v1")[4] (List.getElem_mem _) t!"clusters" rfl
    rw [hx]; rfl
  · obtain ⟨x, hx, -⟩ := a3.declared (versionDecls (versionDirs [exampleInput, exampleMore])
      t!"clusters_mgmt" t!"v1")[6] (List.getElem_mem _) t!"addons" rfl
    rw [hx]; rfl

end Verif
