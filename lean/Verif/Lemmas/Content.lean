import Verif.Lemmas.SessionTypes
import Verif.Lemmas.ReaderFinal
import Verif.Lemmas.ListTypes
import Verif.Spec.Content

/-! Helper lemmas about the content of models that have several services and versions. -/

namespace Verif

open Reader Session

/-! ## One version -/

section

variable {nb ng : Nat → Prop} {v : VersionId} {r : Reader} (b : Base nb ng v r)
include b

theorem Base.builtinType (ds : List Decl) (g : GoodDecls ds) (k : Text) (hk : k ∈ builtinKeys) :
    ∃ x, (r.decls ds).typeView k = some x ∧ BuiltinView v k x := by
  rcases b.typeAt ds g.named g.noClash k with h | h | h | h | h
  · obtain ⟨y, hy⟩ := Option.isSome_iff_exists.mp ((b.keys k).mpr hk)
    exact ⟨y, by rw [h.2, hy], b.view k y hy⟩
  all_goals exact absurd hk h.1

theorem Base.declaredType (ds : List Decl) (g : GoodDecls ds) (d : Decl) (hm : d ∈ ds) (k : Text)
    (kind : Kind) (hk : d.declaredType = some (k, kind)) :
    ∃ x, (r.decls ds).typeView k = some x ∧ d.Describes v k x := by
  have hx : ∃ n x, d.typeDecl v = some (n, x) ∧ n.toText = k := by
    cases d <;> simp only [Decl.declaredType, Option.some.injEq, Prod.mk.injEq, reduceCtorEq] at hk
    all_goals exact ⟨_, _, rfl, hk.1⟩
  obtain ⟨n, x, hx, hn⟩ := hx
  have hin : k ∈ declaredTypes ds := List.mem_filterMap.mpr ⟨d, hm, by rw [hk]; rfl⟩
  have hmem : (n, x) ∈ (histOf v ds).declared := List.mem_filterMap.mpr ⟨d, hm, hx⟩
  have ha := typeAt_unique ds g.noClash g.acceptable.distinctTypes k _ _
    (b.typeAt ds g.named g.noClash k)
    (.inr (.inl ⟨g.acceptable.notBuiltin k hin, (n, x), hmem, hn, rfl⟩))
  refine ⟨x, ha, ?_⟩
  rw [← hn]
  exact typeDecl_describes v d n x hx

theorem Base.derivedType (ds : List Decl) (g : GoodDecls ds) (e : TypeExpr) (he : e ∈ refsOf ds)
    (hd : e.isDerived = true) : (r.decls ds).typeView e.key = e.derivedView v := by
  have hder : e ∈ (histOf v ds).derived := List.mem_filter.mpr ⟨he, hd⟩
  have hk : e.key ∈ derivedTypes ds := List.mem_map.mpr ⟨e, hder, rfl⟩
  rcases b.typeAt ds g.named g.noClash e.key with
    ⟨hb, hx⟩ | ⟨hb, d, h1, h2, h3⟩ | ⟨hb, hnd, f, h1, h2, h3⟩ | hx | hx
  · rw [hx]
    obtain ⟨y, hv⟩ := Option.isSome_iff_exists.mp ((b.keys _).mpr hb)
    rw [hv]
    obtain ⟨s, hb', hc' | hc'⟩ := b.view _ _ hv
    · exfalso
      have hend : ∀ b ∈ builtinScalars, ¬ (t!"_list" <:+ b.1) ∧ ¬ (t!"_map" <:+ b.1) := by decide
      cases e with
      | plain n => cases hd
      | list x => exact (hend s hb').1 (hc'.1 ▸ List.suffix_append _ _)
      | map x y => exact (hend s hb').2 (hc'.1 ▸ List.suffix_append _ _)
    · cases e with
      | plain n => cases hd
      | list x =>
        have : keyOf x = s.1 := List.append_cancel_right hc'.1
        rw [hc'.2, TypeExpr.derivedView, this]
      | map x y =>
        exfalso
        have hne : ∀ b ∈ builtinScalars, ¬ (t!"_map" <:+ b.1 ++ t!"_list") := by decide
        exact hne s hb' (hc'.1 ▸ List.suffix_append _ _)
  · exact absurd (by rw [← declared_keys v]; exact List.mem_map.mpr ⟨d, h1, h2⟩)
      (g.noClash.notDeclared _ hk)
  · have m1 := List.mem_filter.mp h1
    rw [h3]
    exact derivedView_unique v f e m1.2 hd (g.noClash.distinct f m1.1 e he m1.2 hd h2)
  · exact absurd hk hx.2.2.1
  · exact absurd hk hx.2.2.1

theorem Base.onlyTypes (ds : List Decl) (g : GoodDecls ds) (k : Text) (x : TypeView)
    (hx : (r.decls ds).typeView k = some x) : k ∈ givenTypes ds := by
  unfold givenTypes
  rw [List.mem_append, List.mem_append]
  rcases b.typeAt ds g.named g.noClash k with h | ⟨hb, d, h1, h2, h3⟩ | ⟨hb, hnd, f, h1, h2, h3⟩ | h | h
  · exact .inl (.inl h.1)
  · exact .inl (.inr (by rw [← declared_keys v]; exact List.mem_map.mpr ⟨d, h1, h2⟩))
  · exact .inr (List.mem_map.mpr ⟨f, h1, h2⟩)
  · rcases g.acceptable.knownTypes k h.2.2.2.1 with h1 | h1
    · exact .inl (.inl h1)
    · exact .inl (.inr h1)
  · rw [h.2.2.2.2] at hx
    cases hx

theorem Base.declaredRes (ds : List Decl) (g : GoodDecls ds) (d : Decl) (hm : d ∈ ds) (k : Text)
    (hk : d.declaredResource = some k) :
    ∃ x, (r.decls ds).resourceView k = some x ∧ d.DescribesResource k x := by
  have hx : ∃ n x, d.resourceDecl = some (n, x) ∧ n.toText = k := by
    cases d <;> simp only [Decl.declaredResource, Option.some.injEq, reduceCtorEq] at hk
    exact ⟨_, _, rfl, hk⟩
  obtain ⟨n, x, hx, hn⟩ := hx
  have hmem : (n, x) ∈ ds.filterMap Decl.resourceDecl := List.mem_filterMap.mpr ⟨d, hm, hx⟩
  have hmem' : k ∈ (ds.filterMap Decl.resourceDecl).map fun d => d.1.toText :=
    List.mem_map.mpr ⟨_, hmem, hn⟩
  have i := b.rinv ds g.named
  obtain ⟨y, hy⟩ := Option.isSome_iff_exists.mp ((i.dom k).mpr (.inr hmem'))
  rcases i.source k y hy with ⟨d', h1, h2, h3⟩ | h1
  · have := nodup_filterMap_unique Decl.resourceDecl ds
      (by rw [resourceDecl_keys]; exact g.acceptable.distinctResources)
      (n, x) d' hmem h1 (hn.trans h2.symm)
    subst this
    subst h3
    refine ⟨x, hy, ?_⟩
    rw [← hn]
    exact resourceDecl_describes d n x hx
  · exact absurd hmem' h1.2

theorem Base.onlyRes (ds : List Decl) (g : GoodDecls ds) (k : Text) (x : ResourceView)
    (hx : (r.decls ds).resourceView k = some x) : k ∈ declaredResources ds := by
  have i := b.rinv ds g.named
  have hs : ((Verif.abs (r.decls ds)).r.resources k).isSome = true := by
    change ((r.decls ds).resourceView k).isSome = true
    rw [hx]; rfl
  rcases (i.dom k).mp hs with h | h
  · exact g.acceptable.knownResources k h
  · rw [resourceDecl_keys] at h; exact h

theorem Base.errorsAre (ds : List Decl) (g : GoodDecls ds) :
    ErrorsAre ds (r.decls ds).errors.find := by
  have he := b.e ds g.named
  have hnone : ∀ k, (Verif.abs r).e.errors.find k = none := by
    intro k
    change r.errors.find k = none
    rw [b.errors]; rfl
  have hf : ∀ k, (r.decls ds).errors.find k =
      (ds.foldl EState.decl (Verif.abs r).e).errors.find k := by
    intro k
    rw [← he]; rfl
  constructor
  · intro name doc as codes hm
    have hk : ((ds.filterMap Decl.errorDecl).map fun d => d.1.toText) = declaredErrors ds := by
      unfold declaredErrors
      rw [filterMap_comp_map]
      congr 1
      funext d
      cases d <;> rfl
    have hdom := (edom_decls (Verif.abs r).e ds (keyOf name)).mpr
      (.inr (List.mem_filterMap.mpr ⟨_, hm, rfl⟩))
    obtain ⟨y, hy⟩ := Option.isSome_iff_exists.mp hdom
    have hmem : (parseUsingCase name,
        ({ supportName := some (parseUsingCase name), ownName := none, doc := doc
           annotations := as
           code := ((codes.map fun t => (atoi t).1).getLast?).getD 0 } : ErrorConcept)) ∈
        ds.filterMap Decl.errorDecl := List.mem_filterMap.mpr ⟨_, hm, rfl⟩
    rcases efind_decls _ ds (keyOf name) y hy with h1 | ⟨d, hd1, n, h1, h2⟩
    · rw [hnone] at h1; cases h1
    · have := nodup_filterMap_unique Decl.errorDecl ds
        (by rw [hk]; exact g.acceptable.distinctErrors) _ (n, y) hmem
        (List.mem_filterMap.mpr ⟨d, hd1, h1⟩) h2.symm
      have hxy := (Prod.mk.inj this).2
      refine ⟨y, by rw [hf, hy], ?_⟩
      rw [← hxy]
      refine ⟨rfl, rfl, rfl, ?_, ?_⟩
      · rintro rfl; rfl
      · intro c hc
        dsimp only
        rw [List.getLast?_map, hc, Option.map_some, Option.getD_some]
        have := g.acceptable.codes _ hm c (List.mem_of_getLast? hc)
        have e : digitsValue c = c.foldl (fun n c => 10 * n + (c.toNat - 48)) 0 := rfl
        unfold atoi
        rw [e]
        have hmx : maxInt = 2 ^ 63 - 1 := rfl
        rw [if_pos (by rw [hmx]; omega)]
  · intro k e hk
    have d1 := edom_decls (Verif.abs r).e ds k
    rw [hf] at hk
    rw [hk, hnone] at d1
    rcases d1.mp rfl with h | h
    · cases h
    · exact h

end

/-! ## The rest of the versions -/

/-- The version has what a reader has after reading the declarations. -/
structure VersionRead (s : Session) (v : LoadedVersion) (ds : List Decl) : Prop where
  read : ∃ nb ng r, Base nb ng v.id r ∧ abs (s.enter v) = abs (r.decls ds)
  resources : ∀ k id, v.resources.find k = some id →
    ∃ res, s.graph[id]? = some res ∧ res.name.toText = k

/-- The memory of a session is closed. -/
structure MemoryClosed (s : Session) : Prop where
  heap : ∀ c ∈ s.heap, CellClosed s.heap.length c
  graph : ∀ res ∈ s.graph, ResourceClosed s.heap.length s.graph.length res

theorem heapExt_of_keep {h h' : Heap} (hl : h.length ≤ h'.length)
    (k : ∀ i, i < h.length → h'[i]? = h[i]?) : HeapExt h h' := by
  refine ⟨hl, ?_⟩
  intro i hi
  unfold View.typeKey
  rw [k i hi]

theorem graphExt_of_keep {h h' : Graph} (hl : h.length ≤ h'.length)
    (k : ∀ i, i < h.length → h'[i]? = h[i]?) : GraphExt h h' := by
  refine ⟨hl, ?_⟩
  intro i hi
  unfold View.resourceKey
  rw [k i hi]

/-- The views of a version don't change if the memory grows and its own cells are kept. -/
theorem views_keep {s s' : Session} (m : MemoryClosed s) (v : LoadedVersion)
    (e : HeapExt s.heap s'.heap) (eg : GraphExt s.graph s'.graph)
    (k : ∀ key id, v.types.find key = some id → s'.heap[id]? = s.heap[id]?)
    (kg : ∀ key id, v.resources.find key = some id → s'.graph[id]? = s.graph[id]?) (key : Text) :
    s'.typeView v key = s.typeView v key ∧ s'.resourceView v key = s.resourceView v key := by
  constructor
  · unfold Session.typeView
    cases hf : v.types.find key with
    | none => rfl
    | some id =>
      rw [Option.bind_some, Option.bind_some, k key id hf]
      cases hc : s.heap[id]? with
      | none => rfl
      | some c =>
        rw [Option.map_some, Option.map_some, ofCell_ext e (m.heap c (List.mem_of_getElem? hc))]
  · unfold Session.resourceView
    cases hf : v.resources.find key with
    | none => rfl
    | some id =>
      rw [Option.bind_some, Option.bind_some, kg key id hf]
      cases hc : s.graph[id]? with
      | none => rfl
      | some c =>
        rw [Option.map_some, Option.map_some,
          ofResource_ext e eg (m.graph c (List.mem_of_getElem? hc))]

/-- The keys of service and version. -/
def dirKeys (ds : List (Text × Text × List Decl)) : List (Text × Text) :=
  ds.map fun x => (x.1, x.2.1)

/-- The state after loading some directories of versions. -/
structure LoadInv (done : List (Text × Text × List Decl)) (s : Session) : Prop where
  good : ModelGood s
  memory : MemoryClosed s
  problems : s.problems = []
  undef : s.undefinedTypes = []
  rundef : s.undefinedResources = []
  apart : ∀ a b v a' b' v' k k' id, s.version a b = some v → s.version a' b' = some v' →
    v.resources.find k = some id → v'.resources.find k' = some id → a = a' ∧ b = b'
  sound : ∀ a b v, s.version a b = some v → (a, b) ∈ dirKeys done
  complete : ∀ a b, (a, b) ∈ dirKeys done →
    ∃ v, s.version a b = some v ∧ VersionRead s v (versionDecls done a b)

theorem loadInv_empty : LoadInv [] {} :=
  ⟨modelGood_empty, ⟨fun _ h => (nomatch h), fun _ h => (nomatch h)⟩, rfl, rfl, rfl,
    fun _ _ _ _ _ _ _ _ _ h => (nomatch h), fun _ _ _ h => (nomatch h), fun _ _ h => (nomatch h)⟩

theorem dirKeys_snoc (done : List (Text × Text × List Decl)) (k b : Text) (ds : List Decl) :
    dirKeys (done ++ [(k, b, ds)]) = dirKeys done ++ [(k, b)] := by
  unfold dirKeys; rw [List.map_append]; rfl

theorem versionDecls_snoc (done : List (Text × Text × List Decl)) (k b : Text) (ds : List Decl)
    (a c : Text) : versionDecls (done ++ [(k, b, ds)]) a c =
      versionDecls done a c ++ if k = a ∧ b = c then ds else [] := by
  unfold versionDecls
  rw [List.filter_append, List.flatMap_append]
  congr 1
  by_cases h : k = a ∧ b = c <;> simp [List.filter_cons, h]

theorem versionDecls_none (done : List (Text × Text × List Decl)) (a c : Text)
    (h : (a, c) ∉ dirKeys done) : versionDecls done a c = [] := by
  unfold versionDecls
  rw [List.filter_eq_nil_iff.mpr]
  · rfl
  · intro x hx hc
    obtain ⟨rfl, rfl⟩ := of_decide_eq_true hc
    exact h (List.mem_map.mpr ⟨x, hx, rfl⟩)

theorem abs_enter {s s' : Session} {v : LoadedVersion}
    (ht : ∀ key, s'.typeView v key = s.typeView v key)
    (hr : ∀ key, s'.resourceView v key = s.resourceView v key)
    (h1 : s'.undefinedTypes = s.undefinedTypes) (h2 : s'.undefinedResources = s.undefinedResources)
    (h3 : s'.problems = s.problems) : abs (s'.enter v) = abs (s.enter v) := by
  unfold abs
  congr 1
  · exact funext ht
  · unfold Session.enter; rw [h1]
  · exact funext hr
  · unfold Session.enter; rw [h2]

/-- Loading declarations for one version. -/
theorem LoadInv.put {done : List (Text × Text × List Decl)} {s : Session} (i : LoadInv done s)
    (s' : Session) (k b : Text) (v1 : LoadedVersion) (ds : List Decl)
    (good : ModelGood s') (memory : MemoryClosed s') (problems : s'.problems = [])
    (undef : s'.undefinedTypes = []) (rundef : s'.undefinedResources = [])
    (ver : ∀ a c, s'.version a c = if k = a ∧ b = c then some v1 else s.version a c)
    (e : HeapExt s.heap s'.heap) (eg : GraphExt s.graph s'.graph)
    (keep : ∀ a c v, s.version a c = some v → ¬ (k = a ∧ b = c) →
      ∀ key id, v.types.find key = some id → s'.heap[id]? = s.heap[id]?)
    (rkeep : ∀ a c v, s.version a c = some v → ¬ (k = a ∧ b = c) →
      ∀ key id, v.resources.find key = some id → s'.graph[id]? = s.graph[id]?)
    (named : ∀ key id, v1.resources.find key = some id →
      ∃ res, s'.graph[id]? = some res ∧ res.name.toText = key)
    (apart : ∀ a c v, s.version a c = some v → ¬ (k = a ∧ b = c) →
      ∀ key key' id, v.resources.find key = some id → v1.resources.find key' ≠ some id)
    (read : ∃ nb ng r, Base nb ng v1.id r ∧
      abs (s'.enter v1) = abs (r.decls (versionDecls done k b ++ ds))) :
    LoadInv (done ++ [(k, b, ds)]) s' := by
  refine ⟨good, memory, problems, undef, rundef, ?_, ?_, ?_⟩
  · intro a c v a' c' v' key key' id hv hv' hf hf'
    rw [ver] at hv hv'
    split at hv
    · rename_i h
      obtain ⟨rfl, rfl⟩ := h
      split at hv'
      · rename_i h
        exact h
      · rename_i h
        cases hv
        exact absurd hf (apart a' c' v' hv' h key' key id hf')
    · rename_i h
      split at hv'
      · cases hv'
        exact absurd hf' (apart a c v hv h key key' id hf)
      · exact i.apart a c v a' c' v' key key' id hv hv' hf hf'
  · intro a c v hv
    rw [ver] at hv
    rw [dirKeys_snoc]
    split at hv
    · rename_i h
      obtain ⟨rfl, rfl⟩ := h
      exact List.mem_append_right _ (List.mem_singleton.mpr rfl)
    · exact List.mem_append_left _ (i.sound a c v hv)
  · intro a c hm
    rw [versionDecls_snoc, ver]
    by_cases h : k = a ∧ b = c
    · rw [if_pos h, if_pos h]
      obtain ⟨rfl, rfl⟩ := h
      exact ⟨v1, rfl, read, named⟩
    · rw [if_neg h, if_neg h, List.append_nil]
      have hm : (a, c) ∈ dirKeys done := by
        rw [dirKeys_snoc] at hm
        rcases List.mem_append.mp hm with hm | hm
        · exact hm
        · cases List.mem_singleton.mp hm
          exact absurd ⟨rfl, rfl⟩ h
      obtain ⟨v, hv, hread⟩ := i.complete a c hm
      have hviews := views_keep i.memory v e eg (keep a c v hv h) (rkeep a c v hv h)
      obtain ⟨nb, ng, r, h1, h2⟩ := hread.read
      refine ⟨v, hv, ⟨nb, ng, r, h1, ?_⟩, ?_⟩
      · rw [abs_enter (fun key => (hviews key).1) (fun key => (hviews key).2) (by rw [undef, i.undef])
          (by rw [rundef, i.rundef]) (by rw [problems, i.problems])]
        exact h2
      · intro key id hf
        rw [rkeep a c v hv h key id hf]
        exact hread.resources key id hf

theorem loadFiles_eq (fs : List SourceFile) (r : Reader)
    (h : ∀ f ∈ fs, f.regular = true → f.readable = true ∧ f.syntaxErrors = 0) :
    fs.foldl loadFile r = r.decls ((fs.filter (·.regular)).flatMap (·.decls)) := by
  induction fs generalizing r with
  | nil => rfl
  | cons f fs ih =>
    have hf' := h f (List.mem_cons_self ..)
    rw [List.foldl_cons, ih _ fun g hg => h g (List.mem_cons_of_mem _ hg)]
    unfold loadFile
    cases hreg : f.regular with
    | false => simp [hreg]
    | true =>
      obtain ⟨h1, h2⟩ := hf' hreg
      simp [hreg, h1, h2, Reader.decls, List.foldl_append]

theorem version_types {s : Session} (g : ModelGood s) {a b : Text} {v : LoadedVersion}
    (h : s.version a b = some v) (k : Text) (id : TypeId) (hf : v.types.find k = some id) :
    id < s.heap.length := by
  obtain ⟨l, hl, hlv⟩ := Option.bind_eq_some_iff.mp h
  obtain ⟨-, -, ht⟩ := (g.named a l hl).2.named b v hlv
  obtain ⟨c, hc, -⟩ := ht.named k id hf
  exact (List.getElem?_eq_some_iff.mp hc).1

theorem findOrCreateVersion_inv {done : List (Text × Text × List Decl)} {s : Session}
    (i : LoadInv done s) (k : Text) (hk : (s.services.find k).isSome = true) (name : Name) :
    LoadInv (done ++ [(k, name.toText, [])]) (s.findOrCreateVersion k name).1 ∧
    (∀ k', (s.services.find k').isSome = true →
      ((s.findOrCreateVersion k name).1.services.find k').isSome = true) := by
  obtain ⟨hgood, -, -, -, -, -, -, hver0⟩ := findOrCreateVersion_good i.good k name
  obtain ⟨l, hl⟩ := Option.isSome_iff_exists.mp hk
  unfold Session.findOrCreateVersion at hgood ⊢
  cases hv : (s.services.find k).bind fun loaded => loaded.versions.find name.toText with
  | some v =>
    refine ⟨?_, fun k' h => h⟩
    have hv' : s.version k name.toText = some v := hv
    have hmem := i.sound _ _ _ hv'
    refine ⟨i.good, i.memory, i.problems, i.undef, i.rundef, i.apart, ?_, ?_⟩
    · intro a b w hw
      rw [dirKeys_snoc]
      exact List.mem_append_left _ (i.sound a b w hw)
    · intro a b hm
      rw [dirKeys_snoc] at hm
      have hm : (a, b) ∈ dirKeys done := by
        rcases List.mem_append.mp hm with hm | hm
        · exact hm
        · cases List.mem_singleton.mp hm; exact hmem
      rw [versionDecls_snoc, ite_self, List.append_nil]
      exact i.complete a b hm
  | none =>
    rw [hv] at hgood
    have hv' : s.version k name.toText = none := hv
    have hnot : (k, name.toText) ∉ dirKeys done := by
      intro h
      obtain ⟨v, h1, -⟩ := i.complete _ _ h
      rw [hv'] at h1
      cases h1
    have b := base_start s.heap s.graph s.created i.memory.heap i.memory.graph
    dsimp only at hgood ⊢
    have hstart : startReader s.heap s.graph s.created =
        { table := TypeTable.newVersion s.heap s.created, graph := s.graph } := rfl
    have htable := start_table s.heap s.graph s.created
    rw [hstart] at htable
    dsimp only at htable
    have hheap0 : (TypeTable.newVersion s.heap s.created).heap =
        s.heap ++ builtinCells s.created s.heap.length := by rw [htable]
    have hversion : (TypeTable.newVersion s.heap s.created).version = s.created := by rw [htable]
    generalize TypeTable.newVersion s.heap s.created = t0 at *
    have hver : ∀ a c, (({ s with heap := t0.heap, created := s.created + 1 } : Session).store k
        { name := name, id := s.created, types := t0.types }).version a c =
        if k = a ∧ name.toText = c then some { name := name, id := s.created, types := t0.types }
        else s.version a c := by
      intro a c
      rw [version_store _ _ _ (by exact hk)]
      rfl
    have hother : (({ s with heap := t0.heap, created := s.created + 1 } : Session).store k
        { name := name, id := s.created, types := t0.types }) =
        { s with
          heap := t0.heap
          created := s.created + 1
          services := s.services.insert k (LoadedService.mk l.name
            (l.versions.insert name.toText ⟨name, s.created, t0.types, [], []⟩)) } := by
      unfold Session.store
      dsimp only
      rw [hl]
    have hkeep : ∀ id, id < s.heap.length → t0.heap[id]? = s.heap[id]? := by
      intro id hlt
      rw [hheap0]
      exact List.getElem?_append_left hlt
    refine ⟨i.put _ k name.toText _ [] hgood ⟨?_, ?_⟩ ?_ ?_ ?_ hver ?_ ?_ ?_ ?_ ?_ ?_ ?_, ?_⟩
    · rw [hother]; rw [hstart] at b; exact b.wf.closed
    · rw [hother]; rw [hstart] at b; exact b.wf.rclosed
    · rw [hother]; exact i.problems
    · rw [hother]; exact i.undef
    · rw [hother]; exact i.rundef
    · rw [hother]; exact heapExt_of_keep (by dsimp only; rw [hheap0, List.length_append]; omega) hkeep
    · rw [hother]; exact .refl _
    · intro a c v hv _ key id hf
      rw [hother]
      exact hkeep id (version_types i.good hv key id hf)
    · intro a c v hv _ key id hf
      rw [hother]
    · intro key id hf; cases hf
    · intro a c v hv _ key key' id _ hf; cases hf
    · refine ⟨_, _, _, b, ?_⟩
      rw [versionDecls_none _ _ _ hnot]
      rw [hother, hstart]
      unfold Session.enter
      dsimp only
      rw [i.undef, i.rundef, i.problems, ← hversion]
      rfl
    · intro k' h
      rw [hother]
      dsimp only
      rw [GoMap.find_insert]
      split
      · rfl
      · exact h

/-- The pointers that don't belong to a version. -/
def foreign (n : Nat) (m : GoMap Nat) (id : Nat) : Prop := id < n ∧ ∀ k, m.find k ≠ some id

theorem not_foreign {n : Nat} {m : GoMap Nat} {id : Nat} (h : ¬ foreign n m id) (hlt : id < n) :
    ∃ k, m.find k = some id := by
  apply Classical.byContradiction
  intro hn
  exact h ⟨hlt, fun k hk => hn ⟨k, hk⟩⟩

theorem wf_enter {done : List (Text × Text × List Decl)} {s : Session} (i : LoadInv done s)
    {k b : Text} {v : LoadedVersion} (hv : s.version k b = some v)
    (hr : ∀ k id, v.resources.find k = some id →
      ∃ res, s.graph[id]? = some res ∧ res.name.toText = k) :
    WF (foreign s.heap.length v.types) (foreign s.graph.length v.resources) (s.enter v) := by
  obtain ⟨l, hl, hlv⟩ := Option.bind_eq_some_iff.mp hv
  obtain ⟨-, -, ht⟩ := (i.good.named k l hl).2.named b v hlv
  have u1 : ∀ k id, (s.enter v).undefinedTypes.find k ≠ some id := by
    intro k id h
    unfold Session.enter at h
    dsimp only at h
    rw [i.undef] at h
    cases h
  have u2 : ∀ k id, (s.enter v).undefinedResources.find k ≠ some id := by
    intro k id h
    unfold Session.enter at h
    dsimp only at h
    rw [i.rundef] at h
    cases h
  refine ⟨?_, i.memory.heap, hr, i.memory.graph, fun k id h => absurd h (u1 k id),
    fun k id h => absurd h (u2 k id), fun k id h => absurd h (u1 k id),
    fun k id h => absurd h (u2 k id), ?_, ?_, ⟨fun _ h => h.1, fun _ h => h.1⟩,
    fun k id h hn => hn.2 k h, fun k id h hn => hn.2 k h⟩
  · intro k id hf
    obtain ⟨c, hc, hn, -⟩ := ht.named k id hf
    exact ⟨c, hc, hn⟩
  · intro id c hn hc
    obtain ⟨k, hf⟩ := not_foreign hn (List.getElem?_eq_some_iff.mp hc).1
    obtain ⟨c', hc', hk, -⟩ := ht.named k id hf
    have : c = c' := Option.some.inj (hc.symm.trans hc')
    subst this
    rw [hk]
    exact hf
  · intro id c hn hc
    obtain ⟨k, hf⟩ := not_foreign hn (List.getElem?_eq_some_iff.mp hc).1
    obtain ⟨c', hc', hk⟩ := hr k id hf
    have : c = c' := Option.some.inj (hc.symm.trans hc')
    subst this
    rw [hk]
    exact hf

theorem wellNamed_right {xs ys : List Decl} (h : WellNamed (xs ++ ys)) : WellNamed ys := by
  intro e he
  refine h e ?_
  unfold refsOf at he ⊢
  rw [List.flatMap_append]
  exact List.mem_append_right _ he

theorem wellNamed_left {xs ys : List Decl} (h : WellNamed (xs ++ ys)) : WellNamed xs := by
  intro e he
  refine h e ?_
  unfold refsOf at he ⊢
  rw [List.flatMap_append]
  exact List.mem_append_left _ he

theorem decls_append (r : Reader) (xs ys : List Decl) :
    r.decls (xs ++ ys) = (r.decls xs).decls ys := by
  unfold Reader.decls
  rw [List.foldl_append]

theorem leave_inv {done : List (Text × Text × List Decl)} {s : Session} (i : LoadInv done s)
    (k b : Text) (v : LoadedVersion) (hv : s.version k b = some v) (hb : v.name.toText = b)
    (ds : List Decl) (g : GoodDecls (versionDecls done k b ++ ds))
    (hgood : ModelGood (s.leave k v ((s.enter v).decls ds))) :
    LoadInv (done ++ [(k, b, ds)]) (s.leave k v ((s.enter v).decls ds)) ∧
    ∀ k', (s.services.find k').isSome = true →
      ((s.leave k v ((s.enter v).decls ds)).services.find k').isSome = true := by
  obtain ⟨v', hv', hread⟩ := i.complete k b (i.sound k b v hv)
  have : v = v' := Option.some.inj (hv.symm.trans hv')
  subst this
  have wf := wf_enter i hv hread.resources
  obtain ⟨l, hl, hlv⟩ := Option.bind_eq_some_iff.mp hv
  obtain ⟨-, -, ht⟩ := (i.good.named k l hl).2.named b v hlv
  obtain ⟨step, habs⟩ := decls_step wf ds (wellNamed_right g.named)
  obtain ⟨nb, ng, r0, base, habs0⟩ := hread.read
  have hall : abs ((s.enter v).decls ds) = abs (r0.decls (versionDecls done k b ++ ds)) := by
    rw [habs, habs0, decls_append]
    have h1 := base.step _ (wellNamed_left g.named)
    rw [(decls_step h1.wf ds (wellNamed_right g.named)).2, h1.version, base.version]
    rfl
  have hacc := (reportUndefined_nil _).mp ((base.accept _ g.named g.noClash).mpr g.acceptable)
  generalize (s.enter v).decls ds = r at *
  have p1 : r.problems = [] := by
    have := congrArg AState.problems hall
    exact this.trans hacc.1
  have p2 : r.undefinedTypes = [] := by
    rw [gomap_nil_iff]
    intro key
    have := congrFun (congrArg AState.undef hall) key
    have h2 := (gomap_nil_iff _).mp hacc.2.1 key
    exact this.trans h2
  have p3 : r.undefinedResources = [] := by
    rw [gomap_nil_iff]
    intro key
    have := congrFun (congrArg AState.rundef hall) key
    have h2 := (gomap_nil_iff _).mp hacc.2.2 key
    exact this.trans h2
  have hleave : s.leave k v r =
      { s with
        heap := r.table.heap
        graph := r.graph
        undefinedTypes := r.undefinedTypes
        undefinedResources := r.undefinedResources
        problems := r.problems
        services := s.services.insert k (LoadedService.mk l.name
          (l.versions.insert v.name.toText
            ⟨v.name, v.id, r.table.types, r.resources, r.errors⟩)) } := by
    unfold Session.leave Session.store
    dsimp only
    rw [hl]
  have hver : ∀ a c, (s.leave k v r).version a c = if k = a ∧ b = c then
      some { v with types := r.table.types, resources := r.resources, errors := r.errors }
      else s.version a c := by
    intro a c
    unfold Session.leave
    dsimp only
    rw [version_store _ _ _ (by dsimp only; rw [hl]; rfl)]
    dsimp only
    rw [hb]
    rfl
  have rforeign : ∀ a c w, s.version a c = some w → ¬ (k = a ∧ b = c) → ∀ key id,
      w.resources.find key = some id → foreign s.graph.length v.resources id := by
    intro a c w hw hne key id hf
    obtain ⟨w', hw', hread'⟩ := i.complete a c (i.sound a c w hw)
    have : w = w' := Option.some.inj (hw.symm.trans hw')
    subst this
    obtain ⟨res, hres, -⟩ := hread'.resources key id hf
    exact ⟨(List.getElem?_eq_some_iff.mp hres).1, fun key' hf' =>
      hne (i.apart k b v a c w key' key id hv hw hf' hf)⟩
  refine ⟨i.put _ k b _ ds hgood ⟨?_, ?_⟩ ?_ ?_ ?_ hver ?_ ?_ ?_ ?_ ?_ ?_ ?_, ?_⟩
  · rw [hleave]; exact step.wf.closed
  · rw [hleave]; exact step.wf.rclosed
  · rw [hleave]; exact p1
  · rw [hleave]; exact p2
  · rw [hleave]; exact p3
  · rw [hleave]; exact step.heap
  · rw [hleave]; exact step.graph
  · intro a c w hw hne key id hf
    rw [hleave]
    refine step.keep id ⟨version_types i.good hw key id hf, ?_⟩
    intro key' hf'
    obtain ⟨l', hl', hlw⟩ := Option.bind_eq_some_iff.mp hw
    obtain ⟨n1, -, tw⟩ := (i.good.named a l' hl').2.named c w hlw
    obtain ⟨c1, e1, -, o1⟩ := tw.named key id hf
    obtain ⟨c2, e2, -, o2⟩ := ht.named key' id hf'
    have : c1 = c2 := Option.some.inj (e1.symm.trans e2)
    subst this
    have hid : v.id = w.id := Option.some.inj (o2.symm.trans o1)
    obtain ⟨h1, h2⟩ := i.good.distinct k l v a l' w hl (by rw [hb]; exact hlv) hl'
      (by rw [n1]; exact hlw) hid
    exact hne ⟨h1, by rw [← hb, h2, n1]⟩
  · intro a c w hw hne key id hf
    rw [hleave]
    exact step.rkeep id (rforeign a c w hw hne key id hf)
  · intro key id hf
    rw [hleave]
    exact step.wf.rfind key id hf
  · intro a c w hw hne key key' id hf hf'
    exact step.wf.rlow key' id hf' (rforeign a c w hw hne key id hf)
  · refine ⟨nb, ng, r0, base, ?_⟩
    rw [← hall, hleave]
    unfold Session.enter
    dsimp only
    rw [show v.id = r.table.version from step.version.symm]
  · intro k' h
    rw [hleave]
    dsimp only
    rw [GoMap.find_insert]
    split
    · rfl
    · exact h

theorem loadVersion_inv {done : List (Text × Text × List Decl)} {s : Session} (i : LoadInv done s)
    (k : Text) (hk : (s.services.find k).isSome = true) (d : SourceVersion) (hd : d.isDir = true)
    (hr : d.Readable) (g : GoodDecls (versionDecls done k (dirKey d.name) ++ d.decls)) :
    LoadInv (done ++ [(k, dirKey d.name, d.decls)]) (loadVersion k s d) ∧
    ∀ k', (s.services.find k').isSome = true →
      ((loadVersion k s d).services.find k').isSome = true := by
  have hgood := loadVersion_modelGood i.good k d
  obtain ⟨hst, hfiles⟩ := hr hd
  obtain ⟨i1, hk1⟩ := findOrCreateVersion_inv i k hk (parseUsingSeparator d.name '_')
  obtain ⟨-, -, -, hname, -, -, -, hver⟩ :=
    findOrCreateVersion_good i.good k (parseUsingSeparator d.name '_')
  have hload : loadVersion k s d =
      (s.findOrCreateVersion k (parseUsingSeparator d.name '_')).1.leave k
        (s.findOrCreateVersion k (parseUsingSeparator d.name '_')).2
        (((s.findOrCreateVersion k (parseUsingSeparator d.name '_')).1.enter
          (s.findOrCreateVersion k (parseUsingSeparator d.name '_')).2).decls d.decls) := by
    unfold loadVersion
    rw [hd]
    simp only [Bool.not_true, Bool.false_eq_true, if_false, hst]
    rw [loadFiles_eq _ _ hfiles]
    rfl
  rw [hload] at hgood ⊢
  generalize s.findOrCreateVersion k (parseUsingSeparator d.name '_') = p at *
  obtain ⟨i2, hk2⟩ := leave_inv i1 k (dirKey d.name) p.2 (hver hk) hname d.decls (by
    rw [versionDecls_snoc, ite_self, List.append_nil]; exact g) hgood
  refine ⟨⟨i2.good, i2.memory, i2.problems, i2.undef, i2.rundef, i2.apart, ?_, ?_⟩,
    fun k' h => hk2 k' (hk1 k' h)⟩
  · intro a b v hv
    have := i2.sound a b v hv
    rw [dirKeys_snoc, dirKeys_snoc] at this
    rw [dirKeys_snoc]
    simp only [List.mem_append, List.mem_singleton] at this ⊢
    rcases this with (h | h) | h
    · exact .inl h
    · exact .inr h
    · exact .inr h
  · intro a b hm
    have := i2.complete a b (by
      rw [dirKeys_snoc] at hm
      rw [dirKeys_snoc, dirKeys_snoc]
      rcases List.mem_append.mp hm with h | h
      · exact List.mem_append_left _ (List.mem_append_left _ h)
      · exact List.mem_append_right _ h)
    rw [versionDecls_snoc, versionDecls_snoc, ite_self, List.append_nil] at this
    rw [versionDecls_snoc]
    exact this

/-- All the declarations of a version have been read with its last directory. -/
theorem last_dir (dirs : List (Text × Text × List Decl)) (a b : Text) (ds0 : List Decl)
    (h : (a, b, ds0) ∈ dirs) : ∃ before ds after, dirs = before ++ (a, b, ds) :: after ∧
      versionDecls dirs a b = versionDecls before a b ++ ds := by
  have key : ∀ (dirs : List (Text × Text × List Decl)), (a, b) ∈ dirKeys dirs →
      ∃ before ds after, dirs = before ++ (a, b, ds) :: after ∧ (a, b) ∉ dirKeys after := by
    intro dirs
    induction dirs with
    | nil => intro h; cases h
    | cons x dirs ih =>
      intro h
      by_cases ht : (a, b) ∈ dirKeys dirs
      · obtain ⟨before, ds, after, e, hn⟩ := ih ht
        exact ⟨x :: before, ds, after, by rw [e]; rfl, hn⟩
      · rcases List.mem_cons.mp h with h | h
        · obtain ⟨rfl, rfl⟩ := Prod.mk.inj h
          exact ⟨[], x.2.2, dirs, rfl, ht⟩
        · exact absurd h ht
  obtain ⟨before, ds, after, e, hn⟩ := key dirs (List.mem_map.mpr ⟨_, h, rfl⟩)
  refine ⟨before, ds, after, e, ?_⟩
  have h2 := versionDecls_none after a b hn
  unfold versionDecls at h2 ⊢
  rw [e, List.filter_append, List.flatMap_append, List.filter_cons,
    if_pos (decide_eq_true ⟨rfl, rfl⟩), List.flatMap_cons, h2, List.append_nil]

/-- The new directories can be loaded after the others. -/
def Loadable (done new : List (Text × Text × List Decl)) : Prop :=
  ∀ before x after, new = before ++ x :: after →
    GoodDecls (versionDecls (done ++ before) x.1 x.2.1 ++ x.2.2)

theorem Loadable.first {done a b : List (Text × Text × List Decl)} (h : Loadable done (a ++ b)) :
    Loadable done a := by
  intro before x after e
  exact h before x (after ++ b) (by rw [e]; simp)

theorem Loadable.second {done a b : List (Text × Text × List Decl)} (h : Loadable done (a ++ b)) :
    Loadable (done ++ a) b := by
  intro before x after e
  rw [List.append_assoc]
  exact h (a ++ before) x after (by rw [e]; simp)

/-- The directories of versions of a service. -/
def serviceDirs (k : Text) (vs : List SourceVersion) : List (Text × Text × List Decl) :=
  (vs.filter (·.isDir)).map fun v => (k, dirKey v.name, v.decls)

theorem loadVersions_inv (vs : List SourceVersion) (k : Text) :
    ∀ {done : List (Text × Text × List Decl)} {s : Session}, LoadInv done s →
      (s.services.find k).isSome = true → (∀ d ∈ vs, d.Readable) →
      Loadable done (serviceDirs k vs) →
      LoadInv (done ++ serviceDirs k vs) (vs.foldl (loadVersion k) s) := by
  induction vs with
  | nil =>
    intro done s i _ _ _
    simpa [serviceDirs] using i
  | cons d vs ih =>
    intro done s i hk hr hl
    rw [List.foldl_cons]
    cases hd : d.isDir with
    | false =>
      have e1 : loadVersion k s d = s := by
        unfold loadVersion; rw [hd]; rfl
      have e2 : serviceDirs k (d :: vs) = serviceDirs k vs := by
        unfold serviceDirs; rw [List.filter_cons, hd]; rfl
      rw [e2] at hl ⊢
      rw [e1]
      exact ih i hk (fun x hx => hr x (List.mem_cons_of_mem _ hx)) hl
    | true =>
      have e2 : serviceDirs k (d :: vs) = [(k, dirKey d.name, d.decls)] ++ serviceDirs k vs := by
        unfold serviceDirs; rw [List.filter_cons, hd]; rfl
      rw [e2] at hl ⊢
      have hg := hl [] _ _ rfl
      rw [List.append_nil] at hg
      obtain ⟨h1, h2⟩ := loadVersion_inv i k hk d hd (hr d (List.mem_cons_self ..)) hg
      rw [← List.append_assoc]
      exact ih h1 (h2 k hk) (fun x hx => hr x (List.mem_cons_of_mem _ hx)) hl.second

theorem findOrCreateService_inv {done : List (Text × Text × List Decl)} {s : Session}
    (i : LoadInv done s) (n : Name) :
    LoadInv done (s.findOrCreateService n) ∧
      ((s.findOrCreateService n).services.find n.toText).isSome = true := by
  have hg := findOrCreateService_modelGood i.good n
  unfold Session.findOrCreateService at hg ⊢
  cases hf : s.services.find n.toText with
  | some l =>
    refine ⟨i, ?_⟩
    dsimp only
    rw [hf]; rfl
  | none =>
    rw [hf] at hg
    dsimp only at hg ⊢
    have hver : ∀ a b, Session.version
        { s with services := s.services.insert n.toText { name := n } } a b = s.version a b := by
      intro a b
      unfold Session.version
      dsimp only
      rw [GoMap.find_insert]
      split
      · rename_i h
        subst h
        rw [hf]
        rfl
      · rfl
    refine ⟨⟨hg, ⟨i.memory.heap, i.memory.graph⟩, i.problems, i.undef, i.rundef, ?_, ?_, ?_⟩, ?_⟩
    · intro a b v a' b' v' key key' id hv hv'
      rw [hver] at hv hv'
      exact i.apart a b v a' b' v' key key' id hv hv'
    · intro a b v hv
      rw [hver] at hv
      exact i.sound a b v hv
    · intro a b hm
      obtain ⟨v, hv, h⟩ := i.complete a b hm
      exact ⟨v, by rw [hver]; exact hv, h.read, h.resources⟩
    · rw [GoMap.find_insert, if_pos rfl]; rfl

/-- The directories of versions of some services. -/
def servicesDirs (ss : List SourceService) : List (Text × Text × List Decl) :=
  (ss.filter (·.isDir)).flatMap fun s => serviceDirs (dirKey s.name) s.versions

theorem loadServices_inv (ss : List SourceService) :
    ∀ {done : List (Text × Text × List Decl)} {s : Session}, LoadInv done s →
      (∀ d ∈ ss, d.Readable) → Loadable done (servicesDirs ss) →
      LoadInv (done ++ servicesDirs ss) (ss.foldl loadService s) := by
  induction ss with
  | nil =>
    intro done s i _ _
    simpa [servicesDirs] using i
  | cons d ss ih =>
    intro done s i hr hl
    rw [List.foldl_cons]
    cases hd : d.isDir with
    | false =>
      have e1 : loadService s d = s := by
        unfold loadService; rw [hd]; rfl
      have e2 : servicesDirs (d :: ss) = servicesDirs ss := by
        unfold servicesDirs; rw [List.filter_cons, hd]; rfl
      rw [e2] at hl ⊢
      rw [e1]
      exact ih i (fun x hx => hr x (List.mem_cons_of_mem _ hx)) hl
    | true =>
      obtain ⟨hst, hvs⟩ := hr d (List.mem_cons_self ..) hd
      have e1 : loadService s d = d.versions.foldl (loadVersion (dirKey d.name))
          (s.findOrCreateService (parseUsingSeparator d.name '_')) := by
        unfold loadService; rw [hd, hst]; rfl
      have e2 : servicesDirs (d :: ss) =
          serviceDirs (dirKey d.name) d.versions ++ servicesDirs ss := by
        unfold servicesDirs; rw [List.filter_cons, hd]; rfl
      rw [e2] at hl ⊢
      rw [e1, ← List.append_assoc]
      obtain ⟨h1, h2⟩ := findOrCreateService_inv i (parseUsingSeparator d.name '_')
      exact ih (loadVersions_inv d.versions (dirKey d.name) h1 h2 hvs hl.first)
        (fun x hx => hr x (List.mem_cons_of_mem _ hx)) hl.second

theorem loadModels_inv (ms : List SourceModel) :
    ∀ {done : List (Text × Text × List Decl)} {s : Session}, LoadInv done s →
      (∀ d ∈ ms, d.Readable) → Loadable done (versionDirs ms) →
      LoadInv (done ++ versionDirs ms) (ms.foldl loadModel s) := by
  induction ms with
  | nil =>
    intro done s i _ _
    simpa [versionDirs] using i
  | cons d ms ih =>
    intro done s i hr hl
    rw [List.foldl_cons]
    obtain ⟨hst, hss⟩ := hr d (List.mem_cons_self ..)
    have e1 : loadModel s d = d.services.foldl loadService s := by
      unfold loadModel; rw [hst]
    have e2 : versionDirs (d :: ms) = servicesDirs d.services ++ versionDirs ms := rfl
    rw [e2] at hl ⊢
    rw [e1, ← List.append_assoc]
    exact ih (loadServices_inv d.services i hss hl.first)
      (fun x hx => hr x (List.mem_cons_of_mem _ hx)) hl.second

/-! ## Completion -/

/-- The types of a version after adding the lists. -/
theorem completed_types {s s' : Session} {v v' : LoadedVersion} (m : MemoryClosed s)
    (good : TypesGood s.heap v.id v.types) (good' : TypesGood s'.heap v.id v'.types)
    (keep : KeepsCells s.heap s'.heap)
    (hk : ∀ key id, v.types.find key = some id → v'.types.find key = some id)
    (hl : HasLists s'.heap v'.types) (hf : ListsFrom s.heap s'.heap v.id v.types v'.types)
    (hne : ∀ k x, s.typeView v k = some x → k ≠ []) :
    (∀ k x, s.typeView v k = some x → s'.typeView v' k = some x) ∧
    (∀ k x, s.typeView v k = some x → x.kind ≠ .list → s.typeView v (k ++ t!"_list") = none →
      s'.typeView v' (k ++ t!"_list") = some (listView v.id k)) ∧
    ∀ k x, s'.typeView v' k = some x → s.typeView v k = some x ∨
      ∃ k0 x0, s.typeView v k0 = some x0 ∧ x0.kind ≠ .list ∧ k = k0 ++ t!"_list" := by
  have hlen : s.heap.length ≤ s'.heap.length := by
    rcases Nat.lt_or_ge s'.heap.length s.heap.length with h | h
    · exfalso
      have := keep s'.heap.length s.heap[s'.heap.length] (List.getElem?_eq_getElem h)
      rw [List.getElem?_eq_none (Nat.le_refl _)] at this
      cases this
    · exact h
  have e : HeapExt s.heap s'.heap := heapExt_of_keep hlen fun i hi => by
    rw [List.getElem?_eq_getElem hi]
    exact keep _ _ (List.getElem?_eq_getElem hi)
  have fwd : ∀ k x, s.typeView v k = some x → s'.typeView v' k = some x := by
    intro k x h
    unfold Session.typeView at h ⊢
    obtain ⟨id, h1, h2⟩ := Option.bind_eq_some_iff.mp h
    obtain ⟨c, h3, h4⟩ := Option.map_eq_some_iff.mp h2
    rw [hk k id h1, Option.bind_some, keep id c h3, Option.map_some,
      ofCell_ext e (m.heap c (List.mem_of_getElem? h3)), h4]
  have nil : ∀ k, s.typeView v k = none ↔ v.types.find k = none := by
    intro k
    unfold Session.typeView
    cases h : v.types.find k with
    | none => simp
    | some id =>
      obtain ⟨c, hc, -⟩ := good.named k id h
      simp [hc]
  have view : ∀ k id c, v.types.find k = some id → s.heap[id]? = some c →
      s.typeView v k = some (View.ofCell s.heap c) := by
    intro k id c h1 h2
    unfold Session.typeView
    rw [h1, Option.bind_some, h2, Option.map_some]
  have key : ∀ k id c, v.types.find k = some id → s.heap[id]? = some c →
      k = c.name.toText ∧ c.name ≠ [] := by
    intro k id c h1 h2
    obtain ⟨c', h3, h4, -⟩ := good.named k id h1
    rw [h2] at h3
    cases h3
    refine ⟨h4.symm, ?_⟩
    intro h
    rw [h] at h4
    exact hne k _ (view k id c h1 h2) h4.symm
  refine ⟨fwd, ?_, ?_⟩
  · intro k x hx hkind hnone
    have h0 := hx
    unfold Session.typeView at h0
    obtain ⟨id, h1, h2⟩ := Option.bind_eq_some_iff.mp h0
    obtain ⟨c, h3, h4⟩ := Option.map_eq_some_iff.mp h2
    have hck : c.kind ≠ .list := by
      rw [← h4] at hkind
      exact hkind
    obtain ⟨id', hid'⟩ := hl k id c (hne k x hx) (hk k id h1) (keep id c h3) hck
    rcases hf _ _ hid' with h5 | ⟨-, k0, id0, c0, h6, h7, h8, h9, h10⟩
    · rw [(nil _).mp hnone] at h5
      cases h5
    · obtain ⟨e1, e2⟩ := key k0 id0 c0 h6 h7
      rw [listName_toText _ e2, ← e1] at h9
      have hk0 : k = k0 := List.append_cancel_right h9
      unfold Session.typeView
      rw [hid', Option.bind_some, h10, Option.map_some]
      unfold View.ofCell listView TypeView.unknown
      dsimp only
      rw [Option.map_some, Option.map_none, List.map_nil]
      have : View.typeKey s'.heap id0 = k := by
        unfold View.typeKey
        rw [keep id0 c0 h7, hk0, e1]
      rw [this]
  · intro k x hx
    have h0 := hx
    unfold Session.typeView at h0
    obtain ⟨id, h1, h2⟩ := Option.bind_eq_some_iff.mp h0
    rcases hf _ _ h1 with h5 | ⟨-, k0, id0, c0, h6, h7, h8, h9, h10⟩
    · left
      obtain ⟨c, hc, -⟩ := good.named k id h5
      have := view k id c h5 hc
      have h := fwd _ _ this
      rw [hx] at h
      rw [this, h]
    · right
      obtain ⟨e1, e2⟩ := key k0 id0 c0 h6 h7
      refine ⟨k0, _, view k0 id0 c0 h6 h7, h8, ?_⟩
      rw [h9, listName_toText _ e2, e1]

theorem givenTypes_ne {ds : List Decl} (h : DeclaredNamed ds) (k : Text) (hk : k ∈ givenTypes ds) :
    k ≠ [] := by
  unfold givenTypes at hk
  rw [List.mem_append, List.mem_append] at hk
  rcases hk with (hk | hk) | hk
  · have : ∀ k ∈ builtinKeys, k ≠ [] := by decide
    exact this k hk
  · exact h k hk
  · obtain ⟨e, he, rfl⟩ := List.mem_map.mp hk
    cases e with
    | plain n => cases (List.mem_filter.mp he).2
    | list x => simp [TypeExpr.key]
    | map x y => simp [TypeExpr.key]

theorem store_graph (s : Session) (k : Text) (v : LoadedVersion) : (s.store k v).graph = s.graph := by
  unfold Session.store
  split <;> rfl

theorem complete_graph (s : Session) : s.complete.graph = s.graph := by
  rw [complete_eq]
  generalize pairsOf s = ps
  induction ps generalizing s with
  | nil => rfl
  | cons p ps ih =>
    rw [List.foldl_cons, ih]
    unfold completeVersion
    exact store_graph _ _ _

/-- The kinds of the parameters aren't part of the view. -/
theorem resourceKey_resolve (h : Heap) (g : Graph) (id : ResId) :
    View.resourceKey (resolveKinds h g) id = View.resourceKey g id := by
  unfold View.resourceKey resolveKinds
  rw [List.getElem?_map]
  cases g[id]? <;> rfl

theorem resolve_view (h : Heap) (g : Graph) (res : Resource) (id : ResId) (hr : g[id]? = some res) :
    ∃ res', (resolveKinds h g)[id]? = some res' ∧
      View.ofResource h (resolveKinds h g) res' = View.ofResource h g res := by
  refine ⟨_, by unfold resolveKinds; rw [List.getElem?_map, hr]; rfl, ?_⟩
  have hkey : View.resourceKey (resolveKinds h g) = View.resourceKey g := by
    funext id; exact resourceKey_resolve h g id
  have hp : ∀ p : Parameter, View.ofParameter h (resolveParameter h p) = View.ofParameter h p := by
    intro p
    unfold resolveParameter
    split <;> rfl
  unfold View.ofResource View.ofMethod View.ofLocator resolveResource
  rw [hkey, List.map_map]
  congr 1
  refine List.map_congr_left fun m _ => ?_
  simp only [Function.comp_apply, List.map_map]
  congr 1
  refine List.map_congr_left fun p _ => ?_
  exact hp p

end Verif
