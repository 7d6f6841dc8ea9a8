import Verif.Lemmas.Accept
import Verif.Props.Whole

/-! Helper lemmas: the resources of a version and the declarations of that version. -/

namespace Verif.Accept

open Whole Reader Session

/-- What is known about a version. -/
structure Ready (s : Session) (a b : Text) (v : LoadedVersion) (ds : _root_.List Decl) : Prop where
  is : VersionIs s a b v ds
  kinds : ∀ res ∈ s.graph, ∀ m ∈ res.methods, ∀ p ∈ m.parameters, ∀ c,
    s.heap[p.typ.id]? = some c → p.typ.kind = c.kind
  keys : ∀ k id, v.resources.find k = some id → ∃ res, s.graph[id]? = some res ∧ res.name.toText = k
  targets : ∀ k id l t, v.resources.find k = some id → l ∈ s.graph.locators id → l.target = some t →
    ∃ k', v.resources.find k' = some t
  graph : WellFormed s.graph

variable {s : Session} {a b : Text} {v : LoadedVersion} {ds : _root_.List Decl}

/-- A resource of the version is declared. -/
theorem Ready.resource (h : Ready s a b v ds) {k : Text} {id : ResId} (hf : v.resources.find k = some id) :
    ∃ res name doc as ms, s.graph[id]? = some res ∧ Decl.resource name doc as ms ∈ ds ∧ keyOf name = k ∧
      (Decl.resource name doc as ms).DescribesResource k (View.ofResource s.heap s.graph res) := by
  obtain ⟨res, hres, -⟩ := h.keys k id hf
  have hview : s.resourceView v k = some (View.ofResource s.heap s.graph res) := by
    unfold Session.resourceView
    rw [hf, Option.bind_some, hres]
    rfl
  have hdecl := h.is.resources.nothingElse k _ hview
  unfold declaredResources at hdecl
  obtain ⟨d, hd, hk⟩ := List.mem_filterMap.mp hdecl
  obtain ⟨x, hx, hdes⟩ := h.is.resources.declared d hd k hk
  rw [hview] at hx
  cases hx
  cases d with
  | resource name doc as ms => exact ⟨res, name, doc, as, ms, hres, hd, hdes.1.symm, hdes⟩
  | enum => exact hdes.elim
  | «class» => exact hdes.elim
  | struct => exact hdes.elim
  | error => exact hdes.elim

/-- A declared resource is in the version. -/
theorem Ready.declared (h : Ready s a b v ds) {name doc : Text} {as : _root_.List Annotation}
    {ms : _root_.List ResourceMember} (hd : Decl.resource name doc as ms ∈ ds) :
    ∃ id res, v.resources.find (keyOf name) = some id ∧ s.graph[id]? = some res ∧
      (Decl.resource name doc as ms).DescribesResource (keyOf name)
        (View.ofResource s.heap s.graph res) := by
  obtain ⟨x, hx, hdes⟩ := h.is.resources.declared _ hd _ rfl
  unfold Session.resourceView at hx
  obtain ⟨id, hf, hx⟩ := Option.bind_eq_some_iff.mp hx
  obtain ⟨res, hres, rfl⟩ := Option.map_eq_some_iff.mp hx
  exact ⟨id, res, hf, hres, hdes⟩

theorem Ready.root (h : Ready s a b v ds) : (v.resources.find t!"root").isSome = true ↔ Rooted ds := by
  unfold Rooted declaredResources
  constructor
  · intro hs
    obtain ⟨id, hf⟩ := Option.isSome_iff_exists.mp hs
    obtain ⟨res, name, doc, as, ms, -, hd, hk, -⟩ := h.resource hf
    exact List.mem_filterMap.mpr ⟨_, hd, by rw [← hk]; rfl⟩
  · intro hm
    obtain ⟨d, hd, hk⟩ := List.mem_filterMap.mp hm
    cases d with
    | resource name doc as ms =>
      obtain ⟨id, res, hf, -, -⟩ := h.declared hd
      have : keyOf name = t!"root" := Option.some.inj hk
      rw [← this, hf]
      rfl
    | enum => cases hk
    | «class» => cases hk
    | struct => cases hk
    | error => cases hk

/-! ## Methods -/

theorem Ready.matched (h : Ready s a b v ds) {k : Text} {id : ResId} {res : Resource}
    (hf : v.resources.find k = some id) (hg : s.graph[id]? = some res) {name doc : Text}
    {as : _root_.List Annotation} {ms : _root_.List ResourceMember}
    (hd : Decl.resource name doc as ms ∈ ds) {m : Method} (hm : m ∈ res.methods) {md : MethodDecl}
    (hmd : .method md ∈ ms) (hdes : md.Describes (View.ofMethod s.heap m)) :
    m.name = parseUsingCase md.name ∧
      Matched ds (s.versionView v).builtins m.parameters md.parameters := by
  obtain ⟨hn, -, -, hps⟩ := hdes
  refine ⟨hn, View.ofParameter s.heap, hps.1, fun p hp pd hpd he => ?_⟩
  have ho := h.is.inv.locals.resources a b v h.is.found k id res hf hg m hm p hp
  exact paired h.is hd (List.mem_flatMap.mpr ⟨_, hmd, List.mem_map.mpr ⟨pd, hpd, rfl⟩⟩) ho
    (h.kinds res (List.mem_of_getElem? hg) m hm p hp) he

theorem Ready.methods (h : Ready s a b v ds) (hb : (s.versionView v).builtins.Present)
    (ho : PagingOnce ds) :
    (∀ r ∈ (s.versionView v).resources, ∀ resource, s.graph[r]? = some resource →
      ∀ m ∈ resource.methods, Accepted (Check.checkMethod (s.versionView v).builtins m)) ↔
    ∀ name doc as members, Decl.resource name doc as members ∈ ds →
      ∀ m, .method m ∈ members → MethodFine ds m := by
  constructor
  · intro hacc name doc as ms hd md hmd
    obtain ⟨id, res, hf, hg, hdes⟩ := h.declared hd
    obtain ⟨-, -, -, ⟨methods, hall, hsort⟩, -⟩ := hdes
    obtain ⟨mv, hmv, hdes⟩ := (all2_mem hall).1 md (mem_methodDecls.mpr hmd)
    have hmv := hsort.1.mem_iff.mpr hmv
    obtain ⟨m, hm, rfl⟩ := List.mem_map.mp hmv
    obtain ⟨hn, hmatch⟩ := h.matched hf hg hd hm hmd hdes
    refine (method_iff hb hmatch hn (ho name doc as ms hd md hmd)).mp (hacc id ?_ res hg m hm)
    exact (sortByName_spec _ _).1.mem_iff.mpr (List.mem_map.mpr ⟨_, GoMap.find_some_mem hf, rfl⟩)
  · intro hfine id hid res hg m hm
    have hid := (sortByName_spec _ _).1.mem_iff.mp hid
    obtain ⟨⟨k, id'⟩, he, rfl⟩ := List.mem_map.mp hid
    have hf := GoMap.find_of_mem (h.is.inv.ok.version h.is.found).nodup he
    obtain ⟨res', name, doc, as, ms, hg', hd, -, hdes⟩ := h.resource hf
    have e : res' = res := Option.some.inj (hg'.symm.trans hg)
    subst e
    obtain ⟨-, -, -, ⟨methods, hall, hsort⟩, -⟩ := hdes
    have hmv : View.ofMethod s.heap m ∈ methods :=
      hsort.1.mem_iff.mp (List.mem_map.mpr ⟨m, hm, rfl⟩)
    obtain ⟨md, hmd, hdes⟩ := (all2_mem hall).2 _ hmv
    have hmd := mem_methodDecls.mp hmd
    obtain ⟨hn, hmatch⟩ := h.matched hf hg hd hm hmd hdes
    exact (method_iff hb hmatch hn (ho name doc as ms hd md hmd)).mpr (hfine name doc as ms hd md hmd)

/-! ## Loops -/

theorem mem_locatorDecls {ms : _root_.List ResourceMember} {l : LocatorDecl} :
    l ∈ locatorDecls ms ↔ .locator l ∈ ms := by
  unfold locatorDecls
  rw [List.mem_filterMap]
  constructor
  · rintro ⟨x, hx, he⟩
    cases x with
    | method m => cases he
    | locator l' => cases he; exact hx
  · intro h
    exact ⟨_, h, rfl⟩

theorem Ready.key (h : Ready s a b v ds) {k : Text} {id : ResId} (hf : v.resources.find k = some id) :
    View.resourceKey s.graph id = k := by
  obtain ⟨res, hres, hk⟩ := h.keys k id hf
  unfold View.resourceKey
  rw [hres]
  exact hk

theorem Ready.locates (h : Ready s a b v ds) {k k' : Text} {id : ResId}
    (hf : v.resources.find k = some id) :
    LocatesTo ds k k' ↔ ∃ l t, l ∈ s.graph.locators id ∧ l.target = some t ∧
      v.resources.find k' = some t := by
  constructor
  · rintro ⟨name, doc, as, ms, hd, rfl, ld, hl, ht⟩
    obtain ⟨id', res, hf', hg, hdes⟩ := h.declared hd
    rw [hf] at hf'
    cases hf'
    obtain ⟨-, -, -, -, hsort⟩ := hdes
    have := hsort.1.mem_iff.mpr (List.mem_map.mpr ⟨ld, mem_locatorDecls.mpr hl, rfl⟩)
    obtain ⟨l, hl', he⟩ := List.mem_map.mp this
    have hloc : l ∈ s.graph.locators id := by unfold Graph.locators; rw [hg]; exact hl'
    have htarget : l.target.map (View.resourceKey s.graph) = ld.targets.getLast? :=
      congrArg LocatorView.target he
    rw [ht] at htarget
    obtain ⟨t, e1, e2⟩ := Option.map_eq_some_iff.mp htarget
    obtain ⟨k'', hk''⟩ := h.targets _ id l t hf hloc e1
    rw [h.key hk''] at e2
    subst e2
    exact ⟨l, t, hloc, e1, hk''⟩
  · rintro ⟨l, t, hl, ht, hf'⟩
    obtain ⟨res, name, doc, as, ms, hg, hd, hk, hdes⟩ := h.resource hf
    obtain ⟨-, -, -, -, hsort⟩ := hdes
    unfold Graph.locators at hl
    rw [hg] at hl
    obtain ⟨ld, hld, he⟩ := List.mem_map.mp (hsort.1.mem_iff.mp (List.mem_map.mpr ⟨l, hl, rfl⟩))
    refine ⟨name, doc, as, ms, hd, hk, ld, mem_locatorDecls.mp hld, ?_⟩
    have htarget : ld.targets.getLast? = l.target.map (View.resourceKey s.graph) :=
      congrArg LocatorView.target he
    rw [htarget, ht, Option.map_some, h.key hf']

theorem Ready.chain (h : Ready s a b v ds) {id id' : ResId} {cyc : _root_.List Locator}
    (hc : Chain s.graph id cyc id') {k : Text} (hf : v.resources.find k = some id) :
    ∃ k', v.resources.find k' = some id' ∧ ((cyc = [] ∧ k' = k) ∨ Leads ds k k') := by
  induction hc generalizing k with
  | nil => exact ⟨k, hf, .inl ⟨rfl, rfl⟩⟩
  | @cons r m t l ls hl ht hc ih =>
    obtain ⟨k1, hk1⟩ := h.targets _ _ _ _ hf hl ht
    have step : LocatesTo ds k k1 := (h.locates hf).mpr ⟨l, m, hl, ht, hk1⟩
    obtain ⟨k', hk', hlead⟩ := ih hk1
    refine ⟨k', hk', .inr ?_⟩
    rcases hlead with ⟨-, rfl⟩ | hlead
    · exact .one step
    · exact .more step hlead

theorem Ready.leads (h : Ready s a b v ds) {k k' : Text} (hl : Leads ds k k') {id : ResId}
    (hf : v.resources.find k = some id) :
    ∃ id' cyc, v.resources.find k' = some id' ∧ cyc ≠ [] ∧ Chain s.graph id cyc id' := by
  induction hl generalizing id with
  | one step =>
    obtain ⟨l, t, h1, h2, h3⟩ := (h.locates hf).mp step
    exact ⟨t, [l], h3, by simp, .cons h1 h2 (.nil t)⟩
  | more step _ ih =>
    obtain ⟨l, t, h1, h2, h3⟩ := (h.locates hf).mp step
    obtain ⟨id', cyc, h4, -, h5⟩ := ih h3
    exact ⟨id', l :: cyc, h4, by simp, .cons h1 h2 h5⟩

theorem Ready.loops (h : Ready s a b v ds) {root : ResId} (hf : v.resources.find t!"root" = some root) :
    HasLoop s.graph root ↔ ∃ k, (k = t!"root" ∨ Leads ds t!"root" k) ∧ Leads ds k k := by
  rw [hasLoop_iff_cycle h.graph]
  constructor
  · rintro ⟨pre, r, cyc, h1, h2, h3⟩
    obtain ⟨k, hk, hlead⟩ := h.chain h1 hf
    obtain ⟨k', hk', hlead'⟩ := h.chain h3 hk
    have e : k' = k := by rw [← h.key hk', ← h.key hk]
    subst e
    refine ⟨k', hlead.imp (·.2) id, ?_⟩
    rcases hlead' with ⟨he, -⟩ | hlead'
    · exact absurd he h2
    · exact hlead'
  · rintro ⟨k, hlead, hloop⟩
    have : ∃ pre r, Chain s.graph root pre r ∧ v.resources.find k = some r := by
      rcases hlead with rfl | hlead
      · exact ⟨[], root, .nil _, hf⟩
      · obtain ⟨id', cyc, h1, -, h2⟩ := h.leads hlead hf
        exact ⟨cyc, id', h2, h1⟩
    obtain ⟨pre, r, h1, h2⟩ := this
    obtain ⟨r', cyc, h3, h4, h5⟩ := h.leads hloop h2
    rw [h2] at h3
    cases h3
    exact ⟨pre, r, cyc, h1, h4, h5⟩

/-! ## Versions -/

theorem Ready.present (h : Ready s a b v ds) : (s.versionView v).builtins.Present := by
  have key : ∀ k ∈ builtinKeys, ∃ id, v.types.find k = some id := by
    intro k hk
    obtain ⟨x, hx, -⟩ := h.is.types.builtin k hk
    unfold Session.typeView at hx
    obtain ⟨id, hf, -⟩ := Option.bind_eq_some_iff.mp hx
    exact ⟨id, hf⟩
  have some_of : ∀ k ∈ builtinKeys, (v.types.find k).isSome = true := fun k hk => by
    obtain ⟨id, e⟩ := key k hk
    rw [e]
    rfl
  exact ⟨some_of t!"boolean" (by decide), some_of t!"integer" (by decide), some_of t!"string" (by decide)⟩

/-- The checks of a version crash if it has no root, and otherwise they finish and accept it exactly if
its declarations follow the rules. -/
theorem Ready.check (h : Ready s a b v ds) (ho : PagingOnce ds) :
    (¬ Rooted ds → ∀ fuel, Check.checkVersion s.graph fuel (s.versionView v) = .panic) ∧
    (Rooted ds → ∃ messages,
      (∀ fuel, s.graph.length ≤ fuel →
        Check.checkVersion s.graph fuel (s.versionView v) = .done messages) ∧
      (Accepted messages ↔ Fine ds)) := by
  constructor
  · intro hn fuel
    apply c61_no_root_panics
    show v.resources.find t!"root" = none
    cases hr : v.resources.find t!"root" with
    | none => rfl
    | some r => exact absurd (h.root.mp (by rw [hr]; rfl)) hn
  · intro hroot
    obtain ⟨root, hr⟩ := Option.isSome_iff_exists.mp (h.root.mpr hroot)
    obtain ⟨messages, h1, h2⟩ := c62_version_accepted_iff s.graph h.graph (s.versionView v) root hr (by
      intro r hid
      have hid := (sortByName_spec _ _).1.mem_iff.mp hid
      obtain ⟨⟨k, id'⟩, he, rfl⟩ := List.mem_map.mp hid
      obtain ⟨res, hg, -⟩ := h.keys k id' (GoMap.find_of_mem (h.is.inv.ok.version h.is.found).nodup he)
      exact (List.getElem?_eq_some_iff.mp hg).1)
    refine ⟨messages, h1, h2.trans ?_⟩
    rw [h.methods h.present ho, h.loops hr]
    constructor
    · rintro ⟨h3, h4⟩
      exact ⟨h3, fun k hk hl => h4 ⟨k, hk, hl⟩⟩
    · rintro ⟨h3, h4⟩
      exact ⟨h3, fun ⟨k, hk, hl⟩ => h4 k hk hl⟩

/-- The versions of a model that has been loaded. -/
theorem ready (inputs : _root_.List SourceModel) (hr : ∀ m ∈ inputs, m.Readable)
    (hg : ∀ before a b ds after, versionDirs inputs = before ++ (a, b, ds) :: after →
      GoodDecls (versionDecls before a b ++ ds)) {a b : Text} {v : LoadedVersion}
    (hv : (load inputs).version a b = some v) :
    Ready (load inputs) a b v (versionDecls (versionDirs inputs) a b) := by
  refine ⟨(versionIs inputs hr hg).2 a b v hv, ?_, c76_resource_names_partial inputs hr hg a b v hv,
    load_targets inputs a b v hv, ?_⟩
  · intro res hres m hm' p hp c hc
    obtain ⟨res0, -, rfl⟩ := List.mem_map.mp hres
    obtain ⟨m0, -, rfl⟩ := List.mem_map.mp hm'
    obtain ⟨p0, -, rfl⟩ := List.mem_map.mp hp
    have hc' : (load inputs).heap[(Reader.resolveParameter _ p0).typ.id]? = some c := hc
    change (Reader.resolveParameter (load inputs).heap p0).typ.kind = c.kind
    have hid : (Reader.resolveParameter (load inputs).heap p0).typ.id = p0.typ.id := by
      unfold Reader.resolveParameter; split <;> rfl
    have hc'' : (load inputs).heap[p0.typ.id]? = some c := by rw [← hid]; exact hc
    unfold Reader.resolveParameter
    rw [hc'']
  · exact (c86_from_reader inputs (c76_model_partial inputs hr hg).1
      (c86_expressible_iff_partial inputs hr hg).1).graph

end Verif.Accept
