import Verif.Lemmas.Concepts
import Verif.Lemmas.Parse
import Verif.Spec.Reader

/-!
Helper lemmas about the reader. The reader, which works with pointers, is related to an abstract
machine that works with keys.
-/

namespace Verif

open Reader

/-! ## Memory only grows and names don't change -/

/-- The second memory has all the types of the first, with the same names. -/
structure HeapExt (h h' : Heap) : Prop where
  len : h.length ≤ h'.length
  key : ∀ id, id < h.length → View.typeKey h' id = View.typeKey h id

theorem HeapExt.refl (h : Heap) : HeapExt h h := ⟨Nat.le_refl _, fun _ _ => rfl⟩

theorem HeapExt.trans {a b c : Heap} (h : HeapExt a b) (h' : HeapExt b c) : HeapExt a c :=
  ⟨Nat.le_trans h.len h'.len, fun id hid =>
    (h'.key id (Nat.lt_of_lt_of_le hid h.len)).trans (h.key id hid)⟩

theorem HeapExt.append (h : Heap) (c : TypeCell) : HeapExt h (h ++ [c]) := by
  refine ⟨by simp, fun id hid => ?_⟩
  unfold View.typeKey
  rw [List.getElem?_append_left hid]

theorem HeapExt.modify (h : Heap) (id : TypeId) (f : TypeCell → TypeCell)
    (hf : ∀ c, (f c).name = c.name) : HeapExt h (h.modify id f) := by
  refine ⟨by simp, fun id' _ => ?_⟩
  unfold View.typeKey
  rw [List.getElem?_modify]
  cases h[id']? with
  | none => simp
  | some c => by_cases e : id = id' <;> simp [e, hf]

/-- The second memory has all the resources of the first, with the same names. -/
structure GraphExt (g g' : Graph) : Prop where
  len : g.length ≤ g'.length
  key : ∀ id, id < g.length → View.resourceKey g' id = View.resourceKey g id

theorem GraphExt.refl (g : Graph) : GraphExt g g := ⟨Nat.le_refl _, fun _ _ => rfl⟩

theorem GraphExt.trans {a b c : Graph} (h : GraphExt a b) (h' : GraphExt b c) : GraphExt a c :=
  ⟨Nat.le_trans h.len h'.len, fun id hid =>
    (h'.key id (Nat.lt_of_lt_of_le hid h.len)).trans (h.key id hid)⟩

theorem GraphExt.append (g : Graph) (c : Resource) : GraphExt g (g ++ [c]) := by
  refine ⟨by simp, fun id hid => ?_⟩
  unfold View.resourceKey
  rw [List.getElem?_append_left hid]

theorem GraphExt.modify (g : Graph) (id : ResId) (f : Resource → Resource)
    (hf : ∀ c, (f c).name = c.name) : GraphExt g (g.modify id f) := by
  refine ⟨by simp, fun id' _ => ?_⟩
  unfold View.resourceKey
  rw [List.getElem?_modify]
  cases g[id']? with
  | none => simp
  | some c => by_cases e : id = id' <;> simp [e, hf]

/-! ## Pointers inside objects -/

/-- The pointers of a type are inside the memory. -/
structure CellClosed (n : Nat) (c : TypeCell) : Prop where
  attributes : ∀ a ∈ c.attributes, a.typ < n
  element : ∀ e, c.element = some e → e < n
  index : ∀ e, c.index = some e → e < n

/-- The pointers of a method are inside the memory. -/
def MethodClosed (n : Nat) (m : Method) : Prop := ∀ p ∈ m.parameters, p.typ.id < n

/-- The pointers of a locator are inside the memory. -/
structure LocatorClosed (n : Nat) (l : Locator) : Prop where
  owner : l.owner < n
  target : ∀ t, l.target = some t → t < n

/-- The pointers of a resource are inside the memory. -/
structure ResourceClosed (n k : Nat) (r : Resource) : Prop where
  methods : ∀ m ∈ r.methods, MethodClosed n m
  locators : ∀ l ∈ r.locators, LocatorClosed k l

theorem CellClosed.mono {n n' : Nat} {c : TypeCell} (h : CellClosed n c) (hn : n ≤ n') :
    CellClosed n' c :=
  ⟨fun a ha => Nat.lt_of_lt_of_le (h.attributes a ha) hn,
    fun e he => Nat.lt_of_lt_of_le (h.element e he) hn,
    fun e he => Nat.lt_of_lt_of_le (h.index e he) hn⟩

theorem ResourceClosed.mono {n n' k k' : Nat} {r : Resource} (h : ResourceClosed n k r)
    (hn : n ≤ n') (hk : k ≤ k') : ResourceClosed n' k' r :=
  ⟨fun m hm p hp => Nat.lt_of_lt_of_le (h.methods m hm p hp) hn,
    fun l hl => ⟨Nat.lt_of_lt_of_le (h.locators l hl).owner hk,
      fun t ht => Nat.lt_of_lt_of_le ((h.locators l hl).target t ht) hk⟩⟩

theorem ofAttribute_ext {h h' : Heap} (e : HeapExt h h') {a : Attribute} (ha : a.typ < h.length) :
    View.ofAttribute h' a = View.ofAttribute h a := by
  simp [View.ofAttribute, e.key _ ha]

theorem ofCell_ext {h h' : Heap} (e : HeapExt h h') {c : TypeCell} (hc : CellClosed h.length c) :
    View.ofCell h' c = View.ofCell h c := by
  have h1 : c.attributes.map (View.ofAttribute h') = c.attributes.map (View.ofAttribute h) :=
    List.map_congr_left fun a ha => ofAttribute_ext e (hc.attributes a ha)
  have h2 : c.element.map (View.typeKey h') = c.element.map (View.typeKey h) := by
    cases he : c.element with
    | none => rfl
    | some x => simp [e.key x (hc.element x he)]
  have h3 : c.index.map (View.typeKey h') = c.index.map (View.typeKey h) := by
    cases he : c.index with
    | none => rfl
    | some x => simp [e.key x (hc.index x he)]
  simp [View.ofCell, h1, h2, h3]

theorem ofMethod_ext {h h' : Heap} (e : HeapExt h h') {m : Method} (hm : MethodClosed h.length m) :
    View.ofMethod h' m = View.ofMethod h m := by
  have h1 : m.parameters.map (View.ofParameter h') = m.parameters.map (View.ofParameter h) :=
    List.map_congr_left fun p hp => by simp [View.ofParameter, e.key _ (hm p hp)]
  simp [View.ofMethod, h1]

theorem ofLocator_ext {g g' : Graph} (e : GraphExt g g') {l : Locator}
    (hl : LocatorClosed g.length l) : View.ofLocator g' l = View.ofLocator g l := by
  have h2 : l.target.map (View.resourceKey g') = l.target.map (View.resourceKey g) := by
    cases he : l.target with
    | none => rfl
    | some x => simp [e.key x (hl.target x he)]
  simp [View.ofLocator, e.key _ hl.owner, h2]

theorem ofResource_ext {h h' : Heap} {g g' : Graph} (e : HeapExt h h') (eg : GraphExt g g')
    {r : Resource} (hr : ResourceClosed h.length g.length r) :
    View.ofResource h' g' r = View.ofResource h g r := by
  have h1 : r.methods.map (View.ofMethod h') = r.methods.map (View.ofMethod h) :=
    List.map_congr_left fun m hm => ofMethod_ext e (hr.methods m hm)
  have h2 : r.locators.map (View.ofLocator g') = r.locators.map (View.ofLocator g) :=
    List.map_congr_left fun l hl => ofLocator_ext eg (hr.locators l hl)
  simp [View.ofResource, h1, h2]

/-! ## Well formed states -/

/-- Invariant of the reader. The types and resources that belong to other versions are those whose
pointers satisfy `nb` and `ng`. -/
structure WF (nb ng : Nat → Prop) (r : Reader) : Prop where
  find : ∀ k id, r.table.types.find k = some id →
    ∃ cell, r.table.heap[id]? = some cell ∧ cell.name.toText = k
  closed : ∀ c ∈ r.table.heap, CellClosed r.table.heap.length c
  rfind : ∀ k id, r.resources.find k = some id →
    ∃ res, r.graph[id]? = some res ∧ res.name.toText = k
  rclosed : ∀ res ∈ r.graph, ResourceClosed r.table.heap.length r.graph.length res
  undef : ∀ k id, r.undefinedTypes.find k = some id → r.table.types.find k = some id
  rundef : ∀ k id, r.undefinedResources.find k = some id → r.resources.find k = some id
  bare : ∀ k id, r.undefinedTypes.find k = some id →
    ∃ name, r.table.heap[id]? = some { name := name, owner := some r.table.version }
  rbare : ∀ k id, r.undefinedResources.find k = some id →
    ∃ name, r.graph[id]? = some { name := name }
  reg : ∀ id c, ¬ nb id → r.table.heap[id]? = some c → r.table.types.find c.name.toText = some id
  rreg : ∀ id c, ¬ ng id → r.graph[id]? = some c → r.resources.find c.name.toText = some id
  size : (∀ id, nb id → id < r.table.heap.length) ∧ ∀ id, ng id → id < r.graph.length
  low : ∀ k id, r.table.types.find k = some id → ¬ nb id
  rlow : ∀ k id, r.resources.find k = some id → ¬ ng id

/-- A step of the reader: the result is well formed and extends the start. -/
structure Step (nb ng : Nat → Prop) (r r' : Reader) : Prop where
  wf : WF nb ng r'
  heap : HeapExt r.table.heap r'.table.heap
  graph : GraphExt r.graph r'.graph
  version : r'.table.version = r.table.version
  keep : ∀ i, nb i → r'.table.heap[i]? = r.table.heap[i]?
  rkeep : ∀ i, ng i → r'.graph[i]? = r.graph[i]?

variable {nb ng : Nat → Prop}

theorem Step.refl {r : Reader} (h : WF nb ng r) : Step nb ng r r :=
  ⟨h, .refl _, .refl _, rfl, fun _ _ => rfl, fun _ _ => rfl⟩

theorem Step.trans {a b c : Reader} (h : Step nb ng a b) (h' : Step nb ng b c) : Step nb ng a c :=
  ⟨h'.wf, h.heap.trans h'.heap, h.graph.trans h'.graph, h'.version.trans h.version,
    fun i hi => (h'.keep i hi).trans (h.keep i hi), fun i hi => (h'.rkeep i hi).trans (h.rkeep i hi)⟩

/-! ## The abstract machine -/

/-- State of the abstract machine. -/
structure AState where
  types : Text → Option TypeView
  undef : Text → Bool
  resources : Text → Option ResourceView
  rundef : Text → Bool
  errors : GoMap ErrorConcept
  problems : List ReadProblem

/-- The abstract state of a reader. -/
def abs (r : Reader) : AState :=
  { types := r.typeView
    undef := fun k => (r.undefinedTypes.find k).isSome
    resources := r.resourceView
    rundef := fun k => (r.undefinedResources.find k).isSome
    errors := r.errors
    problems := r.problems }

/-- Assignment to a function. -/
def upd {α : Type} (f : Text → α) (k : Text) (v : α) : Text → α := fun k' =>
  if k' = k then v else f k'

namespace AState

def report (a : AState) (p : ReadProblem) : AState := { a with problems := a.problems ++ [p] }

/-- Mention of a type. -/
def mention (v : VersionId) (a : AState) (k : Text) : AState :=
  match a.types k with
  | some _ => a
  | none =>
    { a with types := upd a.types k (some (.unknown v)), undef := upd a.undef k true }

/-- Creation of a list or map. -/
def derive (a : AState) (k : Text) (view : TypeView) : AState :=
  match a.types k with
  | some _ => a
  | none => { a with types := upd a.types k (some view) }

/-- Reference to a type. -/
def typeRef (v : VersionId) (a : AState) : TypeExpr → AState
  | .plain n => a.mention v (keyOf n)
  | .list e =>
    (a.mention v (keyOf e)).derive (keyOf e ++ t!"_list")
      { TypeView.unknown v with kind := .list, element := some (keyOf e) }
  | .map i e =>
    ((a.mention v (keyOf i)).mention v (keyOf e)).derive
      (keyOf i ++ t!"_" ++ keyOf e ++ t!"_map")
      { TypeView.unknown v with kind := .map, index := some (keyOf i), element := some (keyOf e) }

/-- References to types. -/
def typeRefs (v : VersionId) (a : AState) (es : List TypeExpr) : AState := es.foldl (typeRef v) a

/-- Declaration of a type: `view` is what the declaration describes. -/
def declare (a : AState) (name : Name) (view : TypeView) : AState :=
  match a.types name.toText with
  | none => { a with types := upd a.types name.toText (some view) }
  | some _ =>
    if a.undef name.toText then
      { a with
        types := upd a.types name.toText (some view)
        undef := upd a.undef name.toText false }
    else a.report (.typeDefined name)

end AState

/-! ## Lemmas about each operation -/

theorem typeView_newType {r : Reader} (wf : WF nb ng r) (cell : TypeCell)
    (hc : CellClosed r.table.heap.length cell) (k : Text) :
    (r.newType cell).1.typeView k =
      if k = cell.name.toText then
        some (View.ofCell r.table.heap { cell with owner := some r.table.version })
      else r.typeView k := by
  have hc' : CellClosed r.table.heap.length { cell with owner := some r.table.version } :=
    ⟨hc.attributes, hc.element, hc.index⟩
  simp only [Reader.newType, TypeTable.newType_eq, Reader.typeView, GoMap.find_insert]
  by_cases e : cell.name.toText = k
  · simp only [e, if_true, Option.bind_some]
    rw [List.getElem?_append_right (Nat.le_refl _)]
    simp [ofCell_ext (HeapExt.append _ _) hc']
  · have e' : ¬ k = cell.name.toText := fun h => e h.symm
    simp only [e, e', if_false]
    cases hf : r.table.types.find k with
    | none => rfl
    | some id =>
      obtain ⟨c, hid, -⟩ := wf.find k id hf
      have hlt : id < r.table.heap.length := (List.getElem?_eq_some_iff.mp hid).1
      simp only [Option.bind_some, List.getElem?_append_left hlt, hid, Option.map_some]
      rw [ofCell_ext (HeapExt.append _ _) (wf.closed c (List.mem_of_getElem? hid))]

theorem resourceView_ext {r r' : Reader} (wf : WF nb ng r) (e : HeapExt r.table.heap r'.table.heap)
    (hg : r'.graph = r.graph) (hr : r'.resources = r.resources) : r'.resourceView = r.resourceView := by
  funext k
  simp only [Reader.resourceView, hg, hr]
  cases hf : r.resources.find k with
  | none => rfl
  | some id =>
    obtain ⟨c, hid, -⟩ := wf.rfind k id hf
    simp only [Option.bind_some, hid, Option.map_some]
    rw [ofResource_ext e (.refl _) (wf.rclosed c (List.mem_of_getElem? hid))]

theorem wf_newType {r : Reader} (wf : WF nb ng r) (cell : TypeCell)
    (hc : CellClosed r.table.heap.length cell) (hf : r.table.types.find cell.name.toText = none) :
    Step nb ng r (r.newType cell).1 ∧ (r.newType cell).2 = r.table.heap.length ∧
    (r.newType cell).1.table.heap.length = r.table.heap.length + 1 ∧
    View.typeKey (r.newType cell).1.table.heap (r.newType cell).2 = cell.name.toText := by
  simp only [Reader.newType, TypeTable.newType_eq]
  refine ⟨⟨⟨?_, ?_, ?_, ?_, ?_, ?_, ?_, ?_, ?_, wf.rreg, ?_, ?_, wf.rlow⟩, HeapExt.append _ _, .refl _,
    rfl, ?_, fun _ _ => rfl⟩, trivial, by simp, ?_⟩
  · intro k id h
    simp only [GoMap.find_insert] at h
    by_cases e : cell.name.toText = k
    · simp only [e, if_true, Option.some.injEq] at h
      subst h
      exact ⟨{ cell with owner := some r.table.version },
        by rw [List.getElem?_append_right (Nat.le_refl _)]; simp, e⟩
    · simp only [e, if_false] at h
      obtain ⟨c, hid, hk⟩ := wf.find k id h
      have hlt : id < r.table.heap.length := (List.getElem?_eq_some_iff.mp hid).1
      exact ⟨c, by simp only [List.getElem?_append_left hlt, hid], hk⟩
  · intro c hmem
    simp only [List.mem_append, List.mem_singleton] at hmem
    rcases hmem with h | h
    · exact (wf.closed c h).mono (by simp)
    · subst h
      exact CellClosed.mono (n := r.table.heap.length)
        ⟨hc.attributes, hc.element, hc.index⟩ (by simp)
  · exact wf.rfind
  · intro res hres
    exact (wf.rclosed res hres).mono (by simp) (Nat.le_refl _)
  · intro k id h
    have := wf.undef k id h
    simp only [GoMap.find_insert]
    by_cases e : cell.name.toText = k
    · rw [e] at hf; rw [hf] at this; cases this
    · simp [e, this]
  · exact wf.rundef
  · intro k id h
    obtain ⟨nm, hid⟩ := wf.bare k id h
    have hlt : id < r.table.heap.length := (List.getElem?_eq_some_iff.mp hid).1
    exact ⟨nm, by simp only [List.getElem?_append_left hlt, hid]⟩
  · exact wf.rbare
  · intro id c hb hid
    dsimp only at hid ⊢
    rw [GoMap.find_insert]
    rcases Nat.lt_or_ge id r.table.heap.length with hlt | hge
    · rw [List.getElem?_append_left hlt] at hid
      have hr := wf.reg id c hb hid
      by_cases e : cell.name.toText = c.name.toText
      · rw [← e, hf] at hr; cases hr
      · rw [if_neg e, hr]
    · rw [List.getElem?_append_right hge, List.getElem?_singleton] at hid
      split at hid
      · rename_i h0
        cases hid
        have : id = r.table.heap.length := by
          exact Nat.le_antisymm (Nat.le_of_sub_eq_zero h0) hge
        simp [this]
      · cases hid
  · exact ⟨fun i hi => Nat.lt_of_lt_of_le (wf.size.1 i hi) (by simp), wf.size.2⟩
  · intro k id h
    simp only [GoMap.find_insert] at h
    split at h
    · cases h; exact fun hn => Nat.lt_irrefl _ (wf.size.1 _ hn)
    · exact wf.low k id h
  · intro i hi
    exact List.getElem?_append_left (wf.size.1 i hi)
  · unfold View.typeKey
    rw [List.getElem?_append_right (Nat.le_refl _)]
    simp

theorem typeView_none {r : Reader} (wf : WF nb ng r) (k : Text) :
    r.typeView k = none ↔ r.table.types.find k = none := by
  unfold Reader.typeView
  cases hf : r.table.types.find k with
  | none => simp
  | some id =>
    obtain ⟨c, hid, -⟩ := wf.find k id hf
    simp [hid]

theorem resourceView_none {r : Reader} (wf : WF nb ng r) (k : Text) :
    r.resourceView k = none ↔ r.resources.find k = none := by
  unfold Reader.resourceView
  cases hf : r.resources.find k with
  | none => simp
  | some id =>
    obtain ⟨c, hid, -⟩ := wf.rfind k id hf
    simp [hid]

theorem abs_newType {r : Reader} (wf : WF nb ng r) (cell : TypeCell)
    (hc : CellClosed r.table.heap.length cell) (hf : r.table.types.find cell.name.toText = none) :
    abs (r.newType cell).1 =
      { abs r with
        types := upd (abs r).types cell.name.toText
          (some (View.ofCell r.table.heap { cell with owner := some r.table.version })) } := by
  obtain ⟨st, -⟩ := wf_newType wf cell hc hf
  have h1 : (r.newType cell).1.typeView = upd r.typeView cell.name.toText
      (some (View.ofCell r.table.heap { cell with owner := some r.table.version })) := by
    funext k; rw [typeView_newType wf cell hc]; rfl
  have h2 : (r.newType cell).1.resourceView = r.resourceView :=
    resourceView_ext wf st.heap rfl rfl
  simp only [abs, h1, h2]
  rfl

theorem findOrCreateType_step {r : Reader} (wf : WF nb ng r) (name : Name) :
    let p := r.findOrCreateType name
    Step nb ng r p.1 ∧ abs p.1 = (abs r).mention r.table.version name.toText ∧
    p.2 < p.1.table.heap.length ∧ View.typeKey p.1.table.heap p.2 = name.toText := by
  intro p
  simp only [p]
  unfold Reader.findOrCreateType TypeTable.findType
  cases hf : r.table.types.find name.toText with
  | some id =>
    obtain ⟨c, hid, hk⟩ := wf.find _ _ hf
    refine ⟨Step.refl wf, ?_, (List.getElem?_eq_some_iff.mp hid).1, ?_⟩
    · unfold AState.mention
      cases hv : (abs r).types name.toText with
      | some v => rfl
      | none => exact absurd ((typeView_none wf _).mp hv) (by simp [hf])
    · simp [View.typeKey, hid, hk]
  | none =>
    dsimp only
    have hc : CellClosed r.table.heap.length { name := name } := ⟨by simp, by simp, by simp⟩
    obtain ⟨st, hid, hlen, hkey⟩ := wf_newType wf { name := name } hc hf
    have ha := abs_newType wf { name := name } hc hf
    have hv : (abs r).types name.toText = none := (typeView_none wf _).mpr hf
    refine ⟨⟨?_, st.heap, st.graph, st.version, st.keep, st.rkeep⟩, ?_, ?_, hkey⟩
    · refine ⟨st.wf.find, st.wf.closed, st.wf.rfind, st.wf.rclosed, ?_, st.wf.rundef, ?_,
        st.wf.rbare, st.wf.reg, st.wf.rreg, st.wf.size, st.wf.low, st.wf.rlow⟩
      rotate_left
      · intro k id h
        simp only [Reader.addUndefinedType, GoMap.find_insert] at h
        by_cases e : name.toText = k
        · simp only [e, if_true, Option.some.injEq] at h
          subst h
          refine ⟨name, ?_⟩
          simp only [Reader.addUndefinedType, Reader.newType, TypeTable.newType_eq]
          rw [List.getElem?_append_right (Nat.le_refl _)]
          simp
        · simp only [e, if_false] at h
          exact st.wf.bare k id h
      intro k id h
      simp only [Reader.addUndefinedType, GoMap.find_insert] at h ⊢
      by_cases e : name.toText = k
      · simp only [e, if_true, Option.some.injEq] at h
        subst h
        simp [Reader.newType, TypeTable.newType_eq, GoMap.find_insert, e]
      · simp only [e, if_false] at h
        exact st.wf.undef k id h
    · simp only [AState.mention, hv]
      have e1 : abs ((r.newType { name := name }).1.addUndefinedType name
          (r.newType { name := name }).2) =
          { abs (r.newType { name := name }).1 with
            undef := upd (abs r).undef name.toText true } := by
        have eu : (fun k => ((((r.newType { name := name }).1.addUndefinedType name
            (r.newType { name := name }).2).undefinedTypes).find k).isSome) =
            upd (abs r).undef name.toText true := by
          funext k
          simp only [abs, upd, Reader.addUndefinedType, GoMap.find_insert, Reader.newType]
          by_cases e : name.toText = k
          · simp [e]
          · have : ¬ k = name.toText := fun h => e h.symm
            simp [e, this]
        rw [← eu]
        rfl
      rw [e1, ha]
      rfl
    · simp only [Reader.addUndefinedType, hlen, hid]
      exact Nat.lt_succ_self _

theorem findOrCreateWith_step {r : Reader} (wf : WF nb ng r) (cell : TypeCell)
    (hc : CellClosed r.table.heap.length cell) :
    let p := r.findOrCreateWith cell
    Step nb ng r p.1 ∧
    abs p.1 = (abs r).derive cell.name.toText
      (View.ofCell r.table.heap { cell with owner := some r.table.version }) ∧
    p.2 < p.1.table.heap.length ∧ View.typeKey p.1.table.heap p.2 = cell.name.toText := by
  intro p
  simp only [p]
  unfold Reader.findOrCreateWith TypeTable.findType
  cases hf : r.table.types.find cell.name.toText with
  | some id =>
    obtain ⟨c, hid, hk⟩ := wf.find _ _ hf
    refine ⟨Step.refl wf, ?_, (List.getElem?_eq_some_iff.mp hid).1, ?_⟩
    · unfold AState.derive
      cases hv : (abs r).types cell.name.toText with
      | some v => rfl
      | none => exact absurd ((typeView_none wf _).mp hv) (by simp [hf])
    · simp [View.typeKey, hid, hk]
  | none =>
    dsimp only
    obtain ⟨st, hid, hlen, hkey⟩ := wf_newType wf cell hc hf
    have hv : (abs r).types cell.name.toText = none := (typeView_none wf _).mpr hf
    refine ⟨st, ?_, ?_, hkey⟩
    · simp only [AState.derive, hv]
      exact abs_newType wf cell hc hf
    · rw [hlen, hid]; exact Nat.lt_succ_self _

/-! ## Keys of lists and maps -/

theorem parseChunks_ne_nil (text : Text) (cs : List Text) (h : cs ≠ []) :
    parseChunks text cs ≠ [] := by
  fun_induction parseChunks text cs <;> simp_all

theorem parseUsingCase_ne_nil (t : Text) (h : t ≠ []) : parseUsingCase t ≠ [] := by
  rw [parseUsingCase_eq t h]
  apply parseChunks_ne_nil
  intro e
  have := splitCase_flatten [] t
  rw [e] at this
  exact h this.symm

theorem joinText_append (sep : Text) (a b : List Text) (ha : a ≠ []) (hb : b ≠ []) :
    joinText sep (a ++ b) = joinText sep a ++ sep ++ joinText sep b := by
  induction a with
  | nil => exact absurd rfl ha
  | cons x xs ih =>
    cases xs with
    | nil =>
      simp only [List.cons_append, List.nil_append]
      rw [joinText_cons sep x b hb]
      simp [joinText]
    | cons y ys =>
      have hne : y :: ys ++ b ≠ [] := by simp
      rw [List.cons_append, joinText_cons sep x (y :: ys ++ b) hne, ih (by simp),
        joinText_cons sep x (y :: ys) (by simp)]
      simp [List.append_assoc]

theorem listKey_eq (e : Text) (h : e ≠ []) :
    (Name.cat [parseUsingCase e, Nom.list]).toText = keyOf e ++ t!"_list" := by
  have hne := parseUsingCase_ne_nil e h
  have : Name.cat [parseUsingCase e, Nom.list] = parseUsingCase e ++ Nom.list := by
    simp [Name.cat]
  rw [this]
  unfold keyOf Name.toText
  rw [List.map_append, joinText_append _ _ _ (by simpa using hne) (by decide), List.append_assoc]
  rfl

theorem mapKey_eq (i e : Text) (hi : i ≠ []) (he : e ≠ []) :
    (Name.cat [parseUsingCase i, parseUsingCase e, Nom.map]).toText =
      keyOf i ++ t!"_" ++ keyOf e ++ t!"_map" := by
  have hne := parseUsingCase_ne_nil i hi
  have hne' := parseUsingCase_ne_nil e he
  have : Name.cat [parseUsingCase i, parseUsingCase e, Nom.map] =
      parseUsingCase i ++ (parseUsingCase e ++ Nom.map) := by
    simp [Name.cat]
  rw [this]
  unfold keyOf Name.toText
  rw [List.map_append, joinText_append _ _ _ (by simpa using hne) (by simp [hne']),
    List.map_append, joinText_append _ _ _ (by simpa using hne') (by decide)]
  simp only [List.append_assoc]
  rfl

/-! ## References to types -/

theorem typeRef_step {r : Reader} (wf : WF nb ng r) (e : TypeExpr) (hn : ∀ n ∈ e.names, n ≠ []) :
    let p := r.typeRef e
    Step nb ng r p.1 ∧ abs p.1 = (abs r).typeRef r.table.version e ∧
    p.2 < p.1.table.heap.length ∧ View.typeKey p.1.table.heap p.2 = e.key := by
  cases e with
  | plain n => exact findOrCreateType_step wf (parseUsingCase n)
  | list n =>
    have hn : n ≠ [] := hn n (by simp [TypeExpr.names])
    obtain ⟨s1, a1, l1, k1⟩ := findOrCreateType_step wf (parseUsingCase n)
    have hc : CellClosed (r.findOrCreateType (parseUsingCase n)).1.table.heap.length
        { name := Name.cat [parseUsingCase n, Nom.list], kind := .list
          element := some (r.findOrCreateType (parseUsingCase n)).2 } :=
      ⟨by simp, by simpa using l1, by simp⟩
    obtain ⟨s2, a2, l2, k2⟩ := findOrCreateWith_step s1.wf _ hc
    refine ⟨s1.trans s2, ?_, l2, ?_⟩
    · rw [show (r.typeRef (.list n)).1 = _ from rfl]
      refine a2.trans ?_
      rw [a1]
      simp only [AState.typeRef]
      rw [listKey_eq n hn]
      congr 1
      simp only [View.ofCell, TypeView.unknown, Option.map_some, k1, s1.version]
      rfl
    · exact k2.trans (listKey_eq n hn)
  | map i n =>
    have hi : i ≠ [] := hn i (by simp [TypeExpr.names])
    have hn : n ≠ [] := hn n (by simp [TypeExpr.names])
    obtain ⟨s1, a1, l1, k1⟩ := findOrCreateType_step wf (parseUsingCase i)
    obtain ⟨s2, a2, l2, k2⟩ := findOrCreateType_step s1.wf (parseUsingCase n)
    have l1' := Nat.lt_of_lt_of_le l1 s2.heap.len
    have k1' := (s2.heap.key _ l1).trans k1
    have hc : CellClosed ((r.findOrCreateType (parseUsingCase i)).1.findOrCreateType
          (parseUsingCase n)).1.table.heap.length
        { name := Name.cat [parseUsingCase i, parseUsingCase n, Nom.map], kind := .map
          index := some (r.findOrCreateType (parseUsingCase i)).2
          element := some ((r.findOrCreateType (parseUsingCase i)).1.findOrCreateType
            (parseUsingCase n)).2 } :=
      ⟨by simp, by simpa using l2, by simpa using l1'⟩
    obtain ⟨s3, a3, l3, k3⟩ := findOrCreateWith_step s2.wf _ hc
    refine ⟨(s1.trans s2).trans s3, ?_, l3, ?_⟩
    · rw [show (r.typeRef (.map i n)).1 = _ from rfl]
      refine a3.trans ?_
      rw [a2, a1]
      simp only [AState.typeRef]
      rw [mapKey_eq i n hi hn]
      congr 1
      · simp only [s1.version]; rfl
      · simp only [View.ofCell, TypeView.unknown, Option.map_some, k1', k2, s1.version, s2.version]
        rfl
    · exact k3.trans (mapKey_eq i n hi hn)

/-- Children that are references to types: `ok` describes the result. -/
theorem forChildren_typeRefs {α β : Type} (f : Reader → α → Reader × β) (ref : α → TypeExpr)
    (ok : Heap → α → β → Prop)
    (hmono : ∀ h h' x y, HeapExt h h' → ok h x y → ok h' x y)
    (hf : ∀ r x, WF nb ng r → (∀ n ∈ (ref x).names, n ≠ []) →
      Step nb ng r (f r x).1 ∧ abs (f r x).1 = (abs r).typeRef r.table.version (ref x) ∧
      ok (f r x).1.table.heap x (f r x).2)
    (r : Reader) (wf : WF nb ng r) (xs : List α) (hn : ∀ x ∈ xs, ∀ n ∈ (ref x).names, n ≠ []) :
    let p := forChildren f r xs
    Step nb ng r p.1 ∧ abs p.1 = (abs r).typeRefs r.table.version (xs.map ref) ∧
    All2 (ok p.1.table.heap) xs p.2 := by
  induction xs generalizing r with
  | nil => exact ⟨Step.refl wf, rfl, .nil⟩
  | cons x xs ih =>
    obtain ⟨s1, a1, o1⟩ := hf r x wf (hn x (by simp))
    obtain ⟨s2, a2, o2⟩ := ih (f r x).1 s1.wf (fun y hy => hn y (by simp [hy]))
    refine ⟨s1.trans s2, ?_, .cons (hmono _ _ _ _ s2.heap o1) o2⟩
    rw [show (forChildren f r (x :: xs)).1 = (forChildren f (f r x).1 xs).1 from rfl, a2, a1,
      s1.version]
    rfl

/-! ## Members sorted by name -/

theorem map_insertByName {α β : Type} (f : α → Name) (g : β → Name) (v : α → β)
    (hv : ∀ a, g (v a) = f a) (x : α) (l : List α) :
    (insertByName f x l).map v = insertByName g (v x) (l.map v) := by
  induction l with
  | nil => rfl
  | cons y ys ih =>
    simp only [insertByName, List.map_cons, hv]
    split
    · rfl
    · simp [ih]

theorem map_sortByName {α β : Type} (f : α → Name) (g : β → Name) (v : α → β)
    (hv : ∀ a, g (v a) = f a) (l : List α) :
    (sortByName f l).map v = sortByName g (l.map v) := by
  have key : ∀ (l acc : List α),
      (l.foldl (fun acc x => insertByName f x acc) acc).map v =
        (l.map v).foldl (fun acc x => insertByName g x acc) (acc.map v) := by
    intro l
    induction l with
    | nil => intro acc; rfl
    | cons x l ih =>
      intro acc
      simp only [List.foldl_cons, List.map_cons]
      rw [ih, map_insertByName f g v hv]
  exact key l []

theorem map_addMembers {α β : Type} (f : α → Name) (g : β → Name) (v : α → β)
    (hv : ∀ a, g (v a) = f a) (l acc : List α) :
    ((l.map some).foldl (addMember f) acc).map v =
      ((l.map v).map some).foldl (addMember g) (acc.map v) := by
  induction l generalizing acc with
  | nil => rfl
  | cons x l ih =>
    simp only [List.map_cons, List.foldl_cons]
    rw [ih]
    congr 1
    simp only [addMember, map_sortByName f g v hv, List.map_append, List.map_cons, List.map_nil]

theorem mem_addMembers {α : Type} (f : α → Name) (l acc : List α) (x : α)
    (h : x ∈ (l.map some).foldl (addMember f) acc) : x ∈ acc ∨ x ∈ l := by
  induction l generalizing acc with
  | nil => exact .inl h
  | cons y l ih =>
    simp only [List.map_cons, List.foldl_cons] at h
    rcases ih _ h with h | h
    · simp only [addMember] at h
      have := (sortByName_spec f (acc ++ [y])).1.mem_iff.mp h
      simp only [List.mem_append, List.mem_singleton] at this
      rcases this with h | h
      · exact .inl h
      · exact .inr (by simp [h])
    · exact .inr (by simp [h])

/-- The members of a type or method, added one by one. -/
def sorted {α : Type} (f : α → Name) (l : List α) : List α := (l.map some).foldl (addMember f) []

theorem sorted_isSortOf {α : Type} (f : α → Name) (l : List α) : IsSortOf f (sorted f l) l := by
  have key : ∀ (l acc : List α), IsSortOf f acc acc →
      IsSortOf f ((l.map some).foldl (addMember f) acc) (acc ++ l) := by
    intro l
    induction l with
    | nil => intro acc h; simpa using h
    | cons x l ih =>
      intro acc _
      simp only [List.map_cons, List.foldl_cons, addMember]
      have h1 := sortByName_spec f (acc ++ [x])
      have h2 := ih (sortByName f (acc ++ [x])) ⟨.refl _, h1.2⟩
      refine ⟨h2.1.trans ?_, h2.2⟩
      have := h1.1.append_right l
      simpa using this
  have := key l [] ⟨.refl _, .nil⟩
  rw [List.nil_append] at this
  exact this

/-! ## Declarations of types -/

theorem structMember_step (r : Reader) (m : MemberDecl) (wf : WF nb ng r)
    (hn : ∀ n ∈ m.ref.names, n ≠ []) :
    Step nb ng r (r.structMember m).1 ∧
    abs (r.structMember m).1 = (abs r).typeRef r.table.version m.ref ∧
    ((r.structMember m).2.typ < (r.structMember m).1.table.heap.length ∧
     View.ofAttribute (r.structMember m).1.table.heap (r.structMember m).2 = m.view) := by
  obtain ⟨s, a, l, k⟩ := typeRef_step wf m.ref hn
  refine ⟨s, a, l, ?_⟩
  simp only [Reader.structMember, View.ofAttribute, MemberDecl.view, k]
  rfl

theorem structMembers_step (r : Reader) (ms : List MemberDecl) (wf : WF nb ng r)
    (hn : ∀ m ∈ ms, ∀ n ∈ m.ref.names, n ≠ []) :
    let p := forChildren structMember r ms
    Step nb ng r p.1 ∧ abs p.1 = (abs r).typeRefs r.table.version (ms.map (·.ref)) ∧
    All2 (fun m a => a.typ < p.1.table.heap.length ∧ View.ofAttribute p.1.table.heap a = m.view)
      ms p.2 :=
  forChildren_typeRefs structMember (·.ref)
    (fun h m a => a.typ < h.length ∧ View.ofAttribute h a = m.view)
    (fun _ _ _ _ e h => ⟨Nat.lt_of_lt_of_le h.1 e.len, (ofAttribute_ext e h.1).trans h.2⟩)
    (fun r m wf hn => structMember_step r m wf hn) r wf ms hn

/-- Declaration of a type, after its members. -/
def declareAndComplete (r : Reader) (kind : Kind) (name : Name) (doc : Text)
    (annotations : List Annotation) (values : List EnumValue) (attributes : List Attribute) :
    Reader :=
  match r.declareType kind name with
  | (r, none) => r
  | (r, some id) => r.completeType id doc annotations values attributes

theorem modify_modify_eq {α : Type} (l : List α) (i : Nat) (f g : α → α) :
    (l.modify i f).modify i g = l.modify i (g ∘ f) := by
  apply List.ext_getElem?
  intro j
  simp only [List.getElem?_modify]
  by_cases h : i = j <;> simp [h, Function.comp_def]

theorem wf_modify {r : Reader} (wf : WF nb ng r) (id : TypeId) (hb : ¬ nb id)
    (f : TypeCell → TypeCell)
    (hname : ∀ c, (f c).name = c.name)
    (hclosed : ∀ c, r.table.heap[id]? = some c → CellClosed r.table.heap.length (f c))
    (u : GoMap TypeId) (hu : ∀ k j, u.find k = some j → r.undefinedTypes.find k = some j ∧ j ≠ id) :
    Step nb ng r { r with
      table := { r.table with heap := r.table.heap.modify id f }, undefinedTypes := u } := by
  have he := HeapExt.modify r.table.heap id f hname
  refine ⟨⟨?_, ?_, wf.rfind, ?_, ?_, wf.rundef, ?_, wf.rbare, ?_, wf.rreg, ?_, wf.low, wf.rlow⟩, he,
    .refl _, rfl, ?_, fun _ _ => rfl⟩
  · intro k j h
    obtain ⟨c, hj, hk⟩ := wf.find k j h
    by_cases e : id = j
    · exact ⟨f c, by simp [List.getElem?_modify, hj, e], by rw [hname]; exact hk⟩
    · exact ⟨c, by simp [List.getElem?_modify, hj, e], hk⟩
  · intro c hc
    obtain ⟨j, hj⟩ := List.mem_iff_getElem?.mp hc
    simp only [List.getElem?_modify] at hj
    simp only [List.length_modify]
    cases hh : r.table.heap[j]? with
    | none => simp [hh] at hj
    | some c0 =>
      by_cases e : id = j
      · subst e
        have hj : f c0 = c := by simpa [hh] using hj
        subst hj
        exact hclosed c0 hh
      · have hj : c0 = c := by simpa [hh, e] using hj
        subst hj
        exact wf.closed c0 (List.mem_of_getElem? hh)
  · intro res hres
    simpa using wf.rclosed res hres
  · intro k j h
    exact wf.undef k j (hu k j h).1
  · intro k j h
    obtain ⟨h1, h2⟩ := hu k j h
    obtain ⟨nm, hj⟩ := wf.bare k j h1
    exact ⟨nm, by simp [List.getElem?_modify, hj, Ne.symm h2]⟩
  · intro j c hbj hj
    simp only [List.getElem?_modify] at hj
    cases hh : r.table.heap[j]? with
    | none => simp [hh] at hj
    | some c0 =>
      have hr := wf.reg j c0 hbj hh
      by_cases e : id = j
      · have hj : f c0 = c := by simpa [hh, e] using hj
        subst hj
        rw [hname]; exact hr
      · have hj : c0 = c := by simpa [hh, e] using hj
        subst hj
        exact hr
  · simpa using wf.size
  · intro i hi
    have : id ≠ i := fun e => by subst e; exact hb hi
    simp [List.getElem?_modify, this]

theorem typeView_modify {r : Reader} (wf : WF nb ng r) (id : TypeId) (f : TypeCell → TypeCell)
    (hname : ∀ c, (f c).name = c.name) (c0 : TypeCell) (hid : r.table.heap[id]? = some c0)
    (hclosed : CellClosed r.table.heap.length (f c0))
    (hfind : r.table.types.find c0.name.toText = some id) (u : GoMap TypeId) :
    ({ r with table := { r.table with heap := r.table.heap.modify id f }, undefinedTypes := u } :
      Reader).typeView =
      upd r.typeView c0.name.toText (some (View.ofCell r.table.heap (f c0))) := by
  have he := HeapExt.modify r.table.heap id f hname
  funext k
  simp only [Reader.typeView, upd]
  by_cases e : k = c0.name.toText
  · subst e
    simp only [hfind, Option.bind_some, List.getElem?_modify, hid, if_true,
      Option.map_eq_map, Option.map_some]
    rw [ofCell_ext he hclosed]
  · simp only [e, if_false]
    cases hf : r.table.types.find k with
    | none => rfl
    | some j =>
      obtain ⟨c, hj, hk⟩ := wf.find k j hf
      have hne : ¬ id = j := by
        intro h
        subst h
        rw [hid] at hj
        cases hj
        exact e hk.symm
      simp only [Option.bind_some, List.getElem?_modify, hj, hne, if_false,
        Option.map_eq_map, Option.map_some]
      rw [ofCell_ext he (wf.closed c (List.mem_of_getElem? hj))]

/-- What a declaration describes. -/
def declaredView (v : VersionId) (kind : Kind) (doc : Text) (annotations : List Annotation)
    (values : List EnumValue) (attributes : List AttributeView) : TypeView :=
  { TypeView.unknown v with
    kind := kind, doc := doc, annotations := annotations
    values := sorted EnumValue.name values
    attributes := sorted AttributeView.name attributes }

/-- The assignments of `completeType`. -/
def completion (doc : Text) (annotations : List Annotation) (values : List EnumValue)
    (attributes : List Attribute) (c : TypeCell) : TypeCell :=
  { c with
    doc := if doc ≠ [] then doc else c.doc
    annotations := c.annotations ++ annotations
    values := (values.map some).foldl (addMember EnumValue.name) c.values
    attributes := (attributes.map some).foldl (addMember Attribute.name) c.attributes }

theorem ofCell_completion (h : Heap) (name : Name) (v : VersionId) (kind : Kind) (doc : Text)
    (annotations : List Annotation) (values : List EnumValue) (attributes : List Attribute) :
    View.ofCell h (completion doc annotations values attributes
      { name := name, kind := kind, owner := some v }) =
      declaredView v kind doc annotations values (attributes.map (View.ofAttribute h)) := by
  simp only [View.ofCell, completion, declaredView, TypeView.unknown, Option.map_none,
    List.nil_append, TypeView.mk.injEq, true_and, and_true]
  refine ⟨?_, ?_, ?_⟩
  · have := map_addMembers Attribute.name AttributeView.name (View.ofAttribute h) (fun _ => rfl)
      attributes []
    exact this
  · rfl
  · by_cases e : doc = [] <;> simp [e]

theorem closed_completion (n : Nat) (name : Name) (v : VersionId) (kind : Kind) (doc : Text)
    (annotations : List Annotation) (values : List EnumValue) (attributes : List Attribute)
    (ha : ∀ a ∈ attributes, a.typ < n) :
    CellClosed n (completion doc annotations values attributes
      { name := name, kind := kind, owner := some v }) := by
  refine ⟨?_, by simp [completion], by simp [completion]⟩
  intro a h
  rcases mem_addMembers Attribute.name attributes [] a h with h | h
  · simp at h
  · exact ha a h

theorem abs_modify {r : Reader} (wf : WF nb ng r) (id : TypeId) (f : TypeCell → TypeCell)
    (hname : ∀ c, (f c).name = c.name) (c0 : TypeCell) (hid : r.table.heap[id]? = some c0)
    (hclosed : CellClosed r.table.heap.length (f c0))
    (hfind : r.table.types.find c0.name.toText = some id) (u : GoMap TypeId) :
    abs { r with
      table := { r.table with heap := r.table.heap.modify id f }, undefinedTypes := u } =
      { abs r with
        types := upd (abs r).types c0.name.toText (some (View.ofCell r.table.heap (f c0)))
        undef := fun k => (u.find k).isSome } := by
  have h1 := typeView_modify wf id f hname c0 hid hclosed hfind u
  have h2 := resourceView_ext (r' := { r with
      table := { r.table with heap := r.table.heap.modify id f }, undefinedTypes := u }) wf
    (HeapExt.modify r.table.heap id f hname) rfl rfl
  simp only [abs, h1, h2]

theorem upd_upd {α : Type} (f : Text → α) (k : Text) (a b : α) : upd (upd f k a) k b = upd f k b := by
  funext x
  simp only [upd]
  split <;> rfl

theorem declareAndComplete_step {r : Reader} (wf : WF nb ng r) (kind : Kind) (name : Name) (doc : Text)
    (annotations : List Annotation) (values : List EnumValue) (attributes : List Attribute)
    (ha : ∀ a ∈ attributes, a.typ < r.table.heap.length) :
    let r' := declareAndComplete r kind name doc annotations values attributes
    Step nb ng r r' ∧
    abs r' = (abs r).declare name (declaredView r.table.version kind doc annotations values
      (attributes.map (View.ofAttribute r.table.heap))) := by
  intro r'
  simp only [r', declareAndComplete, Reader.declareType, TypeTable.findType]
  cases hf : r.table.types.find name.toText with
  | none =>
    dsimp only
    have hc : CellClosed r.table.heap.length { name := name, kind := kind } :=
      ⟨by simp, by simp, by simp⟩
    obtain ⟨st, hid, hlen, hkey⟩ := wf_newType wf { name := name, kind := kind } hc hf
    have hab := abs_newType wf { name := name, kind := kind } hc hf
    have hv : (abs r).types name.toText = none := (typeView_none wf _).mpr hf
    have hcell : (r.newType { name := name, kind := kind }).1.table.heap[
        (r.newType { name := name, kind := kind }).2]? =
        some { name := name, kind := kind, owner := some r.table.version } := by
      simp only [Reader.newType, TypeTable.newType_eq]
      rw [List.getElem?_append_right (Nat.le_refl _)]
      simp
    have hfind : (r.newType { name := name, kind := kind }).1.table.types.find name.toText =
        some (r.newType { name := name, kind := kind }).2 := by
      simp [Reader.newType, TypeTable.newType_eq, GoMap.find_insert]
    have ha' : ∀ a ∈ attributes,
        a.typ < (r.newType { name := name, kind := kind }).1.table.heap.length := by
      intro a h; rw [hlen]; exact Nat.lt_succ_of_lt (ha a h)
    have hcl := closed_completion _ name r.table.version kind doc annotations values attributes ha'
    have hst := wf_modify st.wf (r.newType { name := name, kind := kind }).2
      (st.wf.low _ _ hfind)
      (completion doc annotations values attributes) (fun _ => rfl)
      (fun c h => by rw [hcell] at h; cases h; exact hcl)
      (r.newType { name := name, kind := kind }).1.undefinedTypes
      (fun k j h => ⟨h, fun e => by
        obtain ⟨nm, hj⟩ := wf.bare k j h
        have := (List.getElem?_eq_some_iff.mp hj).1
        rw [hid] at e
        rw [e] at this
        exact Nat.lt_irrefl _ this⟩)
    refine ⟨st.trans hst, ?_⟩
    have h2 := abs_modify st.wf (r.newType { name := name, kind := kind }).2
      (completion doc annotations values attributes) (fun _ => rfl) _ hcell hcl hfind
      (r.newType { name := name, kind := kind }).1.undefinedTypes
    refine h2.trans ?_
    have e1 : attributes.map (View.ofAttribute (r.newType { name := name, kind := kind }).1.table.heap)
        = attributes.map (View.ofAttribute r.table.heap) :=
      List.map_congr_left fun a h => ofAttribute_ext st.heap (ha a h)
    rw [ofCell_completion, e1]
    simp only [AState.declare, hv]
    have e2 : (fun k => ((r.newType { name := name, kind := kind }).1.undefinedTypes.find k).isSome)
        = (abs r).undef := rfl
    rw [e2, hab]
    simp only [upd_upd]
  | some id =>
    obtain ⟨c, hcell, hk⟩ := wf.find _ _ hf
    have hv : ∃ v, (abs r).types name.toText = some v := by
      cases h : (abs r).types name.toText with
      | some v => exact ⟨v, rfl⟩
      | none => exact absurd ((typeView_none wf _).mp h) (by simp [hf])
    obtain ⟨v, hv⟩ := hv
    by_cases hu : r.isUndefinedType name = true
    · dsimp only
      rw [if_pos hu]
      dsimp only
      have hu' : (abs r).undef name.toText = true := hu
      obtain ⟨j, hj⟩ := Option.isSome_iff_exists.mp (show (r.undefinedTypes.find name.toText).isSome = true from hu)
      have hj' : j = id := by
        have := wf.undef _ _ hj
        rw [hf] at this; exact (Option.some.inj this).symm
      subst hj'
      obtain ⟨nm, hbare⟩ := wf.bare _ _ hj
      rw [hcell] at hbare
      cases hbare
      have hk : nm.toText = name.toText := hk
      have hcl := closed_completion _ nm r.table.version kind doc annotations values attributes ha
      let g : TypeCell → TypeCell :=
        completion doc annotations values attributes ∘ fun c => { c with kind := kind }
      have hst := wf_modify wf j (wf.low _ _ hf) g
        (fun _ => rfl) (fun c h => by rw [hcell] at h; cases h; exact hcl)
        (r.undefinedTypes.delete name.toText)
        (fun k i h => by
          rw [GoMap.find_delete] at h
          by_cases e : name.toText = k
          · simp [e] at h
          · simp only [e, if_false] at h
            refine ⟨h, fun ei => ?_⟩
            subst ei
            obtain ⟨c', hc', hk'⟩ := wf.find _ _ (wf.undef _ _ h)
            rw [hcell] at hc'
            cases hc'
            exact e (hk.symm.trans hk'))
      have h2 := abs_modify wf j g
        (fun _ => rfl) _ hcell hcl (by simpa [hk] using hf) (r.undefinedTypes.delete name.toText)
      have hform : ∀ heap', heap' = r.table.heap.modify j g →
          ({ r with
             table := { r.table with heap := heap' }
             undefinedTypes := r.undefinedTypes.delete name.toText } : Reader) =
          { r with
            table := { r.table with heap := r.table.heap.modify j g }
            undefinedTypes := r.undefinedTypes.delete name.toText } := by
        intro heap' e; rw [e]
      have hr : (({ r with
          table := { r.table with
            heap := r.table.heap.update j fun c => { c with kind := kind } } } :
            Reader).removeUndefinedType name).completeType j doc annotations values attributes =
          { r with
            table := { r.table with heap := r.table.heap.modify j g }
            undefinedTypes := r.undefinedTypes.delete name.toText } :=
        hform _ (modify_modify_eq _ _ _ _)
      rw [hr]
      refine ⟨hst, h2.trans ?_⟩
      simp only [AState.declare, hv, hu', if_true, g, Function.comp_def, hk]
      rw [ofCell_completion]
      congr 1
      funext k
      simp only [upd, GoMap.find_delete]
      by_cases e : name.toText = k
      · simp [e]
      · have : ¬ k = name.toText := fun h => e h.symm
        simp [e, this, abs]
    · dsimp only
      rw [if_neg hu]
      dsimp only
      have hu' : (abs r).undef name.toText = false := by
        cases h : (abs r).undef name.toText with
        | false => rfl
        | true => exact absurd h hu
      refine ⟨⟨⟨wf.find, wf.closed, wf.rfind, wf.rclosed, wf.undef, wf.rundef, wf.bare, wf.rbare,
        wf.reg, wf.rreg, wf.size, wf.low, wf.rlow⟩,
        .refl _, .refl _, rfl, fun _ _ => rfl, fun _ _ => rfl⟩, ?_⟩
      simp only [AState.declare, hv, hu', Bool.false_eq_true, if_false]
      rfl

theorem all2_map {α β γ : Type} {R : α → β → Prop} {f : α → γ} {g : β → γ} {xs : List α}
    {ys : List β} (h : All2 R xs ys) (hR : ∀ x y, R x y → g y = f x) : ys.map g = xs.map f := by
  induction h with
  | nil => rfl
  | cons hxy _ ih => simp [hR _ _ hxy, ih]

theorem all2_right {α β : Type} {R : α → β → Prop} {P : β → Prop} {xs : List α}
    {ys : List β} (h : All2 R xs ys) (hR : ∀ x y, R x y → P y) : ∀ y ∈ ys, P y := by
  induction h with
  | nil => simp
  | cons hxy _ ih =>
    intro y hy
    simp only [List.mem_cons] at hy
    rcases hy with rfl | hy
    · exact hR _ _ hxy
    · exact ih y hy

theorem structDecl_step {r : Reader} (wf : WF nb ng r) (kind : Kind) (name doc : Text)
    (annotations : List Annotation) (members : List MemberDecl)
    (hn : ∀ m ∈ members, ∀ n ∈ m.ref.names, n ≠ []) :
    Step nb ng r (r.structDecl kind name doc annotations members) ∧
    abs (r.structDecl kind name doc annotations members) =
      ((abs r).typeRefs r.table.version (members.map (·.ref))).declare (parseUsingCase name)
        (declaredView r.table.version kind doc annotations [] (members.map MemberDecl.view)) := by
  obtain ⟨s1, a1, o1⟩ := structMembers_step r members wf hn
  obtain ⟨s2, a2⟩ := declareAndComplete_step s1.wf kind (parseUsingCase name) doc annotations []
    (forChildren structMember r members).2 (all2_right o1 fun _ _ h => h.1)
  refine ⟨s1.trans s2, ?_⟩
  refine Eq.trans a2 ?_
  rw [a1, s1.version, all2_map o1 fun _ _ h => h.2]

theorem enumDecl_step {r : Reader} (wf : WF nb ng r) (name doc : Text)
    (annotations : List Annotation) (values : List ValueDecl) :
    Step nb ng r (r.enumDecl name doc annotations values) ∧
    abs (r.enumDecl name doc annotations values) =
      (abs r).declare (parseUsingCase name)
        (declaredView r.table.version .enum doc annotations (values.map ValueDecl.view) []) :=
  declareAndComplete_step wf .enum (parseUsingCase name) doc annotations (values.map enumMember) []
    (by simp)

/-! ## Resources -/

/-- The method that a declaration describes. -/
def MethodDecl.view (m : MethodDecl) : MethodView :=
  { name := parseUsingCase m.name
    parameters := sorted ParameterView.name (m.parameters.map ParameterDecl.view)
    doc := m.doc, annotations := m.annotations }

/-- A resource of which only the name is known. -/
def ResourceView.unknown : ResourceView :=
  { methods := [], locators := [], doc := [], annotations := [] }

/-- The resource that a declaration describes. -/
def resourceDeclView (name doc : Text) (annotations : List Annotation)
    (members : List ResourceMember) : ResourceView :=
  { methods := sorted MethodView.name ((methodDecls members).map MethodDecl.view)
    locators := sorted LocatorView.name ((locatorDecls members).map (LocatorDecl.view (keyOf name)))
    doc := doc, annotations := annotations }

namespace AState

/-- Mention of a resource. -/
def rmention (a : AState) (k : Text) : AState :=
  match a.resources k with
  | some _ => a
  | none =>
    { a with
      resources := upd a.resources k (some .unknown)
      rundef := upd a.rundef k true }

/-- Locator. -/
def locator (a : AState) (l : LocatorDecl) : AState :=
  let a := l.targets.foldl rmention a
  if l.targets.isEmpty then a.report (.noTarget (parseUsingCase l.name)) else a

/-- Member of a resource. -/
def resourceMember (v : VersionId) (a : AState) : ResourceMember → AState
  | .method m => a.typeRefs v (m.parameters.map (·.ref))
  | .locator l => a.locator l

/-- Declaration of a resource. -/
def rdeclare (a : AState) (name : Name) (view : ResourceView) : AState :=
  match a.resources name.toText with
  | none => { a with resources := upd a.resources name.toText (some view) }
  | some _ =>
    if a.rundef name.toText then
      { a with
        resources := upd a.resources name.toText (some view)
        rundef := upd a.rundef name.toText false }
    else a.report (.resourceDefined name)

/-- Code of an error. -/
def code (a : AState) (text : Text) : AState :=
  if (atoi text).2 then a else a.report (.badCode text)

/-- Declaration of an error. -/
def errorDecl (a : AState) (name doc : Text) (annotations : List Annotation)
    (codes : List Text) : AState :=
  let a := codes.foldl code a
  match a.errors.find (keyOf name) with
  | none =>
    { a with
      errors := a.errors.insert (keyOf name)
        { supportName := some (parseUsingCase name), ownName := none, doc := doc
          annotations := annotations
          code := ((codes.map fun t => (atoi t).1).getLast?).getD 0 } }
  | some _ => a.report (.errorDefined (parseUsingCase name))

/-- Declaration. -/
def decl (v : VersionId) (a : AState) : Decl → AState
  | .enum name doc annotations values =>
    a.declare (parseUsingCase name)
      (declaredView v .enum doc annotations (values.map ValueDecl.view) [])
  | .class name doc annotations members =>
    (a.typeRefs v (members.map (·.ref))).declare (parseUsingCase name)
      (declaredView v .class doc annotations [] (members.map MemberDecl.view))
  | .struct name doc annotations members =>
    (a.typeRefs v (members.map (·.ref))).declare (parseUsingCase name)
      (declaredView v .struct doc annotations [] (members.map MemberDecl.view))
  | .resource name doc annotations members =>
    (members.foldl (resourceMember v) a).rdeclare (parseUsingCase name)
      (resourceDeclView name doc annotations members)
  | .error name doc annotations codes => a.errorDecl name doc annotations codes

end AState

theorem wf_newResource {r : Reader} (wf : WF nb ng r) (name : Name)
    (hf : r.resources.find name.toText = none) :
    Step nb ng r (r.newResource name).1 ∧
    abs (r.newResource name).1 =
      { abs r with resources := upd (abs r).resources name.toText (some .unknown) } ∧
    (r.newResource name).1.graph[(r.newResource name).2]? = some { name := name } ∧
    (r.newResource name).1.resources.find name.toText = some (r.newResource name).2 := by
  have hext := GraphExt.append r.graph { name := name }
  refine ⟨⟨⟨wf.find, wf.closed, ?_, ?_, wf.undef, ?_, wf.bare, ?_, wf.reg, ?_, ?_, wf.low, ?_⟩, .refl _,
    hext, rfl, fun _ _ => rfl, ?_⟩, ?_, ?_, ?_⟩
  · intro k id h
    simp only [Reader.newResource, GoMap.find_insert] at h ⊢
    by_cases e : name.toText = k
    · simp only [e, if_true, Option.some.injEq] at h
      subst h
      exact ⟨{ name := name }, by rw [List.getElem?_append_right (Nat.le_refl _)]; simp, e⟩
    · simp only [e, if_false] at h
      obtain ⟨c, hid, hk⟩ := wf.rfind k id h
      have hlt : id < r.graph.length := (List.getElem?_eq_some_iff.mp hid).1
      exact ⟨c, by simp only [List.getElem?_append_left hlt, hid], hk⟩
  · intro res hres
    simp only [Reader.newResource, List.mem_append, List.mem_singleton] at hres ⊢
    rcases hres with h | h
    · exact (wf.rclosed res h).mono (Nat.le_refl _) (by simp)
    · subst h; exact ⟨by simp, by simp⟩
  · intro k id h
    have := wf.rundef k id h
    simp only [Reader.newResource, GoMap.find_insert]
    by_cases e : name.toText = k
    · rw [e] at hf; rw [hf] at this; cases this
    · simp [e, this]
  · intro k id h
    obtain ⟨nm, hid⟩ := wf.rbare k id h
    have hlt : id < r.graph.length := (List.getElem?_eq_some_iff.mp hid).1
    exact ⟨nm, by simp only [Reader.newResource, List.getElem?_append_left hlt, hid]⟩
  · intro id c hb hid
    simp only [Reader.newResource] at hid ⊢
    rw [GoMap.find_insert]
    rcases Nat.lt_or_ge id r.graph.length with hlt | hge
    · rw [List.getElem?_append_left hlt] at hid
      have hr := wf.rreg id c hb hid
      by_cases e : name.toText = c.name.toText
      · rw [← e, hf] at hr; cases hr
      · rw [if_neg e, hr]
    · rw [List.getElem?_append_right hge, List.getElem?_singleton] at hid
      split at hid
      · rename_i h0
        cases hid
        have : id = r.graph.length := Nat.le_antisymm (Nat.le_of_sub_eq_zero h0) hge
        simp [this]
      · cases hid
  · exact ⟨wf.size.1, fun i hi => Nat.lt_of_lt_of_le (wf.size.2 i hi) (by simp [Reader.newResource])⟩
  · intro k id h
    simp only [Reader.newResource, GoMap.find_insert] at h
    split at h
    · cases h; exact fun hn => Nat.lt_irrefl _ (wf.size.2 _ hn)
    · exact wf.rlow k id h
  · intro i hi
    exact List.getElem?_append_left (wf.size.2 i hi)
  · have h1 : (r.newResource name).1.resourceView =
        upd r.resourceView name.toText (some .unknown) := by
      funext k
      simp only [Reader.newResource, Reader.resourceView, GoMap.find_insert, upd]
      by_cases e : name.toText = k
      · simp only [e, if_true, Option.bind_some]
        rw [List.getElem?_append_right (Nat.le_refl _)]
        simp [View.ofResource, ResourceView.unknown]
      · have e' : ¬ k = name.toText := fun h => e h.symm
        simp only [e, e', if_false]
        cases hfk : r.resources.find k with
        | none => rfl
        | some id =>
          obtain ⟨c, hid, -⟩ := wf.rfind k id hfk
          have hlt : id < r.graph.length := (List.getElem?_eq_some_iff.mp hid).1
          simp only [Option.bind_some, List.getElem?_append_left hlt, hid, Option.map_some]
          rw [ofResource_ext (.refl _) hext (wf.rclosed c (List.mem_of_getElem? hid))]
    simp only [abs, h1]
    rfl
  · simp only [Reader.newResource]
    rw [List.getElem?_append_right (Nat.le_refl _)]
    simp
  · simp [Reader.newResource, GoMap.find_insert]

theorem resourceRef_step {r : Reader} (wf : WF nb ng r) (name : Text) :
    let p := r.resourceRef name
    Step nb ng r p.1 ∧ abs p.1 = (abs r).rmention (keyOf name) ∧
    p.2 < p.1.graph.length ∧ View.resourceKey p.1.graph p.2 = keyOf name := by
  intro p
  simp only [p]
  unfold Reader.resourceRef Reader.identifier
  cases hf : r.resources.find (parseUsingCase name).toText with
  | some id =>
    obtain ⟨c, hid, hk⟩ := wf.rfind _ _ hf
    refine ⟨Step.refl wf, ?_, (List.getElem?_eq_some_iff.mp hid).1, ?_⟩
    · unfold AState.rmention
      cases hv : (abs r).resources (keyOf name) with
      | some v => rfl
      | none => exact absurd ((resourceView_none wf _).mp hv) (by simp [keyOf, hf])
    · simp [View.resourceKey, hid, hk, keyOf]
  | none =>
    dsimp only
    obtain ⟨st, ha, hcell, hfind⟩ := wf_newResource wf (parseUsingCase name) hf
    have hv : (abs r).resources (keyOf name) = none := (resourceView_none wf _).mpr hf
    refine ⟨⟨?_, st.heap, st.graph, st.version, st.keep, st.rkeep⟩, ?_, ?_, ?_⟩
    · refine ⟨st.wf.find, st.wf.closed, st.wf.rfind, st.wf.rclosed, st.wf.undef, ?_, st.wf.bare, ?_,
        st.wf.reg, st.wf.rreg, st.wf.size, st.wf.low, st.wf.rlow⟩
      · intro k id h
        simp only [Reader.addUndefinedResource, GoMap.find_insert] at h ⊢
        by_cases e : (parseUsingCase name).toText = k
        · simp only [e, if_true, Option.some.injEq] at h
          subst h
          rw [← e]; exact hfind
        · simp only [e, if_false] at h
          exact st.wf.rundef k id h
      · intro k id h
        simp only [Reader.addUndefinedResource, GoMap.find_insert] at h ⊢
        by_cases e : (parseUsingCase name).toText = k
        · simp only [e, if_true, Option.some.injEq] at h
          subst h
          exact ⟨_, hcell⟩
        · simp only [e, if_false] at h
          exact st.wf.rbare k id h
    · simp only [AState.rmention, hv]
      have eu : (fun k => ((((r.newResource (parseUsingCase name)).1.addUndefinedResource
          (parseUsingCase name) (r.newResource (parseUsingCase name)).2).undefinedResources).find
            k).isSome) = upd (abs r).rundef (keyOf name) true := by
        funext k
        simp only [abs, upd, keyOf, Reader.addUndefinedResource, GoMap.find_insert,
          Reader.newResource]
        by_cases e : (parseUsingCase name).toText = k
        · simp [e]
        · have : ¬ k = (parseUsingCase name).toText := fun h => e h.symm
          simp [e, this]
      rw [← eu]
      have e2 : abs ((r.newResource (parseUsingCase name)).1.addUndefinedResource
          (parseUsingCase name) (r.newResource (parseUsingCase name)).2) =
          { abs (r.newResource (parseUsingCase name)).1 with
            rundef := fun k => ((((r.newResource (parseUsingCase name)).1.addUndefinedResource
              (parseUsingCase name)
              (r.newResource (parseUsingCase name)).2).undefinedResources).find k).isSome } := rfl
      rw [e2, ha]
      rfl
    · exact (List.getElem?_eq_some_iff.mp hcell).1
    · have : View.resourceKey (r.newResource (parseUsingCase name)).1.graph
          (r.newResource (parseUsingCase name)).2 = keyOf name := by
        simp only [View.resourceKey, hcell]; rfl
      exact this

/-! ### Parameters and methods -/

theorem setDirections_fold (p : Parameter) (ds : List Direction) :
    ds.foldl (fun (p : Parameter) d =>
        match d with
        | .input => { p with isIn := true }
        | .output => { p with isOut := true }) p =
      { p with
        isIn := p.isIn || ds.contains .input
        isOut := p.isOut || ds.contains .output } := by
  induction ds generalizing p with
  | nil => simp
  | cons d ds ih =>
    rw [List.foldl_cons, ih]
    cases d <;> simp [Bool.or_assoc]

theorem setDirections_eq (p : Parameter) (ds : List Direction) (hi : p.isIn = false)
    (ho : p.isOut = false) :
    setDirections p ds =
      { p with isIn := ds.contains .input, isOut := ds.isEmpty || ds.contains .output } := by
  unfold setDirections
  cases ds with
  | nil => simp [hi]
  | cons d ds =>
    rw [if_pos (by simp)]
    refine (setDirections_fold _ _).trans ?_
    rw [hi, ho]
    simp

theorem methodParameter_step (r : Reader) (p : ParameterDecl) (wf : WF nb ng r)
    (hn : ∀ n ∈ p.ref.names, n ≠ []) :
    Step nb ng r (r.methodParameter p).1 ∧
    abs (r.methodParameter p).1 = (abs r).typeRef r.table.version p.ref ∧
    ((r.methodParameter p).2.typ.id < (r.methodParameter p).1.table.heap.length ∧
     View.ofParameter (r.methodParameter p).1.table.heap (r.methodParameter p).2 = p.view) := by
  obtain ⟨s, a, l, k⟩ := typeRef_step wf p.ref hn
  simp only [Reader.methodParameter]
  rw [setDirections_eq _ _ rfl rfl]
  refine ⟨s, a, l, ?_⟩
  simp only [View.ofParameter, ParameterDecl.view, k]
  rfl

theorem methodDecl_step (r : Reader) (m : MethodDecl) (wf : WF nb ng r)
    (hn : ∀ p ∈ m.parameters, ∀ n ∈ p.ref.names, n ≠ []) :
    Step nb ng r (r.methodDecl m).1 ∧
    abs (r.methodDecl m).1 = (abs r).typeRefs r.table.version (m.parameters.map (·.ref)) ∧
    MethodClosed (r.methodDecl m).1.table.heap.length (r.methodDecl m).2 ∧
    View.ofMethod (r.methodDecl m).1.table.heap (r.methodDecl m).2 = m.view := by
  obtain ⟨s, a, o⟩ := forChildren_typeRefs methodParameter (·.ref)
    (fun h (p : ParameterDecl) (x : Parameter) => x.typ.id < h.length ∧ View.ofParameter h x = p.view)
    (fun h h' p x e hh => ⟨Nat.lt_of_lt_of_le hh.1 e.len, by
      rw [← hh.2]; simp [View.ofParameter, e.key _ hh.1]⟩)
    (fun r p wf hn => methodParameter_step r p wf hn) r wf m.parameters hn
  refine ⟨s, a, ?_, ?_⟩
  · intro p hp
    simp only [Reader.methodDecl] at hp
    rcases mem_addMembers Parameter.name _ [] p hp with h | h
    · simp at h
    · exact all2_right o (fun _ _ h => h.1) p h
  · simp only [Reader.methodDecl, View.ofMethod, MethodDecl.view, MethodView.mk.injEq, and_true]
    refine ⟨rfl, ?_⟩
    rw [map_addMembers Parameter.name ParameterView.name _ (fun _ => rfl),
      all2_map o (fun _ _ h => h.2)]
    rfl

/-! ### Locators -/

theorem locatorMembers_step (r : Reader) (ms : List LocatorMember) (wf : WF nb ng r) :
    let p := forChildren locatorMember r ms
    Step nb ng r p.1 ∧
    abs p.1 = (({ name := [], members := ms } : LocatorDecl).targets).foldl AState.rmention (abs r) ∧
    All2 (fun m x =>
      match m, x with
      | .target t, .resource id => id < p.1.graph.length ∧ View.resourceKey p.1.graph id = keyOf t
      | .variableName n, .name x => x = parseUsingCase n
      | _, _ => False) ms p.2 := by
  induction ms generalizing r with
  | nil => exact ⟨Step.refl wf, rfl, .nil⟩
  | cons m ms ih =>
    cases m with
    | target t =>
      obtain ⟨s1, a1, l1, k1⟩ := resourceRef_step wf t
      obtain ⟨s2, a2, o2⟩ := ih (r.resourceRef t).1 s1.wf
      refine ⟨s1.trans s2, ?_, .cons ?_ o2⟩
      · refine Eq.trans a2 ?_
        rw [a1]
        rfl
      · exact ⟨Nat.lt_of_lt_of_le l1 s2.graph.len, (s2.graph.key _ l1).trans k1⟩
    | variableName n =>
      obtain ⟨s2, a2, o2⟩ := ih r wf
      exact ⟨s2, a2, .cons rfl o2⟩

theorem setMembers_eq (g : Graph) (ms : List LocatorMember) (xs : List LocatorResult)
    (h : All2 (fun m x =>
      match m, x with
      | .target t, .resource id => id < g.length ∧ View.resourceKey g id = keyOf t
      | .variableName n, .name x => x = parseUsingCase n
      | _, _ => False) ms xs) (l : Locator) (tl : Option Text)
    (hl : l.target.map (View.resourceKey g) = tl) (hc : ∀ t, l.target = some t → t < g.length) :
    let l' := setMembers l xs
    l'.name = l.name ∧ l'.doc = l.doc ∧ l'.annotations = l.annotations ∧
    l'.isVariable = (l.isVariable || ({ name := [], members := ms } : LocatorDecl).hasVariable) ∧
    l'.target.map (View.resourceKey g) =
      ((({ name := [], members := ms } : LocatorDecl).targets).getLast?).or tl ∧
    ∀ t, l'.target = some t → t < g.length := by
  induction h generalizing l tl with
  | nil =>
    refine ⟨rfl, rfl, rfl, ?_, ?_, hc⟩
    · simp [setMembers, LocatorDecl.hasVariable]
    · simp [setMembers, LocatorDecl.targets, hl]
  | @cons m x ms xs hxy _ ih =>
    cases m with
    | target t =>
      cases x with
      | name _ => exact absurd hxy (by simp)
      | resource id =>
        obtain ⟨h1, h2, h3, h4, h5, h6⟩ := ih { l with target := some id } (some (keyOf t))
          (by simp [hxy.2]) (by intro t' e; cases e; exact hxy.1)
        refine ⟨h1, h2, h3, ?_, ?_, h6⟩
        · rw [show setMembers l (.resource id :: xs) = setMembers { l with target := some id } xs
            from rfl, h4]
          simp [LocatorDecl.hasVariable]
        · rw [show setMembers l (.resource id :: xs) = setMembers { l with target := some id } xs
            from rfl, h5]
          simp only [LocatorDecl.targets, List.filterMap_cons]
          cases hg : (List.filterMap (fun m : LocatorMember =>
            match m with
            | .target resource => some (keyOf resource)
            | .variableName _ => none) ms) with
          | nil => simp
          | cons a as => simp [List.getLast?_cons]
    | variableName n =>
      cases x with
      | resource _ => exact absurd hxy (by simp)
      | name x =>
        obtain ⟨h1, h2, h3, h4, h5, h6⟩ := ih (l.setVariable true) tl hl hc
        refine ⟨h1, h2, h3, ?_, ?_, h6⟩
        · rw [show setMembers l (.name x :: xs) = setMembers (l.setVariable true) xs from rfl, h4]
          simp [LocatorDecl.hasVariable, Locator.setVariable]
        · rw [show setMembers l (.name x :: xs) = setMembers (l.setVariable true) xs from rfl, h5]
          simp [LocatorDecl.targets]

/-- The locator is what the declaration says, except for the owner. -/
def LocatorOk (g : Graph) (d : LocatorDecl) (l : Locator) : Prop :=
  (∀ t, l.target = some t → t < g.length) ∧
  ∀ own, ({ View.ofLocator g l with owner := own } : LocatorView) = d.view own

theorem LocatorOk.mono {g g' : Graph} {d : LocatorDecl} {l : Locator} (h : LocatorOk g d l)
    (e : GraphExt g g') : LocatorOk g' d l := by
  refine ⟨fun t ht => Nat.lt_of_lt_of_le (h.1 t ht) e.len, fun own => ?_⟩
  rw [← h.2 own]
  have h2 : l.target.map (View.resourceKey g') = l.target.map (View.resourceKey g) := by
    cases he : l.target with
    | none => rfl
    | some x => simp [e.key x (h.1 x he)]
  simp [View.ofLocator, h2]

theorem report_step {r : Reader} (wf : WF nb ng r) (p : ReadProblem) : Step nb ng r (r.report p) :=
  ⟨⟨wf.find, wf.closed, wf.rfind, wf.rclosed, wf.undef, wf.rundef, wf.bare, wf.rbare,
        wf.reg, wf.rreg, wf.size, wf.low, wf.rlow⟩,
    .refl _, .refl _, rfl, fun _ _ => rfl, fun _ _ => rfl⟩

theorem locatorDecl_step (r : Reader) (l : LocatorDecl) (wf : WF nb ng r) :
    Step nb ng r (r.locatorDecl l).1 ∧ abs (r.locatorDecl l).1 = (abs r).locator l ∧
    LocatorOk (r.locatorDecl l).1.graph l (r.locatorDecl l).2 := by
  obtain ⟨s, a, o⟩ := locatorMembers_step r l.members wf
  have ht : ({ name := [], members := l.members } : LocatorDecl).targets = l.targets := rfl
  have hv : ({ name := [], members := l.members } : LocatorDecl).hasVariable = l.hasVariable := rfl
  obtain ⟨h1, h2, h3, h4, h5, h6⟩ := setMembers_eq _ _ _ o
    { name := parseUsingCase l.name, owner := 0, doc := l.doc, annotations := l.annotations } none
    rfl (by simp)
  rw [ht] at a h5
  rw [hv] at h4
  simp only [Option.or_none, Bool.false_or] at h4 h5
  have hnone : (setMembers { name := parseUsingCase l.name, owner := 0, doc := l.doc
                             annotations := l.annotations }
      (forChildren locatorMember r l.members).2).target.isNone = l.targets.isEmpty := by
    have := congrArg Option.isNone h5
    rw [Option.isNone_map] at this
    rw [this]
    cases l.targets with
    | nil => rfl
    | cons a as => simp [List.getLast?_cons]
  have hok : LocatorOk (forChildren locatorMember r l.members).1.graph l
      (setMembers { name := parseUsingCase l.name, owner := 0, doc := l.doc
                    annotations := l.annotations }
        (forChildren locatorMember r l.members).2) := by
    refine ⟨h6, fun own => ?_⟩
    simp only [View.ofLocator, LocatorDecl.view, h1, h2, h3, h4, h5]
  unfold Reader.locatorDecl Reader.identifier
  dsimp only
  rw [hnone]
  unfold AState.locator
  cases he : l.targets.isEmpty with
  | true =>
    rw [if_pos rfl]
    refine ⟨s.trans (report_step s.wf _), ?_, hok⟩
    rw [if_pos rfl]
    rw [← a]
    rw [h1]
    rfl
  | false =>
    rw [if_neg (by simp)]
    refine ⟨s, ?_, hok⟩
    rw [if_neg (by simp)]
    exact a

/-! ### Members of resources -/

/-- The result of a member of a resource is what the declaration says. -/
def MemberOk (h : Heap) (g : Graph) : ResourceMember → ResourceResult → Prop
  | .method d, .method m => MethodClosed h.length m ∧ View.ofMethod h m = d.view
  | .locator d, .locator l => LocatorOk g d l
  | _, _ => False

theorem MemberOk.mono {h h' : Heap} {g g' : Graph} {m : ResourceMember} {x : ResourceResult}
    (hm : MemberOk h g m x) (e : HeapExt h h') (eg : GraphExt g g') : MemberOk h' g' m x := by
  cases m with
  | method d =>
    cases x with
    | method m =>
      exact ⟨fun p hp => Nat.lt_of_lt_of_le (hm.1 p hp) e.len, (ofMethod_ext e hm.1).trans hm.2⟩
    | locator l => exact hm.elim
  | locator d =>
    cases x with
    | method m => exact hm.elim
    | locator l => exact LocatorOk.mono hm eg

theorem resourceMember_step (r : Reader) (m : ResourceMember) (wf : WF nb ng r)
    (hn : ∀ e ∈ m.typeRefs, ∀ n ∈ e.names, n ≠ []) :
    Step nb ng r (r.resourceMember m).1 ∧
    abs (r.resourceMember m).1 = (abs r).resourceMember r.table.version m ∧
    MemberOk (r.resourceMember m).1.table.heap (r.resourceMember m).1.graph m
      (r.resourceMember m).2 := by
  cases m with
  | method m =>
    obtain ⟨s, a, c, v⟩ := methodDecl_step r m wf
      (fun p hp => hn p.ref (by simp only [ResourceMember.typeRefs]; exact List.mem_map.mpr ⟨p, hp, rfl⟩))
    exact ⟨s, a, c, v⟩
  | locator l => exact locatorDecl_step r l wf

theorem resourceMembers_step (r : Reader) (ms : List ResourceMember) (wf : WF nb ng r)
    (hn : ∀ m ∈ ms, ∀ e ∈ m.typeRefs, ∀ n ∈ e.names, n ≠ []) :
    let p := forChildren resourceMember r ms
    Step nb ng r p.1 ∧
    abs p.1 = ms.foldl (AState.resourceMember r.table.version) (abs r) ∧
    All2 (MemberOk p.1.table.heap p.1.graph) ms p.2 := by
  induction ms generalizing r with
  | nil => exact ⟨Step.refl wf, rfl, .nil⟩
  | cons m ms ih =>
    obtain ⟨s1, a1, o1⟩ := resourceMember_step r m wf (hn m (by simp))
    obtain ⟨s2, a2, o2⟩ := ih (r.resourceMember m).1 s1.wf (fun y hy => hn y (by simp [hy]))
    refine ⟨s1.trans s2, ?_, .cons (o1.mono s2.heap s2.graph) o2⟩
    refine Eq.trans a2 ?_
    rw [a1, s1.version]
    rfl

/-- The methods among the results. -/
def methodResults (xs : List ResourceResult) : List Method :=
  xs.filterMap fun x => match x with | .method m => some m | .locator _ => none

/-- The locators among the results. -/
def locatorResults (xs : List ResourceResult) : List Locator :=
  xs.filterMap fun x => match x with | .method _ => none | .locator l => some l

theorem addMembers_eq (id : ResId) (res : Resource) (xs : List ResourceResult) :
    addMembers id res xs =
      { res with
        methods := ((methodResults xs).map some).foldl (addMember Method.name) res.methods
        locators := (((locatorResults xs).map fun l => { l with owner := id }).map some).foldl
          (addMember Locator.name) res.locators } := by
  induction xs generalizing res with
  | nil => rfl
  | cons x xs ih =>
    cases x with
    | method m =>
      refine Eq.trans (ih { res with methods := addMember Method.name res.methods (some m) }) ?_
      rfl
    | locator l =>
      refine Eq.trans (ih { res with
        locators := addMember Locator.name res.locators (some { l with owner := id }) }) ?_
      rfl

theorem members_views {h : Heap} {g : Graph} {ms : List ResourceMember} {xs : List ResourceResult}
    (o : All2 (MemberOk h g) ms xs) (id : ResId) (hid : id < g.length) :
    (methodResults xs).map (View.ofMethod h) = (methodDecls ms).map MethodDecl.view ∧
    ((locatorResults xs).map fun l => { l with owner := id }).map (View.ofLocator g) =
      (locatorDecls ms).map (LocatorDecl.view (View.resourceKey g id)) ∧
    (∀ m ∈ methodResults xs, MethodClosed h.length m) ∧
    (∀ l ∈ (locatorResults xs).map fun l => { l with owner := id }, LocatorClosed g.length l) := by
  induction o with
  | nil => exact ⟨rfl, rfl, by simp [methodResults], by simp [locatorResults]⟩
  | @cons m x ms xs hxy _ ih =>
    obtain ⟨h1, h2, h3, h4⟩ := ih
    cases m with
    | method d =>
      cases x with
      | locator l => exact hxy.elim
      | method m =>
        refine ⟨?_, h2, ?_, h4⟩
        · simp only [methodResults, methodDecls, List.filterMap_cons, List.map_cons]
          rw [hxy.2]
          exact congrArg _ h1
        · intro m' hm'
          simp only [methodResults, List.filterMap_cons, List.mem_cons] at hm'
          rcases hm' with rfl | hm'
          · exact hxy.1
          · exact h3 m' hm'
    | locator d =>
      cases x with
      | method m => exact hxy.elim
      | locator l =>
        refine ⟨h1, ?_, h3, ?_⟩
        · simp only [locatorResults, locatorDecls, List.filterMap_cons, List.map_cons]
          refine List.cons_eq_cons.mpr ⟨?_, h2⟩
          rw [← hxy.2 (View.resourceKey g id)]
          simp [View.ofLocator]
        · intro l' hl'
          simp only [locatorResults, List.filterMap_cons, List.map_cons, List.mem_cons] at hl'
          rcases hl' with rfl | hl'
          · exact ⟨hid, hxy.1⟩
          · exact h4 l' hl'

/-- The assignments of `ExitResourceDecl` to the resource. -/
def completeResource (id : ResId) (doc : Text) (annotations : List Annotation)
    (xs : List ResourceResult) (res : Resource) : Resource :=
  addMembers id
    { res with
      doc := if doc ≠ [] then doc else res.doc
      annotations := res.annotations ++ annotations } xs

theorem completeResource_name (id : ResId) (doc : Text) (annotations : List Annotation)
    (xs : List ResourceResult) (res : Resource) :
    (completeResource id doc annotations xs res).name = res.name := by
  simp [completeResource, addMembers_eq]

theorem rstep_modify {r : Reader} (wf : WF nb ng r) (id : ResId) (f : Resource → Resource)
    (hname : ∀ c, (f c).name = c.name) (c0 : Resource) (hid : r.graph[id]? = some c0)
    (hclosed : ResourceClosed r.table.heap.length r.graph.length (f c0))
    (hfind : r.resources.find c0.name.toText = some id) (u : GoMap ResId)
    (hu : ∀ k j, u.find k = some j → r.undefinedResources.find k = some j ∧ j ≠ id) :
    Step nb ng r { r with graph := r.graph.modify id f, undefinedResources := u } ∧
    abs { r with graph := r.graph.modify id f, undefinedResources := u } =
      { abs r with
        resources := upd (abs r).resources c0.name.toText
          (some (View.ofResource r.table.heap r.graph (f c0)))
        rundef := fun k => (u.find k).isSome } := by
  have he := GraphExt.modify r.graph id f hname
  refine ⟨⟨⟨wf.find, wf.closed, ?_, ?_, wf.undef, ?_, wf.bare, ?_, wf.reg, ?_, ?_, wf.low, wf.rlow⟩,
    .refl _, he, rfl, fun _ _ => rfl, ?_⟩, ?_⟩
  · intro k j h
    obtain ⟨c, hj, hk⟩ := wf.rfind k j h
    by_cases e : id = j
    · exact ⟨f c, by simp [hj, e], by rw [hname]; exact hk⟩
    · exact ⟨c, by simp [hj, e], hk⟩
  · intro c hc
    obtain ⟨j, hj⟩ := List.mem_iff_getElem?.mp hc
    simp only [List.getElem?_modify] at hj
    simp only [List.length_modify]
    cases hh : r.graph[j]? with
    | none => simp [hh] at hj
    | some c1 =>
      by_cases e : id = j
      · subst e
        rw [hid] at hh
        cases hh
        have hj : f c0 = c := by simpa [hid] using hj
        subst hj
        exact hclosed
      · have hj : c1 = c := by simpa [hh, e] using hj
        subst hj
        exact wf.rclosed c1 (List.mem_of_getElem? hh)
  · intro k j h
    exact wf.rundef k j (hu k j h).1
  · intro k j h
    obtain ⟨h1, h2⟩ := hu k j h
    obtain ⟨nm, hj⟩ := wf.rbare k j h1
    exact ⟨nm, by simp [hj, Ne.symm h2]⟩
  · intro j c hbj hj
    simp only [List.getElem?_modify] at hj
    cases hh : r.graph[j]? with
    | none => simp [hh] at hj
    | some c1 =>
      have hr := wf.rreg j c1 hbj hh
      by_cases e : id = j
      · have hj : f c1 = c := by simpa [hh, e] using hj
        subst hj
        rw [hname]; exact hr
      · have hj : c1 = c := by simpa [hh, e] using hj
        subst hj
        exact hr
  · simpa using wf.size
  · intro i hi
    have : id ≠ i := fun e => by
      subst e; exact wf.rlow _ _ hfind hi
    simp [List.getElem?_modify, this]
  · have h1 : ({ r with graph := r.graph.modify id f, undefinedResources := u } :
        Reader).resourceView = upd r.resourceView c0.name.toText
          (some (View.ofResource r.table.heap r.graph (f c0))) := by
      funext k
      simp only [Reader.resourceView, upd]
      by_cases e : k = c0.name.toText
      · subst e
        simp only [hfind, Option.bind_some, List.getElem?_modify, hid, if_true,
          Option.map_eq_map, Option.map_some]
        rw [ofResource_ext (.refl _) he hclosed]
      · simp only [e, if_false]
        cases hf : r.resources.find k with
        | none => rfl
        | some j =>
          obtain ⟨c, hj, hk⟩ := wf.rfind k j hf
          have hne : ¬ id = j := by
            intro h
            subst h
            rw [hid] at hj
            cases hj
            exact e hk.symm
          simp only [Option.bind_some, List.getElem?_modify, hj, hne, if_false,
            Option.map_eq_map, Option.map_some]
          rw [ofResource_ext (.refl _) he (wf.rclosed c (List.mem_of_getElem? hj))]
    simp only [abs, h1]
    rfl

theorem resource_completion {h : Heap} {g : Graph} {ms : List ResourceMember}
    {xs : List ResourceResult} (o : All2 (MemberOk h g) ms xs) (id : ResId) (nm : Name) (name : Text)
    (hid : g[id]? = some { name := nm }) (hk : nm.toText = keyOf name) (doc : Text)
    (annotations : List Annotation) :
    View.ofResource h g (completeResource id doc annotations xs { name := nm }) =
      resourceDeclView name doc annotations ms ∧
    ResourceClosed h.length g.length (completeResource id doc annotations xs { name := nm }) := by
  obtain ⟨v1, v2, c1, c2⟩ := members_views o id (List.getElem?_eq_some_iff.mp hid).1
  have hkey : View.resourceKey g id = keyOf name := by simp [View.resourceKey, hid, hk]
  rw [hkey] at v2
  constructor
  · simp only [completeResource, addMembers_eq, View.ofResource, resourceDeclView,
      ResourceView.mk.injEq, List.nil_append, and_true]
    refine ⟨?_, ?_, ?_⟩
    · rw [map_addMembers Method.name MethodView.name _ (fun _ => rfl), v1]
      rfl
    · rw [map_addMembers Locator.name LocatorView.name _ (fun _ => rfl), v2]
      rfl
    · by_cases e : doc = [] <;> simp [e]
  · simp only [completeResource, addMembers_eq]
    constructor
    · intro m hm
      rcases mem_addMembers Method.name _ [] m hm with h | h
      · simp at h
      · exact c1 m h
    · intro l hl
      rcases mem_addMembers Locator.name _ [] l hl with h | h
      · simp at h
      · exact c2 l h

theorem resourceDecl_step {r : Reader} (wf : WF nb ng r) (name doc : Text)
    (annotations : List Annotation) (ms : List ResourceMember)
    (hn : ∀ m ∈ ms, ∀ e ∈ m.typeRefs, ∀ n ∈ e.names, n ≠ []) :
    Step nb ng r (r.resourceDecl name doc annotations ms) ∧
    abs (r.resourceDecl name doc annotations ms) =
      (ms.foldl (AState.resourceMember r.table.version) (abs r)).rdeclare (parseUsingCase name)
        (resourceDeclView name doc annotations ms) := by
  obtain ⟨s1, a1, o1⟩ := resourceMembers_step r ms wf hn
  rw [← a1]
  unfold Reader.resourceDecl
  generalize forChildren resourceMember r ms = p at *
  obtain ⟨q, xs⟩ := p
  dsimp only at *
  unfold Reader.declareResource Reader.identifier
  cases hf : q.resources.find (parseUsingCase name).toText with
  | none =>
    dsimp only
    obtain ⟨st, ha, hcell, hfind⟩ := wf_newResource s1.wf (parseUsingCase name) hf
    have hv : (abs q).resources (parseUsingCase name).toText = none :=
      (resourceView_none s1.wf _).mpr hf
    have o2 : All2 (MemberOk (q.newResource (parseUsingCase name)).1.table.heap
        (q.newResource (parseUsingCase name)).1.graph) ms xs := by
      have : ∀ {ms xs}, All2 (MemberOk q.table.heap q.graph) ms xs →
          All2 (MemberOk (q.newResource (parseUsingCase name)).1.table.heap
            (q.newResource (parseUsingCase name)).1.graph) ms xs := by
        intro ms xs h
        induction h with
        | nil => exact .nil
        | cons h _ ih => exact .cons (h.mono st.heap st.graph) ih
      exact this o1
    obtain ⟨hview, hcl⟩ := resource_completion o2 _ _ name hcell rfl doc annotations
    obtain ⟨s3, a3⟩ := rstep_modify st.wf (q.newResource (parseUsingCase name)).2
      (completeResource (q.newResource (parseUsingCase name)).2 doc annotations xs)
      (completeResource_name _ _ _ _) _ hcell hcl hfind
      (q.newResource (parseUsingCase name)).1.undefinedResources
      (fun k j h => ⟨h, fun e => by
        obtain ⟨nm, hj⟩ := s1.wf.rbare k j h
        have := (List.getElem?_eq_some_iff.mp hj).1
        rw [e] at this
        exact Nat.lt_irrefl _ this⟩)
    refine ⟨(s1.trans st).trans s3, a3.trans ?_⟩
    rw [hview]
    simp only [AState.rdeclare, hv]
    have e2 : (fun k => ((q.newResource (parseUsingCase name)).1.undefinedResources.find k).isSome)
        = (abs q).rundef := rfl
    rw [e2, ha]
    simp only [upd_upd]
  | some id =>
    obtain ⟨c, hcell, hk⟩ := s1.wf.rfind _ _ hf
    have hv : ∃ v, (abs q).resources (parseUsingCase name).toText = some v := by
      cases h : (abs q).resources (parseUsingCase name).toText with
      | some v => exact ⟨v, rfl⟩
      | none => exact absurd ((resourceView_none s1.wf _).mp h) (by simp [hf])
    obtain ⟨v, hv⟩ := hv
    dsimp only
    by_cases hu : q.isUndefinedResource (parseUsingCase name) = true
    · rw [if_pos hu]
      dsimp only
      have hu' : (abs q).rundef (parseUsingCase name).toText = true := hu
      obtain ⟨j, hj⟩ := Option.isSome_iff_exists.mp
        (show (q.undefinedResources.find (parseUsingCase name).toText).isSome = true from hu)
      have hj' : j = id := by
        have := s1.wf.rundef _ _ hj
        rw [hf] at this; exact (Option.some.inj this).symm
      subst hj'
      obtain ⟨nm, hbare⟩ := s1.wf.rbare _ _ hj
      rw [hcell] at hbare
      cases hbare
      have hk : nm.toText = (parseUsingCase name).toText := hk
      obtain ⟨hview, hcl⟩ := resource_completion o1 j nm name hcell hk doc annotations
      obtain ⟨s3, a3⟩ := rstep_modify s1.wf j (completeResource j doc annotations xs)
        (completeResource_name _ _ _ _) _ hcell hcl (by simpa [hk] using hf)
        (q.undefinedResources.delete (parseUsingCase name).toText)
        (fun k i h => by
          rw [GoMap.find_delete] at h
          by_cases e : (parseUsingCase name).toText = k
          · simp [e] at h
          · simp only [e, if_false] at h
            refine ⟨h, fun ei => ?_⟩
            subst ei
            obtain ⟨c', hc', hk'⟩ := s1.wf.rfind _ _ (s1.wf.rundef _ _ h)
            rw [hcell] at hc'
            cases hc'
            exact e (hk.symm.trans hk'))
      refine ⟨s1.trans s3, a3.trans ?_⟩
      rw [hview]
      simp only [AState.rdeclare, hv, hu', if_true, hk]
      congr 1
      funext k
      simp only [upd, GoMap.find_delete]
      by_cases e : (parseUsingCase name).toText = k
      · simp [e]
      · have : ¬ k = (parseUsingCase name).toText := fun h => e h.symm
        simp [e, this, abs]
    · rw [if_neg hu]
      dsimp only
      have hu' : (abs q).rundef (parseUsingCase name).toText = false := by
        cases h : (abs q).rundef (parseUsingCase name).toText with
        | false => rfl
        | true => exact absurd h hu
      refine ⟨s1.trans (report_step s1.wf _), ?_⟩
      simp only [AState.rdeclare, hv, hu', Bool.false_eq_true, if_false]
      rfl

/-! ## Errors -/

theorem errorCodes_step (r : Reader) (wf : WF nb ng r) (codes : List Text) :
    let p := forChildren errorCode r codes
    Step nb ng r p.1 ∧ abs p.1 = codes.foldl AState.code (abs r) ∧
    p.2 = codes.map fun t => (atoi t).1 := by
  induction codes generalizing r with
  | nil => exact ⟨Step.refl wf, rfl, rfl⟩
  | cons c cs ih =>
    have h1 : Step nb ng r (r.errorCode c).1 ∧ abs (r.errorCode c).1 = (abs r).code c ∧
        (r.errorCode c).2 = (atoi c).1 := by
      unfold Reader.errorCode AState.code
      generalize atoi c = q
      obtain ⟨v, b⟩ := q
      cases b with
      | true => exact ⟨Step.refl wf, rfl, rfl⟩
      | false => exact ⟨report_step wf _, rfl, rfl⟩
    obtain ⟨s1, a1, e1⟩ := h1
    obtain ⟨s2, a2, e2⟩ := ih (r.errorCode c).1 s1.wf
    refine ⟨s1.trans s2, ?_, ?_⟩
    · refine Eq.trans a2 ?_
      rw [a1]; rfl
    · rw [show (forChildren errorCode r (c :: cs)).2 =
        (r.errorCode c).2 :: (forChildren errorCode (r.errorCode c).1 cs).2 from rfl, e1, e2]
      rfl

theorem lastCode (codes : List Int) (e : ErrorConcept) :
    codes.foldl (fun (e : ErrorConcept) code => { e with code := code }) e =
      { e with code := (codes.getLast?).getD e.code } := by
  induction codes generalizing e with
  | nil => rfl
  | cons c cs ih =>
    rw [List.foldl_cons, ih]
    cases cs with
    | nil => rfl
    | cons d ds => simp [List.getLast?_cons]

theorem errorDecl_step {r : Reader} (wf : WF nb ng r) (name doc : Text)
    (annotations : List Annotation) (codes : List Text) :
    Step nb ng r (r.errorDecl name doc annotations codes) ∧
    abs (r.errorDecl name doc annotations codes) = (abs r).errorDecl name doc annotations codes := by
  obtain ⟨s1, a1, e1⟩ := errorCodes_step r wf codes
  unfold Reader.errorDecl AState.errorDecl
  rw [← a1]
  generalize forChildren errorCode r codes = p at *
  obtain ⟨q, xs⟩ := p
  dsimp only at *
  subst e1
  unfold Reader.identifier
  have hq : (abs q).errors = q.errors := rfl
  rw [hq]
  unfold keyOf
  cases hf : q.errors.find (parseUsingCase name).toText with
  | none =>
    dsimp only
    rw [lastCode]
    refine ⟨⟨⟨s1.wf.find, s1.wf.closed, s1.wf.rfind, s1.wf.rclosed, s1.wf.undef, s1.wf.rundef,
      s1.wf.bare, s1.wf.rbare, s1.wf.reg, s1.wf.rreg, s1.wf.size, s1.wf.low, s1.wf.rlow⟩, s1.heap,
      s1.graph, s1.version, s1.keep, s1.rkeep⟩, ?_⟩
    have hdoc : (if doc ≠ [] then doc else (ErrorConcept.new.setName (parseUsingCase name)).doc) =
        doc := by
      by_cases h : doc = []
      · subst h; rfl
      · rw [if_pos h]
    rw [hdoc]
    rfl
  | some e => exact ⟨s1.trans (report_step s1.wf _), rfl⟩

/-! ## Declarations -/

theorem decl_step {r : Reader} (wf : WF nb ng r) (d : Decl)
    (hn : ∀ e ∈ d.typeRefs, ∀ n ∈ e.names, n ≠ []) :
    Step nb ng r (r.decl d) ∧ abs (r.decl d) = (abs r).decl r.table.version d := by
  cases d with
  | enum name doc annotations values => exact enumDecl_step wf name doc annotations values
  | «class» name doc annotations members =>
    exact structDecl_step wf .class name doc annotations members
      (fun m hm => hn m.ref (List.mem_map.mpr ⟨m, hm, rfl⟩))
  | struct name doc annotations members =>
    exact structDecl_step wf .struct name doc annotations members
      (fun m hm => hn m.ref (List.mem_map.mpr ⟨m, hm, rfl⟩))
  | resource name doc annotations members =>
    exact resourceDecl_step wf name doc annotations members
      (fun m hm e he => hn e (List.mem_flatMap.mpr ⟨m, hm, he⟩))
  | error name doc annotations codes => exact errorDecl_step wf name doc annotations codes

theorem decls_step {r : Reader} (wf : WF nb ng r) (ds : List Decl) (hn : WellNamed ds) :
    Step nb ng r (r.decls ds) ∧ abs (r.decls ds) = ds.foldl (AState.decl r.table.version) (abs r) := by
  induction ds generalizing r with
  | nil => exact ⟨Step.refl wf, rfl⟩
  | cons d ds ih =>
    obtain ⟨s1, a1⟩ := decl_step wf d
      (fun e he => hn e (List.mem_flatMap.mpr ⟨d, by simp, he⟩))
    obtain ⟨s2, a2⟩ := ih s1.wf (fun e he => by
      obtain ⟨d', hd', he'⟩ := List.mem_flatMap.mp he
      exact hn e (List.mem_flatMap.mpr ⟨d', by simp [hd'], he'⟩))
    refine ⟨s1.trans s2, ?_⟩
    refine Eq.trans a2 ?_
    rw [a1, s1.version]
    rfl

/-- The reader when it starts to load a version. -/
def startReader (h : Heap) (g : Graph) (v : VersionId) : Reader :=
  { table := TypeTable.newVersion h v, graph := g }

theorem start_table (h : Heap) (g : Graph) (v : VersionId) : (startReader h g v).table =
    { version := v, heap := h ++ builtinCells v h.length, types := builtinTable h.length } := by
  unfold startReader
  rw [newVersion_eq]

theorem builtinCells_get (v : VersionId) (n : Nat) : ∀ e ∈ builtinTable n, ∃ i, e.2 = n + i ∧
    ∃ c, (builtinCells v n)[i]? = some c ∧ c.name.toText = e.1 := by
  intro e he
  simp only [builtinTable, List.mem_cons, List.not_mem_nil, or_false] at he
  rcases he with h | h | h | h | h | h | h | h | h | h | h | h | h | h <;> subst h
  · exact ⟨0, rfl, _, rfl, by dsimp only; decide⟩
  · exact ⟨1, rfl, _, rfl, by dsimp only; decide⟩
  · exact ⟨2, rfl, _, rfl, by dsimp only; decide⟩
  · exact ⟨3, rfl, _, rfl, by dsimp only; decide⟩
  · exact ⟨4, rfl, _, rfl, by dsimp only; decide⟩
  · exact ⟨5, rfl, _, rfl, by dsimp only; decide⟩
  · exact ⟨6, rfl, _, rfl, by dsimp only; decide⟩
  · exact ⟨7, rfl, _, rfl, by dsimp only; decide⟩
  · exact ⟨8, rfl, _, rfl, by dsimp only; decide⟩
  · exact ⟨9, rfl, _, rfl, by dsimp only; decide⟩
  · exact ⟨10, rfl, _, rfl, by dsimp only; decide⟩
  · exact ⟨11, rfl, _, rfl, by dsimp only; decide⟩
  · exact ⟨12, rfl, _, rfl, by dsimp only; decide⟩
  · exact ⟨13, rfl, _, rfl, by dsimp only; decide⟩

theorem builtinCells_closed (v : VersionId) (n : Nat) : ∀ c ∈ builtinCells v n,
    c.attributes = [] ∧ c.index = none ∧ ∀ e ∈ c.element, e < n + 14 := by
  unfold builtinCells
  simp

theorem builtinCells_key (v : VersionId) (n : Nat) : ∀ j, j < 14 → ∀ c,
    (builtinCells v n)[j]? = some c → (builtinTable n).find c.name.toText = some (n + j) := by
  intro j hj c hc
  have key : ∀ (name k : Text) (i : Nat), name = k → (builtinTable n).find k = some (n + i) →
      (builtinTable n).find name = some (n + i) := by
    intro name k i h1 h2; rw [h1]; exact h2
  match j, hj with
  | 0, _ => cases hc; exact key _ t!"boolean" 0 (by dsimp only; decide) rfl
  | 1, _ => cases hc; exact key _ t!"boolean_list" 1 (by dsimp only; decide) rfl
  | 2, _ => cases hc; exact key _ t!"integer" 2 (by dsimp only; decide) rfl
  | 3, _ => cases hc; exact key _ t!"integer_list" 3 (by dsimp only; decide) rfl
  | 4, _ => cases hc; exact key _ t!"long" 4 (by dsimp only; decide) rfl
  | 5, _ => cases hc; exact key _ t!"long_list" 5 (by dsimp only; decide) rfl
  | 6, _ => cases hc; exact key _ t!"float" 6 (by dsimp only; decide) rfl
  | 7, _ => cases hc; exact key _ t!"float_list" 7 (by dsimp only; decide) rfl
  | 8, _ => cases hc; exact key _ t!"string" 8 (by dsimp only; decide) rfl
  | 9, _ => cases hc; exact key _ t!"string_list" 9 (by dsimp only; decide) rfl
  | 10, _ => cases hc; exact key _ t!"date" 10 (by dsimp only; decide) rfl
  | 11, _ => cases hc; exact key _ t!"date_list" 11 (by dsimp only; decide) rfl
  | 12, _ => cases hc; exact key _ t!"interface" 12 (by dsimp only; decide) rfl
  | 13, _ => cases hc; exact key _ t!"interface_list" 13 (by dsimp only; decide) rfl

theorem wf_start (h : Heap) (g : Graph) (v : VersionId) (hc : ∀ c ∈ h, CellClosed h.length c)
    (hg : ∀ res ∈ g, ResourceClosed h.length g.length res) :
    WF (· < h.length) (· < g.length) (startReader h g v) := by
  have ht := start_table h g v
  refine ⟨?_, ?_, ?_, ?_, ?_, ?_, ?_, ?_, ?_, ?_, ?_, ?_, ?_⟩
  · rw [ht]
    intro k id hf
    have hm := GoMap.find_some_mem hf
    obtain ⟨i, hi, c, h1, h2⟩ := builtinCells_get v h.length _ hm
    refine ⟨c, ?_, h2⟩
    dsimp only at hi ⊢
    rw [hi, List.getElem?_append_right (Nat.le_add_right _ _), Nat.add_sub_cancel_left, h1]
  · rw [ht]
    intro c hm
    rcases List.mem_append.mp hm with h1 | h1
    · exact (hc c h1).mono (by simp)
    · obtain ⟨a, b, d⟩ := builtinCells_closed v h.length c h1
      have hl : (h ++ builtinCells v h.length).length = h.length + 14 := by
        rw [List.length_append]; rfl
      exact ⟨by simp [a], fun e he => by rw [hl]; exact d e he, by simp [b]⟩
  · intro k id h; cases h
  · intro res hr
    exact (hg res hr).mono (by rw [ht]; simp) (Nat.le_refl _)
  · intro k id h; cases h
  · intro k id h; cases h
  · intro k id h; cases h
  · intro k id h; cases h
  · rw [ht]
    intro id c hb hget
    have hb := Nat.le_of_not_lt hb
    dsimp only at hget ⊢
    rw [List.getElem?_append_right hb] at hget
    have hlt : id - h.length < 14 := (List.getElem?_eq_some_iff.mp hget).1
    rw [builtinCells_key v h.length _ hlt c hget, Nat.add_sub_cancel' hb]
  · intro id c hb hget
    exact absurd (List.getElem?_eq_some_iff.mp hget).1 hb
  · rw [ht]
    exact ⟨fun i hi => by rw [List.length_append]; exact Nat.lt_add_right _ hi, fun _ hi => hi⟩
  · rw [ht]
    intro k id hf
    have : ∀ e ∈ builtinTable h.length, h.length ≤ e.2 := by
      unfold builtinTable
      simp
    exact Nat.not_lt_of_le (this _ (GoMap.find_some_mem hf))
  · intro k id h; cases h

theorem wf_fresh : WF (· < 0) (· < 0) Reader.fresh := wf_start [] [] 0 (fun _ h => nomatch h) (fun _ h => nomatch h)

end Verif
