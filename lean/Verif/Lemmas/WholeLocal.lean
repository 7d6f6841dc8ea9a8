import Verif.Lemmas.Whole
import Verif.Lemmas.Content

/-! Helper lemmas: the types that a version uses belong to that version. -/

namespace Verif.Whole

open Reader Session

/-- The pointer is a type of the version. -/
def Owned (h : Heap) (w : Option VersionId) (id : TypeId) : Prop := ∃ c, h[id]? = some c ∧ c.owner = w

theorem Owned.mono {h h' : Heap} {w : Option VersionId} {id : TypeId} (o : Owned h w id)
    (k : KeepsNames h h') : Owned h' w id := by
  obtain ⟨c, hc, ho⟩ := o
  obtain ⟨c', hc', -, ho'⟩ := k id c hc
  exact ⟨c', hc', ho'.trans ho⟩

/-- The pointers of the type are types of its version, and its attributes don't refer to other versions. -/
structure CellLocal (h : Heap) (c : TypeCell) : Prop where
  element : ∀ e, c.element = some e → Owned h c.owner e
  attributes : ∀ a ∈ c.attributes, Owned h c.owner a.typ ∧ a.linkOwner = none

theorem CellLocal.mono {h h' : Heap} {c : TypeCell} (l : CellLocal h c) (k : KeepsNames h h') :
    CellLocal h' c :=
  ⟨fun e he => (l.element e he).mono k, fun a ha => ⟨(l.attributes a ha).1.mono k, (l.attributes a ha).2⟩⟩

/-- The types of the parameters of the resource are types of the version. -/
def ResourceLocal (h : Heap) (w : VersionId) (res : Resource) : Prop :=
  ∀ m ∈ res.methods, ∀ p ∈ m.parameters, Owned h (some w) p.typ.id

/-- The types while the version `w` is loaded, where `h0` was the memory at the start. -/
structure LocalTypes (h0 : Heap) (w : VersionId) (t : TypeTable) : Prop where
  version : t.version = w
  good : TypesGood t.heap w t.types
  own : ∀ (id : Nat) c, t.heap[id]? = some c → c.owner = some w → t.types.find c.name.toText = some id
  cells : ∀ (id : Nat) c, t.heap[id]? = some c → CellLocal t.heap c
  old : ∀ (id : Nat) c, t.heap[id]? = some c → c.owner = some w ∨
    ∃ c0, h0[id]? = some c0 ∧ c0.name = c.name ∧ c0.owner = c.owner
  keeps : KeepsNames h0 t.heap

theorem LocalTypes.found {h0 : Heap} {w : VersionId} {t : TypeTable} (l : LocalTypes h0 w t) {k : Text}
    {id : TypeId} (hf : t.types.find k = some id) : Owned t.heap (some w) id := by
  obtain ⟨c, hc, -, ho⟩ := l.good.named k id hf
  exact ⟨c, hc, ho⟩

theorem LocalTypes.newType {h0 : Heap} {w : VersionId} {t : TypeTable} (l : LocalTypes h0 w t)
    (c : TypeCell) (hf : t.types.find c.name.toText = none) (ha : c.attributes = [])
    (he : ∀ e, c.element = some e → Owned t.heap (some w) e) :
    LocalTypes h0 w (t.newType c).1 ∧ KeepsNames t.heap (t.newType c).1.heap ∧
      Owned (t.newType c).1.heap (some w) (t.newType c).2 := by
  obtain ⟨g1, g2, g3⟩ := typesGood_newType (t := t) (by rw [l.version]; exact l.good) c
  rw [TypeTable.newType_eq] at g1 g2 g3 ⊢
  dsimp only at g1 g2 g3 ⊢
  rw [l.version] at g1 g2 ⊢
  have hcase : ∀ (id : Nat) c', (t.heap ++ [{ c with owner := some w }])[id]? = some c' →
      (id < t.heap.length ∧ t.heap[id]? = some c') ∨
      (id = t.heap.length ∧ c' = { c with owner := some w }) := by
    intro id c' hc'
    by_cases hi : id < t.heap.length
    · rw [List.getElem?_append_left hi] at hc'
      exact .inl ⟨hi, hc'⟩
    · have hl := (List.getElem?_eq_some_iff.mp hc').1
      simp at hl
      have he : id = t.heap.length := by omega
      subst he
      rw [List.getElem?_append_right (Nat.le_refl _), Nat.sub_self] at hc'
      simp at hc'
      exact .inr ⟨rfl, hc'.symm⟩
  refine ⟨⟨rfl, g1, ?_, ?_, ?_, l.keeps.trans g2⟩, g2, ⟨{ c with owner := some w }, by simp, rfl⟩⟩
  · intro id c' hc' ho
    dsimp only at hc' ⊢
    rw [GoMap.find_insert]
    rcases hcase id c' hc' with ⟨-, h⟩ | ⟨rfl, rfl⟩
    · have := l.own id c' h ho
      split
      · rename_i e
        rw [e, this] at hf
        cases hf
      · exact this
    · rw [if_pos rfl]
  · intro id c' hc'
    dsimp only at hc' ⊢
    rcases hcase id c' hc' with ⟨-, h⟩ | ⟨rfl, rfl⟩
    · exact (l.cells id c' h).mono g2
    · refine ⟨fun e h => (he e h).mono g2, fun a h => ?_⟩
      dsimp only at h
      rw [ha] at h
      cases h
  · intro id c' hc'
    dsimp only at hc'
    rcases hcase id c' hc' with ⟨-, h⟩ | ⟨rfl, rfl⟩
    · exact l.old id c' h
    · exact .inl rfl

theorem LocalTypes.update {h0 : Heap} {w : VersionId} {t : TypeTable} (l : LocalTypes h0 w t)
    (id : TypeId) (hid : Owned t.heap (some w) id) (f : TypeCell → TypeCell)
    (h1 : ∀ c, (f c).name = c.name) (h2 : ∀ c, (f c).owner = c.owner)
    (h3 : ∀ c, (f c).element = c.element)
    (h4 : ∀ c, ∀ a ∈ (f c).attributes, a ∈ c.attributes ∨ (Owned t.heap (some w) a.typ ∧ a.linkOwner = none)) :
    LocalTypes h0 w { t with heap := t.heap.update id f } ∧
      KeepsNames t.heap (t.heap.update id f) := by
  have hk : KeepsNames t.heap (t.heap.update id f) := keepsNames_update _ _ _ fun c => ⟨h1 c, h2 c⟩
  have hcase : ∀ (i : Nat) c, (t.heap.update id f)[i]? = some c →
      ∃ c0, t.heap[i]? = some c0 ∧ ((i = id ∧ c = f c0) ∨ c = c0) := by
    intro i c hc
    unfold Heap.update at hc
    rw [List.getElem?_modify] at hc
    cases ho : t.heap[i]? with
    | none => rw [ho] at hc; simp at hc
    | some c0 =>
      rw [ho] at hc
      simp only [Option.map_eq_map, Option.map_some, Option.some.injEq] at hc
      refine ⟨c0, rfl, ?_⟩
      by_cases e : id = i
      · rw [if_pos e] at hc
        exact .inl ⟨e.symm, hc.symm⟩
      · rw [if_neg e] at hc
        exact .inr hc.symm
  refine ⟨⟨l.version, l.good.mono hk, ?_, ?_, ?_, l.keeps.trans hk⟩, hk⟩
  · intro i c hc ho
    obtain ⟨c0, h0, ⟨-, rfl⟩ | rfl⟩ := hcase i c hc
    · rw [h1]
      exact l.own i c0 h0 (by rw [← h2]; exact ho)
    · exact l.own i c h0 ho
  · intro i c hc
    obtain ⟨c0, h0, ⟨rfl, rfl⟩ | rfl⟩ := hcase i c hc
    · obtain ⟨cw, hcw, how⟩ := hid
      rw [h0] at hcw
      cases hcw
      have := l.cells i c0 h0
      refine ⟨?_, ?_⟩
      · intro e he
        rw [h3] at he
        rw [h2]
        exact (this.element e he).mono hk
      · intro a ha
        rw [h2]
        rcases h4 c0 a ha with h | h
        · exact ⟨(this.attributes a h).1.mono hk, (this.attributes a h).2⟩
        · rw [how]
          exact ⟨h.1.mono hk, h.2⟩
    · exact (l.cells i c h0).mono hk
  · intro i c hc
    obtain ⟨c0, h0, ⟨-, rfl⟩ | rfl⟩ := hcase i c hc
    · rw [h1, h2]
      exact l.old i c0 h0
    · exact l.old i c h0

/-- The state while the version `w` is loaded, where `h0`, `g0` and `m0` were the memories and the
resources of the version at the start. -/
structure LocalReader (h0 : Heap) (g0 : Graph) (m0 : GoMap ResId) (w : VersionId) (r : Reader) : Prop where
  table : LocalTypes h0 w r.table
  keep : ∀ (id : Nat), id < g0.length → (∀ k, m0.find k ≠ some id) → r.graph[id]? = g0[id]?
  grow : ∀ k id, r.resources.find k = some id → m0.find k = some id ∨ g0.length ≤ id
  size : g0.length ≤ r.graph.length
  resources : ∀ k id res, r.resources.find k = some id → r.graph[id]? = some res →
    ResourceLocal r.table.heap w res

variable {h0 : Heap} {g0 : Graph} {m0 : GoMap ResId} {w : VersionId}

theorem ResourceLocal.mono {h h' : Heap} {w : VersionId} {res : Resource} (l : ResourceLocal h w res)
    (k : KeepsNames h h') : ResourceLocal h' w res := fun m hm p hp => (l m hm p hp).mono k

/-- Only the types change. -/
theorem LocalReader.types {r : Reader} (l : LocalReader h0 g0 m0 w r) {r' : Reader}
    (h1 : r'.graph = r.graph) (h2 : r'.resources = r.resources) (h3 : LocalTypes h0 w r'.table)
    (h4 : KeepsNames r.table.heap r'.table.heap) : LocalReader h0 g0 m0 w r' :=
  ⟨h3, by rw [h1]; exact l.keep, by rw [h2]; exact l.grow, by rw [h1]; exact l.size,
    by rw [h1, h2]; exact fun k id res hf hg => (l.resources k id res hf hg).mono h4⟩

/-- A result that is a type. -/
def TypeLocal (h0 : Heap) (g0 : Graph) (m0 : GoMap ResId) (w : VersionId) (r : Reader)
    (p : Reader × TypeId) : Prop :=
  LocalReader h0 g0 m0 w p.1 ∧ KeepsNames r.table.heap p.1.table.heap ∧
    Owned p.1.table.heap (some w) p.2

theorem findOrCreateType_local {r : Reader} (l : LocalReader h0 g0 m0 w r) (n : Name) :
    TypeLocal h0 g0 m0 w r (r.findOrCreateType n) := by
  unfold Reader.findOrCreateType
  split
  · rename_i hf
    exact ⟨l, .refl _, l.table.found hf⟩
  · rename_i hf
    obtain ⟨a, b, c⟩ := l.table.newType { name := n } hf rfl (fun _ h => nomatch h)
    exact ⟨l.types rfl rfl a b, b, c⟩

theorem findOrCreateWith_local {r : Reader} (l : LocalReader h0 g0 m0 w r) (c : TypeCell)
    (ha : c.attributes = []) (he : ∀ e, c.element = some e → Owned r.table.heap (some w) e) :
    TypeLocal h0 g0 m0 w r (r.findOrCreateWith c) := by
  unfold Reader.findOrCreateWith
  split
  · rename_i hf
    exact ⟨l, .refl _, l.table.found hf⟩
  · rename_i hf
    obtain ⟨a, b, c⟩ := l.table.newType c hf ha he
    exact ⟨l.types rfl rfl a b, b, c⟩

theorem typeRef_local {r : Reader} (l : LocalReader h0 g0 m0 w r) (e : TypeExpr) :
    TypeLocal h0 g0 m0 w r (r.typeRef e) := by
  cases e with
  | plain n => exact findOrCreateType_local l _
  | list n =>
    obtain ⟨a, b, c⟩ := findOrCreateType_local l (identifier n)
    obtain ⟨a', b', c'⟩ := findOrCreateWith_local a
      { name := Name.cat [identifier n, Nom.list], kind := .list,
        element := some (r.findOrCreateType (identifier n)).2 } rfl
      (fun e h => by cases h; exact c)
    exact ⟨a', b.trans b', c'⟩
  | map i n =>
    obtain ⟨a, b, -⟩ := findOrCreateType_local l (identifier i)
    obtain ⟨a', b', c'⟩ := findOrCreateType_local a (identifier n)
    obtain ⟨a'', b'', c''⟩ := findOrCreateWith_local a'
      { name := Name.cat [identifier i, identifier n, Nom.map], kind := .map,
        index := some (r.findOrCreateType (identifier i)).2,
        element := some ((r.findOrCreateType (identifier i)).1.findOrCreateType (identifier n)).2 } rfl
      (fun e h => by cases h; exact c')
    exact ⟨a'', (b.trans b').trans b'', c''⟩

theorem forChildren_local {α β : Type} (f : Reader → α → Reader × β) (Q : Heap → β → Prop)
    (hq : ∀ h h' x, KeepsNames h h' → Q h x → Q h' x)
    (hf : ∀ r x, LocalReader h0 g0 m0 w r → LocalReader h0 g0 m0 w (f r x).1 ∧
      KeepsNames r.table.heap (f r x).1.table.heap ∧ Q (f r x).1.table.heap (f r x).2)
    (xs : List α) (r : Reader) (l : LocalReader h0 g0 m0 w r) :
    LocalReader h0 g0 m0 w (Reader.forChildren f r xs).1 ∧
      KeepsNames r.table.heap (Reader.forChildren f r xs).1.table.heap ∧
      ∀ y ∈ (Reader.forChildren f r xs).2, Q (Reader.forChildren f r xs).1.table.heap y := by
  induction xs generalizing r with
  | nil => exact ⟨l, .refl _, fun _ h => (nomatch h)⟩
  | cons x xs ih =>
    obtain ⟨h1, h2, h3⟩ := hf r x l
    obtain ⟨h4, h5, h6⟩ := ih _ h1
    refine ⟨h4, h2.trans h5, ?_⟩
    intro y hy
    rcases List.mem_cons.mp hy with rfl | hy
    · exact hq _ _ _ h5 h3
    · exact h6 y hy

theorem declareType_local {r : Reader} (l : LocalReader h0 g0 m0 w r) (kind : Kind) (n : Name) :
    LocalReader h0 g0 m0 w (r.declareType kind n).1 ∧
      KeepsNames r.table.heap (r.declareType kind n).1.table.heap ∧
      ∀ id, (r.declareType kind n).2 = some id →
        Owned (r.declareType kind n).1.table.heap (some w) id := by
  unfold Reader.declareType
  split
  · rename_i hf
    obtain ⟨a, b, c⟩ := l.table.newType { name := n, kind := kind } hf rfl (fun _ h => nomatch h)
    exact ⟨l.types rfl rfl a b, b, fun id h => by cases h; exact c⟩
  · rename_i id hf
    split
    · obtain ⟨a, b⟩ := l.table.update id (l.table.found hf) (fun c => { c with kind := kind })
        (fun _ => rfl) (fun _ => rfl) (fun _ => rfl) (fun _ _ h => .inl h)
      exact ⟨l.types rfl rfl a b, b, fun id h => by cases h; exact (l.table.found hf).mono b⟩
    · exact ⟨l.types rfl rfl l.table (.refl _), .refl _, fun _ h => (nomatch h)⟩

theorem completeType_local {r : Reader} (l : LocalReader h0 g0 m0 w r) (id : TypeId)
    (hid : Owned r.table.heap (some w) id) (doc : Text) (as : List Annotation) (vs : List EnumValue)
    (ats : List Attribute) (ha : ∀ a ∈ ats, Owned r.table.heap (some w) a.typ ∧ a.linkOwner = none) :
    LocalReader h0 g0 m0 w (r.completeType id doc as vs ats) := by
  obtain ⟨a, b⟩ := l.table.update id hid (fun c =>
    { c with
      doc := if doc ≠ [] then doc else c.doc
      annotations := c.annotations ++ as
      values := (vs.map some).foldl (addMember EnumValue.name) c.values
      attributes := (ats.map some).foldl (addMember Attribute.name) c.attributes })
    (fun _ => rfl) (fun _ => rfl) (fun _ => rfl) (fun c a h => by
      rcases mem_addMembers _ _ _ _ h with h | h
      · exact .inl h
      · exact .inr (ha a h))
  exact l.types rfl rfl a b

theorem newResource_local {r : Reader} (l : LocalReader h0 g0 m0 w r) (n : Name) :
    LocalReader h0 g0 m0 w (r.newResource n).1 := by
  unfold Reader.newResource
  refine ⟨l.table, ?_, ?_, ?_, ?_⟩
  · intro id hi hk
    dsimp only
    rw [List.getElem?_append_left (Nat.lt_of_lt_of_le hi l.size)]
    exact l.keep id hi hk
  · intro k id hf
    dsimp only at hf
    rw [GoMap.find_insert] at hf
    split at hf
    · cases hf; exact .inr l.size
    · exact l.grow k id hf
  · exact Nat.le_trans l.size (by simp)
  · intro k id res hf hg
    dsimp only at hf hg ⊢
    rw [GoMap.find_insert] at hf
    split at hf
    · cases hf
      rw [List.getElem?_append_right (Nat.le_refl _), Nat.sub_self] at hg
      cases hg
      intro m hm
      cases hm
    · by_cases hi : id < r.graph.length
      · rw [List.getElem?_append_left hi] at hg
        exact l.resources k id res hf hg
      · have hl := (List.getElem?_eq_some_iff.mp hg).1
        rw [List.length_append] at hl
        have he : id = r.graph.length :=
          Nat.le_antisymm (Nat.le_of_lt_succ hl) (Nat.le_of_not_lt hi)
        subst he
        rw [List.getElem?_append_right (Nat.le_refl _), Nat.sub_self] at hg
        cases hg
        intro m hm
        cases hm

theorem resourceRef_local {r : Reader} (l : LocalReader h0 g0 m0 w r) (n : Text) :
    LocalReader h0 g0 m0 w (r.resourceRef n).1 ∧ (r.resourceRef n).1.table = r.table := by
  unfold Reader.resourceRef
  split
  · exact ⟨l, rfl⟩
  · have := newResource_local l (identifier n)
    exact ⟨⟨this.table, this.keep, this.grow, this.size, this.resources⟩, rfl⟩

/-- What is known about a member of a resource. -/
def MemberLocal (w : VersionId) (h : Heap) : ResourceResult → Prop
  | .method m => ∀ p ∈ m.parameters, Owned h (some w) p.typ.id
  | .locator _ => True

theorem setDirections_typ (p : Parameter) (ds : List Direction) : (setDirections p ds).typ = p.typ := by
  unfold setDirections
  split
  · have : ∀ (ds : List Direction) (p : Parameter),
        (ds.foldl (fun (p : Parameter) d => match d with
          | .input => { p with isIn := true }
          | .output => { p with isOut := true }) p).typ = p.typ := by
      intro ds
      induction ds with
      | nil => intro p; rfl
      | cons d ds ih =>
        intro p
        rw [List.foldl_cons, ih]
        cases d <;> rfl
    exact this ds p
  · rfl

theorem resourceMember_local (r : Reader) (x : ResourceMember) (l : LocalReader h0 g0 m0 w r) :
    LocalReader h0 g0 m0 w (r.resourceMember x).1 ∧
      KeepsNames r.table.heap (r.resourceMember x).1.table.heap ∧
      MemberLocal w (r.resourceMember x).1.table.heap (r.resourceMember x).2 := by
  cases x with
  | method m =>
    obtain ⟨a, b, c⟩ := forChildren_local methodParameter
      (fun h p => Owned h (some w) p.typ.id) (fun _ _ _ k q => q.mono k)
      (fun r x l => by
        obtain ⟨a, b, c⟩ := typeRef_local l x.ref
        refine ⟨a, b, ?_⟩
        unfold Reader.methodParameter
        dsimp only
        rw [setDirections_typ]
        exact c) m.parameters r l
    refine ⟨a, b, ?_⟩
    intro p hp
    rcases mem_addMembers _ _ _ _ hp with h | h
    · cases h
    · exact c p h
  | locator d =>
    obtain ⟨a, b, -⟩ := forChildren_local locatorMember (fun _ _ => True) (fun _ _ _ _ _ => trivial)
      (fun r x l => by
        cases x with
        | target n =>
          obtain ⟨a, b⟩ := resourceRef_local l n
          refine ⟨a, ?_, trivial⟩
          unfold Reader.locatorMember
          dsimp only
          rw [b]
          exact .refl _
        | variableName n => exact ⟨l, .refl _, trivial⟩) d.members r l
    unfold Reader.resourceMember Reader.locatorDecl
    dsimp only
    generalize Reader.forChildren locatorMember r d.members = p at a b ⊢
    obtain ⟨r1, ms⟩ := p
    dsimp only at a b ⊢
    split
    · exact ⟨⟨a.table, a.keep, a.grow, a.size, a.resources⟩, b, trivial⟩
    · exact ⟨a, b, trivial⟩

theorem decl_local {r : Reader} (l : LocalReader h0 g0 m0 w r) (d : Decl) :
    LocalReader h0 g0 m0 w (r.decl d) := by
  have hreport : ∀ (r : Reader) p, LocalReader h0 g0 m0 w r → LocalReader h0 g0 m0 w (r.report p) :=
    fun _ _ l => ⟨l.table, l.keep, l.grow, l.size, l.resources⟩
  have hstruct : ∀ kind (name doc : Text) as ms,
      LocalReader h0 g0 m0 w (r.structDecl kind name doc as ms) := by
    intro kind name doc as ms
    unfold Reader.structDecl
    obtain ⟨a, b, c⟩ := forChildren_local Reader.structMember
      (fun h x => Owned h (some w) x.typ ∧ x.linkOwner = none) (fun _ _ _ k q => ⟨q.1.mono k, q.2⟩)
      (fun r x l => have h := typeRef_local l x.ref; ⟨h.1, h.2.1, h.2.2, rfl⟩) ms r l
    dsimp only
    generalize Reader.forChildren Reader.structMember r ms = p at a b c ⊢
    obtain ⟨r1, ats⟩ := p
    obtain ⟨a', b', c'⟩ := declareType_local a kind (identifier name)
    dsimp only at c ⊢
    split
    · rename_i he; rw [he] at a'; exact a'
    · rename_i he; rw [he] at a' b' c'
      exact completeType_local a' _ (c' _ rfl) _ _ _ _ fun a ha => ⟨(c a ha).1.mono b', (c a ha).2⟩
  cases d with
  | enum name doc as vs =>
    unfold Reader.decl Reader.enumDecl
    obtain ⟨a', b', c'⟩ := declareType_local l .enum (identifier name)
    dsimp only
    split
    · rename_i he; rw [he] at a'; exact a'
    · rename_i he; rw [he] at a' b' c'
      exact completeType_local a' _ (c' _ rfl) _ _ _ _ fun a ha => nomatch ha
  | «class» name doc as ms => exact hstruct _ _ _ _ _
  | struct name doc as ms => exact hstruct _ _ _ _ _
  | resource name doc as ms =>
    unfold Reader.decl Reader.resourceDecl
    obtain ⟨a, b, c⟩ := forChildren_local Reader.resourceMember (fun h x => MemberLocal w h x)
      (fun _ _ x k q => by
        cases x with
        | method m => exact fun p hp => (q p hp).mono k
        | locator l => trivial) resourceMember_local ms r l
    dsimp only
    generalize Reader.forChildren Reader.resourceMember r ms = p at a b c ⊢
    obtain ⟨r1, members⟩ := p
    dsimp only at a c ⊢
    have hd : LocalReader h0 g0 m0 w (r1.declareResource (identifier name)).1 ∧
        (r1.declareResource (identifier name)).1.table = r1.table ∧
        ∀ id, (r1.declareResource (identifier name)).2 = some id →
          (r1.declareResource (identifier name)).1.resources.find (identifier name).toText = some id := by
      unfold Reader.declareResource
      split
      · refine ⟨newResource_local a _, rfl, fun id h => ?_⟩
        cases h
        unfold Reader.newResource
        dsimp only
        rw [GoMap.find_insert, if_pos rfl]
      · rename_i hf
        split
        · exact ⟨⟨a.table, a.keep, a.grow, a.size, a.resources⟩, rfl, fun id h => by cases h; exact hf⟩
        · exact ⟨hreport _ _ a, rfl, fun _ h => nomatch h⟩
    split
    · rename_i he; rw [he] at hd; exact hd.1
    · rename_i r2 id he
      rw [he] at hd
      obtain ⟨l2, ht, hf⟩ := hd
      have hf := hf id rfl
      dsimp only at l2 ht hf
      rw [← ht] at c
      refine ⟨l2.table, ?_, l2.grow, ?_, ?_⟩
      · intro i hi hk
        dsimp only
        have hne : ¬ id = i := by
          rintro rfl
          rcases l2.grow _ _ hf with h | h
          · exact hk _ h
          · exact absurd hi (Nat.not_lt.mpr h)
        rw [List.getElem?_modify]
        simp only [if_neg hne]
        simpa using l2.keep i hi hk
      · dsimp only
        rw [List.length_modify]
        exact l2.size
      · intro k i res hfi hg
        dsimp only at hfi hg ⊢
        rw [List.getElem?_modify] at hg
        cases ho : r2.graph[i]? with
        | none => rw [ho] at hg; simp at hg
        | some res0 =>
          rw [ho] at hg
          simp only [Option.map_eq_map, Option.map_some, Option.some.injEq] at hg
          have hl := l2.resources k i res0 hfi ho
          split at hg
          · subst hg
            intro m hm p hp
            rw [addMembers_eq] at hm
            rcases mem_addMembers _ _ _ _ hm with h | h
            · exact hl m h p hp
            · have : ResourceResult.method m ∈ members := by
                unfold methodResults at h
                obtain ⟨x, hx, he⟩ := List.mem_filterMap.mp h
                cases x with
                | method m => cases he; exact hx
                | locator l => cases he
              exact c _ this p hp
          · subst hg
            exact hl
  | error name doc as cs =>
    unfold Reader.decl Reader.errorDecl
    obtain ⟨a, -, -⟩ := forChildren_local errorCode (fun _ _ => True) (fun _ _ _ _ _ => trivial)
      (fun r x l => by
        unfold Reader.errorCode
        split
        · exact ⟨l, .refl _, trivial⟩
        · exact ⟨hreport _ _ l, .refl _, trivial⟩) cs r l
    dsimp only
    generalize Reader.forChildren errorCode r cs = p at a ⊢
    obtain ⟨r1, codes⟩ := p
    dsimp only at a ⊢
    split
    · exact ⟨a.table, a.keep, a.grow, a.size, a.resources⟩
    · exact hreport _ _ a

theorem loadFiles_local (fs : List SourceFile) {r : Reader} (l : LocalReader h0 g0 m0 w r) :
    LocalReader h0 g0 m0 w (fs.foldl loadFile r) := by
  have hreport : ∀ (r : Reader) p, LocalReader h0 g0 m0 w r → LocalReader h0 g0 m0 w (r.report p) :=
    fun _ _ l => ⟨l.table, l.keep, l.grow, l.size, l.resources⟩
  have h1 : ∀ (ps : List ReadProblem) (r : Reader), LocalReader h0 g0 m0 w r →
      LocalReader h0 g0 m0 w (ps.foldl Reader.report r) := by
    intro ps
    induction ps with
    | nil => intro r g; exact g
    | cons p ps ih => intro r g; exact ih _ (hreport _ _ g)
  have h2 : ∀ (ds : List Decl) (r : Reader), LocalReader h0 g0 m0 w r →
      LocalReader h0 g0 m0 w (r.decls ds) := by
    intro ds
    induction ds with
    | nil => intro r g; exact g
    | cons d ds ih => intro r g; exact ih _ (decl_local g d)
  induction fs generalizing r with
  | nil => exact l
  | cons f fs ih =>
    apply ih
    unfold loadFile
    split
    · exact l
    · split
      · exact hreport _ _ l
      · exact h2 _ _ (h1 _ _ l)

/-! ## Versions -/

theorem addBuiltin_local {t : TypeTable} (l : LocalTypes h0 w t) (kind : Kind) (n : Name)
    (h1 : t.types.find n.toText = none) (h2 : t.types.find (Name.cat [n, Nom.list]).toText = none)
    (h3 : n.toText ≠ (Name.cat [n, Nom.list]).toText) :
    LocalTypes h0 w (t.addBuiltin kind n) ∧
      ∀ k, k ≠ n.toText → k ≠ (Name.cat [n, Nom.list]).toText →
        (t.addBuiltin kind n).types.find k = t.types.find k := by
  unfold TypeTable.addBuiltin
  dsimp only
  obtain ⟨a1, -, a3⟩ := l.newType { name := n, kind := kind } h1 rfl (fun _ h => nomatch h)
  have hf : ∀ k, (t.newType { name := n, kind := kind }).1.types.find k =
      if n.toText = k then some t.heap.length else t.types.find k := by
    intro k
    rw [TypeTable.newType_eq]
    exact GoMap.find_insert ..
  obtain ⟨b1, -, -⟩ := a1.newType
    { name := Name.cat [n, Nom.list], kind := .list
      element := some (t.newType { name := n, kind := kind }).2 }
    (by dsimp only; rw [hf, if_neg h3]; exact h2) rfl (fun e h => by cases h; exact a3)
  refine ⟨b1, fun k hk hk' => ?_⟩
  rw [TypeTable.newType_eq]
  dsimp only
  rw [GoMap.find_insert, if_neg (fun e => hk' e.symm), hf, if_neg (fun e => hk e.symm)]

theorem newVersion_local {h : Heap} (hc : ∀ (id : Nat) c, h[id]? = some c → CellLocal h c)
    (ho : ∀ (id : Nat) c, h[id]? = some c → c.owner ≠ some w) :
    LocalTypes h w (TypeTable.newVersion h w) := by
  have h0 : LocalTypes h w { version := w, heap := h, types := [] } :=
    ⟨rfl, ⟨List.nodup_nil, fun _ _ h => (nomatch h)⟩, fun id c h1 h2 => absurd h2 (ho id c h1), hc,
      fun id c h => .inr ⟨c, h, rfl, rfl⟩, .refl _⟩
  unfold TypeTable.newVersion
  obtain ⟨a1, f1⟩ := addBuiltin_local h0 .scalar Nom.boolean rfl rfl (by decide)
  obtain ⟨a2, f2⟩ := addBuiltin_local a1 .scalar Nom.integer
    (by rw [f1 _ (by decide) (by decide)]; rfl) (by rw [f1 _ (by decide) (by decide)]; rfl) (by decide)
  obtain ⟨a3, f3⟩ := addBuiltin_local a2 .scalar Nom.long
    (by rw [f2 _ (by decide) (by decide), f1 _ (by decide) (by decide)]; rfl)
    (by rw [f2 _ (by decide) (by decide), f1 _ (by decide) (by decide)]; rfl) (by decide)
  obtain ⟨a4, f4⟩ := addBuiltin_local a3 .scalar Nom.float
    (by rw [f3 _ (by decide) (by decide), f2 _ (by decide) (by decide), f1 _ (by decide) (by decide)]; rfl)
    (by rw [f3 _ (by decide) (by decide), f2 _ (by decide) (by decide), f1 _ (by decide) (by decide)]; rfl)
    (by decide)
  obtain ⟨a5, f5⟩ := addBuiltin_local a4 .scalar Nom.string
    (by rw [f4 _ (by decide) (by decide), f3 _ (by decide) (by decide), f2 _ (by decide) (by decide),
      f1 _ (by decide) (by decide)]; rfl)
    (by rw [f4 _ (by decide) (by decide), f3 _ (by decide) (by decide), f2 _ (by decide) (by decide),
      f1 _ (by decide) (by decide)]; rfl) (by decide)
  obtain ⟨a6, f6⟩ := addBuiltin_local a5 .scalar Nom.date
    (by rw [f5 _ (by decide) (by decide), f4 _ (by decide) (by decide), f3 _ (by decide) (by decide),
      f2 _ (by decide) (by decide), f1 _ (by decide) (by decide)]; rfl)
    (by rw [f5 _ (by decide) (by decide), f4 _ (by decide) (by decide), f3 _ (by decide) (by decide),
      f2 _ (by decide) (by decide), f1 _ (by decide) (by decide)]; rfl) (by decide)
  exact (addBuiltin_local a6 .interface Nom.interface
    (by rw [f6 _ (by decide) (by decide), f5 _ (by decide) (by decide), f4 _ (by decide) (by decide),
      f3 _ (by decide) (by decide), f2 _ (by decide) (by decide), f1 _ (by decide) (by decide)]; rfl)
    (by rw [f6 _ (by decide) (by decide), f5 _ (by decide) (by decide), f4 _ (by decide) (by decide),
      f3 _ (by decide) (by decide), f2 _ (by decide) (by decide), f1 _ (by decide) (by decide)]; rfl)
    (by decide)).1

theorem addListTypes_local {t : TypeTable} (l : LocalTypes h0 w t) : LocalTypes h0 w (addListTypes t) := by
  unfold addListTypes
  have hids : ∀ id ∈ listing (typeName t.heap) t.types, Owned t.heap (some w) id := by
    intro id hid
    have : id ∈ t.types.values := by
      unfold listing at hid
      exact (sortByName_spec _ _).1.mem_iff.mp hid
    obtain ⟨⟨k, id'⟩, hm, rfl⟩ := List.mem_map.mp this
    exact l.found (GoMap.find_of_mem l.good.nodup hm)
  generalize listing (typeName t.heap) t.types = ids at hids
  induction ids generalizing t with
  | nil => exact l
  | cons id ids ih =>
    rw [List.foldl_cons]
    have hid := hids id List.mem_cons_self
    have hrest : ∀ id ∈ ids, Owned t.heap (some w) id := fun i hi => hids i (List.mem_cons_of_mem _ hi)
    unfold addListType
    split
    · exact ih l hrest
    · rename_i c hc
      split
      · exact ih l hrest
      · dsimp only
        split
        · exact ih l hrest
        · rename_i hf
          obtain ⟨a, b, -⟩ := l.newType
            { name := Name.cat [c.name, Nom.list], kind := .list, element := some id } hf rfl
            (fun e h => by cases h; exact hid)
          exact ih a fun i hi => (hrest i hi).mono b

/-! ## The state of `Read` -/

/-- The types and the resources of each version are apart from those of the other versions. -/
structure SessionLocal (s : Session) : Prop where
  owners : ∀ (id : Nat) c, s.heap[id]? = some c → ∃ u, c.owner = some u ∧ u < s.created
  cells : ∀ (id : Nat) c, s.heap[id]? = some c → CellLocal s.heap c
  own : ∀ a b v, s.version a b = some v → ∀ (id : Nat) c, s.heap[id]? = some c →
    c.owner = some v.id → v.types.find c.name.toText = some id
  resources : ∀ a b v, s.version a b = some v → ∀ k id res, v.resources.find k = some id →
    s.graph[id]? = some res → ResourceLocal s.heap v.id res
  apart : ∀ a b v a' b' v', s.version a b = some v → s.version a' b' = some v' →
    ∀ k k' id, v.resources.find k = some id → v'.resources.find k' = some id → v.id = v'.id

theorem store_cases {s : Session} {k : Text} {v : LoadedVersion} {a b : Text} {x : LoadedVersion}
    (h : (s.store k v).version a b = some x) :
    (a = k ∧ b = v.name.toText ∧ x = v) ∨ (s.version a b = some x ∧ ¬ (a = k ∧ b = v.name.toText)) := by
  cases hs : s.services.find k with
  | none =>
    have : s.store k v = s := by unfold Session.store; rw [hs]
    rw [this] at h
    refine .inr ⟨h, fun he => ?_⟩
    rw [he.1] at h
    unfold Session.version at h
    rw [hs] at h
    cases h
  | some l =>
    rw [version_store s k v (by rw [hs]; rfl)] at h
    split at h
    · rename_i e
      cases h
      exact .inl ⟨e.1.symm, e.2.symm, rfl⟩
    · rename_i e
      exact .inr ⟨h, fun he => e ⟨he.1.symm, he.2.symm⟩⟩

theorem SessionOk.version {s : Session} (g : SessionOk s) {a b : Text} {v : LoadedVersion}
    (h : s.version a b = some v) : VersionOk s.heap.length s.graph.length v := by
  unfold Session.version at h
  obtain ⟨l, hl, hv⟩ := Option.bind_eq_some_iff.mp h
  exact g.versions a l b v hl hv

theorem version_named {s : Session} (g : ModelGood s) {a b : Text} {v : LoadedVersion}
    (h : s.version a b = some v) :
    v.name.toText = b ∧ v.id < s.created ∧ TypesGood s.heap v.id v.types := by
  unfold Session.version at h
  obtain ⟨l, hl, hv⟩ := Option.bind_eq_some_iff.mp h
  exact (g.named a l hl).2.named b v hv

theorem version_same {s : Session} (g : ModelGood s) {a b a' b' : Text} {v v' : LoadedVersion}
    (h : s.version a b = some v) (h' : s.version a' b' = some v') (e : v.id = v'.id) :
    a = a' ∧ b = b' := by
  have h1 := (version_named g h).1
  have h2 := (version_named g h').1
  unfold Session.version at h h'
  obtain ⟨l, hl, hv⟩ := Option.bind_eq_some_iff.mp h
  obtain ⟨l', hl', hv'⟩ := Option.bind_eq_some_iff.mp h'
  have := g.distinct a l v a' l' v' hl (by rw [h1]; exact hv) hl' (by rw [h2]; exact hv') e
  exact ⟨this.1, by rw [← h1, ← h2]; exact this.2⟩

/-- A version is stored after it was loaded. -/
theorem SessionLocal.put {s : Session} (g : SessionLocal s) (ok : SessionOk s) (k : Text)
    (v : LoadedVersion) (r : Reader) {m0 : GoMap ResId} (l : LocalReader s.heap s.graph m0 v.id r)
    (h1 : ∀ a b x, s.version a b = some x → x.id = v.id → a = k ∧ b = v.name.toText)
    (h2 : ∀ a b x, s.version a b = some x → x.id ≠ v.id → ∀ key id, x.resources.find key = some id →
      ∀ key', m0.find key' ≠ some id)
    (hvt : v.types = r.table.types) (hvr : v.resources = r.resources)
    (s' : Session) (hs : s'.services = s.services) (hh : s'.heap = r.table.heap)
    (hg : s'.graph = r.graph) (hc : s.created ≤ s'.created) (hid : v.id < s'.created) :
    SessionLocal (s'.store k v) := by
  have hver : ∀ a b, s'.version a b = s.version a b := by
    intro a b
    unfold Session.version
    rw [hs]
  have hheap : (s'.store k v).heap = r.table.heap := by rw [store_heap, hh]
  have hgraph : (s'.store k v).graph = r.graph := by rw [store_graph, hg]
  have hcreated : (s'.store k v).created = s'.created := store_created ..
  have hcase : ∀ a b x, (s'.store k v).version a b = some x →
      (a = k ∧ b = v.name.toText ∧ x = v) ∨ (s.version a b = some x ∧ x.id ≠ v.id) := by
    intro a b x hx
    rcases store_cases hx with h | ⟨h, hn⟩
    · exact .inl h
    · rw [hver] at h
      exact .inr ⟨h, fun e => hn (h1 a b x h e)⟩
  have hother : ∀ a b x, s.version a b = some x → x.id ≠ v.id → ∀ key id,
      x.resources.find key = some id → ∀ key', r.resources.find key' ≠ some id := by
    intro a b x hx hne key id hf key' hf'
    rcases l.grow key' id hf' with h | h
    · exact h2 a b x hx hne key id hf key' h
    · exact absurd ((ok.version hx).resources key id hf) (Nat.not_lt.mpr h)
  refine ⟨?_, ?_, ?_, ?_, ?_⟩
  · rw [hheap, hcreated]
    intro id c hcell
    rcases l.table.old id c hcell with h | ⟨c0, h, -, h'⟩
    · exact ⟨_, h, hid⟩
    · obtain ⟨u, hu, hlt⟩ := g.owners id c0 h
      exact ⟨u, h' ▸ hu, Nat.lt_of_lt_of_le hlt hc⟩
  · rw [hheap]
    exact l.table.cells
  · rw [hheap]
    intro a b x hx id c hcell ho
    rcases hcase a b x hx with ⟨-, -, rfl⟩ | ⟨hx, hne⟩
    · rw [hvt]
      exact l.table.own id c hcell ho
    · rcases l.table.old id c hcell with h | ⟨c0, h, hn, h'⟩
      · rw [ho] at h
        exact absurd (Option.some.inj h) hne
      · rw [← hn]
        exact g.own a b x hx id c0 h (h'.trans ho)
  · rw [hheap, hgraph]
    intro a b x hx key id res hf hr
    rcases hcase a b x hx with ⟨-, -, rfl⟩ | ⟨hx, hne⟩
    · rw [hvr] at hf
      exact l.resources key id res hf hr
    · have hlt := (ok.version hx).resources key id hf
      rw [l.keep id hlt (h2 a b x hx hne key id hf)] at hr
      exact (g.resources a b x hx key id res hf hr).mono l.table.keeps
  · intro a b x a' b' x' hx hx' key key' id hf hf'
    rcases hcase a b x hx with ⟨-, -, e⟩ | ⟨hy, hne⟩
    · rcases hcase a' b' x' hx' with ⟨-, -, e'⟩ | ⟨hy', hne'⟩
      · rw [e, e']
      · rw [e, hvr] at hf
        exact absurd hf (hother a' b' x' hy' hne' key' id hf' key)
    · rcases hcase a' b' x' hx' with ⟨-, -, e'⟩ | ⟨hy', hne'⟩
      · rw [e', hvr] at hf'
        exact absurd hf' (hother a b x hy hne key id hf key')
      · exact g.apart a b x a' b' x' hy hy' key key' id hf hf'

/-- The state before the files of a version are loaded. -/
theorem SessionLocal.enter {s : Session} (g : SessionLocal s) (m : ModelGood s) {a b : Text}
    {v : LoadedVersion} (hv : s.version a b = some v) :
    LocalReader s.heap s.graph v.resources v.id (s.enter v) :=
  ⟨⟨rfl, (version_named m hv).2.2, g.own a b v hv, g.cells, fun _ c h => .inr ⟨c, h, rfl, rfl⟩, .refl _⟩,
    fun _ _ _ => rfl, fun _ _ h => .inl h, Nat.le_refl _, g.resources a b v hv⟩

theorem findOrCreateVersion_local {s : Session} (g : SessionLocal s) (m : ModelGood s) (ok : SessionOk s)
    (k : Text) (n : Name) : SessionLocal (s.findOrCreateVersion k n).1 := by
  unfold Session.findOrCreateVersion
  split
  · exact g
  · have hl := newVersion_local (w := s.created) (h := s.heap) g.cells (fun id c h he => by
      obtain ⟨u, hu, hlt⟩ := g.owners id c h
      rw [hu] at he
      exact absurd (Option.some.inj he) (Nat.ne_of_lt hlt))
    dsimp only
    generalize TypeTable.newVersion s.heap s.created = t at hl ⊢
    have hne : ∀ a b x, s.version a b = some x → x.id ≠ s.created := fun a b x hx =>
      Nat.ne_of_lt (version_named m hx).2.1
    exact g.put ok k { name := n, id := s.created, types := t.types }
      { table := t, graph := s.graph, resources := [], errors := [], undefinedTypes := s.undefinedTypes,
        undefinedResources := s.undefinedResources, problems := s.problems } (m0 := [])
      ⟨hl, fun _ _ _ => rfl, fun _ _ h => (nomatch h), Nat.le_refl _, fun _ _ _ h => (nomatch h)⟩
      (fun a b x hx e => absurd e (hne a b x hx)) (fun _ _ _ _ _ _ _ _ _ h => (nomatch h)) rfl rfl
      _ rfl rfl rfl (Nat.le_succ _) (Nat.lt_succ_self _)

/-- The three invariants of the state of `Read`. -/
structure ReadInv (s : Session) : Prop where
  model : ModelGood s
  ok : SessionOk s
  locals : SessionLocal s

theorem SessionLocal.congr {s s' : Session} (g : SessionLocal s) (h1 : s'.services = s.services)
    (h2 : s'.heap = s.heap) (h3 : s'.graph = s.graph) (h4 : s'.created = s.created) :
    SessionLocal s' := by
  have hver : ∀ a b, s'.version a b = s.version a b := by
    intro a b
    unfold Session.version
    rw [h1]
  refine ⟨?_, ?_, ?_, ?_, ?_⟩
  · rw [h2, h4]; exact g.owners
  · rw [h2]; exact g.cells
  · intro a b v; rw [hver, h2]; exact g.own a b v
  · intro a b v; rw [hver, h2, h3]; exact g.resources a b v
  · intro a b v a' b' v'; rw [hver, hver]; exact g.apart a b v a' b' v'

theorem SessionLocal.report {s : Session} (g : SessionLocal s) (p : ReadProblem) :
    SessionLocal (s.report p) := g.congr rfl rfl rfl rfl

theorem store_some (s : Session) (k : Text) (v : LoadedVersion) (k' : Text)
    (h : (s.services.find k').isSome = true) : ((s.store k v).services.find k').isSome = true := by
  unfold Session.store
  split
  · exact h
  · dsimp only
    rw [GoMap.find_insert]
    split
    · rfl
    · exact h

theorem findOrCreateVersion_some (s : Session) (k : Text) (n : Name)
    (h : (s.services.find k).isSome = true) :
    ((s.findOrCreateVersion k n).1.services.find k).isSome = true := by
  unfold Session.findOrCreateVersion
  split
  · exact h
  · exact store_some _ _ _ _ h

theorem loadVersion_some (s : Session) (k : Text) (d : SourceVersion)
    (h : (s.services.find k).isSome = true) : ((loadVersion k s d).services.find k).isSome = true := by
  unfold loadVersion
  split
  · exact h
  · split
    · exact h
    · exact h
    · exact h
    · exact findOrCreateVersion_some _ _ _ h
    · exact store_some _ _ _ _ (findOrCreateVersion_some _ _ _ h)

theorem SessionLocal.putVersion {s : Session} (g : SessionLocal s) (m : ModelGood s) (ok : SessionOk s)
    {k b : Text} {v : LoadedVersion} (hv : s.version k b = some v) (v' : LoadedVersion) (r : Reader)
    (l : LocalReader s.heap s.graph v.resources v.id r) (hn : v'.name = v.name) (hi : v'.id = v.id)
    (hvt : v'.types = r.table.types) (hvr : v'.resources = r.resources)
    (s' : Session) (hs : s'.services = s.services) (hh : s'.heap = r.table.heap)
    (hg : s'.graph = r.graph) (hc : s'.created = s.created) :
    SessionLocal (s'.store k v') := by
  refine g.put ok k v' r (m0 := v.resources) (by rw [hi]; exact l) ?_ ?_ hvt hvr s' hs hh hg
    (Nat.le_of_eq hc.symm) (by rw [hi, hc]; exact (version_named m hv).2.1)
  · intro a c x hx e
    rw [hi] at e
    rw [hn, (version_named m hv).1]
    exact version_same m hx hv e
  · intro a c x hx hne key id hf key' hf'
    rw [hi] at hne
    exact hne (g.apart a c x k b v hx hv key key' id hf hf')

theorem loadVersion_local {s : Session} (i : ReadInv s) (k : Text) (d : SourceVersion)
    (hk : (s.services.find k).isSome = true) : SessionLocal (loadVersion k s d) := by
  unfold loadVersion
  split
  · exact i.locals
  · have h1 := findOrCreateVersion_local i.locals i.model i.ok k (parseUsingSeparator d.name '_')
    obtain ⟨h2, -⟩ := findOrCreateVersion_ok i.ok k (parseUsingSeparator d.name '_')
    obtain ⟨h3, -, -, -, -, -, -, h4⟩ := findOrCreateVersion_good i.model k (parseUsingSeparator d.name '_')
    split
    · exact i.locals.report _
    · exact i.locals.report _
    · exact i.locals.report _
    · exact h1.report _
    · have h4 := h4 hk
      generalize s.findOrCreateVersion k (parseUsingSeparator d.name '_') = p at h1 h2 h3 h4 ⊢
      obtain ⟨s1, v⟩ := p
      dsimp only at h1 h2 h3 h4 ⊢
      have hl := loadFiles_local d.files (h1.enter h3 h4)
      generalize d.files.foldl loadFile (s1.enter v) = r at hl
      unfold Session.leave
      refine h1.putVersion h3 h2 h4 _ r hl ?_ ?_ ?_ ?_ _ ?_ ?_ ?_ ?_
      all_goals rfl

theorem ReadInv.version {s : Session} (i : ReadInv s) (k : Text) (d : SourceVersion)
    (hk : (s.services.find k).isSome = true) : ReadInv (loadVersion k s d) :=
  ⟨loadVersion_modelGood i.model k d, loadVersion_ok i.ok k d, loadVersion_local i k d hk⟩

theorem findOrCreateService_local {s : Session} (i : ReadInv s) (n : Name) :
    SessionLocal (s.findOrCreateService n) ∧
      ((s.findOrCreateService n).services.find n.toText).isSome = true := by
  unfold Session.findOrCreateService
  split
  · rename_i hf
    exact ⟨i.locals, by rw [hf]; rfl⟩
  · rename_i hf
    have hver : ∀ a b, ({ s with services := s.services.insert n.toText { name := n } } : Session).version a b =
        s.version a b := by
      intro a b
      unfold Session.version
      dsimp only
      rw [GoMap.find_insert]
      split
      · rename_i e
        rw [← e, hf]
        rfl
      · rfl
    refine ⟨⟨i.locals.owners, i.locals.cells, ?_, ?_, ?_⟩, ?_⟩
    · intro a b v; rw [hver]; exact i.locals.own a b v
    · intro a b v; rw [hver]; exact i.locals.resources a b v
    · intro a b v a' b' v'; rw [hver, hver]; exact i.locals.apart a b v a' b' v'
    · dsimp only
      rw [GoMap.find_insert, if_pos rfl]
      rfl

theorem ReadInv.report {s : Session} (i : ReadInv s) (p : ReadProblem) : ReadInv (s.report p) :=
  ⟨i.model.congr rfl rfl (.refl _), i.ok.report p, i.locals.report p⟩

theorem ReadInv.service {s : Session} (i : ReadInv s) (d : SourceService) : ReadInv (loadService s d) := by
  refine ⟨loadService_modelGood i.model d, loadService_ok i.ok d, ?_⟩
  have hs : ∀ n, ReadInv (s.findOrCreateService n) := by
    intro n
    refine ⟨findOrCreateService_modelGood i.model n, ?_, (findOrCreateService_local i n).1⟩
    unfold Session.findOrCreateService
    split
    · exact i.ok
    · refine ⟨i.ok.graph, i.ok.heap, ?_⟩
      intro k l m v hl hv
      dsimp only at hl
      rw [GoMap.find_insert] at hl
      split at hl
      · cases hl; cases hv
      · exact i.ok.versions k l m v hl hv
  have hl : ∀ (vs : List SourceVersion) (k : Text) (s : Session), ReadInv s →
      (s.services.find k).isSome = true → ReadInv (vs.foldl (loadVersion k) s) := by
    intro vs
    induction vs with
    | nil => intro k s g _; exact g
    | cons v vs ih => intro k s g h; exact ih _ _ (g.version k v h) (loadVersion_some _ _ _ h)
  unfold loadService
  split
  · exact i.locals
  · split
    · exact i.locals.report _
    · exact i.locals.report _
    · exact i.locals.report _
    · exact (hs _).locals.report _
    · exact (hl _ _ _ (hs _) (findOrCreateService_local i _).2).locals

theorem loadModels_inv' (ms : List SourceModel) : ReadInv (ms.foldl loadModel {}) := by
  have hs : ∀ (ds : List SourceService) (s : Session), ReadInv s → ReadInv (ds.foldl loadService s) := by
    intro ds
    induction ds with
    | nil => intro s g; exact g
    | cons d ds ih => intro s g; exact ih _ (g.service d)
  have hm : ∀ (ms : List SourceModel) (s : Session), ReadInv s → ReadInv (ms.foldl loadModel s) := by
    intro ms
    induction ms with
    | nil => intro s g; exact g
    | cons m ms ih =>
      intro s g
      apply ih
      unfold loadModel
      split
      · exact hs _ _ g
      · exact g.report _
  apply hm
  exact ⟨modelGood_empty, loadModels_ok [], fun _ _ h => (nomatch h), fun _ _ h => (nomatch h),
    fun _ _ _ h => (nomatch h), fun _ _ _ h => (nomatch h), fun _ _ _ _ _ _ h => (nomatch h)⟩

theorem completeVersion_inv {s : Session} (i : ReadInv s) (k : Text) (v : LoadedVersion)
    (hv : s.version k v.name.toText = some v) : SessionLocal (completeVersion k s v) := by
  have hl := addListTypes_local (i.locals.enter i.model hv).table
  unfold completeVersion
  dsimp only
  have e := i.locals.enter i.model hv
  have hk : KeepsNames s.heap (addListTypes { version := v.id, heap := s.heap, types := v.types }).heap :=
    hl.keeps
  refine i.locals.putVersion i.model i.ok hv _
    { s.enter v with
      table := addListTypes { version := v.id, heap := s.heap, types := v.types } }
    (e.types rfl rfl hl hk) ?_ ?_ ?_ ?_ _ ?_ ?_ ?_ ?_
  all_goals rfl

theorem completePairs_local (ps : List (Text × LoadedVersion)) :
    ∀ {s : Session}, ReadInv s → (ps.map fun p => (p.1, p.2.name.toText)).Nodup →
      (∀ p ∈ ps, s.version p.1 p.2.name.toText = some p.2) →
      SessionLocal (ps.foldl (fun s p => completeVersion p.1 s p.2) s) := by
  induction ps with
  | nil => intro s i _ _; exact i.locals
  | cons p ps ih =>
    intro s i hnd hall
    rw [List.map_cons, List.nodup_cons] at hnd
    have hp := hall p List.mem_cons_self
    obtain ⟨h1, -, h3, -⟩ := completeVersion_step i.model p.1 p.2 hp
    have hok : SessionOk (completeVersion p.1 s p.2) :=
      completePairs_ok [p] i.ok fun q hq => by
        rw [List.mem_singleton.mp hq]
        exact i.ok.version hp
    refine ih ⟨h1, hok, completeVersion_inv i p.1 p.2 hp⟩ hnd.2 ?_
    intro q hq
    rw [h3]
    · exact hall q (List.mem_cons_of_mem _ hq)
    · intro he
      exact hnd.1 (List.mem_map.mpr ⟨q, hq, by rw [he.1, he.2]⟩)

theorem load_inv (inputs : List SourceModel) : ReadInv (Session.load inputs) := by
  refine ⟨load_good inputs, load_ok inputs, ?_⟩
  have h1 := loadModels_inv' inputs
  have h2 : ReadInv (inputs.foldl loadModel {}).reportUndefined :=
    ⟨undefined_good inputs,
      ⟨h1.ok.graph.mono (by simp [Session.reportUndefined]; exact fun h _ _ => h), h1.ok.heap,
        h1.ok.versions⟩, h1.locals.congr rfl rfl rfl rfl⟩
  have h3 : SessionLocal (inputs.foldl loadModel {}).reportUndefined.complete := by
    rw [complete_eq]
    exact completePairs_local _ h2 (pairsOf_nodup h2.model) fun p hp => (pairsOf_mem h2.model p.1 p.2).mp hp
  unfold Session.load
  refine ⟨h3.owners, h3.cells, h3.own, ?_, h3.apart⟩
  intro a b v hv k id res hf hr m hm p hp
  dsimp only at hr ⊢
  unfold Reader.resolveKinds at hr
  rw [List.getElem?_map] at hr
  obtain ⟨res0, h0, rfl⟩ := Option.map_eq_some_iff.mp hr
  obtain ⟨m0, hm0, rfl⟩ := List.mem_map.mp hm
  obtain ⟨p0, hp0, rfl⟩ := List.mem_map.mp hp
  have := h3.resources a b v hv k id res0 hf h0 m0 hm0 p0 hp0
  have he : (Reader.resolveParameter (inputs.foldl loadModel {}).reportUndefined.complete.heap p0).typ.id =
      p0.typ.id := by
    unfold Reader.resolveParameter
    split <;> rfl
  rw [he]
  exact this

end Verif.Whole
