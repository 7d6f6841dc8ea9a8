import Verif.Model.Whole
import Verif.Spec.Outcome
import Verif.Lemmas.SessionTypes
import Verif.Lemmas.Reader

/-! Helper lemmas about what the reader guarantees to the generators. -/

namespace Verif.Whole

open Reader Session

/-! ## The memory of resources -/

/-- The locators belong to the resources that have them, they point to resources and, if nothing has been
reported, they do point to something; parameters have directions. -/
structure GraphGood (g : Graph) (clean : Prop) : Prop where
  locators : ∀ id l, l ∈ g.locators id → l.owner = id ∧ (∀ t, l.target = some t → t < g.length) ∧
    (clean → l.target ≠ none)
  directions : ∀ res ∈ g, ∀ m ∈ res.methods, ∀ p ∈ m.parameters, p.isIn = true ∨ p.isOut = true

/-- What the callbacks preserve. -/
structure ReaderGood (n : Nat) (r : Reader) : Prop where
  graph : GraphGood r.graph (r.problems = [])
  found : ∀ k id, r.resources.find k = some id → id < r.graph.length
  nodup : r.resources.keys.Nodup
  size : n ≤ r.graph.length

/-- The state `b` comes after the state `a`. -/
structure Later (a b : Reader) : Prop where
  size : a.graph.length ≤ b.graph.length
  clean : b.problems = [] → a.problems = []

theorem Later.refl (a : Reader) : Later a a := ⟨Nat.le_refl _, id⟩

theorem Later.trans {a b c : Reader} (h : Later a b) (h' : Later b c) : Later a c :=
  ⟨Nat.le_trans h.size h'.size, fun hc => h.clean (h'.clean hc)⟩

/-- Only the types are different. -/
structure SameResources (a b : Reader) : Prop where
  graph : b.graph = a.graph
  resources : b.resources = a.resources
  problems : b.problems = a.problems

theorem SameResources.refl (a : Reader) : SameResources a a := ⟨rfl, rfl, rfl⟩

theorem SameResources.trans {a b c : Reader} (h : SameResources a b) (h' : SameResources b c) :
    SameResources a c :=
  ⟨h'.graph.trans h.graph, h'.resources.trans h.resources, h'.problems.trans h.problems⟩

theorem SameResources.later {a b : Reader} (h : SameResources a b) : Later a b :=
  ⟨by rw [h.graph]; exact Nat.le_refl _, by rw [h.problems]; exact id⟩

theorem SameResources.good {a b : Reader} (h : SameResources a b) {n : Nat} (g : ReaderGood n a) :
    ReaderGood n b :=
  ⟨by rw [h.graph, h.problems]; exact g.graph, by rw [h.resources, h.graph]; exact g.found,
    by rw [h.resources]; exact g.nodup, by rw [h.graph]; exact g.size⟩

theorem findOrCreateType_same (r : Reader) (n : Name) : SameResources r (r.findOrCreateType n).1 := by
  unfold Reader.findOrCreateType
  split <;> exact ⟨rfl, rfl, rfl⟩

theorem findOrCreateWith_same (r : Reader) (c : TypeCell) : SameResources r (r.findOrCreateWith c).1 := by
  unfold Reader.findOrCreateWith
  split <;> exact ⟨rfl, rfl, rfl⟩

theorem typeRef_same (r : Reader) (e : TypeExpr) : SameResources r (r.typeRef e).1 := by
  cases e with
  | plain n => exact findOrCreateType_same r _
  | list n => exact (findOrCreateType_same r _).trans (findOrCreateWith_same _ _)
  | map i n =>
    exact ((findOrCreateType_same r _).trans (findOrCreateType_same _ _)).trans
      (findOrCreateWith_same _ _)

theorem forChildren_same {α β : Type} (f : Reader → α → Reader × β)
    (hf : ∀ r x, SameResources r (f r x).1) (xs : List α) (r : Reader) :
    SameResources r (Reader.forChildren f r xs).1 := by
  induction xs generalizing r with
  | nil => exact .refl r
  | cons x xs ih => exact (hf r x).trans (ih _)

theorem GraphGood.mono {g : Graph} {c c' : Prop} (h : GraphGood g c) (hc : c' → c) : GraphGood g c' :=
  ⟨fun id l hl => ⟨(h.locators id l hl).1, (h.locators id l hl).2.1, fun x => (h.locators id l hl).2.2 (hc x)⟩,
    h.directions⟩

theorem report_later {r : Reader} (p : ReadProblem) : Later r (r.report p) :=
  ⟨Nat.le_refl _, by simp [Reader.report]⟩

theorem report_good {n : Nat} {r : Reader} (g : ReaderGood n r) (p : ReadProblem) :
    ReaderGood n (r.report p) :=
  ⟨g.graph.mono (by simp [Reader.report]), g.found, g.nodup, g.size⟩

theorem locators_append (g : Graph) (n : Name) (id : Nat) (l : Locator)
    (h : l ∈ Graph.locators (g ++ [{ name := n }]) id) : l ∈ g.locators id := by
  unfold Graph.locators at h ⊢
  by_cases hi : id < g.length
  · rwa [List.getElem?_append_left hi] at h
  · rw [List.getElem?_append_right (by omega)] at h
    by_cases h0 : id - g.length = 0
    · rw [h0] at h; simp at h
    · rw [List.getElem?_eq_none (by simp; omega)] at h; simp at h

theorem newResource_good {n : Nat} {r : Reader} (g : ReaderGood n r) (name : Name) :
    ReaderGood n (r.newResource name).1 ∧ Later r (r.newResource name).1 ∧
      (r.newResource name).2 < (r.newResource name).1.graph.length := by
  unfold Reader.newResource
  refine ⟨⟨⟨?_, ?_⟩, ?_, nodup_insert g.nodup _ _, ?_⟩, ⟨by simp, id⟩, by simp⟩
  · intro id l hl
    have := g.graph.locators id l (locators_append _ _ _ _ hl)
    exact ⟨this.1, fun t ht => Nat.lt_of_lt_of_le (this.2.1 t ht) (by simp), this.2.2⟩
  · intro res hres
    rcases List.mem_append.mp hres with h | h
    · exact g.graph.directions res h
    · obtain rfl := List.mem_singleton.mp h
      simp
  · intro k id hf
    dsimp only at hf
    rw [GoMap.find_insert] at hf
    split at hf
    · cases hf; simp
    · exact Nat.lt_of_lt_of_le (g.found k id hf) (by simp)
  · exact Nat.le_trans g.size (by simp)

theorem resourceRef_good {n : Nat} {r : Reader} (g : ReaderGood n r) (name : Text) :
    ReaderGood n (r.resourceRef name).1 ∧ Later r (r.resourceRef name).1 ∧
      (r.resourceRef name).2 < (r.resourceRef name).1.graph.length := by
  unfold Reader.resourceRef
  split
  · rename_i id hf
    exact ⟨g, .refl _, g.found _ _ hf⟩
  · obtain ⟨h1, h2, h3⟩ := newResource_good g (identifier name)
    exact ⟨⟨h1.graph, h1.found, h1.nodup, h1.size⟩, ⟨h2.size, h2.clean⟩, h3⟩

theorem setDirections_some (p : Parameter) (ds : List Direction) :
    (setDirections p ds).isIn = true ∨ (setDirections p ds).isOut = true := by
  unfold setDirections
  split
  · rename_i h
    have key : ∀ (ds : List Direction) (p : Parameter), p.isIn = true ∨ p.isOut = true →
        (ds.foldl (fun (p : Parameter) d => match d with
          | .input => { p with isIn := true }
          | .output => { p with isOut := true }) p).isIn = true ∨
        (ds.foldl (fun (p : Parameter) d => match d with
          | .input => { p with isIn := true }
          | .output => { p with isOut := true }) p).isOut = true := by
      intro ds
      induction ds with
      | nil => intro p h; exact h
      | cons d ds ih =>
        intro p h
        rw [List.foldl_cons]
        apply ih
        cases d <;> simp
    cases ds with
    | nil => simp at h
    | cons d ds =>
      rw [List.foldl_cons]
      apply key
      cases d <;> simp
  · exact .inr rfl

/-- What is known about a member of a resource: targets are in the memory. -/
def MemberGood (r : Reader) : ResourceResult → Prop
  | .method m => ∀ p ∈ m.parameters, p.isIn = true ∨ p.isOut = true
  | .locator l => (∀ t, l.target = some t → t < r.graph.length) ∧ (r.problems = [] → l.target ≠ none)

theorem MemberGood.later {a b : Reader} (h : Later a b) {m : ResourceResult} (g : MemberGood a m) :
    MemberGood b m := by
  cases m with
  | method m => exact g
  | locator l =>
    exact ⟨fun t ht => Nat.lt_of_lt_of_le (g.1 t ht) h.size, fun hc => g.2 (h.clean hc)⟩

/-- A walk over children where each result satisfies something that stays true. -/
theorem forChildren_good {α β : Type} (n : Nat) (f : Reader → α → Reader × β) (Q : Reader → β → Prop)
    (hq : ∀ a b x, Later a b → Q a x → Q b x)
    (hf : ∀ r x, ReaderGood n r → ReaderGood n (f r x).1 ∧ Later r (f r x).1 ∧ Q (f r x).1 (f r x).2)
    (xs : List α) (r : Reader) (g : ReaderGood n r) :
    ReaderGood n (Reader.forChildren f r xs).1 ∧ Later r (Reader.forChildren f r xs).1 ∧
      ∀ y ∈ (Reader.forChildren f r xs).2, Q (Reader.forChildren f r xs).1 y := by
  induction xs generalizing r with
  | nil => exact ⟨g, .refl r, fun _ h => nomatch h⟩
  | cons x xs ih =>
    obtain ⟨h1, h2, h3⟩ := hf r x g
    obtain ⟨h4, h5, h6⟩ := ih _ h1
    refine ⟨h4, h2.trans h5, ?_⟩
    intro y hy
    rcases List.mem_cons.mp hy with rfl | hy
    · exact hq _ _ _ h5 h3
    · exact h6 y hy

theorem setMembers_target (l : Locator) (ms : List LocatorResult) (t : ResId)
    (h : (setMembers l ms).target = some t) : l.target = some t ∨ LocatorResult.resource t ∈ ms := by
  unfold setMembers at h
  induction ms generalizing l with
  | nil => exact .inl h
  | cons m ms ih =>
    rw [List.foldl_cons] at h
    rcases ih _ h with h' | h'
    · cases m with
      | name n => exact .inl h'
      | resource id =>
        dsimp only at h'
        cases h'
        exact .inr (List.mem_cons_self ..)
    · exact .inr (List.mem_cons_of_mem _ h')

theorem resourceMember_good {n : Nat} (r : Reader) (x : ResourceMember) (g : ReaderGood n r) :
    ReaderGood n (r.resourceMember x).1 ∧ Later r (r.resourceMember x).1 ∧
      MemberGood (r.resourceMember x).1 (r.resourceMember x).2 := by
  cases x with
  | method m =>
    have hs := forChildren_same methodParameter (fun r x => typeRef_same r x.ref) m.parameters r
    refine ⟨hs.good g, hs.later, ?_⟩
    intro p hp
    rcases mem_addMembers _ _ _ _ hp with h | h
    · cases h
    · have key : ∀ (xs : List ParameterDecl) (r : Reader),
          ∀ p ∈ (Reader.forChildren methodParameter r xs).2, p.isIn = true ∨ p.isOut = true := by
        intro xs
        induction xs with
        | nil => intro r p h; cases h
        | cons x xs ih =>
          intro r p h
          rcases List.mem_cons.mp h with rfl | h
          · exact setDirections_some _ _
          · exact ih _ p h
      exact key _ _ p h
  | locator l =>
    have := forChildren_good n locatorMember
      (fun r x => ∀ t, x = .resource t → t < r.graph.length)
      (fun a b x h q t ht => Nat.lt_of_lt_of_le (q t ht) h.size)
      (fun r x g => by
        cases x with
        | target name =>
          obtain ⟨h1, h2, h3⟩ := resourceRef_good g name
          exact ⟨h1, h2, fun t ht => by cases ht; exact h3⟩
        | variableName name => exact ⟨g, .refl _, fun t ht => nomatch ht⟩) l.members r g
    unfold Reader.resourceMember Reader.locatorDecl
    dsimp only
    generalize Reader.forChildren locatorMember r l.members = p at this ⊢
    obtain ⟨r1, ms⟩ := p
    obtain ⟨h1, h2, h3⟩ := this
    dsimp only at h1 h2 h3 ⊢
    have ht : ∀ t, (setMembers ⟨identifier l.name, 0, none, false, l.doc, l.annotations⟩ ms).target = some t →
        t < r1.graph.length := by
      intro t ht
      rcases setMembers_target _ _ _ ht with h | h
      · cases h
      · exact h3 _ h t rfl
    split
    · refine ⟨report_good h1 _, h2.trans (report_later _), ht, ?_⟩
      simp [Reader.report]
    · rename_i hn
      refine ⟨h1, h2, ht, fun _ h => hn (by rw [h]; rfl)⟩

theorem addMembers_good {n : Nat} {r : Reader} (g : ReaderGood n r) (id : ResId)
    (ms : List ResourceResult) (hm : ∀ m ∈ ms, MemberGood r m) (f : Resource → Resource)
    (h1 : ∀ c, (f c).locators = c.locators) (h2 : ∀ c, (f c).methods = c.methods) :
    ReaderGood n { r with graph := r.graph.modify id fun res => addMembers id (f res) ms } := by
  refine ⟨⟨?_, ?_⟩, ?_, g.nodup, ?_⟩
  · intro id' l hl
    dsimp only at hl ⊢
    unfold Graph.locators at hl
    rw [List.getElem?_modify] at hl
    rw [List.length_modify]
    by_cases e : id = id'
    · subst e
      cases hr : r.graph[id]? with
      | none => rw [hr] at hl; simp at hl
      | some res =>
        rw [hr] at hl
        simp only [Option.map_eq_map, Option.map_some, if_pos, addMembers_eq] at hl
        rcases mem_addMembers _ _ _ _ hl with h | h
        · rw [h1] at h
          exact g.graph.locators id l (by unfold Graph.locators; rw [hr]; exact h)
        · obtain ⟨l0, hl0, rfl⟩ := List.mem_map.mp h
          have : ResourceResult.locator l0 ∈ ms := by
            revert hl0
            unfold locatorResults
            intro hl0
            obtain ⟨x, hx, he⟩ := List.mem_filterMap.mp hl0
            cases x with
            | method m => cases he
            | locator l => cases he; exact hx
          exact ⟨rfl, hm _ this⟩
    · simp only [if_neg e] at hl
      exact g.graph.locators id' l (by unfold Graph.locators; simpa using hl)
  · intro res hres m hmm p hp
    dsimp only at hres
    obtain ⟨i, hi⟩ := List.getElem?_of_mem hres
    rw [List.getElem?_modify] at hi
    cases hr : r.graph[i]? with
    | none => rw [hr] at hi; simp at hi
    | some res0 =>
      rw [hr] at hi
      simp only [Option.map_eq_map, Option.map_some] at hi
      have hmem := List.mem_of_getElem? hr
      by_cases e : id = i
      · rw [if_pos e] at hi
        simp only [Option.some.injEq] at hi
        subst hi
        rw [addMembers_eq] at hmm
        rcases mem_addMembers _ _ _ _ hmm with h | h
        · rw [h2] at h
          exact g.graph.directions res0 hmem m h p hp
        · have : ResourceResult.method m ∈ ms := by
            unfold methodResults at h
            obtain ⟨x, hx, he⟩ := List.mem_filterMap.mp h
            cases x with
            | method m => cases he; exact hx
            | locator l => cases he
          exact hm _ this p hp
      · rw [if_neg e] at hi
        simp only [Option.some.injEq] at hi
        subst hi
        exact g.graph.directions _ hmem m hmm p hp
  · intro k id' hf
    rw [List.length_modify]
    exact g.found k id' hf
  · rw [List.length_modify]
    exact g.size

theorem decl_good {n : Nat} {r : Reader} (g : ReaderGood n r) (d : Decl) :
    ReaderGood n (r.decl d) ∧ Later r (r.decl d) := by
  have hdecl : ∀ (r : Reader) (kind : Kind) (name : Name), ReaderGood n r →
      ReaderGood n (r.declareType kind name).1 ∧ Later r (r.declareType kind name).1 := by
    intro r kind name g
    unfold Reader.declareType
    split
    · exact ⟨⟨g.graph, g.found, g.nodup, g.size⟩, Nat.le_refl _, id⟩
    · split
      · exact ⟨⟨g.graph, g.found, g.nodup, g.size⟩, Nat.le_refl _, id⟩
      · exact ⟨report_good g _, report_later _⟩
  have hcomp : ∀ (r : Reader) (id : TypeId) doc as vs ats, SameResources r (r.completeType id doc as vs ats) :=
    fun _ _ _ _ _ _ => ⟨rfl, rfl, rfl⟩
  have hstruct : ∀ kind (name doc : Text) as ms,
      ReaderGood n (r.structDecl kind name doc as ms) ∧ Later r (r.structDecl kind name doc as ms) := by
    intro kind name doc as ms
    unfold Reader.structDecl
    have hs := forChildren_same Reader.structMember (fun r x => typeRef_same r x.ref) ms r
    dsimp only
    generalize Reader.forChildren Reader.structMember r ms = p at hs ⊢
    obtain ⟨r1, ats⟩ := p
    dsimp only at hs ⊢
    obtain ⟨h1, h2⟩ := hdecl r1 kind (identifier name) (hs.good g)
    split
    · rename_i he; rw [he] at h1 h2; exact ⟨h1, hs.later.trans h2⟩
    · rename_i he; rw [he] at h1 h2
      exact ⟨(hcomp _ _ _ _ _ _).good h1, (hs.later.trans h2).trans (hcomp _ _ _ _ _ _).later⟩
  cases d with
  | enum name doc as vs =>
    unfold Reader.decl Reader.enumDecl
    obtain ⟨h1, h2⟩ := hdecl r .enum (identifier name) g
    dsimp only
    split
    · rename_i he; rw [he] at h1 h2; exact ⟨h1, h2⟩
    · rename_i he; rw [he] at h1 h2
      exact ⟨(hcomp _ _ _ _ _ _).good h1, h2.trans (hcomp _ _ _ _ _ _).later⟩
  | «class» name doc as ms => exact hstruct _ _ _ _ _
  | struct name doc as ms => exact hstruct _ _ _ _ _
  | resource name doc as ms =>
    unfold Reader.decl Reader.resourceDecl
    have := forChildren_good n Reader.resourceMember MemberGood (fun a b x h q => q.later h)
      resourceMember_good ms r g
    dsimp only
    generalize Reader.forChildren Reader.resourceMember r ms = p at this ⊢
    obtain ⟨r1, members⟩ := p
    obtain ⟨h1, h2, h3⟩ := this
    dsimp only at h1 h2 h3 ⊢
    have hd : ReaderGood n (r1.declareResource (identifier name)).1 ∧
        Later r1 (r1.declareResource (identifier name)).1 := by
      unfold Reader.declareResource
      split
      · obtain ⟨a, b, -⟩ := newResource_good h1 (identifier name)
        exact ⟨a, b⟩
      · split
        · exact ⟨⟨h1.graph, h1.found, h1.nodup, h1.size⟩, Nat.le_refl _, id⟩
        · exact ⟨report_good h1 _, report_later _⟩
    split
    · rename_i he; rw [he] at hd; exact ⟨hd.1, h2.trans hd.2⟩
    · rename_i r2 id he
      rw [he] at hd
      refine ⟨?_, (h2.trans hd.2).trans ⟨by simp, fun h => h⟩⟩
      exact addMembers_good hd.1 id members (fun m hm => (h3 m hm).later hd.2)
        (fun res => { res with
          doc := if doc ≠ [] then doc else res.doc
          annotations := res.annotations ++ as }) (fun _ => rfl) (fun _ => rfl)
  | error name doc as cs =>
    unfold Reader.decl Reader.errorDecl
    have := forChildren_good n errorCode (fun _ _ => True) (fun _ _ _ _ _ => trivial)
      (fun r x g => by
        unfold Reader.errorCode
        split
        · exact ⟨g, .refl _, trivial⟩
        · exact ⟨report_good g _, report_later _, trivial⟩) cs r g
    dsimp only
    generalize Reader.forChildren errorCode r cs = p at this ⊢
    obtain ⟨r1, codes⟩ := p
    obtain ⟨h1, h2, -⟩ := this
    dsimp only at h1 h2 ⊢
    split
    · exact ⟨⟨h1.graph, h1.found, h1.nodup, h1.size⟩, h2.size, h2.clean⟩
    · exact ⟨report_good h1 _, h2.trans (report_later _)⟩

theorem loadFile_good {n : Nat} {r : Reader} (g : ReaderGood n r) (f : SourceFile) :
    ReaderGood n (loadFile r f) ∧ Later r (loadFile r f) := by
  unfold loadFile
  split
  · exact ⟨g, .refl _⟩
  · split
    · exact ⟨report_good g _, report_later _⟩
    · have h1 : ∀ (ps : List ReadProblem) (r : Reader), ReaderGood n r →
          ReaderGood n (ps.foldl Reader.report r) ∧ Later r (ps.foldl Reader.report r) := by
        intro ps
        induction ps with
        | nil => intro r g; exact ⟨g, .refl _⟩
        | cons p ps ih =>
          intro r g
          obtain ⟨a, b⟩ := ih _ (report_good g p)
          exact ⟨a, (report_later p).trans b⟩
      have h2 : ∀ (ds : List Decl) (r : Reader), ReaderGood n r →
          ReaderGood n (r.decls ds) ∧ Later r (r.decls ds) := by
        intro ds
        induction ds with
        | nil => intro r g; exact ⟨g, .refl _⟩
        | cons d ds ih =>
          intro r g
          obtain ⟨a, b⟩ := decl_good g d
          obtain ⟨c, e⟩ := ih _ a
          exact ⟨c, b.trans e⟩
      obtain ⟨a, b⟩ := h1 (List.replicate f.syntaxErrors ReadProblem.syntaxError) r g
      obtain ⟨c, e⟩ := h2 f.decls _ a
      exact ⟨c, b.trans e⟩

theorem loadFiles_good {n : Nat} (fs : List SourceFile) {r : Reader} (g : ReaderGood n r) :
    ReaderGood n (fs.foldl loadFile r) ∧ Later r (fs.foldl loadFile r) := by
  induction fs generalizing r with
  | nil => exact ⟨g, .refl _⟩
  | cons f fs ih =>
    obtain ⟨a, b⟩ := loadFile_good g f
    obtain ⟨c, e⟩ := ih a
    exact ⟨c, b.trans e⟩

/-! ## The memory of types -/

/-- The names of the predefined scalar types. -/
def scalarNames : List Name :=
  [Nom.boolean, Nom.integer, Nom.long, Nom.float, Nom.string, Nom.date]

/-- Scalars and interfaces are the predefined ones, and lists and maps have elements that were created
before them. -/
structure CellOk (id : Nat) (c : TypeCell) : Prop where
  scalar : c.kind = .scalar → c.name ∈ scalarNames
  interface : c.kind = .interface → c.name = Nom.interface
  element : c.kind = .list ∨ c.kind = .map → ∃ e : Nat, c.element = some e ∧ e < id

def HeapOk (h : Heap) : Prop := ∀ (id : Nat) c, h[id]? = some c → CellOk id c

/-- What the operations on types preserve. -/
structure TableOk (n : Nat) (base : GoMap TypeId) (t : TypeTable) : Prop where
  heap : HeapOk t.heap
  types : ∀ k id, t.types.find k = some id → id < t.heap.length
  keys : ∀ k, (base.find k).isSome = true → (t.types.find k).isSome = true
  size : n ≤ t.heap.length

theorem newType_ok {n : Nat} {base : GoMap TypeId} {t : TypeTable} (g : TableOk n base t) (c : TypeCell)
    (hc : CellOk t.heap.length c) :
    TableOk n base (t.newType c).1 ∧ (t.newType c).2 < (t.newType c).1.heap.length ∧
      t.heap.length ≤ (t.newType c).1.heap.length := by
  rw [TypeTable.newType_eq]
  refine ⟨⟨?_, ?_, ?_, ?_⟩, by simp, by simp⟩
  · intro id c' hc'
    dsimp only at hc'
    by_cases hi : id < t.heap.length
    · rw [List.getElem?_append_left hi] at hc'
      exact g.heap id c' hc'
    · have hl := (List.getElem?_eq_some_iff.mp hc').1
      simp at hl
      have he : id = t.heap.length := by omega
      subst he
      rw [List.getElem?_append_right (Nat.le_refl _), Nat.sub_self] at hc'
      simp at hc'
      subst hc'
      exact ⟨hc.scalar, hc.interface, hc.element⟩
  · intro k id hf
    dsimp only at hf
    rw [GoMap.find_insert] at hf
    split at hf
    · cases hf; simp
    · exact Nat.lt_of_lt_of_le (g.types k id hf) (by simp)
  · intro k hk
    dsimp only
    rw [GoMap.find_insert]
    split
    · rfl
    · exact g.keys k hk
  · exact Nat.le_trans g.size (by simp)

/-- The result of an operation that returns a type. -/
def TypeOk (n : Nat) (base : GoMap TypeId) (a : Reader) (p : Reader × TypeId) : Prop :=
  TableOk n base p.1.table ∧ p.2 < p.1.table.heap.length ∧ a.table.heap.length ≤ p.1.table.heap.length

theorem findOrCreateType_ok {n : Nat} {base : GoMap TypeId} {r : Reader} (g : TableOk n base r.table)
    (name : Name) : TypeOk n base r (r.findOrCreateType name) := by
  unfold Reader.findOrCreateType
  split
  · rename_i hf
    exact ⟨g, g.types _ _ hf, Nat.le_refl _⟩
  · exact newType_ok g _ ⟨by simp, by simp, by simp⟩

theorem findOrCreateWith_ok {n : Nat} {base : GoMap TypeId} {r : Reader} (g : TableOk n base r.table)
    (c : TypeCell) (hc : CellOk r.table.heap.length c) : TypeOk n base r (r.findOrCreateWith c) := by
  unfold Reader.findOrCreateWith
  split
  · rename_i hf
    exact ⟨g, g.types _ _ hf, Nat.le_refl _⟩
  · exact newType_ok g _ hc

theorem typeRef_ok {n : Nat} {base : GoMap TypeId} {r : Reader} (g : TableOk n base r.table)
    (e : TypeExpr) : TypeOk n base r (r.typeRef e) := by
  cases e with
  | plain name => exact findOrCreateType_ok g _
  | list name =>
    obtain ⟨h1, h2, h3⟩ := findOrCreateType_ok g (identifier name)
    obtain ⟨h4, h5, h6⟩ := findOrCreateWith_ok h1
      { name := Name.cat [identifier name, Nom.list], kind := .list,
        element := some (r.findOrCreateType (identifier name)).2 }
      ⟨by simp, by simp, fun _ => ⟨_, rfl, h2⟩⟩
    exact ⟨h4, h5, Nat.le_trans h3 h6⟩
  | map i name =>
    obtain ⟨h1, h2, h3⟩ := findOrCreateType_ok g (identifier i)
    obtain ⟨h4, h5, h6⟩ := findOrCreateType_ok h1 (identifier name)
    obtain ⟨h7, h8, h9⟩ := findOrCreateWith_ok h4
      { name := Name.cat [identifier i, identifier name, Nom.map], kind := .map,
        index := some (r.findOrCreateType (identifier i)).2,
        element := some ((r.findOrCreateType (identifier i)).1.findOrCreateType (identifier name)).2 }
      ⟨by simp, by simp, fun _ => ⟨_, rfl, h5⟩⟩
    exact ⟨h7, h8, Nat.le_trans h3 (Nat.le_trans h6 h9)⟩

theorem forChildren_ok {α β : Type} {n : Nat} {base : GoMap TypeId} (f : Reader → α → Reader × β)
    (hf : ∀ r x, TableOk n base r.table → TableOk n base (f r x).1.table) (xs : List α) (r : Reader)
    (g : TableOk n base r.table) : TableOk n base (Reader.forChildren f r xs).1.table := by
  induction xs generalizing r with
  | nil => exact g
  | cons x xs ih => exact ih _ (hf r x g)

theorem update_ok {n : Nat} {base : GoMap TypeId} {t : TypeTable} (g : TableOk n base t) (id : TypeId)
    (f : TypeCell → TypeCell) (hf : ∀ i c, CellOk i c → CellOk i (f c)) :
    TableOk n base { t with heap := t.heap.update id f } := by
  refine ⟨?_, ?_, g.keys, ?_⟩
  · intro i c hc
    unfold Heap.update at hc
    rw [List.getElem?_modify] at hc
    cases ho : t.heap[i]? with
    | none => rw [ho] at hc; simp at hc
    | some c0 =>
      rw [ho] at hc
      simp only [Option.map_eq_map, Option.map_some, Option.some.injEq] at hc
      subst hc
      split
      · exact hf _ _ (g.heap i c0 ho)
      · exact g.heap i c0 ho
  · intro k i hi
    unfold Heap.update
    rw [List.length_modify]
    exact g.types k i hi
  · unfold Heap.update
    rw [List.length_modify]
    exact g.size

theorem declareType_ok {n : Nat} {base : GoMap TypeId} {r : Reader} (g : TableOk n base r.table)
    (kind : Kind) (hk : kind = .enum ∨ kind = .struct ∨ kind = .class) (name : Name) :
    TableOk n base (r.declareType kind name).1.table := by
  have hn : kind ≠ .scalar ∧ kind ≠ .interface ∧ kind ≠ .list ∧ kind ≠ .map := by
    rcases hk with rfl | rfl | rfl <;> decide
  unfold Reader.declareType
  split
  · exact (newType_ok g _ ⟨fun h => absurd h hn.1, fun h => absurd h hn.2.1,
      fun h => h.elim (fun h => absurd h hn.2.2.1) fun h => absurd h hn.2.2.2⟩).1
  · split
    · exact update_ok g _ _ fun i c hc => ⟨fun h => absurd h hn.1, fun h => absurd h hn.2.1,
        fun h => h.elim (fun h => absurd h hn.2.2.1) fun h => absurd h hn.2.2.2⟩
    · exact g

theorem completeType_ok {n : Nat} {base : GoMap TypeId} {r : Reader} (g : TableOk n base r.table)
    (id : TypeId) (doc : Text) (as : List Annotation) (vs : List EnumValue) (ats : List Attribute) :
    TableOk n base (r.completeType id doc as vs ats).table :=
  update_ok g _ _ fun _ _ hc => ⟨hc.scalar, hc.interface, hc.element⟩

theorem decl_ok {n : Nat} {base : GoMap TypeId} {r : Reader} (g : TableOk n base r.table) (d : Decl) :
    TableOk n base (r.decl d).table := by
  have hstruct : ∀ kind (name doc : Text) as ms, kind = .enum ∨ kind = .struct ∨ kind = .class →
      TableOk n base (r.structDecl kind name doc as ms).table := by
    intro kind name doc as ms hk
    unfold Reader.structDecl
    have hs := forChildren_ok (n := n) (base := base) Reader.structMember
      (fun r x g => (typeRef_ok g x.ref).1) ms r g
    dsimp only
    generalize Reader.forChildren Reader.structMember r ms = p at hs ⊢
    obtain ⟨r1, ats⟩ := p
    have h1 := declareType_ok hs kind hk (identifier name)
    dsimp only
    split
    · rename_i he; rw [he] at h1; exact h1
    · rename_i he; rw [he] at h1; exact completeType_ok h1 _ _ _ _ _
  cases d with
  | enum name doc as vs =>
    unfold Reader.decl Reader.enumDecl
    have h1 := declareType_ok g .enum (.inl rfl) (identifier name)
    dsimp only
    split
    · rename_i he; rw [he] at h1; exact h1
    · rename_i he; rw [he] at h1; exact completeType_ok h1 _ _ _ _ _
  | «class» name doc as ms => exact hstruct _ _ _ _ _ (.inr (.inr rfl))
  | struct name doc as ms => exact hstruct _ _ _ _ _ (.inr (.inl rfl))
  | resource name doc as ms =>
    unfold Reader.decl Reader.resourceDecl
    have hm : ∀ (r : Reader) (x : ResourceMember), TableOk n base r.table →
        TableOk n base (r.resourceMember x).1.table := by
      intro r x g
      cases x with
      | method m => exact forChildren_ok methodParameter (fun r x g => (typeRef_ok g x.ref).1) _ _ g
      | locator l =>
        have h1 := forChildren_ok (n := n) (base := base) locatorMember (fun r x g => by
          cases x with
          | target name =>
            unfold Reader.locatorMember Reader.resourceRef
            dsimp only
            split <;> exact g
          | variableName name => exact g) l.members r g
        unfold Reader.resourceMember Reader.locatorDecl
        dsimp only
        generalize Reader.forChildren locatorMember r l.members = p at h1 ⊢
        obtain ⟨r1, ls⟩ := p
        dsimp only at h1 ⊢
        split <;> exact h1
    have h1 := forChildren_ok (n := n) (base := base) Reader.resourceMember hm ms r g
    dsimp only
    generalize Reader.forChildren Reader.resourceMember r ms = p at h1 ⊢
    obtain ⟨r1, rs⟩ := p
    dsimp only at h1 ⊢
    have h2 : TableOk n base (r1.declareResource (identifier name)).1.table := by
      unfold Reader.declareResource
      split
      · exact h1
      · split <;> exact h1
    split
    · rename_i he; rw [he] at h2; exact h2
    · rename_i he; rw [he] at h2; exact h2
  | error name doc as cs =>
    unfold Reader.decl Reader.errorDecl
    have h1 := forChildren_ok (n := n) (base := base) errorCode (fun r x g => by
      unfold Reader.errorCode
      split <;> exact g) cs r g
    dsimp only
    generalize Reader.forChildren errorCode r cs = p at h1 ⊢
    obtain ⟨r1, codes⟩ := p
    dsimp only at h1 ⊢
    split <;> exact h1

theorem loadFiles_ok {n : Nat} {base : GoMap TypeId} (fs : List SourceFile) {r : Reader}
    (g : TableOk n base r.table) : TableOk n base (fs.foldl loadFile r).table := by
  induction fs generalizing r with
  | nil => exact g
  | cons f fs ih =>
    apply ih
    unfold loadFile
    split
    · exact g
    · split
      · exact g
      · have h1 : ∀ (ps : List ReadProblem) (r : Reader), TableOk n base r.table →
            TableOk n base (ps.foldl Reader.report r).table := by
          intro ps
          induction ps with
          | nil => intro r g; exact g
          | cons p ps ih => intro r g; exact ih _ g
        have h2 : ∀ (ds : List Decl) (r : Reader), TableOk n base r.table →
            TableOk n base (r.decls ds).table := by
          intro ds
          induction ds with
          | nil => intro r g; exact g
          | cons d ds ih => intro r g; exact ih _ (decl_ok g d)
        exact h2 _ _ (h1 _ _ g)

theorem newVersion_ok {h : Heap} (g : HeapOk h) (v : VersionId) :
    TableOk h.length [] (TypeTable.newVersion h v) := by
  have h0 : TableOk h.length [] { version := v, heap := h, types := [] } :=
    ⟨g, fun _ _ h => (nomatch h), fun _ h => (nomatch h), Nat.le_refl _⟩
  have step : ∀ (t : TypeTable) kind name, TableOk h.length [] t →
      (kind = .scalar → name ∈ scalarNames) → (kind = .interface → name = Nom.interface) →
      (kind = .scalar ∨ kind = .interface) → TableOk h.length [] (t.addBuiltin kind name) := by
    intro t kind name g h1 h2 h3
    obtain ⟨a, b, c⟩ := newType_ok g { name := name, kind := kind }
      ⟨h1, h2, by rcases h3 with rfl | rfl <;> simp⟩
    exact (newType_ok a
      { name := Name.cat [name, Nom.list], kind := .list,
        element := some (t.newType { name := name, kind := kind }).2 }
      ⟨by simp, by simp, fun _ => ⟨_, rfl, b⟩⟩).1
  unfold TypeTable.newVersion
  refine step _ _ _ (step _ _ _ (step _ _ _ (step _ _ _ (step _ _ _ (step _ _ _ (step _ _ _ h0
    ?_ ?_ ?_) ?_ ?_ ?_) ?_ ?_ ?_) ?_ ?_ ?_) ?_ ?_ ?_) ?_ ?_ ?_) ?_ ?_ ?_
  all_goals decide

/-! ## The state of `Read` -/

/-- The pointers of a version are in the memory, and it has the predefined types used by the checks. -/
structure VersionOk (types graph : Nat) (v : LoadedVersion) : Prop where
  types : ∀ k id, v.types.find k = some id → id < types
  resources : ∀ k id, v.resources.find k = some id → id < graph
  nodup : v.resources.keys.Nodup
  builtins : ∀ n ∈ [Nom.boolean, Nom.integer, Nom.string], (v.types.find n.toText).isSome = true

theorem VersionOk.mono {t g t' g' : Nat} {v : LoadedVersion} (h : VersionOk t g v) (ht : t ≤ t')
    (hg : g ≤ g') : VersionOk t' g' v :=
  ⟨fun k id hf => Nat.lt_of_lt_of_le (h.types k id hf) ht,
    fun k id hf => Nat.lt_of_lt_of_le (h.resources k id hf) hg, h.nodup, h.builtins⟩

structure SessionOk (s : Session) : Prop where
  graph : GraphGood s.graph (s.problems = [])
  heap : HeapOk s.heap
  versions : ∀ k l n v, s.services.find k = some l → l.versions.find n = some v →
    VersionOk s.heap.length s.graph.length v

theorem SessionOk.report {s : Session} (g : SessionOk s) (p : ReadProblem) : SessionOk (s.report p) :=
  ⟨g.graph.mono (by simp [Session.report]), g.heap, g.versions⟩

theorem SessionOk.store {s : Session} (g : SessionOk s) (k : Text) (v : LoadedVersion)
    (hv : VersionOk s.heap.length s.graph.length v) : SessionOk (s.store k v) := by
  unfold Session.store
  split
  · exact g
  · rename_i l hl
    refine ⟨g.graph, g.heap, ?_⟩
    intro k' l' n v' hl' hv'
    dsimp only at hl' ⊢
    rw [GoMap.find_insert] at hl'
    split at hl'
    · cases hl'
      dsimp only at hv'
      rw [GoMap.find_insert] at hv'
      split at hv'
      · cases hv'; exact hv
      · exact g.versions k l n v' hl hv'
    · exact g.versions k' l' n v' hl' hv'

theorem SessionOk.grow {s : Session} (g : SessionOk s) (heap : Heap) (graph : Graph)
    (ps : List ReadProblem) (h1 : HeapOk heap) (h2 : GraphGood graph (ps = []))
    (h3 : s.heap.length ≤ heap.length) (h4 : s.graph.length ≤ graph.length) (created : Nat)
    (ut : GoMap TypeId) (ur : GoMap ResId) :
    SessionOk { s with heap := heap
                       graph := graph
                       problems := ps
                       created := created
                       undefinedTypes := ut
                       undefinedResources := ur } :=
  ⟨h2, h1, fun k l n v hl hv => (g.versions k l n v hl hv).mono h3 h4⟩

theorem newVersion_builtins (h : Heap) (v : VersionId) (n : Name)
    (hn : n ∈ [Nom.boolean, Nom.integer, Nom.string]) :
    ((TypeTable.newVersion h v).types.find n.toText).isSome = true := by
  rw [newVersion_eq]
  simp only [List.mem_cons, List.not_mem_nil, or_false] at hn
  rcases hn with rfl | rfl | rfl <;> rfl

theorem findOrCreateVersion_ok {s : Session} (g : SessionOk s) (k : Text) (n : Name) :
    SessionOk (s.findOrCreateVersion k n).1 ∧
      VersionOk (s.findOrCreateVersion k n).1.heap.length (s.findOrCreateVersion k n).1.graph.length
        (s.findOrCreateVersion k n).2 := by
  unfold Session.findOrCreateVersion
  split
  · rename_i v hv
    obtain ⟨l, hl, hv⟩ := Option.bind_eq_some_iff.mp hv
    exact ⟨g, g.versions k l _ v hl hv⟩
  · have h := newVersion_ok g.heap s.created
    have hb := newVersion_builtins s.heap s.created
    dsimp only
    generalize TypeTable.newVersion s.heap s.created = t at h hb ⊢
    have hv : VersionOk t.heap.length s.graph.length { name := n, id := s.created, types := t.types } :=
      ⟨h.types, fun _ _ h => (nomatch h), List.nodup_nil, hb⟩
    have h1 := SessionOk.store (g.grow _ s.graph s.problems h.heap g.graph h.size (Nat.le_refl _)
      (s.created + 1) s.undefinedTypes s.undefinedResources) k _ hv
    refine ⟨h1, ?_⟩
    unfold Session.store
    dsimp only
    split <;> exact hv

theorem loadVersion_ok {s : Session} (g : SessionOk s) (k : Text) (d : SourceVersion) :
    SessionOk (loadVersion k s d) := by
  unfold loadVersion
  split
  · exact g
  · obtain ⟨h1, h2⟩ := findOrCreateVersion_ok g k (parseUsingSeparator d.name '_')
    split
    · exact g.report _
    · exact g.report _
    · exact g.report _
    · exact h1.report _
    · generalize s.findOrCreateVersion k (parseUsingSeparator d.name '_') = p at h1 h2 ⊢
      obtain ⟨s1, v⟩ := p
      dsimp only at h1 h2 ⊢
      have hr := loadFiles_good (n := s1.graph.length) (r := s1.enter v) d.files
        ⟨h1.graph, h2.resources, h2.nodup, Nat.le_refl _⟩
      have ht := loadFiles_ok (n := s1.heap.length) (base := v.types) (r := s1.enter v) d.files
        ⟨h1.heap, h2.types, fun _ h => h, Nat.le_refl _⟩
      unfold Session.leave
      refine SessionOk.store (h1.grow _ _ _ ht.heap hr.1.graph ht.size hr.1.size s1.created _ _) k _ ?_
      exact ⟨ht.types, hr.1.found, hr.1.nodup, fun n hn => ht.keys _ (h2.builtins n hn)⟩

theorem loadService_ok {s : Session} (g : SessionOk s) (d : SourceService) :
    SessionOk (loadService s d) := by
  have hf : ∀ n, SessionOk (s.findOrCreateService n) := by
    intro n
    unfold Session.findOrCreateService
    split
    · exact g
    · refine ⟨g.graph, g.heap, ?_⟩
      intro k l m v hl hv
      dsimp only at hl
      rw [GoMap.find_insert] at hl
      split at hl
      · cases hl; cases hv
      · exact g.versions k l m v hl hv
  have hl : ∀ (vs : List SourceVersion) (k : Text) (s : Session), SessionOk s →
      SessionOk (vs.foldl (loadVersion k) s) := by
    intro vs
    induction vs with
    | nil => intro k s g; exact g
    | cons v vs ih => intro k s g; exact ih _ _ (loadVersion_ok g k v)
  unfold loadService
  split
  · exact g
  · split
    · exact g.report _
    · exact g.report _
    · exact g.report _
    · exact (hf _).report _
    · exact hl _ _ _ (hf _)

theorem loadModels_ok (ms : List SourceModel) : SessionOk (ms.foldl loadModel {}) := by
  have hs : ∀ (ds : List SourceService) (s : Session), SessionOk s → SessionOk (ds.foldl loadService s) := by
    intro ds
    induction ds with
    | nil => intro s g; exact g
    | cons d ds ih => intro s g; exact ih _ (loadService_ok g d)
  have hm : ∀ (ms : List SourceModel) (s : Session), SessionOk s → SessionOk (ms.foldl loadModel s) := by
    intro ms
    induction ms with
    | nil => intro s g; exact g
    | cons m ms ih =>
      intro s g
      apply ih
      unfold loadModel
      split
      · exact hs _ _ g
      · exact g.report _
  apply hm
  refine ⟨⟨?_, ?_⟩, ?_, ?_⟩
  · intro id l hl; cases hl
  · intro res h; cases h
  · intro id c h; cases h
  · intro k l n v h; cases h

theorem addListTypes_ok {n : Nat} {base : GoMap TypeId} {t : TypeTable} (g : TableOk n base t) :
    TableOk n base (addListTypes t) := by
  unfold addListTypes
  generalize listing (typeName t.heap) t.types = ids
  induction ids generalizing t with
  | nil => exact g
  | cons id ids ih =>
    apply ih
    unfold addListType
    split
    · exact g
    · rename_i c hc
      split
      · exact g
      · dsimp only
        split
        · exact g
        · exact (newType_ok g _ ⟨by simp, by simp,
            fun _ => ⟨id, rfl, (List.getElem?_eq_some_iff.mp hc).1⟩⟩).1

theorem completePairs_ok (ps : List (Text × LoadedVersion)) :
    ∀ {s : Session}, SessionOk s → (∀ p ∈ ps, VersionOk s.heap.length s.graph.length p.2) →
      SessionOk (ps.foldl (fun s p => completeVersion p.1 s p.2) s) := by
  induction ps with
  | nil => intro s g _; exact g
  | cons p ps ih =>
    intro s g h
    have hp := h p (List.mem_cons_self ..)
    have ht := addListTypes_ok (n := s.heap.length) (base := p.2.types)
      (t := { version := p.2.id, heap := s.heap, types := p.2.types })
      ⟨g.heap, hp.types, fun _ h => h, Nat.le_refl _⟩
    have hg : SessionOk (completeVersion p.1 s p.2) := by
      unfold completeVersion
      refine SessionOk.store (g.grow _ s.graph s.problems ht.heap g.graph ht.size (Nat.le_refl _)
        s.created s.undefinedTypes s.undefinedResources) p.1 _ ?_
      exact ⟨ht.types, hp.resources, hp.nodup, fun n hn => ht.keys _ (hp.builtins n hn)⟩
    have hs : (completeVersion p.1 s p.2).heap =
        (addListTypes { version := p.2.id, heap := s.heap, types := p.2.types }).heap ∧
        (completeVersion p.1 s p.2).graph = s.graph := by
      unfold completeVersion Session.store
      dsimp only
      split <;> exact ⟨rfl, rfl⟩
    apply ih hg
    intro q hq
    exact (h q (List.mem_cons_of_mem _ hq)).mono (by rw [hs.1]; exact ht.size) (by rw [hs.2]; exact Nat.le_refl _)

theorem complete_ok {s : Session} (m : ModelGood s) (g : SessionOk s) : SessionOk s.complete := by
  rw [complete_eq]
  apply completePairs_ok _ g
  intro p hp
  have := (pairsOf_mem m p.1 p.2).mp hp
  unfold Session.version at this
  obtain ⟨l, hl, hv⟩ := Option.bind_eq_some_iff.mp this
  exact g.versions _ l _ _ hl hv

theorem undefined_good (inputs : List SourceModel) :
    ModelGood (inputs.foldl loadModel {}).reportUndefined :=
  (loadModels_modelGood inputs).congr rfl rfl (.refl _)

theorem load_good (inputs : List SourceModel) : ModelGood (Session.load inputs) :=
  (complete_good (undefined_good inputs)).1.congr rfl rfl (.refl _)

theorem load_ok (inputs : List SourceModel) : SessionOk (Session.load inputs) := by
  have h1 := loadModels_ok inputs
  have h2 : SessionOk (inputs.foldl loadModel {}).reportUndefined :=
    ⟨h1.graph.mono (by simp [Session.reportUndefined]; exact fun h _ _ => h), h1.heap, h1.versions⟩
  have h3 := complete_ok (undefined_good inputs) h2
  unfold Session.load
  refine ⟨⟨?_, ?_⟩, h3.heap, ?_⟩
  · intro id l hl
    dsimp only at hl ⊢
    have : l ∈ (inputs.foldl loadModel {}).reportUndefined.complete.graph.locators id := by
      unfold Graph.locators Reader.resolveKinds at hl
      unfold Graph.locators
      rw [List.getElem?_map] at hl
      cases hg : (inputs.foldl loadModel {}).reportUndefined.complete.graph[id]? with
      | none => rw [hg] at hl; cases hl
      | some res => rw [hg] at hl; exact hl
    have := h3.graph.locators id l this
    refine ⟨this.1, fun t ht => ?_, this.2.2⟩
    unfold Reader.resolveKinds
    rw [List.length_map]
    exact this.2.1 t ht
  · intro res hres m hm p hp
    dsimp only at hres
    unfold Reader.resolveKinds at hres
    obtain ⟨res0, h0, rfl⟩ := List.mem_map.mp hres
    obtain ⟨m0, hm0, rfl⟩ := List.mem_map.mp hm
    obtain ⟨p0, hp0, rfl⟩ := List.mem_map.mp hp
    have := h3.graph.directions res0 h0 m0 hm0 p0 hp0
    unfold Reader.resolveParameter
    split <;> exact this
  · intro k l n v hl hv
    dsimp only at hl ⊢
    unfold Reader.resolveKinds
    rw [List.length_map]
    exact h3.versions k l n v hl hv

end Verif.Whole
