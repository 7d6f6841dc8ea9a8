import Verif.Lemmas.Concepts
import Verif.Lemmas.GoMap
import Verif.Model.Session
import Verif.Spec.Reader

/-! A predicate that is preserved by the primitive operations of the reader is preserved by the
callbacks. -/

namespace Verif

open Reader

/-- The changes that the callbacks do to a type, when the annotations and the types satisfy predicates. -/
structure Edit (A : Annotation → Prop) (T : TypeId → Prop) (f : TypeCell → TypeCell) : Prop where
  name : ∀ c, (f c).name = c.name
  owner : ∀ c, (f c).owner = c.owner
  explicit : ∀ c, (f c).explicitDeclared = c.explicitDeclared
  annotations : ∀ c, ∀ a ∈ (f c).annotations, a ∈ c.annotations ∨ A a
  attributes : ∀ c, ∀ a ∈ (f c).attributes, a ∈ c.attributes ∨ T a.typ
  element : ∀ c, (f c).element = c.element

/-- The predicate is preserved by the primitive operations, when the annotations of the types satisfy
other predicate. The types that the reader uses satisfy a third one. -/
structure PreservedFor (A : Annotation → Prop) (T : TypeId → Prop) (P : Reader → Prop) : Prop where
  found : ∀ (r : Reader) k id, P r → r.table.types.find k = some id → T id
  fresh : ∀ (r : Reader), P r → T r.table.heap.length
  report : ∀ r p, P r → P (r.report p)
  newType : ∀ r c, P r → r.table.types.find c.name.toText = none → c.explicitDeclared = false →
    c.annotations = [] → c.attributes = [] → (∀ e, c.element = some e → T e) → P (r.newType c).1
  undefinedTypes : ∀ (r : Reader) m, P r → P { r with undefinedTypes := m }
  undefinedResources : ∀ (r : Reader) m, P r → P { r with undefinedResources := m }
  heap : ∀ (r : Reader) (id : TypeId) (f : TypeCell → TypeCell), T id → Edit A T f → P r → P { r with table := { r.table with heap := r.table.heap.update id f } }
  newResource : ∀ r n, P r → r.resources.find n.toText = none → P (r.newResource n).1
  graph : ∀ (r : Reader) (id : ResId) (f : Resource → Resource), (∀ c, (f c).name = c.name) →
    P r → P { r with graph := r.graph.modify id f }
  errors : ∀ (r : Reader) k (e : ErrorConcept), P r → e.ownName = none → P { r with errors := r.errors.insert k e }

/-- The predicate is preserved by the primitive operations. -/
abbrev Preserved (P : Reader → Prop) : Prop := PreservedFor (fun _ => True) (fun _ => True) P

namespace PreservedFor

variable {A : Annotation → Prop} {T : TypeId → Prop} {P : Reader → Prop} (w : PreservedFor A T P)
include w

theorem newType_id {r : Reader} (h : P r) (c : TypeCell) : T (r.newType c).2 := w.fresh r h

theorem findOrCreateType {r : Reader} (h : P r) (n : Name) :
    P (r.findOrCreateType n).1 ∧ T (r.findOrCreateType n).2 := by
  unfold Reader.findOrCreateType
  split
  · rename_i hf; exact ⟨h, w.found _ _ _ h hf⟩
  · rename_i hf
    exact ⟨w.undefinedTypes _ _ (w.newType _ _ h hf rfl rfl rfl (fun _ h => nomatch h)),
      w.fresh r h⟩

theorem findOrCreateWith {r : Reader} (h : P r) (c : TypeCell) (h1 : c.explicitDeclared = false)
    (h2 : c.annotations = []) (h3 : c.attributes = []) (h4 : ∀ e, c.element = some e → T e) :
    P (r.findOrCreateWith c).1 ∧ T (r.findOrCreateWith c).2 := by
  unfold Reader.findOrCreateWith
  split
  · rename_i hf; exact ⟨h, w.found _ _ _ h hf⟩
  · rename_i hf; exact ⟨w.newType _ _ h hf h1 h2 h3 h4, w.fresh r h⟩

theorem typeRef {r : Reader} (h : P r) (e : TypeExpr) : P (r.typeRef e).1 ∧ T (r.typeRef e).2 := by
  cases e with
  | plain n => exact w.findOrCreateType h _
  | list n =>
    have h1 := w.findOrCreateType h (identifier n)
    exact w.findOrCreateWith h1.1 _ rfl rfl rfl (fun e he => by cases he; exact h1.2)
  | map i n =>
    have h1 := w.findOrCreateType h (identifier i)
    have h2 := w.findOrCreateType h1.1 (identifier n)
    exact w.findOrCreateWith h2.1 _ rfl rfl rfl (fun e he => by cases he; exact h2.2)

omit w in
theorem forChildren {α β : Type} (f : Reader → α → Reader × β)
    (hf : ∀ r x, P r → P (f r x).1) (xs : List α) :
    ∀ {r : Reader}, P r → P (Reader.forChildren f r xs).1 := by
  induction xs with
  | nil => intro r h; exact h
  | cons x xs ih => intro r h; exact ih (hf r x h)

omit w in
theorem forChildren_results {α β : Type} (f : Reader → α → Reader × β) (Q : β → Prop)
    (hf : ∀ r x, P r → P (f r x).1 ∧ Q (f r x).2) (xs : List α) :
    ∀ {r : Reader}, P r → ∀ y ∈ (Reader.forChildren f r xs).2, Q y := by
  induction xs with
  | nil => intro r h y hy; cases hy
  | cons x xs ih =>
    intro r h y hy
    rcases List.mem_cons.mp hy with rfl | hy
    · exact (hf r x h).2
    · exact ih (hf r x h).1 y hy

theorem structMembers (ms : List MemberDecl) {r : Reader} (h : P r) :
    P (Reader.forChildren structMember r ms).1 ∧
      ∀ a ∈ (Reader.forChildren structMember r ms).2, T a.typ :=
  ⟨forChildren (P := P) structMember (fun _ x h => (w.typeRef h x.ref).1) ms h,
    forChildren_results (P := P) structMember (fun a => T a.typ) (fun _ x h => w.typeRef h x.ref) ms h⟩

theorem declareType {r : Reader} (h : P r) (kind : Kind) (n : Name) :
    P (r.declareType kind n).1 ∧ ∀ id, (r.declareType kind n).2 = some id → T id := by
  unfold Reader.declareType
  split
  · rename_i hf
    exact ⟨w.newType _ _ h hf rfl rfl rfl (fun _ h => nomatch h),
      fun id hid => by cases hid; exact w.fresh r h⟩
  · rename_i id hf
    have hid := w.found _ _ _ h hf
    split
    · refine ⟨w.undefinedTypes _ _ (w.heap _ _ _ hid
        ⟨fun _ => rfl, fun _ => rfl, fun _ => rfl, fun _ _ h => Or.inl h, fun _ _ h => Or.inl h,
          fun _ => rfl⟩ h), fun id' h' => ?_⟩
      cases h'; exact hid
    · exact ⟨w.report _ _ h, fun _ h => nomatch h⟩

theorem completeType {r : Reader} (h : P r) {id : TypeId} (hid : T id) (d : Text)
    {as : List Annotation} (has : ∀ a ∈ as, A a) (vs : List EnumValue) {ats : List Attribute}
    (hats : ∀ a ∈ ats, T a.typ) : P (r.completeType id d as vs ats) := by
  refine w.heap _ _ _ hid ⟨fun _ => rfl, fun _ => rfl, fun _ => rfl, fun c a ha => ?_,
    fun c a ha => ?_, fun _ => rfl⟩ h
  · rcases List.mem_append.mp ha with ha | ha
    · exact Or.inl ha
    · exact Or.inr (has a ha)
  · have key : ∀ (l acc : List Attribute), a ∈ (l.map some).foldl (addMember Attribute.name) acc →
        a ∈ acc ∨ a ∈ l := by
      intro l
      induction l with
      | nil => intro acc h; exact Or.inl h
      | cons x l ih =>
        intro acc h
        rcases ih _ h with h | h
        · have h := (sortByName_spec Attribute.name (acc ++ [x])).1.mem_iff.mp h
          rcases List.mem_append.mp h with h | h
          · exact Or.inl h
          · exact Or.inr (List.mem_cons.mpr (Or.inl (List.mem_singleton.mp h)))
        · exact Or.inr (List.mem_cons_of_mem _ h)
    rcases key ats c.attributes ha with h | h
    · exact Or.inl h
    · exact Or.inr (hats a h)

theorem enumDecl {r : Reader} (h : P r) (n d : Text) {as : List Annotation} (has : ∀ a ∈ as, A a)
    (vs : List ValueDecl) : P (r.enumDecl n d as vs) := by
  unfold Reader.enumDecl
  have := w.declareType h .enum (identifier n)
  split
  · rename_i he; rw [he] at this; exact this.1
  · rename_i he; rw [he] at this
    exact w.completeType this.1 (this.2 _ rfl) _ has _ (fun _ h => nomatch h)

theorem structDecl {r : Reader} (h : P r) (kind : Kind) (n d : Text)
    {as : List Annotation} (has : ∀ a ∈ as, A a) (ms : List MemberDecl) :
    P (r.structDecl kind n d as ms) := by
  unfold Reader.structDecl
  have h1 := w.structMembers ms h
  dsimp only
  generalize Reader.forChildren structMember r ms = p at h1 ⊢
  obtain ⟨r1, attrs⟩ := p
  dsimp only at h1 ⊢
  have := w.declareType h1.1 kind (identifier n)
  split
  · rename_i he; rw [he] at this; exact this.1
  · rename_i he; rw [he] at this
    exact w.completeType this.1 (this.2 _ rfl) _ has _ h1.2

theorem resourceRef {r : Reader} (h : P r) (n : Text) : P (r.resourceRef n).1 := by
  unfold Reader.resourceRef
  split
  · exact h
  · rename_i hf; exact w.undefinedResources _ _ (w.newResource _ _ h hf)

theorem resourceMember {r : Reader} (h : P r) (m : ResourceMember) :
    P (r.resourceMember m).1 := by
  cases m with
  | method m =>
    exact forChildren (P := P) methodParameter (fun r x h => (w.typeRef h x.ref).1) _ h
  | locator l =>
    have := forChildren (P := P) locatorMember (fun r x h => by
      cases x with
      | target n => exact w.resourceRef h n
      | variableName n => exact h) l.members h
    unfold Reader.resourceMember Reader.locatorDecl
    dsimp only
    split
    · exact w.report _ _ this
    · exact this

theorem decl {r : Reader} (h : P r) (d : Decl) (hd : ∀ a ∈ d.typeAnnotations, A a) : P (r.decl d) := by
  cases d with
  | enum n d as vs => exact w.enumDecl h _ _ hd _
  | «class» n d as ms => exact w.structDecl h _ _ _ hd _
  | struct n d as ms => exact w.structDecl h _ _ _ hd _
  | resource n d as ms =>
    unfold Reader.decl Reader.resourceDecl
    have h1 := forChildren (P := P) Reader.resourceMember (fun r x h => w.resourceMember h x) ms h
    dsimp only
    generalize Reader.forChildren Reader.resourceMember r ms = p at h1 ⊢
    obtain ⟨r1, members⟩ := p
    dsimp only at h1 ⊢
    have : P (r1.declareResource (identifier n)).1 := by
      unfold Reader.declareResource
      split
      · rename_i hf; exact w.newResource _ _ h1 hf
      · split
        · exact w.undefinedResources _ _ h1
        · exact w.report _ _ h1
    split
    · rename_i he; rw [he] at this; exact this
    · rename_i r2 id he
      rw [he] at this
      refine w.graph _ _ _ (fun c => ?_) this
      unfold addMembers
      have : ∀ (ms : List ResourceResult) (c : Resource), (ms.foldl
          (fun (res : Resource) m =>
            match m with
            | .method m => { res with methods := addMember Method.name res.methods (some m) }
            | .locator l =>
              { res with
                locators := addMember Locator.name res.locators
                  (some { l with owner := id }) }) c).name = c.name := by
        intro ms
        induction ms with
        | nil => intro c; rfl
        | cons m ms ih =>
          intro c
          rw [List.foldl_cons, ih]
          cases m <;> rfl
      exact this _ _
  | error n d as cs =>
    unfold Reader.decl Reader.errorDecl
    have h1 := forChildren (P := P) errorCode (fun r x h => by
      unfold Reader.errorCode
      split
      · exact h
      · exact w.report _ _ h) cs h
    dsimp only
    generalize Reader.forChildren errorCode r cs = p at h1 ⊢
    obtain ⟨r1, codes⟩ := p
    dsimp only at h1 ⊢
    split
    · refine w.errors _ _ _ h1 ?_
      have : ∀ (e : ErrorConcept), e.ownName = none →
          (codes.foldl (fun (e : ErrorConcept) code => { e with code := code }) e).ownName = none := by
        clear h1
        induction codes with
        | nil => exact fun _ h => h
        | cons c cs ih => exact fun e h => ih _ h
      exact this _ rfl
    · exact w.report _ _ h1

theorem decls (ds : List Decl) (hd : ∀ d ∈ ds, ∀ a ∈ d.typeAnnotations, A a) :
    ∀ {r : Reader}, P r → P (r.decls ds) := by
  induction ds with
  | nil => intro r h; exact h
  | cons d ds ih =>
    intro r h
    exact ih (fun d h => hd d (List.mem_cons_of_mem _ h)) (w.decl h d (hd d (List.mem_cons_self ..)))

theorem reports (ps : List ReadProblem) : ∀ {r : Reader}, P r → P (ps.foldl Reader.report r) := by
  induction ps with
  | nil => intro r h; exact h
  | cons d ds ih => intro r h; exact ih (w.report _ _ h)

theorem loadFile {r : Reader} (h : P r) (f : SourceFile)
    (hd : ∀ d ∈ f.decls, ∀ a ∈ d.typeAnnotations, A a) : P (Session.loadFile r f) := by
  unfold Session.loadFile
  split
  · exact h
  · split
    · exact w.report _ _ h
    · exact w.decls _ hd (w.reports _ h)

theorem loadFiles (fs : List SourceFile)
    (hd : ∀ f ∈ fs, ∀ d ∈ f.decls, ∀ a ∈ d.typeAnnotations, A a) :
    ∀ {r : Reader}, P r → P (fs.foldl Session.loadFile r) := by
  induction fs with
  | nil => intro r h; exact h
  | cons d ds ih =>
    intro r h
    exact ih (fun d h => hd d (List.mem_cons_of_mem _ h)) (w.loadFile h d (hd d (List.mem_cons_self ..)))

end PreservedFor

end Verif
