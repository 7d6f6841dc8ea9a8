import Verif.Lemmas.WholeLocal

/-! Helper lemmas: the targets of the locators of a version are resources of that version. -/

namespace Verif.Whole

open Reader Session

/-- The targets of the locators of the resources are among those resources. -/
def TargetsIn (g : Graph) (m : GoMap ResId) : Prop :=
  ∀ k id l t, m.find k = some id → l ∈ g.locators id → l.target = some t → ∃ k', m.find k' = some t

/-- No resource is replaced. -/
def Grows (a b : Reader) : Prop := ∀ k id, a.resources.find k = some id → b.resources.find k = some id

theorem Grows.refl (a : Reader) : Grows a a := fun _ _ h => h

theorem Grows.trans {a b c : Reader} (h : Grows a b) (h' : Grows b c) : Grows a c :=
  fun k id hf => h' k id (h k id hf)

/-- The state is fine and comes after other one. -/
def Kept (a b : Reader) : Prop := TargetsIn b.graph b.resources ∧ Grows a b

theorem SameResources.kept {a b : Reader} (h : SameResources a b) (t : TargetsIn a.graph a.resources) :
    Kept a b := by
  unfold Kept Grows
  rw [h.graph, h.resources]
  exact ⟨t, fun _ _ h => h⟩

theorem locators_none (g : Graph) {id : ResId} (h : g.length ≤ id) : g.locators id = [] := by
  unfold Graph.locators
  rw [List.getElem?_eq_none h]

theorem newResource_kept {r : Reader} (t : TargetsIn r.graph r.resources) (n : Name)
    (hf : r.resources.find n.toText = none) :
    Kept r (r.newResource n).1 ∧
      (r.newResource n).1.resources.find n.toText = some (r.newResource n).2 := by
  unfold Reader.newResource
  have hg : Grows r { r with
      graph := r.graph ++ [{ name := n }]
      resources := r.resources.insert n.toText r.graph.length } := by
    intro k id h
    dsimp only
    rw [GoMap.find_insert]
    split
    · rename_i e
      rw [← e, hf] at h
      cases h
    · exact h
  refine ⟨⟨?_, hg⟩, ?_⟩
  · intro k id l x hk hl hx
    have hl := locators_append _ _ _ _ hl
    dsimp only at hk
    rw [GoMap.find_insert] at hk
    split at hk
    · cases hk
      rw [locators_none _ (Nat.le_refl _)] at hl
      cases hl
    · obtain ⟨k', h⟩ := t k id l x hk hl hx
      exact ⟨k', hg k' x h⟩
  · dsimp only
    rw [GoMap.find_insert, if_pos rfl]

theorem resourceRef_kept {r : Reader} (t : TargetsIn r.graph r.resources) (n : Text) :
    Kept r (r.resourceRef n).1 ∧ ∃ k, (r.resourceRef n).1.resources.find k = some (r.resourceRef n).2 := by
  unfold Reader.resourceRef
  split
  · rename_i id hf
    exact ⟨⟨t, .refl _⟩, _, hf⟩
  · rename_i hf
    obtain ⟨h1, h2⟩ := newResource_kept t (identifier n) hf
    exact ⟨h1, _, h2⟩

theorem forChildren_kept {α β : Type} (f : Reader → α → Reader × β) (Q : Reader → β → Prop)
    (hq : ∀ a b x, Grows a b → Q a x → Q b x)
    (hf : ∀ r x, TargetsIn r.graph r.resources → Kept r (f r x).1 ∧ Q (f r x).1 (f r x).2)
    (xs : List α) (r : Reader) (t : TargetsIn r.graph r.resources) :
    Kept r (Reader.forChildren f r xs).1 ∧
      ∀ y ∈ (Reader.forChildren f r xs).2, Q (Reader.forChildren f r xs).1 y := by
  induction xs generalizing r with
  | nil => exact ⟨⟨t, .refl r⟩, fun _ h => nomatch h⟩
  | cons x xs ih =>
    obtain ⟨⟨h1, h2⟩, h3⟩ := hf r x t
    obtain ⟨⟨h4, h5⟩, h6⟩ := ih _ h1
    refine ⟨⟨h4, h2.trans h5⟩, ?_⟩
    intro y hy
    rcases List.mem_cons.mp hy with rfl | hy
    · exact hq _ _ _ h5 h3
    · exact h6 y hy

/-- What is known about a member of a resource. -/
def MemberIn (r : Reader) : ResourceResult → Prop
  | .method _ => True
  | .locator l => ∀ t, l.target = some t → ∃ k, r.resources.find k = some t

theorem MemberIn.mono {a b : Reader} {x : ResourceResult} (g : Grows a b) (h : MemberIn a x) :
    MemberIn b x := by
  cases x with
  | method m => trivial
  | locator l =>
    intro t ht
    obtain ⟨k, hk⟩ := h t ht
    exact ⟨k, g k t hk⟩

theorem resourceMember_kept (r : Reader) (x : ResourceMember) (t : TargetsIn r.graph r.resources) :
    Kept r (r.resourceMember x).1 ∧ MemberIn (r.resourceMember x).1 (r.resourceMember x).2 := by
  cases x with
  | method m =>
    have hs := forChildren_same methodParameter (fun r x => typeRef_same r x.ref) m.parameters r
    exact ⟨SameResources.kept hs t, trivial⟩
  | locator d =>
    have := forChildren_kept locatorMember
      (fun r x => ∀ t, x = .resource t → ∃ k, r.resources.find k = some t)
      (fun a b x g h t ht => by
        obtain ⟨k, hk⟩ := h t ht
        exact ⟨k, g k t hk⟩)
      (fun r x t => by
        cases x with
        | target n =>
          obtain ⟨h1, h2⟩ := resourceRef_kept t n
          exact ⟨h1, fun t ht => by cases ht; exact h2⟩
        | variableName n => exact ⟨⟨t, .refl _⟩, fun t ht => nomatch ht⟩) d.members r t
    unfold Reader.resourceMember Reader.locatorDecl
    dsimp only
    generalize Reader.forChildren locatorMember r d.members = p at this ⊢
    obtain ⟨r1, ms⟩ := p
    obtain ⟨h1, h2⟩ := this
    dsimp only at h1 h2 ⊢
    have ht : ∀ t, (setMembers ⟨identifier d.name, 0, none, false, d.doc, d.annotations⟩ ms).target = some t →
        ∃ k, r1.resources.find k = some t := by
      intro t ht
      rcases setMembers_target _ _ _ ht with h | h
      · cases h
      · exact h2 _ h t rfl
    split
    · exact ⟨h1, ht⟩
    · exact ⟨h1, ht⟩

theorem decl_kept {r : Reader} (t : TargetsIn r.graph r.resources) (d : Decl) : Kept r (r.decl d) := by
  have hdecl : ∀ (r : Reader) (kind : Kind) (name : Name), r.graph = (r.declareType kind name).1.graph ∧
      r.resources = (r.declareType kind name).1.resources := by
    intro r kind name
    unfold Reader.declareType
    split
    · exact ⟨rfl, rfl⟩
    · split <;> exact ⟨rfl, rfl⟩
  have heq : ∀ {a b : Reader}, a.graph = b.graph → a.resources = b.resources →
      TargetsIn a.graph a.resources → Kept a b := by
    intro a b h1 h2 t
    unfold Kept Grows
    rw [← h1, ← h2]
    exact ⟨t, fun _ _ h => h⟩
  have hstruct : ∀ kind (name doc : Text) as ms, Kept r (r.structDecl kind name doc as ms) := by
    intro kind name doc as ms
    unfold Reader.structDecl
    have hs := forChildren_same Reader.structMember (fun r x => typeRef_same r x.ref) ms r
    dsimp only
    generalize Reader.forChildren Reader.structMember r ms = p at hs ⊢
    obtain ⟨r1, ats⟩ := p
    dsimp only at hs ⊢
    obtain ⟨h1, h2⟩ := hdecl r1 kind (identifier name)
    refine heq ?_ ?_ t
    · rw [← hs.graph, h1]
      split
      · rename_i he; rw [he]
      · rename_i he; rw [he]; rfl
    · rw [← hs.resources, h2]
      split
      · rename_i he; rw [he]
      · rename_i he; rw [he]; rfl
  cases d with
  | enum name doc as vs =>
    unfold Reader.decl Reader.enumDecl
    obtain ⟨h1, h2⟩ := hdecl r .enum (identifier name)
    dsimp only
    refine heq ?_ ?_ t
    · rw [h1]
      split
      · rename_i he; rw [he]
      · rename_i he; rw [he]; rfl
    · rw [h2]
      split
      · rename_i he; rw [he]
      · rename_i he; rw [he]; rfl
  | «class» name doc as ms => exact hstruct _ _ _ _ _
  | struct name doc as ms => exact hstruct _ _ _ _ _
  | resource name doc as ms =>
    unfold Reader.decl Reader.resourceDecl
    obtain ⟨⟨h1, h2⟩, h3⟩ := forChildren_kept Reader.resourceMember MemberIn
      (fun _ _ _ g h => h.mono g) resourceMember_kept ms r t
    dsimp only
    generalize Reader.forChildren Reader.resourceMember r ms = p at h1 h2 h3 ⊢
    obtain ⟨r1, members⟩ := p
    dsimp only at h1 h2 h3 ⊢
    have hd : Kept r1 (r1.declareResource (identifier name)).1 := by
      unfold Reader.declareResource
      split
      · rename_i hf
        exact (newResource_kept h1 _ hf).1
      · split <;> exact heq rfl rfl h1
    split
    · rename_i he; rw [he] at hd; exact ⟨hd.1, h2.trans hd.2⟩
    · rename_i r2 id he
      rw [he] at hd
      dsimp only at hd
      refine ⟨?_, h2.trans hd.2⟩
      intro k i l x hk hl hx
      dsimp only at hk hl ⊢
      unfold Graph.locators at hl
      rw [List.getElem?_modify] at hl
      cases ho : r2.graph[i]? with
      | none => rw [ho] at hl; simp at hl
      | some res0 =>
        rw [ho] at hl
        simp only [Option.map_eq_map, Option.map_some] at hl
        have hold : ∀ l ∈ res0.locators, l.target = some x → ∃ k', r2.resources.find k' = some x := by
          intro l hl hx
          exact hd.1 k i l x hk (by unfold Graph.locators; rw [ho]; exact hl) hx
        by_cases e : id = i
        · simp only [if_pos e, addMembers_eq] at hl
          rcases mem_addMembers _ _ _ _ hl with h | h
          · exact hold l h hx
          · obtain ⟨l0, hl0, rfl⟩ := List.mem_map.mp h
            have hm : ResourceResult.locator l0 ∈ members := by
              unfold locatorResults at hl0
              obtain ⟨y, hy, he⟩ := List.mem_filterMap.mp hl0
              cases y with
              | method m => cases he
              | locator l => cases he; exact hy
            exact (h3 _ hm).mono hd.2 x hx
        · simp only [if_neg e] at hl
          exact hold l hl hx
  | error name doc as cs =>
    unfold Reader.decl Reader.errorDecl
    obtain ⟨h, -⟩ := forChildren_kept errorCode (fun _ _ => True) (fun _ _ _ _ _ => trivial)
      (fun r x t => by
        unfold Reader.errorCode
        split
        · exact ⟨⟨t, .refl _⟩, trivial⟩
        · exact ⟨heq rfl rfl t, trivial⟩) cs r t
    dsimp only
    generalize Reader.forChildren errorCode r cs = p at h ⊢
    obtain ⟨r1, codes⟩ := p
    dsimp only at h ⊢
    split
    · exact ⟨h.1, h.2⟩
    · exact ⟨h.1, h.2⟩

theorem loadFiles_targets (fs : List SourceFile) {r : Reader} (t : TargetsIn r.graph r.resources) :
    TargetsIn (fs.foldl loadFile r).graph (fs.foldl loadFile r).resources := by
  have h1 : ∀ (ps : List ReadProblem) (r : Reader), TargetsIn r.graph r.resources →
      TargetsIn (ps.foldl Reader.report r).graph (ps.foldl Reader.report r).resources := by
    intro ps
    induction ps with
    | nil => intro r g; exact g
    | cons p ps ih => intro r g; exact ih (r.report p) g
  have h2 : ∀ (ds : List Decl) (r : Reader), TargetsIn r.graph r.resources →
      TargetsIn (r.decls ds).graph (r.decls ds).resources := by
    intro ds
    induction ds with
    | nil => intro r g; exact g
    | cons d ds ih => intro r g; exact ih _ (decl_kept g d).1
  induction fs generalizing r with
  | nil => exact t
  | cons f fs ih =>
    apply ih
    unfold loadFile
    split
    · exact t
    · split
      · exact t
      · exact h2 _ _ (h1 _ _ t)

/-! ## The state of `Read` -/

/-- The targets of the locators of each version are resources of that version. -/
def SessionTargets (s : Session) : Prop :=
  ∀ a b v, s.version a b = some v → TargetsIn s.graph v.resources

theorem findOrCreateVersion_targets {s : Session} (t : SessionTargets s) (k : Text) (n : Name) :
    SessionTargets (s.findOrCreateVersion k n).1 := by
  unfold Session.findOrCreateVersion
  split
  · exact t
  · dsimp only
    intro a b v hv
    rcases store_cases hv with ⟨-, -, rfl⟩ | ⟨h, -⟩
    · exact fun _ _ _ _ h => (nomatch h)
    · rw [store_graph]
      exact t a b v h

theorem loadVersion_targets {s : Session} (i : ReadInv s) (t : SessionTargets s) (k : Text)
    (d : SourceVersion) (hk : (s.services.find k).isSome = true) : SessionTargets (loadVersion k s d) := by
  unfold loadVersion
  split
  · exact t
  · have h0 := findOrCreateVersion_targets t k (parseUsingSeparator d.name '_')
    have h1 := findOrCreateVersion_local i.locals i.model i.ok k (parseUsingSeparator d.name '_')
    obtain ⟨h2, -⟩ := findOrCreateVersion_ok i.ok k (parseUsingSeparator d.name '_')
    obtain ⟨h3, -, -, -, -, -, -, h4⟩ := findOrCreateVersion_good i.model k (parseUsingSeparator d.name '_')
    split
    · exact t
    · exact t
    · exact t
    · exact h0
    · have h4 := h4 hk
      generalize s.findOrCreateVersion k (parseUsingSeparator d.name '_') = p at h0 h1 h2 h3 h4 ⊢
      obtain ⟨s1, v⟩ := p
      dsimp only at h0 h1 h2 h3 h4 ⊢
      have hl := loadFiles_local d.files (h1.enter h3 h4)
      have ht := loadFiles_targets d.files (r := s1.enter v) (h0 _ _ v h4)
      generalize d.files.foldl loadFile (s1.enter v) = r at hl ht
      unfold Session.leave
      dsimp only
      intro a b x hx
      rw [store_graph]
      dsimp only
      rcases store_cases hx with ⟨-, -, rfl⟩ | ⟨hx, hne⟩
      · exact ht
      · have hx' : s1.version a b = some x := hx
        intro key id l target hf hloc htar
        have hlt := (h2.version hx').resources key id hf
        have hkeep := hl.keep id hlt fun key' hf' => by
          have e := h1.apart a b x k _ v hx' h4 key key' id hf hf'
          have := version_same h3 hx' h4 e
          exact hne ⟨this.1, by rw [this.2]; exact (version_named h3 h4).1.symm⟩
        refine h0 a b x hx' key id l target hf ?_ htar
        unfold Graph.locators at hloc ⊢
        rw [hkeep] at hloc
        exact hloc

theorem loadService_targets {s : Session} (i : ReadInv s) (t : SessionTargets s) (d : SourceService) :
    SessionTargets (loadService s d) := by
  have hver : ∀ n a b, (s.findOrCreateService n).version a b = s.version a b := by
    intro n a b
    unfold Session.findOrCreateService
    split
    · rfl
    · rename_i hf
      unfold Session.version
      dsimp only
      rw [GoMap.find_insert]
      split
      · rename_i e
        rw [← e, hf]
        rfl
      · rfl
  have hgr : ∀ n, (s.findOrCreateService n).graph = s.graph := by
    intro n
    unfold Session.findOrCreateService
    split <;> rfl
  have ht : ∀ n, SessionTargets (s.findOrCreateService n) := by
    intro n a b v hv
    rw [hver] at hv
    rw [hgr]
    exact t a b v hv
  have hi : ∀ n, ReadInv (s.findOrCreateService n) := by
    intro n
    refine ⟨findOrCreateService_modelGood i.model n, ?_, (findOrCreateService_local i n).1⟩
    unfold Session.findOrCreateService
    split
    · exact i.ok
    · refine ⟨i.ok.graph, i.ok.heap, ?_⟩
      intro k l m v hl hv
      dsimp only at hl
      rw [GoMap.find_insert] at hl
      split at hl
      · cases hl; cases hv
      · exact i.ok.versions k l m v hl hv
  have hl : ∀ (vs : List SourceVersion) (k : Text) (s : Session), ReadInv s → SessionTargets s →
      (s.services.find k).isSome = true → SessionTargets (vs.foldl (loadVersion k) s) := by
    intro vs
    induction vs with
    | nil => intro k s _ g _; exact g
    | cons v vs ih =>
      intro k s g t h
      exact ih _ _ (g.version k v h) (loadVersion_targets g t k v h) (loadVersion_some _ _ _ h)
  unfold loadService
  split
  · exact t
  · split
    · exact t
    · exact t
    · exact t
    · exact ht _
    · exact hl _ _ _ (hi _) (ht _) (findOrCreateService_local i _).2

theorem loadModels_targets (ms : List SourceModel) : SessionTargets (ms.foldl loadModel {}) := by
  have hs : ∀ (ds : List SourceService) (s : Session), ReadInv s → SessionTargets s →
      ReadInv (ds.foldl loadService s) ∧ SessionTargets (ds.foldl loadService s) := by
    intro ds
    induction ds with
    | nil => intro s g t; exact ⟨g, t⟩
    | cons d ds ih => intro s g t; exact ih _ (g.service d) (loadService_targets g t d)
  have hm : ∀ (ms : List SourceModel) (s : Session), ReadInv s → SessionTargets s →
      SessionTargets (ms.foldl loadModel s) := by
    intro ms
    induction ms with
    | nil => intro s _ t; exact t
    | cons m ms ih =>
      intro s g t
      have : ReadInv (loadModel s m) ∧ SessionTargets (loadModel s m) := by
        unfold loadModel
        split
        · exact hs _ _ g t
        · exact ⟨g.report _, t⟩
      exact ih _ this.1 this.2
  exact hm ms {} (loadModels_inv' []) (fun _ _ _ h => (nomatch h))

/-- The targets of the locators of a version of the model are resources of that version. -/
theorem load_targets (inputs : List SourceModel) : SessionTargets (Session.load inputs) := by
  intro a b v hv k id l t hf hl ht
  have e : (Session.load inputs).graph = Reader.resolveKinds
      (inputs.foldl loadModel {}).reportUndefined.complete.heap (inputs.foldl loadModel {}).graph := by
    have := complete_graph (inputs.foldl loadModel {}).reportUndefined
    exact (congrArg (Reader.resolveKinds _) this)
  obtain ⟨-, -, h3, h4⟩ := complete_good (undefined_good inputs)
  have hv' : (inputs.foldl loadModel {}).reportUndefined.complete.version a b = some v := hv
  cases hv0 : (inputs.foldl loadModel {}).reportUndefined.version a b with
  | none => rw [h3 a b hv0] at hv'; cases hv'
  | some v0 =>
    obtain ⟨v', a1, -, -, a4, -⟩ := (h4 a b).exists_ v0 hv0
    rw [hv'] at a1
    cases a1
    have hv0' : (inputs.foldl loadModel {}).version a b = some v0 := hv0
    rw [a4] at hf ⊢
    refine loadModels_targets inputs a b v0 hv0' k id l t hf ?_ ht
    rw [e] at hl
    unfold Graph.locators Reader.resolveKinds at hl
    rw [List.getElem?_map] at hl
    unfold Graph.locators
    cases hg : (inputs.foldl loadModel {}).graph[id]? with
    | none => rw [hg] at hl; cases hl
    | some res => rw [hg] at hl; exact hl

end Verif.Whole
