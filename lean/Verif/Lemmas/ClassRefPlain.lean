import Verif.Lemmas.ClassRef
import Verif.Lemmas.Session

/-! Without references the functions of `Verif.Model.ClassRef` are those of `Verif.Model.Session`. -/

namespace Verif

namespace ClassRef

open Reader

theorem referencePath_plain (as : List Annotation) (h : ∀ a ∈ as, a.name ≠ t!"ref") :
    referencePath as = [] := by
  unfold referencePath annotationText
  have : getAnnotation as t!"ref" = none := by
    unfold getAnnotation
    rw [List.find?_eq_none]
    intro a ha
    have := h a ha
    simpa using this
  rw [this]

theorem Apart.refl (h : Heap) : Apart h h :=
  ⟨Nat.le_refl _, fun _ _ => rfl, fun i c hi hc => by
    rw [List.getElem?_eq_none hi] at hc
    cases hc⟩

theorem Apart.append {h0 h : Heap} (ap : Apart h0 h) {cs : List TypeCell}
    (hc : ∀ c ∈ cs, c.annotations = [] ∧ c.explicitDeclared = false ∧ c.attributes = [] ∧
      ∀ e, c.element = some e → h0.length ≤ e) : Apart h0 (h ++ cs) := by
  refine ⟨Nat.le_trans ap.length (by simp), fun i hi => ?_, fun i c hi hget => ?_⟩
  · rw [List.getElem?_append_left (Nat.lt_of_lt_of_le hi ap.length)]; exact ap.old i hi
  · by_cases hlt : i < h.length
    · rw [List.getElem?_append_left hlt] at hget; exact ap.new i c hi hget
    · rw [List.getElem?_append_right (Nat.le_of_not_lt hlt)] at hget
      obtain ⟨h1, h2, h3, h4⟩ := hc c (List.mem_of_getElem? hget)
      rw [h1, h3]
      exact ⟨fun _ h => (nomatch h), h2, fun _ h => (nomatch h), h4⟩

theorem Apart.update {h0 h : Heap} (ap : Apart h0 h) {id : TypeId} (hid : h0.length ≤ id)
    {f : TypeCell → TypeCell}
    (hf : Edit (fun a => a.name ≠ t!"ref") (fun id => h0.length ≤ id) f) :
    Apart h0 (h.update id f) := by
  unfold Heap.update
  refine ⟨by simpa using ap.length, fun i hi => ?_, fun i c hi hget => ?_⟩
  · rw [List.getElem?_modify]
    have : id ≠ i := fun e => by subst e; exact absurd hid (Nat.not_le_of_lt hi)
    simp [this, ap.old i hi]
  · rw [List.getElem?_modify] at hget
    cases hc : h[i]? with
    | none => rw [hc] at hget; cases hget
    | some c0 =>
      rw [hc] at hget
      obtain ⟨h1, h2, h3, h4⟩ := ap.new i c0 hi hc
      by_cases he : id = i
      · simp [he] at hget
        subst hget
        refine ⟨fun a ha => ?_, by rw [hf.explicit]; exact h2, fun a ha => ?_, ?_⟩
        · rcases hf.annotations c0 a ha with h | h
          · exact h1 a h
          · exact h
        · rcases hf.attributes c0 a ha with h | h
          · exact h3 a h
          · exact h
        · rw [hf.element]; exact h4
      · simp [he] at hget
        subst hget
        exact ⟨h1, h2, h3, h4⟩

/-- The types of a version are new. -/
def NewTypes (h0 : Heap) (m : GoMap TypeId) : Prop := ∀ k id, m.find k = some id → h0.length ≤ id

/-- The version that is being loaded is apart from the given memory. -/
structure ReaderApart (h0 : Heap) (r : Reader) : Prop where
  heap : Apart h0 r.table.heap
  types : NewTypes h0 r.table.types

theorem apart_newType {h0 : Heap} {t : TypeTable} (ap : Apart h0 t.heap) (nt : NewTypes h0 t.types)
    {c : TypeCell} (h1 : c.annotations = []) (h2 : c.explicitDeclared = false)
    (h3 : c.attributes = []) (h4 : ∀ e, c.element = some e → h0.length ≤ e) :
    Apart h0 (t.newType c).1.heap ∧ NewTypes h0 (t.newType c).1.types := by
  rw [TypeTable.newType_eq]
  refine ⟨ap.append ?_, fun k id hf => ?_⟩
  · intro c' hc'
    rw [List.mem_singleton] at hc'; subst hc'
    exact ⟨h1, h2, h3, h4⟩
  · dsimp only at hf
    rw [GoMap.find_insert] at hf
    split at hf
    · cases hf; exact ap.length
    · exact nt k id hf

theorem plain_preserved (h0 : Heap) :
    PreservedFor (fun a => a.name ≠ t!"ref") (fun id => h0.length ≤ id) (ReaderApart h0) where
  found := fun _ _ _ h hf => h.types _ _ hf
  fresh := fun _ h => h.heap.length
  report := fun _ _ h => ⟨h.heap, h.types⟩
  newType := fun r c h _ h1 h2 h3 h4 =>
    have := apart_newType (t := r.table) (c := c) h.heap h.types h2 h1 h3 h4
    ⟨this.1, this.2⟩
  undefinedTypes := fun _ _ h => ⟨h.heap, h.types⟩
  undefinedResources := fun _ _ h => ⟨h.heap, h.types⟩
  heap := fun _ _ _ hid hf h => ⟨h.heap.update hid hf, h.types⟩
  newResource := fun _ _ h _ => ⟨h.heap, h.types⟩
  graph := fun _ _ _ _ h => ⟨h.heap, h.types⟩
  errors := fun _ _ _ h _ => ⟨h.heap, h.types⟩

theorem classDecl_plain (h : Handler) (s : RefReader) (n d : Text) (as : List Annotation)
    (ms : List MemberDecl) {h0 : Heap} (hp : ReaderApart h0 s.reader) (ha : ∀ a ∈ as, a.name ≠ t!"ref") :
    classDecl h s n d as ms = .done { s with reader := s.reader.structDecl .class n d as ms } := by
  have h1 := (plain_preserved h0).structMembers ms hp
  unfold classDecl Reader.structDecl
  dsimp only
  generalize Reader.forChildren structMember s.reader ms = p at h1 ⊢
  obtain ⟨r1, attrs⟩ := p
  dsimp only at h1 ⊢
  have h2 := (plain_preserved h0).declareType h1.1 .class (identifier n)
  split
  · rename_i he; rw [he]
  · rename_i r2 id he
    rw [he] at h2 ⊢
    dsimp only at h2 ⊢
    have h3 := (plain_preserved h0).completeType h2.1 (h2.2 id rfl) d ha [] h1.2
    rw [if_pos]
    cases hc : (r2.completeType id d as [] attrs).table.heap[id]? with
    | none => rfl
    | some c => exact referencePath_plain _ (h3.heap.new id c (h2.2 id rfl) hc).1

theorem decl_plain (h : Handler) (s : RefReader) (d : Decl) {h0 : Heap} (hp : ReaderApart h0 s.reader)
    (hd : DeclPlain d) : decl h s d = .done { s with reader := s.reader.decl d } := by
  cases d with
  | «class» n d as ms => exact classDecl_plain h s n d as ms hp hd
  | enum => rfl
  | struct => rfl
  | resource => rfl
  | error => rfl

theorem decls_plain (h : Handler) (h0 : Heap) (ds : List Decl) : ∀ (s : RefReader),
    ReaderApart h0 s.reader → (∀ d ∈ ds, DeclPlain d) →
    foldRun (decl h) s ds = .done { s with reader := s.reader.decls ds } := by
  induction ds with
  | nil => intro s _ _; rfl
  | cons d ds ih =>
    intro s hp hd
    unfold foldRun
    rw [decl_plain h s d hp (hd d (List.mem_cons_self ..))]
    simp only [Run.bind]
    rw [ih _ ((plain_preserved h0).decl hp d (hd d (List.mem_cons_self ..)))
      (fun d h => hd d (List.mem_cons_of_mem _ h))]
    rfl

theorem loadFile_plain (h : Handler) (s : RefReader) (f : SourceFile)
    {h0 : Heap} (hp : ReaderApart h0 s.reader) (hd : ∀ d ∈ f.decls, DeclPlain d) :
    loadFile h s f = .done { s with reader := Session.loadFile s.reader f } := by
  unfold loadFile Session.loadFile
  by_cases h1 : (!f.regular) = true
  · rw [if_pos h1, if_pos h1]
  · rw [if_neg h1, if_neg h1]
    by_cases h2 : (!f.readable) = true
    · rw [if_pos h2, if_pos h2]
    · rw [if_neg h2, if_neg h2]
      exact decls_plain h h0 _ _ ((plain_preserved h0).reports _ hp) hd

theorem loadFiles_plain (h : Handler) (h0 : Heap) (fs : List SourceFile) : ∀ (s : RefReader),
    ReaderApart h0 s.reader → (∀ f ∈ fs, ∀ d ∈ f.decls, DeclPlain d) →
    foldRun (loadFile h) s fs =
      .done { s with reader := fs.foldl Session.loadFile s.reader } := by
  induction fs with
  | nil => intro s _ _; rfl
  | cons f fs ih =>
    intro s hp hd
    unfold foldRun
    rw [loadFile_plain h s f hp (hd f (List.mem_cons_self ..))]
    simp only [Run.bind]
    rw [ih _ ((plain_preserved h0).loadFile hp f (hd f (List.mem_cons_self ..)))
      (fun d h => hd d (List.mem_cons_of_mem _ h))]
    rfl

theorem apart_newVersion {h0 h : Heap} (ap : Apart h0 h) (v : VersionId) :
    Apart h0 (TypeTable.newVersion h v).heap ∧ NewTypes h0 (TypeTable.newVersion h v).types := by
  rw [newVersion_eq]
  have hle := ap.length
  refine ⟨ap.append ?_, ?_⟩
  · unfold builtinCells
    simp
    omega
  · intro k id hf
    have : ∀ e ∈ builtinTable h.length, h.length ≤ e.2 := by
      unfold builtinTable
      simp
    exact Nat.le_trans hle (this _ (GoMap.find_some_mem hf))

/-- The model is apart from the given memory. -/
structure SessionApart (h0 : Heap) (s : Session) : Prop where
  heap : Apart h0 s.heap
  types : ∀ k l n v, s.services.find k = some l → l.versions.find n = some v → NewTypes h0 v.types

theorem SessionApart.congr {h0 : Heap} {s s' : Session} (g : SessionApart h0 s)
    (h1 : s'.services = s.services) (h2 : s'.heap = s.heap) : SessionApart h0 s' :=
  ⟨h2 ▸ g.heap, h1 ▸ g.types⟩

theorem SessionApart.store {h0 : Heap} {s : Session} (g : SessionApart h0 s) (k : Text)
    {v : LoadedVersion} (hv : NewTypes h0 v.types) : SessionApart h0 (s.store k v) := by
  refine ⟨by rw [store_heap]; exact g.heap, ?_⟩
  unfold Session.store
  cases hs : s.services.find k with
  | none => exact g.types
  | some l0 =>
    intro k' l n w hl hw
    dsimp only at hl
    rw [GoMap.find_insert] at hl
    split at hl
    · cases hl
      dsimp only at hw
      rw [GoMap.find_insert] at hw
      split at hw
      · cases hw; exact hv
      · exact g.types k l0 n w hs hw
    · exact g.types k' l n w hl hw

theorem apart_findOrCreateVersion {h0 : Heap} {s : Session} (g : SessionApart h0 s) (k : Text)
    (n : Name) : SessionApart h0 (s.findOrCreateVersion k n).1 ∧
      NewTypes h0 (s.findOrCreateVersion k n).2.types := by
  unfold Session.findOrCreateVersion
  split
  · rename_i v hv
    refine ⟨g, ?_⟩
    cases hs : s.services.find k with
    | none => rw [hs] at hv; cases hv
    | some l => rw [hs] at hv; exact g.types k l _ v hs hv
  · have h1 := apart_newVersion g.heap s.created
    generalize TypeTable.newVersion s.heap s.created = table at h1 ⊢
    dsimp only
    refine ⟨SessionApart.store (s := { s with created := s.created + 1, heap := table.heap }) ?_ k ?_,
      h1.2⟩
    · exact ⟨h1.1, g.types⟩
    · exact h1.2

theorem loadVersion_plain (h : Handler) (k : Text) (s : Session) (d : SourceVersion)
    {h0 : Heap} (hp : SessionApart h0 s) (hd : VersionPlain d) :
    loadVersion h k s d = .done (Session.loadVersion k s d) ∧
      SessionApart h0 (Session.loadVersion k s d) := by
  unfold loadVersion Session.loadVersion
  by_cases h1 : (!d.isDir) = true
  · rw [if_pos h1, if_pos h1]; exact ⟨rfl, hp⟩
  · rw [if_neg h1, if_neg h1]
    cases hs : d.status with
    | missing => exact ⟨rfl, hp.congr rfl rfl⟩
    | unknown => exact ⟨rfl, hp.congr rfl rfl⟩
    | notDirectory => exact ⟨rfl, hp.congr rfl rfl⟩
    | unlistable =>
      exact ⟨rfl, (apart_findOrCreateVersion hp _ _).1.congr rfl rfl⟩
    | good =>
      have h2 := apart_findOrCreateVersion hp k (parseUsingSeparator d.name '_')
      dsimp only
      generalize s.findOrCreateVersion k (parseUsingSeparator d.name '_') = p at h2 ⊢
      obtain ⟨s1, v⟩ := p
      dsimp only at h2 ⊢
      have h3 : ReaderApart h0 (s1.enter v) := ⟨h2.1.heap, h2.2⟩
      rw [loadFiles_plain h h0 d.files _ h3 hd]
      refine ⟨rfl, ?_⟩
      have h4 := (plain_preserved h0).loadFiles d.files hd h3
      unfold Session.leave
      refine SessionApart.store ?_ k ?_
      · exact ⟨h4.heap, h2.1.types⟩
      · exact h4.types

theorem loadVersions_plain (h : Handler) (k : Text) (h0 : Heap) (ds : List SourceVersion) : ∀ (s : Session),
    SessionApart h0 s → (∀ d ∈ ds, VersionPlain d) →
    foldRun (loadVersion h k) s ds = .done (ds.foldl (Session.loadVersion k) s) ∧
      SessionApart h0 (ds.foldl (Session.loadVersion k) s) := by
  induction ds with
  | nil => intro s hp _; exact ⟨rfl, hp.congr rfl rfl⟩
  | cons d ds ih =>
    intro s hp hd
    obtain ⟨h1, h2⟩ := loadVersion_plain h k s d hp (hd d (List.mem_cons_self ..))
    unfold foldRun
    rw [h1]
    exact ih _ h2 fun d h => hd d (List.mem_cons_of_mem _ h)

theorem loadService_plain (h : Handler) (s : Session) (d : SourceService)
    {h0 : Heap} (hp : SessionApart h0 s) (hd : ServicePlain d) :
    loadService h s d = .done (Session.loadService s d) ∧
      SessionApart h0 (Session.loadService s d) := by
  have hf : ∀ n, SessionApart h0 (s.findOrCreateService n) := by
    intro n
    unfold Session.findOrCreateService
    split
    · exact hp
    · refine ⟨hp.heap, fun k l m v hl hv => ?_⟩
      dsimp only at hl
      rw [GoMap.find_insert] at hl
      split at hl
      · cases hl; cases hv
      · exact hp.types k l m v hl hv
  unfold loadService Session.loadService
  by_cases h1 : (!d.isDir) = true
  · rw [if_pos h1, if_pos h1]; exact ⟨rfl, hp⟩
  · rw [if_neg h1, if_neg h1]
    cases hs : d.status with
    | missing => exact ⟨rfl, hp.congr rfl rfl⟩
    | unknown => exact ⟨rfl, hp.congr rfl rfl⟩
    | notDirectory => exact ⟨rfl, hp.congr rfl rfl⟩
    | unlistable =>
      exact ⟨rfl, (hf _).congr rfl rfl⟩
    | good => exact loadVersions_plain h _ _ _ _ (hf _) hd

theorem loadModel_plain (h : Handler) (s : Session) (d : SourceModel)
    {h0 : Heap} (hp : SessionApart h0 s) (hd : ModelPlain d) :
    loadModel h s d = .done (Session.loadModel s d) ∧
      SessionApart h0 (Session.loadModel s d) := by
  have services : ∀ (ds : List SourceService) (s : Session), SessionApart h0 s →
      (∀ d ∈ ds, ServicePlain d) →
      foldRun (loadService h) s ds = .done (ds.foldl Session.loadService s) ∧
        SessionApart h0 (ds.foldl Session.loadService s) := by
    intro ds
    induction ds with
    | nil => intro s hp _; exact ⟨rfl, hp⟩
    | cons d ds ih =>
      intro s hp hd
      obtain ⟨h1, h2⟩ := loadService_plain h s d hp (hd d (List.mem_cons_self ..))
      unfold foldRun
      rw [h1]
      exact ih _ h2 fun d h => hd d (List.mem_cons_of_mem _ h)
  unfold loadModel Session.loadModel
  cases hs : d.status with
  | missing => exact ⟨rfl, hp.congr rfl rfl⟩
  | unknown => exact ⟨rfl, hp.congr rfl rfl⟩
  | notDirectory => exact ⟨rfl, hp.congr rfl rfl⟩
  | unlistable => exact ⟨rfl, hp.congr rfl rfl⟩
  | good => exact services _ _ hp hd

theorem loadModels_plain (h : Handler) (h0 : Heap) (ds : List SourceModel) : ∀ (s : Session),
    SessionApart h0 s → (∀ d ∈ ds, ModelPlain d) →
    foldRun (loadModel h) s ds = .done (ds.foldl Session.loadModel s) := by
  induction ds with
  | nil => intro s _ _; rfl
  | cons d ds ih =>
    intro s hp hd
    obtain ⟨h1, h2⟩ := loadModel_plain h s d hp (hd d (List.mem_cons_self ..))
    unfold foldRun
    rw [h1]
    exact ih _ h2 fun d h => hd d (List.mem_cons_of_mem _ h)

end ClassRef

end Verif
