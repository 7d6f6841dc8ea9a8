import Verif.Lemmas.WholeTargets

/-! Helper lemmas: the names of the types of a version are those written in its sources. -/

namespace Verif.Whole

open Reader Session

/-- The names of the types of a version. -/
def NamesIn (N : Name → Prop) (h : Heap) (m : GoMap TypeId) : Prop :=
  ∀ (k : Text) (id : Nat) c, m.find k = some id → h[id]? = some c → N c.name

/-- The names of the types of the version that is being loaded. -/
def Named (N : Name → Prop) (r : Reader) : Prop := NamesIn N r.table.heap r.table.types

/-- The names that come from the sources of a version: those of the types that all the versions have,
those written, and those calculated for lists and maps. -/
inductive NameIn (ds : List Decl) : Name → Prop
  | builtin {n : Name} : n.toText ∈ builtinKeys → NameIn ds n
  | declared {d : Decl} {n : Name} : d ∈ ds → d.typeName = some n → NameIn ds n
  | mentioned {e : TypeExpr} {t : Text} : e ∈ refsOf ds → t ∈ e.names → NameIn ds (parseUsingCase t)
  | derived {e : TypeExpr} {n : Name} : e ∈ refsOf ds → e.isDerived = true → n.toText = e.key →
      NameIn ds n

variable {N : Name → Prop}

theorem NamesIn.newType {t : TypeTable} (h : NamesIn N t.heap t.types)
    (hb : ∀ k id, t.types.find k = some id → id < t.heap.length) (c : TypeCell) (hc : N c.name) :
    NamesIn N (t.newType c).1.heap (t.newType c).1.types := by
  rw [TypeTable.newType_eq]
  intro k id x hf hx
  dsimp only at hf hx
  rw [GoMap.find_insert] at hf
  split at hf
  · cases hf
    rw [List.getElem?_append_right (Nat.le_refl _)] at hx
    simp only [Nat.sub_self, List.getElem?_cons_zero, Option.some.injEq] at hx
    rw [← hx]
    exact hc
  · rw [List.getElem?_append_left (hb k id hf)] at hx
    exact h k id x hf hx

theorem NamesIn.update {h : Heap} {m : GoMap TypeId} (g : NamesIn N h m) (id : TypeId)
    (f : TypeCell → TypeCell) (hf : ∀ c, (f c).name = c.name) : NamesIn N (h.update id f) m := by
  intro k j x hk hx
  unfold Heap.update at hx
  rw [List.getElem?_modify] at hx
  cases ho : h[j]? with
  | none => rw [ho] at hx; simp at hx
  | some c =>
    rw [ho] at hx
    have := g k j c hk ho
    by_cases e : id = j
    · simp only [e, if_true, Option.map_eq_map, Option.map_some, Option.some.injEq] at hx
      rw [← hx, hf]
      exact this
    · simp only [e, if_false, Option.map_eq_map, Option.map_some, Option.some.injEq] at hx
      rw [← hx]
      exact this

theorem NamesIn.keeps {h h' : Heap} {v : VersionId} {m : GoMap TypeId} (g : NamesIn N h m)
    (t : TypesGood h v m) (k : KeepsNames h h') : NamesIn N h' m := by
  intro key id x hf hx
  obtain ⟨c, hc, -⟩ := t.named key id hf
  obtain ⟨c', hc', h1, -⟩ := k id c hc
  rw [hx] at hc'
  cases hc'
  rw [h1]
  exact g key id c hf hc

/-- The types are in the memory and their names are known. -/
def Known (N : Name → Prop) (r : Reader) : Prop :=
  Named N r ∧ ∀ k id, r.table.types.find k = some id → id < r.table.heap.length

theorem Known.newType {r : Reader} (h : Known N r) (c : TypeCell) (hc : N c.name) :
    Known N (r.newType c).1 := by
  unfold Reader.newType
  refine ⟨h.1.newType h.2 c hc, ?_⟩
  intro k id hf
  dsimp only at hf ⊢
  rw [TypeTable.newType_eq] at hf ⊢
  dsimp only at hf ⊢
  rw [GoMap.find_insert] at hf
  rw [List.length_append]
  split at hf
  · cases hf; simp
  · exact Nat.lt_of_lt_of_le (h.2 k id hf) (Nat.le_add_right _ _)

theorem Known.update {r : Reader} (h : Known N r) (id : TypeId) (f : TypeCell → TypeCell)
    (hf : ∀ c, (f c).name = c.name) :
    Known N { r with table := { r.table with heap := r.table.heap.update id f } } :=
  ⟨h.1.update id f hf, fun k j hj => by
    have := h.2 k j hj
    unfold Heap.update
    simpa using this⟩

theorem Known.congr {r r' : Reader} (h : Known N r) (e : r'.table = r.table) : Known N r' := by
  unfold Known Named
  rw [e]
  exact h

theorem Known.findOrCreateType {r : Reader} (h : Known N r) (n : Name) (hn : N n) :
    Known N (r.findOrCreateType n).1 := by
  unfold Reader.findOrCreateType
  split
  · exact h
  · exact (h.newType { name := n } hn).congr rfl

theorem Known.findOrCreateWith {r : Reader} (h : Known N r) (c : TypeCell) (hc : N c.name) :
    Known N (r.findOrCreateWith c).1 := by
  unfold Reader.findOrCreateWith
  split
  · exact h
  · exact h.newType c hc

/-- The names needed by a reference. -/
def RefNames (N : Name → Prop) (e : TypeExpr) : Prop :=
  (∀ t ∈ e.names, N (parseUsingCase t)) ∧ (e.isDerived = true → ∀ n : Name, n.toText = e.key → N n)

theorem Known.typeRef {r : Reader} (h : Known N r) (e : TypeExpr) (hn : ∀ t ∈ e.names, t ≠ [])
    (he : RefNames N e) : Known N (r.typeRef e).1 := by
  cases e with
  | plain n => exact h.findOrCreateType _ (he.1 n (by simp [TypeExpr.names]))
  | list n =>
    refine (h.findOrCreateType _ (he.1 n (by simp [TypeExpr.names]))).findOrCreateWith _ ?_
    exact he.2 rfl _ (listKey_eq n (hn n (by simp [TypeExpr.names])))
  | map i n =>
    refine ((h.findOrCreateType _ (he.1 i (by simp [TypeExpr.names]))).findOrCreateType _
      (he.1 n (by simp [TypeExpr.names]))).findOrCreateWith _ ?_
    exact he.2 rfl _ (mapKey_eq i n (hn i (by simp [TypeExpr.names])) (hn n (by simp [TypeExpr.names])))

theorem Known.forChildren {α β : Type} (f : Reader → α → Reader × β) (xs : List α)
    (hf : ∀ x ∈ xs, ∀ r, Known N r → Known N (f r x).1) {r : Reader} (h : Known N r) :
    Known N (Reader.forChildren f r xs).1 := by
  induction xs generalizing r with
  | nil => exact h
  | cons x xs ih =>
    exact ih (fun y hy => hf y (List.mem_cons_of_mem _ hy)) (hf x List.mem_cons_self r h)

theorem Known.declareType {r : Reader} (h : Known N r) (kind : Kind) (n : Name) (hn : N n) :
    Known N (r.declareType kind n).1 := by
  unfold Reader.declareType
  split
  · exact h.newType { name := n, kind := kind } hn
  · split
    · exact (h.update _ (fun c => { c with kind := kind }) fun _ => rfl).congr rfl
    · exact h.congr rfl

theorem Known.completeType {r : Reader} (h : Known N r) (id : TypeId) (doc : Text)
    (as : List Annotation) (vs : List EnumValue) (ats : List Attribute) :
    Known N (r.completeType id doc as vs ats) := by
  unfold Reader.completeType
  exact h.update _ _ fun _ => rfl

theorem Known.decl {r : Reader} (h : Known N r) (d : Decl)
    (hn : ∀ e ∈ d.typeRefs, (∀ t ∈ e.names, t ≠ []) ∧ RefNames N e)
    (hd : ∀ n, d.typeName = some n → N n) : Known N (r.decl d) := by
  have hstruct : ∀ kind (name doc : Text) as (ms : List MemberDecl),
      (∀ e ∈ ms.map (·.ref), (∀ t ∈ e.names, t ≠ []) ∧ RefNames N e) → N (parseUsingCase name) →
      Known N (r.structDecl kind name doc as ms) := by
    intro kind name doc as ms hms hname
    unfold Reader.structDecl
    have hs : Known N (Reader.forChildren Reader.structMember r ms).1 :=
      h.forChildren Reader.structMember ms fun m hm r hr => by
        obtain ⟨h1, h2⟩ := hms m.ref (List.mem_map.mpr ⟨m, hm, rfl⟩)
        exact hr.typeRef m.ref h1 h2
    dsimp only
    generalize Reader.forChildren Reader.structMember r ms = p at hs ⊢
    obtain ⟨r1, ats⟩ := p
    dsimp only at hs ⊢
    have hd := hs.declareType kind (identifier name) hname
    split
    · rename_i he; rw [he] at hd; exact hd
    · rename_i he; rw [he] at hd; exact Known.completeType hd _ _ _ _ _
  cases d with
  | enum name doc as vs =>
    unfold Reader.decl Reader.enumDecl
    have hd := h.declareType .enum (identifier name) (hd _ rfl)
    dsimp only
    split
    · rename_i he; rw [he] at hd; exact hd
    · rename_i he; rw [he] at hd; exact Known.completeType hd _ _ _ _ _
  | «class» name doc as ms => exact hstruct _ _ _ _ _ hn (hd _ rfl)
  | struct name doc as ms => exact hstruct _ _ _ _ _ hn (hd _ rfl)
  | resource name doc as ms =>
    unfold Reader.decl Reader.resourceDecl
    have hs : Known N (Reader.forChildren Reader.resourceMember r ms).1 :=
      h.forChildren Reader.resourceMember ms fun m hm r hr => by
        cases m with
        | method m =>
          unfold Reader.resourceMember Reader.methodDecl
          exact hr.forChildren Reader.methodParameter m.parameters fun p hp r hr => by
            obtain ⟨h1, h2⟩ := hn p.ref (List.mem_flatMap.mpr ⟨_, hm, List.mem_map.mpr ⟨p, hp, rfl⟩⟩)
            exact hr.typeRef p.ref h1 h2
        | locator l =>
          have := hr.forChildren Reader.locatorMember l.members fun x _ r hr => by
            cases x with
            | target n =>
              refine hr.congr ?_
              unfold Reader.locatorMember Reader.resourceRef
              dsimp only
              split <;> rfl
            | variableName n => exact hr
          unfold Reader.resourceMember Reader.locatorDecl
          dsimp only
          split
          · exact this.congr rfl
          · exact this
    dsimp only
    generalize Reader.forChildren Reader.resourceMember r ms = p at hs ⊢
    obtain ⟨r1, members⟩ := p
    dsimp only at hs ⊢
    have hd : Known N (r1.declareResource (identifier name)).1 := by
      unfold Reader.declareResource
      split
      · exact hs.congr rfl
      · split <;> exact hs.congr rfl
    split
    · rename_i he; rw [he] at hd; exact hd
    · rename_i he; rw [he] at hd; exact hd.congr rfl
  | error name doc as cs =>
    unfold Reader.decl Reader.errorDecl
    have := h.forChildren Reader.errorCode cs fun x _ r hr => by
      unfold Reader.errorCode
      split
      · exact hr
      · exact hr.congr rfl
    dsimp only
    split
    · exact this.congr rfl
    · exact this.congr rfl

theorem Known.loadFiles (fs : List SourceFile) {r : Reader} (h : Known N r)
    (hn : ∀ f ∈ fs, f.regular = true → ∀ d ∈ f.decls, (∀ e ∈ d.typeRefs, (∀ t ∈ e.names, t ≠ []) ∧ RefNames N e) ∧
      ∀ n, d.typeName = some n → N n) :
    Known N (fs.foldl loadFile r) := by
  have h1 : ∀ (ps : List ReadProblem) (r : Reader), Known N r → Known N (ps.foldl Reader.report r) := by
    intro ps
    induction ps with
    | nil => intro r g; exact g
    | cons p ps ih => intro r g; exact ih _ (Known.congr g rfl)
  have h2 : ∀ (ds : List Decl) (r : Reader),
      (∀ d ∈ ds, (∀ e ∈ d.typeRefs, (∀ t ∈ e.names, t ≠ []) ∧ RefNames N e) ∧
        ∀ n, d.typeName = some n → N n) → Known N r → Known N (r.decls ds) := by
    intro ds
    induction ds with
    | nil => intro r _ g; exact g
    | cons d ds ih =>
      intro r hd g
      obtain ⟨a, b⟩ := hd d List.mem_cons_self
      exact ih _ (fun d hd' => hd d (List.mem_cons_of_mem _ hd')) (Known.decl g d a b)
  induction fs generalizing r with
  | nil => exact h
  | cons f fs ih =>
    apply ih
    · unfold loadFile
      split
      · exact h
      · rename_i hreg
        split
        · exact h.congr rfl
        · exact h2 _ _ (hn f List.mem_cons_self (by simpa using hreg)) (h1 _ _ h)
    · exact fun f hf => hn f (List.mem_cons_of_mem _ hf)

/-! ## The state of `Read` -/

theorem newVersion_named (h : Heap) (v : VersionId) (hb : ∀ n : Name, n.toText ∈ builtinKeys → N n) :
    NamesIn N (TypeTable.newVersion h v).heap (TypeTable.newVersion h v).types := by
  have step : ∀ (t : TypeTable) kind (n : Name), n.toText ∈ builtinKeys →
      (Name.cat [n, Nom.list]).toText ∈ builtinKeys →
      (NamesIn N t.heap t.types ∧ ∀ k id, t.types.find k = some id → id < t.heap.length) →
      (NamesIn N (t.addBuiltin kind n).heap (t.addBuiltin kind n).types ∧
        ∀ k id, (t.addBuiltin kind n).types.find k = some id → id < (t.addBuiltin kind n).heap.length) := by
    intro t kind n h1 h2 g
    have a : Known N ({ table := t } : Reader) := g
    have b := a.newType { name := n, kind := kind } (hb _ h1)
    exact Known.newType b { name := Name.cat [n, Nom.list], kind := .list
                            «element» := some (t.newType { name := n, kind := kind }).2 } (hb _ h2)
  unfold TypeTable.newVersion
  dsimp only
  refine (step _ _ _ (by decide) (by decide) (step _ _ _ (by decide) (by decide) (step _ _ _ (by decide)
    (by decide) (step _ _ _ (by decide) (by decide) (step _ _ _ (by decide) (by decide) (step _ _ _
    (by decide) (by decide) (step _ _ _ (by decide) (by decide) ⟨?_, ?_⟩))))))).1
  · exact fun _ _ _ h => (nomatch h)
  · exact fun _ _ h => (nomatch h)

/-- The names of the types of all the versions. -/
def SessionNames (P : Text → Text → Name → Prop) (s : Session) : Prop :=
  ∀ a b v, s.version a b = some v → NamesIn (P a b) s.heap v.types

variable {P : Text → Text → Name → Prop}

theorem findOrCreateVersion_names {s : Session} (m : ModelGood s) (t : SessionNames P s)
    (hb : ∀ a b, ∀ n : Name, n.toText ∈ builtinKeys → P a b n) (k : Text) (n : Name) :
    SessionNames P (s.findOrCreateVersion k n).1 := by
  unfold Session.findOrCreateVersion
  split
  · exact t
  · obtain ⟨-, hk⟩ := newVersion_good s.heap s.created
    have hn := fun a b => newVersion_named s.heap s.created (hb a b)
    generalize TypeTable.newVersion s.heap s.created = table at hk hn
    dsimp only
    intro a b v hv
    rcases store_cases hv with ⟨-, -, rfl⟩ | ⟨h, -⟩
    · rw [store_heap]
      exact hn a b
    · rw [store_heap]
      exact (t a b v h).keeps (version_named m h).2.2 hk

/-- The names of the declarations of a directory. -/
def DirNames (N : Name → Prop) (ds : List Decl) : Prop :=
  ∀ d ∈ ds, (∀ e ∈ d.typeRefs, (∀ t ∈ e.names, t ≠ []) ∧ RefNames N e) ∧ ∀ n, d.typeName = some n → N n

theorem loadVersion_names {s : Session} (i : ReadInv s) (t : SessionNames P s)
    (hb : ∀ a b, ∀ n : Name, n.toText ∈ builtinKeys → P a b n) (k : Text)
    (d : SourceVersion) (hk : (s.services.find k).isSome = true)
    (hd : d.isDir = true → DirNames (P k (dirKey d.name)) d.decls) :
    SessionNames P (loadVersion k s d) := by
  unfold loadVersion
  split
  · exact t
  · rename_i hdir
    have hd := hd (by simpa using hdir)
    have h0 := findOrCreateVersion_names i.model t hb k (parseUsingSeparator d.name '_')
    have h1 := findOrCreateVersion_local i.locals i.model i.ok k (parseUsingSeparator d.name '_')
    obtain ⟨h3, -, -, h5, -, h6, -, h4⟩ := findOrCreateVersion_good i.model k (parseUsingSeparator d.name '_')
    split
    · exact t
    · exact t
    · exact t
    · exact h0
    · have h4 := h4 hk
      generalize s.findOrCreateVersion k (parseUsingSeparator d.name '_') = p at h0 h1 h3 h4 h5 h6 ⊢
      obtain ⟨s1, v⟩ := p
      dsimp only at h0 h1 h3 h4 h5 h6 ⊢
      have hl := loadFiles_local d.files (h1.enter h3 h4)
      have ht : Known (P k (dirKey d.name)) (d.files.foldl loadFile (s1.enter v)) := by
        refine Known.loadFiles d.files ⟨h0 _ _ v h4, ?_⟩ ?_
        · intro key id hf
          obtain ⟨c, hc, -⟩ := h6.named key id hf
          exact (List.getElem?_eq_some_iff.mp hc).1
        · intro f hf hreg x hx
          exact hd x (List.mem_flatMap.mpr ⟨f, List.mem_filter.mpr ⟨hf, hreg⟩, hx⟩)
      generalize d.files.foldl loadFile (s1.enter v) = r at hl ht
      unfold Session.leave
      dsimp only
      intro a b x hx
      rw [store_heap]
      dsimp only
      rcases store_cases hx with ⟨e1, e2, rfl⟩ | ⟨hx, hne⟩
      · subst e1
        have : b = dirKey d.name := e2.trans h5
        subst this
        exact ht.1
      · have hx' : s1.version a b = some x := hx
        exact (h0 a b x hx').keeps (version_named h3 hx').2.2 hl.table.keeps

theorem loadService_names {s : Session} (i : ReadInv s) (t : SessionNames P s)
    (hb : ∀ a b, ∀ n : Name, n.toText ∈ builtinKeys → P a b n) (d : SourceService)
    (hd : d.isDir = true → ∀ v ∈ d.versions, v.isDir = true →
      DirNames (P (dirKey d.name) (dirKey v.name)) v.decls) :
    SessionNames P (loadService s d) := by
  have hver : ∀ n a b, (s.findOrCreateService n).version a b = s.version a b := by
    intro n a b
    unfold Session.findOrCreateService
    split
    · rfl
    · rename_i hf
      unfold Session.version
      dsimp only
      rw [GoMap.find_insert]
      split
      · rename_i e
        rw [← e, hf]
        rfl
      · rfl
  have hgr : ∀ n, (s.findOrCreateService n).heap = s.heap := by
    intro n
    unfold Session.findOrCreateService
    split <;> rfl
  have ht : ∀ n, SessionNames P (s.findOrCreateService n) := by
    intro n a b v hv
    rw [hver] at hv
    rw [hgr]
    exact t a b v hv
  have hi : ∀ n, ReadInv (s.findOrCreateService n) := by
    intro n
    refine ⟨findOrCreateService_modelGood i.model n, ?_, (findOrCreateService_local i n).1⟩
    unfold Session.findOrCreateService
    split
    · exact i.ok
    · refine ⟨i.ok.graph, i.ok.heap, ?_⟩
      intro k l m v hl hv
      dsimp only at hl
      rw [GoMap.find_insert] at hl
      split at hl
      · cases hl; cases hv
      · exact i.ok.versions k l m v hl hv
  have hl : ∀ (vs : List SourceVersion) (k : Text) (s : Session), ReadInv s → SessionNames P s →
      (s.services.find k).isSome = true →
      (∀ v ∈ vs, v.isDir = true → DirNames (P k (dirKey v.name)) v.decls) →
      SessionNames P (vs.foldl (loadVersion k) s) := by
    intro vs
    induction vs with
    | nil => intro k s _ g _ _; exact g
    | cons v vs ih =>
      intro k s g t h hvs
      exact ih _ _ (g.version k v h) (loadVersion_names g t hb k v h (hvs v List.mem_cons_self))
        (loadVersion_some _ _ _ h) (fun v hv => hvs v (List.mem_cons_of_mem _ hv))
  unfold loadService
  split
  · exact t
  · rename_i hdir
    split
    · exact t
    · exact t
    · exact t
    · exact ht _
    · exact hl _ _ _ (hi _) (ht _) (findOrCreateService_local i _).2 (hd (by simpa using hdir))

theorem loadModels_names (ms : List SourceModel)
    (hb : ∀ a b, ∀ n : Name, n.toText ∈ builtinKeys → P a b n)
    (hd : ∀ a b ds, (a, b, ds) ∈ versionDirs ms → DirNames (P a b) ds) :
    SessionNames P (ms.foldl loadModel {}) := by
  have hs : ∀ (ds : List SourceService) (s : Session), ReadInv s → SessionNames P s →
      (∀ d ∈ ds, d.isDir = true → ∀ v ∈ d.versions, v.isDir = true →
        DirNames (P (dirKey d.name) (dirKey v.name)) v.decls) →
      ReadInv (ds.foldl loadService s) ∧ SessionNames P (ds.foldl loadService s) := by
    intro ds
    induction ds with
    | nil => intro s g t _; exact ⟨g, t⟩
    | cons d ds ih =>
      intro s g t h
      exact ih _ (g.service d) (loadService_names g t hb d (h d List.mem_cons_self))
        (fun d hd => h d (List.mem_cons_of_mem _ hd))
  have hm : ∀ (ms : List SourceModel) (s : Session), ReadInv s → SessionNames P s →
      (∀ m ∈ ms, ∀ d ∈ m.services, d.isDir = true → ∀ v ∈ d.versions, v.isDir = true →
        DirNames (P (dirKey d.name) (dirKey v.name)) v.decls) →
      SessionNames P (ms.foldl loadModel s) := by
    intro ms
    induction ms with
    | nil => intro s _ t _; exact t
    | cons m ms ih =>
      intro s g t h
      have : ReadInv (loadModel s m) ∧ SessionNames P (loadModel s m) := by
        unfold loadModel
        split
        · exact hs _ _ g t (h m List.mem_cons_self)
        · exact ⟨g.report _, t⟩
      exact ih _ this.1 this.2 (fun m hm => h m (List.mem_cons_of_mem _ hm))
  refine hm ms {} (loadModels_inv' []) (fun _ _ _ h => (nomatch h)) ?_
  intro m hmem d hdm hdir v hv hvd
  refine hd _ _ _ (List.mem_flatMap.mpr ⟨m, hmem, List.mem_flatMap.mpr ⟨d, ?_, ?_⟩⟩)
  · exact List.mem_filter.mpr ⟨hdm, hdir⟩
  · exact List.mem_map.mpr ⟨v, List.mem_filter.mpr ⟨hv, hvd⟩, rfl⟩

/-- The names of the types of a version are those written in its sources, except for the lists added at
the end. -/
theorem load_names (inputs : List SourceModel)
    (hw : ∀ a b ds, (a, b, ds) ∈ versionDirs inputs → WellNamed ds) {a b : Text} {v : LoadedVersion}
    (hv : (Session.load inputs).version a b = some v) {k : Text} {id : Nat} {c : TypeCell}
    (hf : v.types.find k = some id) (hc : (Session.load inputs).heap[id]? = some c) :
    NameIn (versionDecls (versionDirs inputs) a b) c.name ∨ c.kind = .list := by
  have h1 : SessionNames (fun a b => NameIn (versionDecls (versionDirs inputs) a b))
      (inputs.foldl loadModel {}) := by
    refine loadModels_names inputs (fun a b n h => .builtin h) ?_
    intro a b ds hm d hd
    have hd' : ∀ e ∈ d.typeRefs, e ∈ refsOf (versionDecls (versionDirs inputs) a b) := by
      intro e he
      refine List.mem_flatMap.mpr ⟨d, ?_, he⟩
      unfold versionDecls
      exact List.mem_flatMap.mpr ⟨_, List.mem_filter.mpr ⟨hm, by simp⟩, hd⟩
    refine ⟨fun e he => ⟨?_, ?_, ?_⟩, ?_⟩
    · exact hw a b ds hm e (List.mem_flatMap.mpr ⟨d, hd, he⟩)
    · exact fun t ht => .mentioned (hd' e he) ht
    · exact fun hder n hn => .derived (hd' e he) hder hn
    · intro n hn
      refine .declared (d := d) ?_ hn
      unfold versionDecls
      exact List.mem_flatMap.mpr ⟨_, List.mem_filter.mpr ⟨hm, by simp⟩, hd⟩
  have g := undefined_good inputs
  obtain ⟨-, h2, h3, h4⟩ := complete_good g
  have hv' : (inputs.foldl loadModel {}).reportUndefined.complete.version a b = some v := hv
  cases hv0 : (inputs.foldl loadModel {}).reportUndefined.version a b with
  | none => rw [h3 a b hv0] at hv'; cases hv'
  | some v0 =>
    obtain ⟨v', a1, -, -, -, -, -, -, a2⟩ := (h4 a b).exists_ v0 hv0
    rw [hv'] at a1
    cases a1
    have hc' : (inputs.foldl loadModel {}).reportUndefined.complete.heap[id]? = some c := hc
    rcases a2 k id hf with h5 | ⟨-, k0, id0, c0, -, -, -, -, h6⟩
    · left
      obtain ⟨c0, hc0, -⟩ := (version_named g hv0).2.2.named k id h5
      have := h2 id c0 hc0
      rw [hc'] at this
      cases this
      exact h1 a b v0 hv0 k id c h5 hc0
    · right
      rw [hc'] at h6
      cases h6
      rfl

end Verif.Whole
