import Verif.Lemmas.ReaderResources

/-! Helper lemmas about the reader: the state after reading a list of declarations. -/

namespace Verif

open Reader

/-! ## The state at the start of a version -/

/-- A state from which the declarations of a version can be read. -/
structure Base (nb ng : Nat → Prop) (v : VersionId) (r : Reader) : Prop where
  wf : WF nb ng r
  version : r.table.version = v
  keys : ∀ k, (r.typeView k).isSome = true ↔ k ∈ builtinKeys
  view : ∀ k x, r.typeView k = some x → BuiltinView v k x
  undef : r.undefinedTypes = []
  rundef : r.undefinedResources = []
  resources : r.resources = []
  errors : r.errors = []
  problems : r.problems = []

theorem builtinTable_keys (n : Nat) : ∀ k, k ∈ (builtinTable n).map Prod.fst ↔ k ∈ builtinKeys := by
  intro k
  have e : (builtinTable n).map Prod.fst = (builtinTable 0).map Prod.fst := rfl
  rw [e]
  constructor
  · have all : ∀ k ∈ (builtinTable 0).map Prod.fst, k ∈ builtinKeys := by decide
    exact all k
  · have all : ∀ k ∈ builtinKeys, k ∈ (builtinTable 0).map Prod.fst := by decide
    exact all k

theorem start_keys (h : Heap) (g : Graph) (v : VersionId) (hc : ∀ c ∈ h, CellClosed h.length c)
    (hg : ∀ res ∈ g, ResourceClosed h.length g.length res) (k : Text) :
    ((startReader h g v).typeView k).isSome = true ↔ k ∈ builtinKeys := by
  have hn := typeView_none (wf_start h g v hc hg) k
  rw [start_table] at hn
  have h1 : ((startReader h g v).typeView k).isSome = true ↔
      (builtinTable h.length).find k ≠ none := by
    cases hv : (startReader h g v).typeView k with
    | none => simp [hn.mp hv]
    | some v =>
      simp only [Option.isSome_some, true_iff]
      intro hf
      rw [hn.mpr hf] at hv
      cases hv
  rw [h1, Ne, GoMap.find_none]
  unfold GoMap.keys
  rw [Decidable.not_not, builtinTable_keys]

theorem start_scalar (h : Heap) (g : Graph) (v : VersionId) (k : Text) (id : TypeId)
    (hf : (builtinTable h.length).find k = some (h.length + id)) (c : TypeCell)
    (hcell : (builtinCells v h.length)[id]? = some c) :
    (startReader h g v).typeView k = some (View.ofCell (h ++ builtinCells v h.length) c) := by
  unfold Reader.typeView
  rw [start_table]
  dsimp only
  rw [hf, Option.bind_some, List.getElem?_append_right (Nat.le_add_right _ _),
    Nat.add_sub_cancel_left, hcell]
  rfl

theorem start_name (h : Heap) (v : VersionId) (id : Nat) (c : TypeCell)
    (hcell : (builtinCells v h.length)[id]? = some c) :
    View.typeKey (h ++ builtinCells v h.length) (h.length + id) = c.name.toText := by
  unfold View.typeKey
  rw [List.getElem?_append_right (Nat.le_add_right _ _), Nat.add_sub_cancel_left, hcell]

theorem start_list (h : Heap) (v : VersionId) (id : Nat) (c : TypeCell)
    (hcell : (builtinCells v h.length)[id]? = some c) (k : Text) (hk : c.name.toText = k)
    (name : Name) :
    View.ofCell (h ++ builtinCells v h.length)
      { name := name, kind := .list, element := some (h.length + id), owner := some v } =
      { TypeView.unknown v with kind := .list, element := some k } := by
  unfold View.ofCell
  simp only [Option.map_some, start_name h v id c hcell, hk]
  rfl

theorem start_view (h : Heap) (g : Graph) (v : VersionId) (hc : ∀ c ∈ h, CellClosed h.length c)
    (hg : ∀ res ∈ g, ResourceClosed h.length g.length res) (k : Text) (x : TypeView)
    (hx : (startReader h g v).typeView k = some x) : BuiltinView v k x := by
  have hk := (start_keys h g v hc hg k).mp (by rw [hx]; rfl)
  simp only [builtinKeys, builtinScalars, List.map_cons, List.map_nil, List.cons_append,
    List.nil_append, List.mem_cons, List.not_mem_nil, or_false] at hk
  rcases hk with e | e | e | e | e | e | e | e | e | e | e | e | e | e <;> subst e
  · rw [start_scalar h g v t!"boolean" 0 rfl _ rfl] at hx
    exact ⟨(t!"boolean", .scalar), by decide, .inl ⟨rfl, (Option.some.inj hx).symm⟩⟩
  · rw [start_scalar h g v t!"integer" 2 rfl _ rfl] at hx
    exact ⟨(t!"integer", .scalar), by decide, .inl ⟨rfl, (Option.some.inj hx).symm⟩⟩
  · rw [start_scalar h g v t!"long" 4 rfl _ rfl] at hx
    exact ⟨(t!"long", .scalar), by decide, .inl ⟨rfl, (Option.some.inj hx).symm⟩⟩
  · rw [start_scalar h g v t!"float" 6 rfl _ rfl] at hx
    exact ⟨(t!"float", .scalar), by decide, .inl ⟨rfl, (Option.some.inj hx).symm⟩⟩
  · rw [start_scalar h g v t!"string" 8 rfl _ rfl] at hx
    exact ⟨(t!"string", .scalar), by decide, .inl ⟨rfl, (Option.some.inj hx).symm⟩⟩
  · rw [start_scalar h g v t!"date" 10 rfl _ rfl] at hx
    exact ⟨(t!"date", .scalar), by decide, .inl ⟨rfl, (Option.some.inj hx).symm⟩⟩
  · rw [start_scalar h g v t!"interface" 12 rfl _ rfl] at hx
    exact ⟨(t!"interface", .interface), by decide, .inl ⟨rfl, (Option.some.inj hx).symm⟩⟩
  · rw [start_scalar h g v t!"boolean_list" 1 rfl _ rfl] at hx
    refine ⟨(t!"boolean", .scalar), by decide, .inr ⟨rfl, (Option.some.inj hx).symm.trans ?_⟩⟩
    exact start_list h v 0 _ rfl _ (by dsimp only; decide) _
  · rw [start_scalar h g v t!"integer_list" 3 rfl _ rfl] at hx
    refine ⟨(t!"integer", .scalar), by decide, .inr ⟨rfl, (Option.some.inj hx).symm.trans ?_⟩⟩
    exact start_list h v 2 _ rfl _ (by dsimp only; decide) _
  · rw [start_scalar h g v t!"long_list" 5 rfl _ rfl] at hx
    refine ⟨(t!"long", .scalar), by decide, .inr ⟨rfl, (Option.some.inj hx).symm.trans ?_⟩⟩
    exact start_list h v 4 _ rfl _ (by dsimp only; decide) _
  · rw [start_scalar h g v t!"float_list" 7 rfl _ rfl] at hx
    refine ⟨(t!"float", .scalar), by decide, .inr ⟨rfl, (Option.some.inj hx).symm.trans ?_⟩⟩
    exact start_list h v 6 _ rfl _ (by dsimp only; decide) _
  · rw [start_scalar h g v t!"string_list" 9 rfl _ rfl] at hx
    refine ⟨(t!"string", .scalar), by decide, .inr ⟨rfl, (Option.some.inj hx).symm.trans ?_⟩⟩
    exact start_list h v 8 _ rfl _ (by dsimp only; decide) _
  · rw [start_scalar h g v t!"date_list" 11 rfl _ rfl] at hx
    refine ⟨(t!"date", .scalar), by decide, .inr ⟨rfl, (Option.some.inj hx).symm.trans ?_⟩⟩
    exact start_list h v 10 _ rfl _ (by dsimp only; decide) _
  · rw [start_scalar h g v t!"interface_list" 13 rfl _ rfl] at hx
    refine ⟨(t!"interface", .interface), by decide, .inr ⟨rfl, (Option.some.inj hx).symm.trans ?_⟩⟩
    exact start_list h v 12 _ rfl _ (by dsimp only; decide) _

theorem base_start (h : Heap) (g : Graph) (v : VersionId) (hc : ∀ c ∈ h, CellClosed h.length c)
    (hg : ∀ res ∈ g, ResourceClosed h.length g.length res) :
    Base (· < h.length) (· < g.length) v (startReader h g v) :=
  ⟨wf_start h g v hc hg, by rw [start_table], start_keys h g v hc hg, start_view h g v hc hg,
    rfl, rfl, rfl, rfl, rfl⟩

theorem base_fresh : Base (· < 0) (· < 0) 0 Reader.fresh :=
  base_start [] [] 0 (fun _ h => nomatch h) (fun _ h => nomatch h)

theorem fresh_keys (k : Text) : (Reader.fresh.typeView k).isSome = true ↔ k ∈ builtinKeys :=
  base_fresh.keys k

theorem fresh_view (k : Text) (v : TypeView) (h : Reader.fresh.typeView k = some v) :
    BuiltinView 0 k v := base_fresh.view k v h

theorem builtinView_kind {o : VersionId} {k : Text} {v : TypeView} (h : BuiltinView o k v) :
    v.kind ≠ .undefined := by
  obtain ⟨b, hb, h | h⟩ := h
  · have : ∀ b ∈ builtinScalars, b.2 ≠ .undefined := by decide
    rw [h.2]; exact this b hb
  · rw [h.2]; simp

section

variable {nb ng : Nat → Prop} {v : VersionId} {r : Reader} (b : Base nb ng v r)
include b

theorem Base.tinv0 : TInv v r.typeView {} (abs r).t := by
  refine ⟨?_, ?_, ?_, ?_, ?_, ?_, ?_, ?_, ?_⟩
  · intro k; simp [AState.t, abs]
  · intro k h; simp [AState.t, abs, b.undef, GoMap.find] at h
  · intro k x h _
    exact builtinView_kind (b.view k x h)
  · intro k x h; exact .inl h
  · intro k x h; exact ⟨h, by simp [AState.t, abs, b.undef, GoMap.find]⟩
  · intro k h; simp [AState.t, abs, b.undef, GoMap.find] at h
  · intro d hd; cases hd
  · intro _; exact ⟨by simp, by simp⟩
  · intro n hn; simp [AState.t, abs, b.problems, typeDups] at hn

theorem Base.rinv0 : RInv [] [] (abs r).r := by
  refine ⟨fun k => ?_, fun k => ?_, fun k x h => ?_⟩
  · simp [AState.r, abs, Reader.resourceView, b.resources, GoMap.find]
  · simp [AState.r, abs, b.rundef, GoMap.find]
  · simp [AState.r, abs, Reader.resourceView, b.resources, GoMap.find] at h

theorem Base.step (ds : List Decl) (h : WellNamed ds) : Step nb ng r (r.decls ds) :=
  (decls_step b.wf ds h).1

theorem Base.abs (ds : List Decl) (h : WellNamed ds) :
    Verif.abs (r.decls ds) = ds.foldl (AState.decl v) (Verif.abs r) := by
  rw [(decls_step b.wf ds h).2, b.version]

theorem Base.tinv (ds : List Decl) (h : WellNamed ds) :
    TInv v r.typeView (histOf v ds) (Verif.abs (r.decls ds)).t := by
  rw [b.abs ds h, t_decls]
  have := b.tinv0.decls ds
  simpa using this

theorem Base.rinv (ds : List Decl) (h : WellNamed ds) :
    RInv (mentionedResources ds) (ds.filterMap Decl.resourceDecl) (Verif.abs (r.decls ds)).r := by
  rw [b.abs ds h, r_decls]
  have := b.rinv0.decls ds
  simpa using this

theorem Base.e (ds : List Decl) (h : WellNamed ds) :
    (Verif.abs (r.decls ds)).e = ds.foldl EState.decl (Verif.abs r).e := by
  rw [b.abs ds h, e_decls]

end

/-! ## Keys -/

theorem filterMap_comp_map {α β γ : Type} (f : α → Option β) (g : β → γ) (l : List α) :
    (l.filterMap f).map g = l.filterMap fun a => (f a).map g := by
  rw [List.map_filterMap]

theorem declared_keys (v : VersionId) (ds : List Decl) :
    ((histOf v ds).declared.map fun d => d.1.toText) = declaredTypes ds := by
  unfold histOf declaredTypes
  rw [filterMap_comp_map]
  congr 1
  funext d
  cases d <;> rfl

theorem typeName_keys (ds : List Decl) :
    (ds.filterMap Decl.typeName).map Name.toText = declaredTypes ds := by
  unfold declaredTypes
  rw [filterMap_comp_map]
  congr 1
  funext d
  cases d <;> rfl

theorem resourceDecl_keys (ds : List Decl) :
    ((ds.filterMap Decl.resourceDecl).map fun d => d.1.toText) = declaredResources ds := by
  unfold declaredResources
  rw [filterMap_comp_map]
  congr 1
  funext d
  cases d <;> rfl

theorem resourceName_keys (ds : List Decl) :
    (ds.filterMap Decl.resourceName).map Name.toText = declaredResources ds := by
  unfold declaredResources
  rw [filterMap_comp_map]
  congr 1
  funext d
  cases d <;> rfl

theorem errorName_keys (ds : List Decl) :
    (ds.filterMap Decl.errorName).map Name.toText = declaredErrors ds := by
  unfold declaredErrors
  rw [filterMap_comp_map]
  congr 1
  funext d
  cases d <;> rfl

theorem derived_keys (v : VersionId) (ds : List Decl) :
    (histOf v ds).derived.map TypeExpr.key = derivedTypes ds := rfl

/-! ## Counting -/

theorem repeated_count (used : List Text) (ns : List Name) (k : Text) :
    ((repeated used ns).map Name.toText).count k =
      if k ∈ used then (ns.map Name.toText).count k else (ns.map Name.toText).count k - 1 := by
  induction ns generalizing used with
  | nil => simp [repeated]
  | cons n ns ih =>
    rw [repeated_cons, List.map_append, List.count_append, ih, List.map_cons, List.count_cons]
    by_cases e : n.toText = k
    · subst e
      by_cases hk : n.toText ∈ used
      · simp [hk]; omega
      · simp [hk]
    · have e' : ¬ k = n.toText := fun h => e h.symm
      have e0 : ((if n.toText ∈ used then [n] else ([] : List Name)).map Name.toText).count k
          = 0 := by
        split
        · simp [List.count_cons, e]
        · rfl
      rw [e0]
      by_cases hk : k ∈ used
      · simp [hk, e]
      · simp [hk, e, e']

/-! ## The three kinds of duplicates -/

section

variable {nb ng : Nat → Prop} {v : VersionId} {r : Reader} (b : Base nb ng v r)
include b

theorem Base.tdups (ds : List Decl) (h : WellNamed ds) (hc : NoNameClash ds) :
    typeDups (r.decls ds).problems = repeated builtinKeys (ds.filterMap Decl.typeName) := by
  have e : typeDups (r.decls ds).problems = (Verif.abs (r.decls ds)).t.dups := rfl
  rw [e, b.abs ds h, t_decls, b.tinv0.dups builtinKeys ?_ ds ?_]
  · have e0 : (Verif.abs r).t.dups = typeDups r.problems := rfl
    rw [e0, b.problems]; rfl
  · intro k; rw [b.keys _]; simp
  · intro k hk
    rw [typeName_keys]
    rcases hk with hk | hk
    · simp at hk
    · exact hc.notDeclared k hk

theorem Base.rdups (ds : List Decl) (h : WellNamed ds) :
    resourceDups (r.decls ds).problems = repeated [] (ds.filterMap Decl.resourceName) := by
  have e : resourceDups (r.decls ds).problems = (Verif.abs (r.decls ds)).r.dups := rfl
  rw [e, b.abs ds h, r_decls, b.rinv0.dups ds]
  have e0 : (Verif.abs r).r.dups = resourceDups r.problems := rfl
  rw [e0, b.problems]; rfl

theorem Base.edups (ds : List Decl) (h : WellNamed ds) :
    errorDups (r.decls ds).problems = repeated [] (ds.filterMap Decl.errorName) := by
  have e : errorDups (r.decls ds).problems = (Verif.abs (r.decls ds)).e.dups := rfl
  rw [e, b.e ds h, edups_decls _ [] ?_ ds]
  · have e0 : (Verif.abs r).e.dups = errorDups r.problems := rfl
    rw [e0, b.problems]; rfl
  · intro k
    have e0 : (Verif.abs r).e.errors = r.errors := rfl
    rw [e0, b.errors]; simp [GoMap.find]

theorem Base.otherOnes (ds : List Decl) (h : WellNamed ds) :
    otherProblems (r.decls ds).problems = ds.flatMap Decl.ownProblems := by
  have e : otherProblems (r.decls ds).problems = (Verif.abs (r.decls ds)).e.others := rfl
  rw [e, b.e ds h, others_decls]
  have e0 : (Verif.abs r).e.others = otherProblems r.problems := rfl
  rw [e0, b.problems]; rfl

end

theorem typeDups_eq (ps : List ReadProblem) :
    typeDups ps = ps.filterMap ReadProblem.typeDefinedName := by
  unfold typeDups
  rfl

theorem resourceDups_eq (ps : List ReadProblem) :
    resourceDups ps = ps.filterMap ReadProblem.resourceDefinedName := by
  unfold resourceDups
  rfl

theorem errorDups_eq (ps : List ReadProblem) :
    errorDups ps = ps.filterMap ReadProblem.errorDefinedName := by
  unfold errorDups
  rfl

/-! ## Own problems -/

theorem atoi_ok (c : Text) : (atoi c).2 = true ↔
    (c.foldl (fun n c => 10 * n + (c.toNat - 48)) 0) < 2 ^ 63 := by
  unfold atoi
  have e : digitsValue c = c.foldl (fun n c => 10 * n + (c.toNat - 48)) 0 := rfl
  rw [e]
  generalize c.foldl (fun n c => 10 * n + (c.toNat - 48)) 0 = n
  by_cases h : n ≤ maxInt
  · simp only [h, if_true, true_iff]; unfold maxInt at h; omega
  · simp only [h, if_false, Bool.false_eq_true, false_iff]; unfold maxInt at h; omega

theorem ownProblems_nil (d : Decl) : d.ownProblems = [] ↔
    (∀ l ∈ d.locators, l.targets ≠ []) ∧
    (∀ c ∈ d.codes, (c.foldl (fun n c => 10 * n + (c.toNat - 48)) 0) < 2 ^ 63) := by
  cases d with
  | resource name doc annotations members =>
    simp only [Decl.ownProblems, Decl.locators, Decl.codes, List.flatMap_eq_nil_iff,
      List.not_mem_nil, false_imp_iff, implies_true, and_true, List.mem_filterMap]
    constructor
    · rintro h l ⟨m, hm, hl⟩
      cases m with
      | method m => cases hl
      | locator l' =>
        cases hl
        have := h (.locator l) hm
        intro e
        simp [e] at this
    · intro h m hm
      cases m with
      | method m => rfl
      | locator l =>
        have := h l ⟨_, hm, rfl⟩
        simp [this]
  | error name doc annotations codes =>
    simp only [Decl.ownProblems, Decl.locators, Decl.codes, List.flatMap_eq_nil_iff,
      List.not_mem_nil, false_imp_iff, implies_true, true_and]
    constructor
    · intro h c hc
      have := h c hc
      rw [← atoi_ok]
      cases hb : (atoi c).2 with
      | true => rfl
      | false => simp [hb] at this
    · intro h c hc
      have := h c hc
      rw [← atoi_ok] at this
      simp [this]
  | enum a b c d => simp [Decl.ownProblems, Decl.locators, Decl.codes]
  | «class» a b c d => simp [Decl.ownProblems, Decl.locators, Decl.codes]
  | struct a b c d => simp [Decl.ownProblems, Decl.locators, Decl.codes]

/-! ## Undefined names -/

section

variable {nb ng : Nat → Prop} {v : VersionId} {r : Reader} (b : Base nb ng v r)
include b

theorem Base.undefs (ds : List Decl) (h : WellNamed ds) (hc : NoNameClash ds) (k : Text) :
    ((r.decls ds).undefinedTypes.find k).isSome = true ↔
      k ∈ mentionedTypes ds ∧ k ∉ builtinKeys ∧ k ∉ declaredTypes ds := by
  have i := b.tinv ds h
  have e : ((r.decls ds).undefinedTypes.find k).isSome = (Verif.abs (r.decls ds)).t.undef k := rfl
  rw [e]
  constructor
  · intro hu
    refine ⟨i.known k hu, ?_, ?_⟩
    · intro hb
      obtain ⟨x, hv⟩ := Option.isSome_iff_exists.mp ((b.keys k).mpr hb)
      have := (i.fixed k x hv).2
      rw [hu] at this; cases this
    · intro hd
      rw [← declared_keys v] at hd
      obtain ⟨d, hd, he⟩ := List.mem_map.mp hd
      have := i.declared d hd
      rw [he, hu] at this; cases this
  · rintro ⟨hm, hb, hd⟩
    cases hu : (Verif.abs (r.decls ds)).t.undef k with
    | true => rfl
    | false =>
      exfalso
      obtain ⟨x, hv⟩ := Option.isSome_iff_exists.mp ((i.dom k).mpr (.inr (.inl hm)))
      rcases i.source k x hv with h1 | ⟨d, hd', h1⟩ | ⟨e, he, h1⟩ | h1
      · exact hb ((b.keys k).mp (by rw [h1]; rfl))
      · exact hd (by rw [← declared_keys v]; exact List.mem_map.mpr ⟨d, hd', h1.1⟩)
      · exact hc.notMentioned k (List.mem_map.mpr ⟨e, he, h1.1⟩) hb hm
      · exact i.kind k x hv hu (by rw [h1.1]; rfl)

theorem Base.rundefs (ds : List Decl) (h : WellNamed ds) (k : Text) :
    ((r.decls ds).undefinedResources.find k).isSome = true ↔
      k ∈ mentionedResources ds ∧ k ∉ declaredResources ds := by
  have i := b.rinv ds h
  have := i.undef k
  rw [resourceDecl_keys] at this
  exact this

end

theorem gomap_nil_iff {α : Type} (m : GoMap α) : m = [] ↔ ∀ k, (m.find k).isSome = false := by
  constructor
  · intro h; subst h; intro k; rfl
  · intro h
    cases m with
    | nil => rfl
    | cons e m =>
      have := h e.1
      simp [GoMap.find] at this

theorem values_nil {α : Type} (m : GoMap α) : m.values = [] ↔ m = [] := by
  unfold GoMap.values
  simp

theorem reportUndefined_nil (r : Reader) : r.reportUndefined.problems = [] ↔
    r.problems = [] ∧ r.undefinedTypes = [] ∧ r.undefinedResources = [] := by
  simp [Reader.reportUndefined, values_nil, and_assoc]

section

variable {nb ng : Nat → Prop} {v : VersionId} {r : Reader} (b : Base nb ng v r)
include b

theorem Base.accept (ds : List Decl) (h : WellNamed ds) (hc : NoNameClash ds) :
    (r.decls ds).reportUndefined.problems = [] ↔ Acceptable ds := by
  rw [reportUndefined_nil, problems_nil, b.tdups ds h hc, b.rdups ds h,
    b.edups ds h, b.otherOnes ds h, repeated_nil, repeated_nil, repeated_nil,
    typeName_keys, resourceName_keys, errorName_keys, gomap_nil_iff, gomap_nil_iff,
    List.flatMap_eq_nil_iff]
  have h1 : (∀ k, ((r.decls ds).undefinedTypes.find k).isSome = false) ↔
      ∀ k ∈ mentionedTypes ds, k ∈ builtinKeys ∨ k ∈ declaredTypes ds := by
    constructor
    · intro hu k hm
      have := b.undefs ds h hc k
      rw [hu k] at this
      by_cases hb : k ∈ builtinKeys
      · exact .inl hb
      · by_cases hd : k ∈ declaredTypes ds
        · exact .inr hd
        · exact absurd (this.mpr ⟨hm, hb, hd⟩) (by simp)
    · intro hm k
      have := b.undefs ds h hc k
      cases hu : ((r.decls ds).undefinedTypes.find k).isSome with
      | false => rfl
      | true =>
        obtain ⟨a, b, c⟩ := this.mp hu
        exact absurd (hm k a) (by simp [b, c])
  have h2 : (∀ k, ((r.decls ds).undefinedResources.find k).isSome = false) ↔
      ∀ k ∈ mentionedResources ds, k ∈ declaredResources ds := by
    constructor
    · intro hu k hm
      have := b.rundefs ds h k
      rw [hu k] at this
      by_cases hd : k ∈ declaredResources ds
      · exact hd
      · exact absurd (this.mpr ⟨hm, hd⟩) (by simp)
    · intro hm k
      have := b.rundefs ds h k
      cases hu : ((r.decls ds).undefinedResources.find k).isSome with
      | false => rfl
      | true =>
        obtain ⟨a, b⟩ := this.mp hu
        exact absurd (hm k a) b
  have h3 : (∀ n ∈ ds.filterMap Decl.typeName, n.toText ∉ builtinKeys) ↔
      ∀ k ∈ declaredTypes ds, k ∉ builtinKeys := by
    rw [← typeName_keys]
    simp only [List.mem_map]
    constructor
    · rintro h4 k ⟨n, hn, rfl⟩; exact h4 n hn
    · intro h4 n hn; exact h4 _ ⟨n, hn, rfl⟩
  rw [h1, h2, h3]
  simp only [ownProblems_nil]
  constructor
  · rintro ⟨⟨⟨a, b⟩, ⟨c, -⟩, ⟨d, -⟩, e⟩, f, g⟩
    exact ⟨a, b, f, c, g, d, fun d hd => (e d hd).1, fun d hd => (e d hd).2⟩
  · intro x
    exact ⟨⟨⟨x.distinctTypes, x.notBuiltin⟩, ⟨x.distinctResources, by simp⟩,
      ⟨x.distinctErrors, by simp⟩, fun d hd => ⟨x.targets d hd, x.codes d hd⟩⟩, x.knownTypes,
      x.knownResources⟩

end

/-! ## Content -/

theorem typeDecl_describes (v : VersionId) (d : Decl) (n : Name) (x : TypeView)
    (h : d.typeDecl v = some (n, x)) : d.Describes v n.toText x := by
  cases d with
  | enum name doc annotations values =>
    simp only [Decl.typeDecl, Option.some.injEq, Prod.mk.injEq] at h
    obtain ⟨h1, h2⟩ := h
    subst h1; subst h2
    exact ⟨rfl, _, sorted_isSortOf _ _, rfl⟩
  | «class» name doc annotations members =>
    simp only [Decl.typeDecl, Option.some.injEq, Prod.mk.injEq] at h
    obtain ⟨h1, h2⟩ := h
    subst h1; subst h2
    exact ⟨rfl, _, sorted_isSortOf _ _, rfl⟩
  | struct name doc annotations members =>
    simp only [Decl.typeDecl, Option.some.injEq, Prod.mk.injEq] at h
    obtain ⟨h1, h2⟩ := h
    subst h1; subst h2
    exact ⟨rfl, _, sorted_isSortOf _ _, rfl⟩
  | resource _ _ _ _ => cases h
  | error _ _ _ _ => cases h

theorem all2_methodViews (ms : List MethodDecl) :
    All2 MethodDecl.Describes ms (ms.map MethodDecl.view) := by
  induction ms with
  | nil => exact .nil
  | cons m ms ih => exact .cons ⟨rfl, rfl, rfl, sorted_isSortOf _ _⟩ ih

theorem resourceDecl_describes (d : Decl) (n : Name) (x : ResourceView)
    (h : d.resourceDecl = some (n, x)) : d.DescribesResource n.toText x := by
  cases d with
  | resource name doc annotations members =>
    simp only [Decl.resourceDecl, Option.some.injEq, Prod.mk.injEq] at h
    obtain ⟨h1, h2⟩ := h
    subst h1; subst h2
    exact ⟨rfl, rfl, rfl, ⟨_, all2_methodViews _, sorted_isSortOf _ _⟩, sorted_isSortOf _ _⟩
  | enum _ _ _ _ => cases h
  | «class» _ _ _ _ => cases h
  | struct _ _ _ _ => cases h
  | error _ _ _ _ => cases h

theorem nodup_filterMap_unique {α : Type} (f : α → Option (Name × β)) (l : List α)
    (hn : ((l.filterMap f).map fun d => d.1.toText).Nodup) (x y : Name × β)
    (hx : x ∈ l.filterMap f) (hy : y ∈ l.filterMap f) (h : x.1.toText = y.1.toText) : x = y := by
  generalize l.filterMap f = m at *
  induction m with
  | nil => cases hx
  | cons z zs ih =>
    simp only [List.map_cons, List.nodup_cons, List.mem_map, not_exists, not_and] at hn
    rcases List.mem_cons.mp hx with hx1 | hx1
    · rcases List.mem_cons.mp hy with hy1 | hy1
      · rw [hx1, hy1]
      · subst hx1; exact absurd h.symm (hn.1 y hy1)
    · rcases List.mem_cons.mp hy with hy1 | hy1
      · subst hy1; exact absurd h (hn.1 x hx1)
      · exact ih hn.2 hx1 hy1

/-- The type with each key: the description doesn't mention the order of the declarations. -/
def TypeAtOf (base : Text → Option TypeView) (v : VersionId) (ds : List Decl) (k : Text)
    (x : Option TypeView) : Prop :=
  (k ∈ builtinKeys ∧ x = base k) ∨
  (k ∉ builtinKeys ∧ ∃ d ∈ histOf v ds |>.declared, d.1.toText = k ∧ x = some d.2) ∨
  (k ∉ builtinKeys ∧ k ∉ declaredTypes ds ∧
    ∃ e ∈ histOf v ds |>.derived, e.key = k ∧ x = e.derivedView v) ∨
  (k ∉ builtinKeys ∧ k ∉ declaredTypes ds ∧ k ∉ derivedTypes ds ∧ k ∈ mentionedTypes ds ∧
    x = some (.unknown v)) ∨
  (k ∉ builtinKeys ∧ k ∉ declaredTypes ds ∧ k ∉ derivedTypes ds ∧ k ∉ mentionedTypes ds ∧
    x = none)

section

variable {nb ng : Nat → Prop} {v : VersionId} {r : Reader} (b : Base nb ng v r)
include b

theorem Base.typeAt (ds : List Decl) (h : WellNamed ds) (hc : NoNameClash ds) (k : Text) :
    TypeAtOf r.typeView v ds k ((r.decls ds).typeView k) := by
  have i := b.tinv ds h
  have e : (Verif.abs (r.decls ds)).t.types = (r.decls ds).typeView := rfl
  by_cases hb : k ∈ builtinKeys
  · left
    obtain ⟨y, hv⟩ := Option.isSome_iff_exists.mp ((b.keys k).mpr hb)
    refine ⟨hb, ?_⟩
    rw [hv, ← e]
    exact (i.fixed k y hv).1
  · have hb' : r.typeView k = none := by
      cases hx : r.typeView k with
      | none => rfl
      | some y => exact absurd ((b.keys k).mp (by rw [hx]; rfl)) hb
    by_cases hd : k ∈ declaredTypes ds
    · right; left
      refine ⟨hb, ?_⟩
      have hd' := hd
      rw [← declared_keys v] at hd
      obtain ⟨y, hv⟩ := Option.isSome_iff_exists.mp ((i.dom k).mpr (.inr (.inr (.inr hd))))
      obtain ⟨d, hdm, hdk⟩ := List.mem_map.mp hd
      have hu : (Verif.abs (r.decls ds)).t.undef k = false := by rw [← hdk]; exact i.declared d hdm
      rcases i.source k y hv with h1 | ⟨d, hd1, h1⟩ | ⟨e, he, h1⟩ | h1
      · rw [hb'] at h1; cases h1
      · exact ⟨d, hd1, h1.1, by rw [← e, hv, h1.2]⟩
      · exact absurd hd' (hc.notDeclared k (List.mem_map.mpr ⟨e, he, h1.1⟩))
      · exact absurd (by rw [h1.1]; rfl) (i.kind k y hv hu)
    · right; right
      by_cases hr : k ∈ derivedTypes ds
      · left
        refine ⟨hb, hd, ?_⟩
        obtain ⟨y, hv⟩ := Option.isSome_iff_exists.mp ((i.dom k).mpr (.inr (.inr (.inl hr))))
        rcases i.source k y hv with h1 | ⟨d, hd1, h1⟩ | ⟨f, hf, h1⟩ | h1
        · rw [hb'] at h1; cases h1
        · exact absurd (by rw [← declared_keys v]; exact List.mem_map.mpr ⟨d, hd1, h1.1⟩) hd
        · exact ⟨f, hf, h1.1, by rw [← e, hv, h1.2]⟩
        · exact absurd h1.2 (hc.notMentioned k hr hb)
      · right
        by_cases hm : k ∈ mentionedTypes ds
        · left
          refine ⟨hb, hd, hr, hm, ?_⟩
          have := (b.undefs ds h hc k).mpr ⟨hm, hb, hd⟩
          rw [← e]
          exact i.undef k this
        · right
          refine ⟨hb, hd, hr, hm, ?_⟩
          cases hx : (r.decls ds).typeView k with
          | none => rfl
          | some y =>
            have := (i.dom k).mp (by rw [e, hx]; rfl)
            rw [hb', declared_keys, derived_keys] at this
            rcases this with h | h | h | h
            · cases h
            · exact absurd h hm
            · exact absurd h hr
            · exact absurd h hd

end

theorem derivedView_unique (v : VersionId) (e f : TypeExpr) (he : e.isDerived = true) (hf : f.isDerived = true)
    (h : e.mentions = f.mentions) : e.derivedView v = f.derivedView v := by
  cases e <;> cases f <;> simp_all [TypeExpr.mentions, TypeExpr.names, TypeExpr.derivedView,
    TypeExpr.isDerived]

theorem typeAt_unique {base : Text → Option TypeView} {v : VersionId}
    (ds : List Decl) (hc : NoNameClash ds) (hd : (declaredTypes ds).Nodup)
    (k : Text)    (x y : Option TypeView) (hx : TypeAtOf base v ds k x) (hy : TypeAtOf base v ds k y) : x = y := by
  have key : ∀ d ∈ (histOf v ds).declared, d.1.toText = k → k ∈ declaredTypes ds := by
    intro d h1 h2
    rw [← declared_keys v]; exact List.mem_map.mpr ⟨d, h1, h2⟩
  have key' : ∀ e ∈ (histOf v ds).derived, e.key = k → k ∈ derivedTypes ds := by
    intro e h1 h2; exact List.mem_map.mpr ⟨e, h1, h2⟩
  rcases hx with h | ⟨hb, d, h1, h2, h3⟩ | ⟨hb, hnd, e, h1, h2, h3⟩ | h | h
  · rcases hy with g | g | g | g | g
    · rw [h.2, g.2]
    all_goals exact absurd h.1 g.1
  · rcases hy with g | ⟨-, d', g1, g2, g3⟩ | g | g | g
    · exact absurd g.1 hb
    · have := nodup_filterMap_unique (Decl.typeDecl v) ds
        (by have := hd; rw [← declared_keys v] at this; exact this) d d' h1 g1 (h2.trans g2.symm)
      rw [h3, g3, this]
    all_goals exact absurd (key d h1 h2) g.2.1
  · rcases hy with g | ⟨-, d', g1, g2, g3⟩ | ⟨-, -, e', g1, g2, g3⟩ | g | g
    · exact absurd g.1 hb
    · exact absurd (key d' g1 g2) hnd
    · have m1 := List.mem_filter.mp h1
      have m2 := List.mem_filter.mp g1
      rw [h3, g3]
      exact derivedView_unique v e e' m1.2 m2.2
        (hc.distinct e m1.1 e' m2.1 m1.2 m2.2 (h2.trans g2.symm))
    all_goals exact absurd (key' e h1 h2) g.2.2.1
  · rcases hy with g | ⟨-, d', g1, g2, g3⟩ | ⟨-, -, e', g1, g2, g3⟩ | g | g
    · exact absurd g.1 h.1
    · exact absurd (key d' g1 g2) h.2.1
    · exact absurd (key' e' g1 g2) h.2.2.1
    · rw [h.2.2.2.2, g.2.2.2.2]
    · exact absurd h.2.2.2.1 g.2.2.2.1
  · rcases hy with g | ⟨-, d', g1, g2, g3⟩ | ⟨-, -, e', g1, g2, g3⟩ | g | g
    · exact absurd g.1 h.1
    · exact absurd (key d' g1 g2) h.2.1
    · exact absurd (key' e' g1 g2) h.2.2.1
    · exact absurd g.2.2.2.1 h.2.2.2.1
    · rw [h.2.2.2.2, g.2.2.2.2]

/-! ## Permutations -/

theorem perm_refs {ds es : List Decl} (p : ds.Perm es) : (refsOf ds).Perm (refsOf es) :=
  p.flatMap_right _

theorem perm_mentioned {ds es : List Decl} (p : ds.Perm es) :
    (mentionedTypes ds).Perm (mentionedTypes es) := (perm_refs p).flatMap_right _

theorem perm_declared {ds es : List Decl} (p : ds.Perm es) :
    (declaredTypes ds).Perm (declaredTypes es) := p.filterMap _

theorem perm_derived {ds es : List Decl} (p : ds.Perm es) :
    (derivedTypes ds).Perm (derivedTypes es) := ((perm_refs p).filter _).map _

theorem perm_wellNamed {ds es : List Decl} (p : ds.Perm es) (h : WellNamed ds) : WellNamed es :=
  fun e he => h e ((perm_refs p).mem_iff.mpr he)

theorem perm_noNameClash {ds es : List Decl} (p : ds.Perm es) (h : NoNameClash ds) : NoNameClash es :=
  ⟨fun k hk hd => h.notDeclared k ((perm_derived p).mem_iff.mpr hk)
      ((perm_declared p).mem_iff.mpr hd),
    fun k hk hb hm => h.notMentioned k ((perm_derived p).mem_iff.mpr hk) hb
      ((perm_mentioned p).mem_iff.mpr hm),
    fun e he f hf => h.distinct e ((perm_refs p).mem_iff.mpr he) f ((perm_refs p).mem_iff.mpr hf)⟩

theorem perm_typeAt {base : Text → Option TypeView} {v : VersionId} {ds es : List Decl} (p : ds.Perm es) (k : Text)
    (x : Option TypeView) (h : TypeAtOf base v es k x) : TypeAtOf base v ds k x := by
  have m1 : ∀ d, d ∈ (histOf v es).declared → d ∈ (histOf v ds).declared := fun d hd =>
    (p.filterMap (Decl.typeDecl v)).mem_iff.mpr hd
  have m2 : ∀ d, d ∈ (histOf v es).derived → d ∈ (histOf v ds).derived := fun d hd =>
    ((perm_refs p).filter TypeExpr.isDerived).mem_iff.mpr hd
  have e1 := (perm_declared p).mem_iff (a := k)
  have e2 := (perm_derived p).mem_iff (a := k)
  have e3 := (perm_mentioned p).mem_iff (a := k)
  unfold TypeAtOf at *
  rw [e1, e2, e3]
  rcases h with h | ⟨hb, d, h1, h2⟩ | ⟨hb, hd, e, h1, h2⟩ | h | h
  · exact .inl h
  · exact .inr (.inl ⟨hb, d, m1 d h1, h2⟩)
  · exact .inr (.inr (.inl ⟨hb, hd, e, m2 e h1, h2⟩))
  · exact .inr (.inr (.inr (.inl h)))
  · exact .inr (.inr (.inr (.inr h)))

theorem perm_acceptable {ds es : List Decl} (p : ds.Perm es) (h : Acceptable ds) :
    Acceptable es := by
  have e1 : ∀ {k}, k ∈ declaredTypes ds ↔ k ∈ declaredTypes es := (perm_declared p).mem_iff
  have e3 : ∀ {k}, k ∈ mentionedTypes ds ↔ k ∈ mentionedTypes es := (perm_mentioned p).mem_iff
  have pr : (declaredResources ds).Perm (declaredResources es) := p.filterMap _
  have pm : (mentionedResources ds).Perm (mentionedResources es) := p.flatMap_right _
  have pe : (declaredErrors ds).Perm (declaredErrors es) := p.filterMap _
  exact ⟨(perm_declared p).nodup_iff.mp h.distinctTypes,
    fun k hk => h.notBuiltin k (e1.mpr hk),
    fun k hk => (h.knownTypes k (e3.mpr hk)).imp id e1.mp,
    pr.nodup_iff.mp h.distinctResources,
    fun k hk => pr.mem_iff.mp (h.knownResources k (pm.mem_iff.mpr hk)),
    pe.nodup_iff.mp h.distinctErrors,
    fun d hd => h.targets d (p.mem_iff.mpr hd),
    fun d hd => h.codes d (p.mem_iff.mpr hd)⟩

theorem files_eq (r : Reader) (fs : List (List Decl)) : r.files fs = r.decls fs.flatten := by
  unfold Reader.files Reader.decls
  rw [List.foldl_flatten]

/-! ## The version read from a new reader -/

/-- The reader after some declarations. -/
def after (ds : List Decl) : Reader := Reader.fresh.decls ds

theorem after_wf (ds : List Decl) (h : WellNamed ds) : WF (· < 0) (· < 0) (after ds) :=
  (base_fresh.step ds h).wf

theorem after_tinv (ds : List Decl) (h : WellNamed ds) :
    TInv 0 Reader.fresh.typeView (histOf 0 ds) (abs (after ds)).t := base_fresh.tinv ds h

theorem after_rinv (ds : List Decl) (h : WellNamed ds) :
    RInv (mentionedResources ds) (ds.filterMap Decl.resourceDecl) (abs (after ds)).r :=
  base_fresh.rinv ds h

theorem after_e (ds : List Decl) (h : WellNamed ds) :
    (abs (after ds)).e = ds.foldl EState.decl (abs Reader.fresh).e := base_fresh.e ds h

theorem after_typeDups (ds : List Decl) (h : WellNamed ds) (hc : NoNameClash ds) :
    typeDups (after ds).problems = repeated builtinKeys (ds.filterMap Decl.typeName) :=
  base_fresh.tdups ds h hc

theorem after_resourceDups (ds : List Decl) (h : WellNamed ds) :
    resourceDups (after ds).problems = repeated [] (ds.filterMap Decl.resourceName) :=
  base_fresh.rdups ds h

theorem after_errorDups (ds : List Decl) (h : WellNamed ds) :
    errorDups (after ds).problems = repeated [] (ds.filterMap Decl.errorName) :=
  base_fresh.edups ds h

theorem after_undef (ds : List Decl) (h : WellNamed ds) (hc : NoNameClash ds) (k : Text) :
    ((after ds).undefinedTypes.find k).isSome = true ↔
      k ∈ mentionedTypes ds ∧ k ∉ builtinKeys ∧ k ∉ declaredTypes ds := base_fresh.undefs ds h hc k

theorem after_rundef (ds : List Decl) (h : WellNamed ds) (k : Text) :
    ((after ds).undefinedResources.find k).isSome = true ↔
      k ∈ mentionedResources ds ∧ k ∉ declaredResources ds := base_fresh.rundefs ds h k

theorem after_accept (ds : List Decl) (h : WellNamed ds) (hc : NoNameClash ds) :
    (after ds).reportUndefined.problems = [] ↔ Acceptable ds := base_fresh.accept ds h hc

theorem after_typeAt (ds : List Decl) (h : WellNamed ds) (hc : NoNameClash ds) (k : Text) :
    TypeAtOf Reader.fresh.typeView 0 ds k ((after ds).typeView k) := base_fresh.typeAt ds h hc k

end Verif
