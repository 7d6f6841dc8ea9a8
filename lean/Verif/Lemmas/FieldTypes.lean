import Verif.Lemmas.WholeSpelling
import Verif.Lemmas.WholeNames
import Verif.Spec.FieldTypes
import Verif.Props.GoRefs

/-! Helper lemmas: the Go types of what is declared in the files. -/

namespace Verif.Whole

open Reader Session Outcome
open GoRef (Typ Owner Basic)

variable {s : Session} {a b : Text} {v : LoadedVersion} {ds : List Decl}

/-! ## Owners -/

theorem mem_pairs {s : Session} (m : ModelGood s) {p : Name × LoadedVersion} :
    p ∈ pairs s ↔ ∃ a b l, s.services.find a = some l ∧ l.versions.find b = some p.2 ∧ p.1 = l.name := by
  unfold pairs
  rw [List.mem_flatMap]
  constructor
  · rintro ⟨l, hl, hv⟩
    have hl' := (sortByName_spec _ _).1.mem_iff.mp hl
    obtain ⟨e, he, rfl⟩ := List.mem_map.mp hl'
    have hf := GoMap.find_of_mem m.nodup he
    obtain ⟨-, h4⟩ := m.named _ _ hf
    obtain ⟨v, hw, rfl⟩ := List.mem_map.mp hv
    have hv' := (sortByName_spec _ _).1.mem_iff.mp (show v ∈ sortByName _ _ from hw)
    obtain ⟨e2, he2, rfl⟩ := List.mem_map.mp hv'
    exact ⟨e.1, e2.1, e.2, hf, GoMap.find_of_mem h4.nodup he2, rfl⟩
  · rintro ⟨a, b, l, hl, hv, he⟩
    refine ⟨l, (sortByName_spec _ _).1.mem_iff.mpr (List.mem_map.mpr ⟨_, GoMap.find_some_mem hl, rfl⟩),
      List.mem_map.mpr ⟨p.2, (sortByName_spec _ _).1.mem_iff.mpr
        (List.mem_map.mpr ⟨_, GoMap.find_some_mem hv, rfl⟩), ?_⟩⟩
    rw [← he]

/-- The owner of the types of a version. -/
theorem ownerOf_version {s : Session} (m : ModelGood s) {a b : Text} {l : LoadedService}
    {v : LoadedVersion} (hl : s.services.find a = some l) (hv : l.versions.find b = some v) :
    ownerOf s (some v.id) = { service := l.name, version := v.name } := by
  have hm : (l.name, v) ∈ pairs s := (mem_pairs m).mpr ⟨a, b, l, hl, hv, rfl⟩
  have h1 : s.version a b = some v := by unfold Session.version; rw [hl]; exact hv
  unfold ownerOf
  cases hf : (pairs s).find? (fun p => decide (some v.id = some p.2.id)) with
  | none =>
    have := List.find?_eq_none.mp hf _ hm
    simp at this
  | some p =>
    have hp := List.mem_of_find?_eq_some hf
    have he := List.find?_some hf
    obtain ⟨a', b', l', hl', hv', hn⟩ := (mem_pairs m).mp hp
    have h2 : s.version a' b' = some p.2 := by unfold Session.version; rw [hl']; exact hv'
    have he' : v.id = p.2.id := by simpa using he
    obtain ⟨rfl, rfl⟩ := version_same m h1 h2 he'
    rw [hl] at hl'
    cases hl'
    rw [hv] at hv'
    cases hv'
    dsimp only
    rw [hn]

/-! ## Names -/

theorem filterMap_inj {α β : Type} {f : α → Option β} {l : List α} (h : (l.filterMap f).Nodup) {x y : α}
    {k : β} (hx : x ∈ l) (hy : y ∈ l) (hfx : f x = some k) (hfy : f y = some k) : x = y := by
  induction l with
  | nil => cases hx
  | cons z l ih =>
    have hm : ∀ {w}, w ∈ l → f w = some k → k ∈ l.filterMap f := fun hw hf =>
      List.mem_filterMap.mpr ⟨_, hw, hf⟩
    cases hz : f z with
    | none =>
      rw [List.filterMap_cons_none hz] at h
      grind
    | some w =>
      rw [List.filterMap_cons_some hz, List.nodup_cons] at h
      grind

/-- The name of a type is the one of its declaration. -/
theorem spelled {n : Name} (g : GoodDecls ds) (hs : SpelledAlike ds) {d : Decl} (hd : d ∈ ds)
    {name : Name} (hn : d.typeName = some name) (hin : NameIn ds n) (hk : n.toText = name.toText) :
    n = name := by
  have hkind : ∃ kind, d.declaredType = some (name.toText, kind) := by
    cases d <;> cases hn <;> exact ⟨_, rfl⟩
  obtain ⟨kind, hdk⟩ := hkind
  have hdecl : name.toText ∈ declaredTypes ds :=
    List.mem_filterMap.mpr ⟨d, hd, by rw [hdk]; rfl⟩
  cases hin with
  | builtin hb =>
    rw [hk] at hb
    exact absurd hb (g.acceptable.notBuiltin _ hdecl)
  | @declared d' _ hd' hn' =>
    have hkind' : ∃ kind, d'.declaredType = some (n.toText, kind) := by
      cases d' <;> cases hn' <;> exact ⟨_, rfl⟩
    obtain ⟨kind', hdk'⟩ := hkind'
    have : d = d' := by
      have hnd := g.acceptable.distinctTypes
      unfold declaredTypes at hnd
      rw [hk] at hdk'
      exact filterMap_inj hnd hd hd' (by rw [hdk]; rfl) (by rw [hdk']; rfl)
    subst this
    rw [hn] at hn'
    exact (Option.some.inj hn').symm
  | @mentioned e t he ht =>
    exact hs e he t ht d hd name hn hk.symm
  | @derived e _ he hder hkey =>
    rw [hk] at hkey
    exact absurd hdecl (g.noClash.notDeclared _ (by
      unfold derivedTypes
      rw [hkey]
      exact List.mem_map.mpr ⟨e, List.mem_filter.mpr ⟨he, hder⟩, rfl⟩))

/-! ## The types that references denote -/

/-- The keys of the predefined types. -/
def basicKey : Basic → Text
  | .boolean => t!"boolean"
  | .integer => t!"integer"
  | .long => t!"long"
  | .float => t!"float"
  | .string => t!"string"
  | .date => t!"date"
  | .interface => t!"interface"

/-- The type that a name denotes. -/
inductive Value (ds : List Decl) (o : Owner) (n : Text) : Typ → Prop
  | basic (b : Basic) : keyOf n = basicKey b → Value ds o n (.basic b)
  | enum {name doc as vs} : Decl.enum name doc as vs ∈ ds → keyOf n = keyOf name →
    Value ds o n (.enum ⟨o, parseUsingCase name, as⟩)
  | class {name doc as ms} : Decl.class name doc as ms ∈ ds → keyOf n = keyOf name →
    Value ds o n (.struct ⟨o, parseUsingCase name, as⟩)
  | struct {name doc as ms} : Decl.struct name doc as ms ∈ ds → keyOf n = keyOf name →
    Value ds o n (.struct ⟨o, parseUsingCase name, as⟩)

/-- The type that a reference denotes. -/
inductive Denotes (ds : List Decl) (o : Owner) : TypeExpr → Typ → Prop
  | plain {n t} : Value ds o n t → Denotes ds o (.plain n) t
  | predefined {n d} (b : Basic) : keyOf n = basicKey b ++ t!"_list" →
    Denotes ds o (.plain n) (.list d (.basic b))
  | list {n t d} : Value ds o n t → Denotes ds o (.list n) (.list d t)
  | map {i n t d} : Value ds o n t → Denotes ds o (.map i n) (.map d t)

/-- A version whose names are spelled alike. -/
structure Spelled (s : Session) (a b : Text) (v : LoadedVersion) (ds : List Decl) (o : Owner) : Prop
    extends VersionIs s a b v ds where
  names : ∀ k id c, TypeAt s v k id c → NameIn ds c.name ∨ c.kind = .list
  alike : SpelledAlike ds
  owned : ownerOf s (some v.id) = o

variable {o : Owner}

/-- The predefined type with the given key. -/
theorem basic_cell (h : VersionIs s a b v ds) {k : Text} {id : TypeId} {c : TypeCell}
    (hc : TypeAt s v k id c) {q : Text × Kind} (hq : q ∈ builtinScalars) (hk : k = q.1)
    (hkind : c.kind = q.2) : ∃ x, typeOf s id = .basic x ∧ k = basicKey x := by
  rw [typeOf_eq h.inv.ok.heap hc.cell, hkind]
  have ok := h.inv.ok.heap id c hc.cell
  have hkey := hc.key
  rw [hk] at hkey
  subst hk
  have hsc : ∀ {q : Text}, c.kind = .scalar → c.name.toText = q → ∀ n, n ∈ scalarNames → n.toText = q →
      c.name = n := by
    intro q hks hkt n hn hnq
    have h1 := ok.scalar hks
    rw [← hnq] at hkt
    generalize c.name = m at h1 hkt
    revert hkt
    have hall : ∀ m ∈ scalarNames, ∀ n ∈ scalarNames, m.toText = n.toText → m = n := by decide
    exact hall m h1 n hn
  simp only [builtinScalars, List.mem_cons, List.not_mem_nil, or_false] at hq
  rcases hq with rfl | rfl | rfl | rfl | rfl | rfl | rfl <;> dsimp only at hkind hkey ⊢
  · exact ⟨.boolean, by rw [hsc hkind hkey Nom.boolean (by decide) (by decide)]; rfl, rfl⟩
  · exact ⟨.integer, by rw [hsc hkind hkey Nom.integer (by decide) (by decide)]; rfl, rfl⟩
  · exact ⟨.long, by rw [hsc hkind hkey Nom.long (by decide) (by decide)]; rfl, rfl⟩
  · exact ⟨.float, by rw [hsc hkind hkey Nom.float (by decide) (by decide)]; rfl, rfl⟩
  · exact ⟨.string, by rw [hsc hkind hkey Nom.string (by decide) (by decide)]; rfl, rfl⟩
  · exact ⟨.date, by rw [hsc hkind hkey Nom.date (by decide) (by decide)]; rfl, rfl⟩
  · exact ⟨.interface, rfl, rfl⟩

/-- The type that a name denotes. -/
theorem Spelled.value (h : Spelled s a b v ds o) {n : Text} {id : TypeId} {c : TypeCell}
    (hk : keyOf n ∈ builtinKeys ∨ keyOf n ∈ declaredTypes ds) (hp : keyOf n ∉ predefinedLists)
    (hc : TypeAt s v (keyOf n) id c) : Value ds o n (typeOf s id) := by
  rcases hk with hk | hk
  · obtain ⟨x, hx, hb⟩ := h.types.builtin _ hk
    rw [hc.view] at hx
    cases hx
    have hb0 := hb
    obtain ⟨q, hq, ⟨h1, h2⟩ | ⟨h1, h2⟩⟩ := hb
    · obtain ⟨x, hx, hkx⟩ := basic_cell h.toVersionIs hc hq h1 (congrArg TypeView.kind h2)
      rw [hx]
      exact .basic x hkx
    · rcases builtin_kind hb0 with ⟨-, h3⟩ | ⟨h3, -⟩
      · exact absurd (congrArg TypeView.kind h2) h3.ne.1
      · exact absurd h3 hp
  · obtain ⟨d, hd, kind, hdk⟩ := mem_declaredTypes hk
    obtain ⟨x, hx, hdes⟩ := h.types.declared d hd _ kind hdk
    rw [hc.view] at hx
    cases hx
    have hplain := (describes_kind hdes).ne
    have hin : NameIn ds c.name := by
      rcases h.names _ _ _ hc with h1 | h1
      · exact h1
      · exact absurd h1 hplain.1
    have hown : declOf s c = ⟨o, c.name, c.annotations⟩ := by
      unfold declOf
      rw [hc.owner, h.owned]
    rw [typeOf_eq h.inv.ok.heap hc.cell, hown]
    cases d with
    | enum name doc as vs =>
      obtain ⟨h1, _, _, he⟩ := hdes
      have hke : c.kind = .enum := congrArg TypeView.kind he
      have ha : c.annotations = as := congrArg TypeView.annotations he
      have hnm : c.name = parseUsingCase name := spelled h.good h.alike hd rfl hin (hc.key.trans h1)
      rw [hke, ha, hnm]
      exact .enum hd h1
    | «class» name doc as ms =>
      obtain ⟨h1, _, _, he⟩ := hdes
      have hke : c.kind = .class := congrArg TypeView.kind he
      have ha : c.annotations = as := congrArg TypeView.annotations he
      have hnm : c.name = parseUsingCase name := spelled h.good h.alike hd rfl hin (hc.key.trans h1)
      rw [hke, ha, hnm]
      exact .class hd h1
    | struct name doc as ms =>
      obtain ⟨h1, _, _, he⟩ := hdes
      have hke : c.kind = .struct := congrArg TypeView.kind he
      have ha : c.annotations = as := congrArg TypeView.annotations he
      have hnm : c.name = parseUsingCase name := spelled h.good h.alike hd rfl hin (hc.key.trans h1)
      rw [hke, ha, hnm]
      exact .struct hd h1
    | resource => exact hdes.elim
    | error => exact hdes.elim

/-- The type that a reference denotes. -/
theorem Spelled.denotes (h : Spelled s a b v ds o) {e : TypeExpr} (he : e ∈ refsOf ds) (hl : OneLevel e)
    {id : TypeId} {c : TypeCell} (hc : TypeAt s v e.key id c) : Denotes ds o e (typeOf s id) := by
  cases e with
  | plain n =>
    have hk := h.known he (n := n) (by simp [TypeExpr.names])
    by_cases hp : keyOf n ∈ predefinedLists
    · obtain ⟨x, hx, hb⟩ := h.types.builtin _ (predefined_builtin hp)
      have hview := hc.view
      change s.typeView v (keyOf n) = _ at hview
      rw [hview] at hx
      cases hx
      have hb0 := hb
      obtain ⟨q, hq, ⟨h1, h2⟩ | ⟨h1, h2⟩⟩ := hb
      · rcases builtin_kind hb0 with ⟨h3, -⟩ | ⟨-, h3, -⟩
        · exact absurd hp h3
        · have : c.kind = q.2 := congrArg TypeView.kind h2
          have h3 : c.kind = .list := h3
          rw [this] at h3
          simp only [builtinScalars, List.mem_cons, List.not_mem_nil, or_false] at hq
          rcases hq with rfl | rfl | rfl | rfl | rfl | rfl | rfl <;> cases h3
      · have hel : (View.ofCell s.heap c).element = some q.1 := congrArg TypeView.element h2
        have hkl : c.kind = .list := congrArg TypeView.kind h2
        obtain ⟨e, ce, h3, h4⟩ := typeAt_element h.inv h.found hc hel
        obtain ⟨y, hy, hby⟩ := h.types.builtin q.1 (scalar_builtin hq).1
        rw [h4.view] at hy
        cases hy
        have hqk : ce.kind = q.2 := by
          obtain ⟨q', hq', ⟨h5, h6⟩ | ⟨h5, h6⟩⟩ := hby
          · have : q' = q := by
              have hall : ∀ x ∈ builtinScalars, ∀ y ∈ builtinScalars, x.1 = y.1 → x = y := by decide
              exact (hall q hq q' hq' h5).symm
            rw [← this]
            exact congrArg TypeView.kind h6
          · have hall : ∀ x ∈ builtinScalars, ∀ y ∈ builtinScalars, x.1 ≠ y.1 ++ t!"_list" := by decide
            exact absurd h5 (hall q hq q' hq')
        obtain ⟨x, hx, hkx⟩ := basic_cell h.toVersionIs h4 hq rfl hqk
        rw [typeOf_eq h.inv.ok.heap hc.cell, hkl, h3]
        dsimp only
        rw [hx]
        exact .predefined x (by rw [h1, hkx])
    · exact .plain (h.value hk hp hc)
  | list n =>
    have hd := h.types.derived _ he rfl
    rw [hc.view] at hd
    have hd := Option.some.inj hd
    have hk : c.kind = .list := congrArg TypeView.kind hd
    have hel : (View.ofCell s.heap c).element = some (keyOf n) := congrArg TypeView.element hd
    obtain ⟨e, ce, h1, h2⟩ := typeAt_element h.inv h.found hc hel
    have h3 := h.value (h.known he (n := n) (by simp [TypeExpr.names])) hl h2
    rw [typeOf_eq h.inv.ok.heap hc.cell, hk, h1]
    exact .list h3
  | map i n =>
    have hd := h.types.derived _ he rfl
    rw [hc.view] at hd
    have hd := Option.some.inj hd
    have hk : c.kind = .map := congrArg TypeView.kind hd
    have hel : (View.ofCell s.heap c).element = some (keyOf n) := congrArg TypeView.element hd
    obtain ⟨e, ce, h1, h2⟩ := typeAt_element h.inv h.found hc hel
    have h3 := h.value (h.known he (n := n) (by simp [TypeExpr.names])) hl h2
    rw [typeOf_eq h.inv.ok.heap hc.cell, hk, h1]
    exact .map h3

/-! ## How the types are written -/

variable {base : Text}

open GoRef (home UsableOwner Usable EnumsHere BuildersFound LinkedElsewhere mentioned elementType
  declaredType basicType attributeType attributeBuilder parameterType accessedType GoType)

/-- The declared types that are mentioned belong to the version and have no dots. -/
theorem Value.mentions {n : Text} {t : Typ} (h : Value ds o n t) (hd : NoDots ds) {d : GoRef.Decl}
    (hm : mentioned t = some d) : d.owner = o ∧ '.' ∉ Go.nameOf d.annotations d.name := by
  cases h with
  | basic => simp [mentioned] at hm
  | enum h1 _ => simp only [mentioned, Option.some.injEq] at hm; subst hm; exact ⟨rfl, hd _ h1 _ rfl⟩
  | «class» h1 _ => simp only [mentioned, Option.some.injEq] at hm; subst hm; exact ⟨rfl, hd _ h1 _ rfl⟩
  | struct h1 _ => simp only [mentioned, Option.some.injEq] at hm; subst hm; exact ⟨rfl, hd _ h1 _ rfl⟩

theorem Denotes.mentions {e : TypeExpr} {t : Typ} (h : Denotes ds o e t) (hd : NoDots ds)
    {d : GoRef.Decl} (hm : mentioned t = some d) :
    d.owner = o ∧ '.' ∉ Go.nameOf d.annotations d.name := by
  cases h with
  | plain h => exact h.mentions hd hm
  | predefined => simp [mentioned] at hm
  | list h => exact h.mentions hd hm
  | map h => exact h.mentions hd hm

theorem Denotes.usable {e : TypeExpr} {t : Typ} (h : Denotes ds o e t) (hd : NoDots ds) (hb : base ≠ [])
    (ho : UsableOwner o) : Usable base o t where
  base := hb
  here := ho
  owner d hm := by rw [(h.mentions hd hm).1]; exact ho
  dot d hm := (h.mentions hd hm).2

theorem Denotes.enumsHere {e : TypeExpr} {t : Typ} (h : Denotes ds o e t) (hd : NoDots ds) :
    EnumsHere base o t := fun _ d hm => by rw [(h.mentions hd hm).1]

/-- The package needed for the values of a type. -/
def timeOf (key : Text) : Option (Text × Text) := if key = t!"date" then some (t!"time", t!"time") else none

theorem time_here : t!"time" ≠ home base o := by
  exact GoRef.time_ne_home base o

theorem declared_not_date (g : GoodDecls ds) {d : Decl} (hd : d ∈ ds) {name : Name}
    (hn : d.typeName = some name) : name.toText ∉ builtinKeys := by
  have hkind : ∃ kind, d.declaredType = some (name.toText, kind) := by
    cases d <;> cases hn <;> exact ⟨_, rfl⟩
  obtain ⟨kind, hdk⟩ := hkind
  exact g.acceptable.notBuiltin _ (List.mem_filterMap.mpr ⟨d, hd, by rw [hdk]; rfl⟩)

/-- How the Go type of a predefined type is written. -/
theorem basic_text (b : Basic) : (b ≠ .interface → BasicText (basicKey b) ((basicType b).written (home base o))) ∧
    (b = .interface → (basicType b).written (home base o) = t!"interface{}") ∧
    (basicType b).needs (home base o) = timeOf (basicKey b) := by
  have ht := @time_here o base
  cases b
  · exact ⟨fun _ => .boolean, fun h => (nomatch h), rfl⟩
  · exact ⟨fun _ => .integer, fun h => (nomatch h), rfl⟩
  · exact ⟨fun _ => .long, fun h => (nomatch h), rfl⟩
  · exact ⟨fun _ => .float, fun h => (nomatch h), rfl⟩
  · exact ⟨fun _ => .string, fun h => (nomatch h), rfl⟩
  · refine ⟨fun _ => ?_, fun h => (nomatch h), ?_⟩
    · rw [basicType, GoType.written, if_neg ht]
      exact .date
    · rw [basicType, GoType.needs, if_neg ht]
      rfl
  · exact ⟨fun h => absurd rfl h, fun _ => rfl, rfl⟩

/-- How the Go type of a declared type is written. -/
theorem declared_text (d : GoRef.Decl) (hd : d.owner = o) (suffix : Text) :
    (declaredType base d suffix).written (home base o) = Go.nameOf d.annotations d.name ++ suffix ∧
    (declaredType base d suffix).needs (home base o) = none := by
  subst hd
  unfold declaredType GoType.written GoType.needs
  exact ⟨if_pos rfl, if_pos rfl⟩

/-- The forms of the values of a type. -/
inductive ValueForm (ds : List Decl) (o : Owner) (base n : Text) : Typ → Prop
  | scalar {t g} : t.isScalar = true → t.isStruct = false → elementType base t = some g →
    ScalarText ds n (g.written (home base o)) → g.needs (home base o) = timeOf (keyOf n) →
    ValueForm ds o base n t
  | object {d} : d.owner = o → ObjectName ds n (Go.nameOf d.annotations d.name) →
    timeOf (keyOf n) = none → ValueForm ds o base n (.struct d)

theorem Value.form (g : GoodDecls ds) {n : Text} {t : Typ} (h : Value ds o n t) : ValueForm ds o base n t := by
  have hnot : ∀ {d : Decl} {name : Text}, d ∈ ds → d.typeName = some (parseUsingCase name) →
      keyOf n = keyOf name → timeOf (keyOf n) = none := by
    intro d name hd hn hk
    have := declared_not_date g hd hn
    unfold timeOf
    rw [if_neg]
    intro e
    rw [hk] at e
    exact this (by rw [show (parseUsingCase name).toText = t!"date" from e]; decide)
  cases h with
  | basic b hk =>
    obtain ⟨h1, h2, h3⟩ := @basic_text o base b
    refine .scalar rfl rfl rfl ?_ (by rw [h3, hk])
    by_cases hb : b = .interface
    · rw [h2 hb]
      subst hb
      exact .interface hk
    · exact .basic (by rw [hk]; exact h1 hb)
  | @enum name doc as vs hd hk =>
    obtain ⟨h1, h2⟩ := declared_text (base := base) (o := o) ⟨o, parseUsingCase name, as⟩ rfl []
    refine .scalar rfl rfl rfl ?_ (by rw [h2, hnot hd rfl hk])
    rw [h1, List.append_nil]
    exact .enum (.enum hd hk)
  | «class» hd hk => exact .object rfl (.class hd hk) (hnot hd rfl hk)
  | struct hd hk => exact .object rfl (.struct hd hk) (hnot hd rfl hk)

/-- A name is declared only once. -/
theorem declared_once (g : GoodDecls ds) {d d' : Decl} (hd : d ∈ ds) (hd' : d' ∈ ds) {name name' : Text}
    (hn : d.typeName = some (parseUsingCase name)) (hn' : d'.typeName = some (parseUsingCase name'))
    (hk : keyOf name = keyOf name') : d = d' := by
  have hkind : ∀ {d : Decl} {name : Text}, d.typeName = some (parseUsingCase name) →
      d.declaredType.map Prod.fst = some (keyOf name) := by
    intro d name hn
    unfold keyOf
    cases d <;> first
      | (injection hn with hn; rw [← hn]; rfl)
      | cases hn
  have hnd := g.acceptable.distinctTypes
  unfold declaredTypes at hnd
  exact filterMap_inj hnd hd hd' (hkind hn) (by rw [hk]; exact hkind hn')

/-- Objects are denoted by the names of classes and structs. -/
theorem Value.object (g : GoodDecls ds) {n gn : Text} {t : Typ} (h : Value ds o n t)
    (ho : ObjectName ds n gn) : ∃ d, t = .struct d := by
  have hdecl : ∃ d name, d ∈ ds ∧ d.typeName = some (parseUsingCase name) ∧ keyOf n = keyOf name ∧
      ∀ a b c e, d ≠ .enum a b c e := by
    cases ho with
    | «class» h1 h2 => exact ⟨_, _, h1, rfl, h2, by simp⟩
    | struct h1 h2 => exact ⟨_, _, h1, rfl, h2, by simp⟩
  obtain ⟨d, name, h1, h2, h3, h4⟩ := hdecl
  cases h with
  | basic b hk =>
    refine absurd ?_ (declared_not_date g h1 h2)
    rw [show (parseUsingCase name).toText = keyOf name from rfl, ← h3, hk]
    cases b <;> decide
  | enum h5 h6 => exact absurd (declared_once g h1 h5 h2 rfl (h3.symm.trans h6)) (h4 _ _ _ _)
  | «class» => exact ⟨_, rfl⟩
  | struct => exact ⟨_, rfl⟩

/-- What is written for an attribute. -/
structure FieldIs (ds : List Decl) (o : Owner) (base : Text) (link : Bool) (e : TypeExpr) (t : Typ) : Prop where
  field : ∃ x, attributeType base ⟨t, link, none⟩ = some x ∧ FieldText ds link e (x.written (home base o)) ∧
    (NeedsTime e → x.needs (home base o) = some (t!"time", t!"time")) ∧
    (¬ NeedsTime e → x.needs (home base o) = none)
  builder : ∃ x, attributeBuilder base ⟨t, link, none⟩ = some x ∧ BuilderText ds link e (x.written (home base o))

theorem needs_time {k : Text} {x : Option (Text × Text)} (h : x = timeOf k) :
    (k = t!"date" → x = some (t!"time", t!"time")) ∧ (¬ k = t!"date" → x = none) := by
  subst h
  unfold timeOf
  exact ⟨fun h => if_pos h, fun h => if_neg h⟩

theorem Denotes.field (g : GoodDecls ds) {e : TypeExpr} {t : Typ} {link : Bool} (h : Denotes ds o e t)
    (hlist : t.isList = true ↔ IsListRef e)
    (hlink : link = true → IsListRef e → ∃ n gn, e = .list n ∧ ObjectName ds n gn) :
    FieldIs ds o base link e t := by
  by_cases hl : link = true ∧ IsListRef e
  · obtain ⟨n, gn, rfl, hobj⟩ := hlink hl.1 hl.2
    obtain ⟨rfl, -⟩ := hl
    cases h with
    | @list _ t d hv =>
      obtain ⟨d', rfl⟩ := hv.object g hobj
      cases hv.form (base := base) g with
      | scalar h1 => cases h1
      | object ho hn ht =>
        obtain ⟨h1, h2⟩ := declared_text (base := base) d' ho t!"List"
        obtain ⟨h3, -⟩ := declared_text (base := base) d' ho t!"ListBuilder"
        refine ⟨⟨_, rfl, ?_, ?_⟩, ⟨_, rfl, ?_⟩⟩
        · rw [GoType.written, h1, ← List.append_assoc]
          exact .links hn
        · exact needs_time (by rw [GoType.needs, h2, ht])
        · rw [GoType.written, h3, ← List.append_assoc]
          exact .links hn
  · have hatt : attributeType base ⟨t, link, none⟩ = GoRef.typeOf base t := by
      unfold attributeType
      rw [if_neg]
      simp only [Bool.and_eq_true]
      rintro ⟨h1, h2⟩
      exact hl ⟨h2, hlist.mp h1⟩
    have key : ∀ x, GoRef.typeOf base t = some x → PlainText ds e (x.written (home base o)) →
        ((NeedsTime e → x.needs (home base o) = some (t!"time", t!"time")) ∧
          (¬ NeedsTime e → x.needs (home base o) = none)) →
        (∃ x, attributeBuilder base ⟨t, link, none⟩ = some x ∧ BuilderText ds link e (x.written (home base o))) →
        FieldIs ds o base link e t := by
      intro x h1 h2 h3 h4
      exact ⟨⟨x, by rw [hatt]; exact h1, .plain hl h2, h3⟩, h4⟩
    have hnl : IsListRef e → link = false := by
      intro hi
      cases link
      · rfl
      · exact absurd ⟨rfl, hi⟩ hl
    cases h with
    | @plain n _ hv =>
      have hnd : keyOf n ≠ t!"date_list" := by
        intro hk
        cases hv with
        | basic b h1 => rw [hk] at h1; cases b <;> exact absurd h1 (by decide)
        | enum h1 h2 =>
          exact declared_not_date g h1 rfl (by rw [show (parseUsingCase _).toText = keyOf n from h2.symm, hk]; decide)
        | «class» h1 h2 =>
          exact declared_not_date g h1 rfl (by rw [show (parseUsingCase _).toText = keyOf n from h2.symm, hk]; decide)
        | struct h1 h2 =>
          exact declared_not_date g h1 rfl (by rw [show (parseUsingCase _).toText = keyOf n from h2.symm, hk]; decide)
      have htime : ∀ {x : Option (Text × Text)}, x = timeOf (keyOf n) →
          (NeedsTime (.plain n) → x = some (t!"time", t!"time")) ∧ (¬ NeedsTime (.plain n) → x = none) := by
        intro x hx
        obtain ⟨h1, h2⟩ := needs_time hx
        refine ⟨fun h => ?_, fun h => h2 fun h' => h (.inl h')⟩
        rcases h with h | h
        · exact h1 h
        · exact absurd h hnd
      cases hv.form (base := base) g with
      | @scalar _ x h1 h1' h2 h3 h4 =>
        have htyp : GoRef.typeOf base t = some x := by
          cases t <;> first | exact h2 | simp [GoRef.Typ.isScalar] at h1
        refine key x htyp (.plain (.scalar h3)) (htime h4) ⟨x, ?_, .scalar h3⟩
        cases t <;> first | exact htyp | simp [GoRef.Typ.isScalar] at h1
      | @object d h1 h2 h3 =>
        obtain ⟨h4, h5⟩ := declared_text (base := base) d h1 []
        obtain ⟨h6, -⟩ := declared_text (base := base) d h1 t!"Builder"
        refine key _ rfl ?_ (htime ?_) ⟨_, rfl, ?_⟩
        · rw [GoType.written, h4, List.append_nil]
          exact .plain (.object h2)
        · rw [GoType.needs, h5, h3]
        · rw [GoType.written, h6, ← List.append_assoc]
          exact .object h2
    | @predefined n d b hk =>
      obtain ⟨h1, h2, h3⟩ := @basic_text o base b
      have hp : PredefinedText n ((basicType b).written (home base o)) := by
        by_cases hb : b = .interface
        · rw [h2 hb]
          subst hb
          exact .interface hk
        · exact .basic (h1 hb) hk
      obtain rfl := hnl (hlist.mp rfl)
      refine key _ rfl (.predefined hp) ?_ ⟨_, rfl, .predefined hp⟩
      rw [GoType.needs, h3]
      change (keyOf n = t!"date" ∨ keyOf n = t!"date_list" → _) ∧ (¬ (keyOf n = t!"date" ∨ keyOf n = t!"date_list") → _)
      rw [hk]
      cases b <;> decide
    | @list n t d hv =>
      obtain rfl := hnl trivial
      cases hv.form (base := base) g with
      | @scalar _ x h1 h1' h2 h3 h4 =>
        have htyp : GoRef.typeOf base (.list d t) = some (.slice x) := by
          rw [GoRef.typeOf, h2]; rfl
        refine key _ htyp (.list (.scalar h3)) (needs_time h4) ⟨.slice x, ?_, .scalars h3⟩
        cases t <;> first | exact htyp | simp [GoRef.Typ.isScalar] at h1
      | @object d' h1 h2 h3 =>
        obtain ⟨h4, h5⟩ := declared_text (base := base) d' h1 []
        obtain ⟨h6, -⟩ := declared_text (base := base) d' h1 t!"Builder"
        refine key _ rfl ?_ (needs_time ?_) ⟨_, rfl, ?_⟩
        · rw [GoType.written, GoType.written, h4, List.append_nil]
          exact .list (.object h2)
        · rw [GoType.needs, GoType.needs, h5, h3]
        · rw [GoType.written, GoType.written, h6]
          exact .list h2
    | @map i n t d hv =>
      cases hv.form (base := base) g with
      | @scalar _ x h1 h1' h2 h3 h4 =>
        have htyp : GoRef.typeOf base (.map d t) = some (.mapOf x) := by
          rw [GoRef.typeOf, h2]; rfl
        refine key _ htyp (.map (.scalar h3)) (needs_time h4) ⟨.mapOf x, ?_, .scalarMap h3⟩
        cases t <;> first | exact htyp | simp [GoRef.Typ.isScalar] at h1
      | @object d' h1 h2 h3 =>
        obtain ⟨h4, h5⟩ := declared_text (base := base) d' h1 []
        obtain ⟨h6, -⟩ := declared_text (base := base) d' h1 t!"Builder"
        refine key _ rfl ?_ (needs_time ?_) ⟨_, rfl, ?_⟩
        · rw [GoType.written, GoType.written, h4, List.append_nil]
          exact .map (.object h2)
        · rw [GoType.needs, GoType.needs, h5, h3]
        · rw [GoType.written, GoType.written, h6]
          exact .map h2

/-- What is written for a parameter. -/
structure ParameterIs (ds : List Decl) (o : Owner) (base : Text) (items : Bool) (e : TypeExpr) (t : Typ) :
    Prop where
  field : ∃ x, parameterType base ⟨t, items⟩ = some x ∧ ParameterText ds items e (x.written (home base o))
  access : ∃ x, accessedType base ⟨t, items⟩ = some x ∧ AccessText ds items e (x.written (home base o))

theorem Denotes.parameter (g : GoodDecls ds) {e : TypeExpr} {t : Typ} {items : Bool} (h : Denotes ds o e t)
    (hitems : items = true → ∃ n gn, e = .list n ∧ ObjectName ds n gn) :
    ParameterIs ds o base items e t := by
  cases items with
  | true =>
    obtain ⟨n, gn, rfl, hobj⟩ := hitems rfl
    cases h with
    | @list _ t d hv =>
      obtain ⟨d', rfl⟩ := hv.object g hobj
      cases hv.form (base := base) g with
      | scalar h1 => cases h1
      | object ho hn ht =>
        obtain ⟨h1, h2⟩ := declared_text (base := base) d' ho t!"List"
        refine ⟨⟨_, rfl, ?_⟩, ⟨_, rfl, ?_⟩⟩
        · rw [GoType.written, h1, ← List.append_assoc]
          exact .items hn
        · rw [GoType.written, h1, ← List.append_assoc]
          exact .items hn
  | false =>
    cases h with
    | @plain n _ hv =>
      cases hv with
      | basic b hk =>
        obtain ⟨h1, h2, -⟩ := @basic_text o base b
        have hs : ScalarText ds n ((basicType b).written (home base o)) := by
          by_cases hb : b = .interface
          · rw [h2 hb]
            subst hb
            exact .interface hk
          · exact .basic (by rw [hk]; exact h1 hb)
        refine ⟨?_, ⟨_, rfl, .plain (.plain (.scalar hs))⟩⟩
        by_cases hb : b = .interface
        · subst hb
          exact ⟨_, rfl, .interface hk⟩
        · refine ⟨.pointer (basicType b), ?_, .basic (by rw [hk]; exact h1 hb)⟩
          cases b <;> first | rfl | exact absurd rfl hb
      | @enum name doc as vs hd hk =>
        obtain ⟨h1, -⟩ := declared_text (base := base) (o := o) ⟨o, parseUsingCase name, as⟩ rfl []
        refine ⟨⟨_, rfl, ?_⟩, ⟨_, rfl, ?_⟩⟩
        · rw [GoType.written, h1, List.append_nil]
          exact .enum (.enum hd hk)
        · rw [h1, List.append_nil]
          exact .plain (.plain (.scalar (.enum (.enum hd hk))))
      | @«class» name doc as ms hd hk =>
        obtain ⟨h1, -⟩ := declared_text (base := base) (o := o) ⟨o, parseUsingCase name, as⟩ rfl []
        refine ⟨⟨_, rfl, ?_⟩, ⟨_, rfl, ?_⟩⟩
        · rw [GoType.written, h1, List.append_nil]
          exact .object (.class hd hk)
        · rw [GoType.written, h1, List.append_nil]
          exact .plain (.plain (.object (.class hd hk)))
      | @struct name doc as ms hd hk =>
        obtain ⟨h1, -⟩ := declared_text (base := base) (o := o) ⟨o, parseUsingCase name, as⟩ rfl []
        refine ⟨⟨_, rfl, ?_⟩, ⟨_, rfl, ?_⟩⟩
        · rw [GoType.written, h1, List.append_nil]
          exact .object (.struct hd hk)
        · rw [GoType.written, h1, List.append_nil]
          exact .plain (.plain (.object (.struct hd hk)))
    | @predefined n d b hk =>
      obtain ⟨h1, h2, h3⟩ := @basic_text o base b
      have hp : PredefinedText n ((basicType b).written (home base o)) := by
        by_cases hb : b = .interface
        · rw [h2 hb]
          subst hb
          exact .interface hk
        · exact .basic (h1 hb) hk
      exact ⟨⟨_, rfl, .predefined hp⟩, ⟨_, rfl, .plain (.predefined hp)⟩⟩
    | @list n t d hv =>
      cases hv.form (base := base) g with
      | @scalar _ x h1 h1' h2 h3 h4 =>
        have htyp : GoRef.typeOf base (.list d t) = some (.slice x) := by
          rw [GoRef.typeOf, h2]; rfl
        exact ⟨⟨_, htyp, .list (.scalar h3)⟩, ⟨_, htyp, .plain (.list (.scalar h3))⟩⟩
      | @object d' h1 h2 h3 =>
        obtain ⟨h4, h5⟩ := declared_text (base := base) d' h1 []
        refine ⟨⟨_, rfl, ?_⟩, ⟨_, rfl, ?_⟩⟩
        · rw [GoType.written, GoType.written, h4, List.append_nil]
          exact .list (.object h2)
        · rw [GoType.written, GoType.written, h4, List.append_nil]
          exact .plain (.list (.object h2))
    | @map i n t d hv =>
      cases hv.form (base := base) g with
      | @scalar _ x h1 h1' h2 h3 h4 =>
        have htyp : GoRef.typeOf base (.map d t) = some (.mapOf x) := by
          rw [GoRef.typeOf, h2]; rfl
        exact ⟨⟨_, htyp, .map (.scalar h3)⟩, ⟨_, htyp, .plain (.map (.scalar h3))⟩⟩
      | @object d' h1 h2 h3 =>
        obtain ⟨h4, h5⟩ := declared_text (base := base) d' h1 []
        refine ⟨⟨_, rfl, ?_⟩, ⟨_, rfl, ?_⟩⟩
        · rw [GoType.written, GoType.written, h4, List.append_nil]
          exact .map (.object h2)
        · rw [GoType.written, GoType.written, h4, List.append_nil]
          exact .plain (.map (.object h2))

end Verif.Whole
