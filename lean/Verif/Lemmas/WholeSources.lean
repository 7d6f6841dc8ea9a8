import Verif.Lemmas.WholeLocal
import Verif.Lemmas.WholeTypes
import Verif.Props.Content

/-! Helper lemmas: the types of a model that the declarations describe. -/

namespace Verif.Whole

open Reader Session Outcome
open GoRef (Typ)

/-- The type of the version with the given key. -/
structure TypeAt (s : Session) (v : LoadedVersion) (k : Text) (id : TypeId) (c : TypeCell) : Prop where
  found : v.types.find k = some id
  cell : s.heap[id]? = some c
  key : c.name.toText = k
  owner : c.owner = some v.id
  view : s.typeView v k = some (View.ofCell s.heap c)

theorem typeAt_of_find {s : Session} (i : ReadInv s) {a b : Text} {v : LoadedVersion}
    (hv : s.version a b = some v) {k : Text} {id : TypeId} (hf : v.types.find k = some id) :
    ∃ c, TypeAt s v k id c := by
  obtain ⟨c, h1, h2, h3⟩ := (version_named i.model hv).2.2.named k id hf
  exact ⟨c, hf, h1, h2, h3, by unfold Session.typeView; rw [hf, Option.bind_some, h1]; rfl⟩

theorem typeAt_of_view {s : Session} (i : ReadInv s) {a b : Text} {v : LoadedVersion}
    (hv : s.version a b = some v) {k : Text} {x : TypeView} (hx : s.typeView v k = some x) :
    ∃ id c, TypeAt s v k id c ∧ x = View.ofCell s.heap c := by
  have hx' := hx
  unfold Session.typeView at hx
  obtain ⟨id, hf, -⟩ := Option.bind_eq_some_iff.mp hx
  obtain ⟨c, hc⟩ := typeAt_of_find i hv hf
  refine ⟨id, c, hc, ?_⟩
  have := hc.view
  rw [hx'] at this
  exact Option.some.inj this

theorem typeAt_of_owned {s : Session} (i : ReadInv s) {a b : Text} {v : LoadedVersion}
    (hv : s.version a b = some v) {id : TypeId} (ho : Owned s.heap (some v.id) id) :
    ∃ c, TypeAt s v (View.typeKey s.heap id) id c := by
  obtain ⟨c, hc, ho⟩ := ho
  have hf := i.locals.own a b v hv id c hc ho
  have : View.typeKey s.heap id = c.name.toText := by unfold View.typeKey; rw [hc]
  rw [this]
  exact typeAt_of_find i hv hf

/-- The element of a list or map. -/
theorem typeAt_element {s : Session} (i : ReadInv s) {a b : Text} {v : LoadedVersion}
    (hv : s.version a b = some v) {k : Text} {id : TypeId} {c : TypeCell} (h : TypeAt s v k id c)
    {ek : Text} (he : (View.ofCell s.heap c).element = some ek) :
    ∃ e ce, c.element = some e ∧ TypeAt s v ek e ce := by
  obtain ⟨e, h1, h2⟩ := Option.map_eq_some_iff.mp he
  obtain ⟨ce, h3⟩ := typeAt_of_owned i hv (by
    have := (i.locals.cells id c h.cell).element e h1
    rw [h.owner] at this
    exact this)
  rw [h2] at h3
  exact ⟨e, ce, h1, h3⟩

/-- The kinds of the types that the declarations describe. -/
inductive PlainKind : Kind → Prop
  | scalar : PlainKind .scalar
  | interface : PlainKind .interface
  | enum : PlainKind .enum
  | struct : PlainKind .struct
  | class : PlainKind .class

theorem builtin_kind {owner : VersionId} {k : Text} {x : TypeView} (h : BuiltinView owner k x) :
    (k ∉ predefinedLists ∧ PlainKind x.kind) ∨
    (k ∈ predefinedLists ∧ x.kind = .list ∧ ∃ b ∈ builtinScalars, x.element = some b.1) := by
  obtain ⟨b, hb, ⟨rfl, rfl⟩ | ⟨rfl, rfl⟩⟩ := h
  · left
    simp only [builtinScalars, List.mem_cons, List.not_mem_nil, or_false] at hb
    rcases hb with rfl | rfl | rfl | rfl | rfl | rfl | rfl
    all_goals exact ⟨by decide, by constructor⟩
  · right
    refine ⟨?_, rfl, b, hb, rfl⟩
    simp only [builtinScalars, List.mem_cons, List.not_mem_nil, or_false] at hb
    rcases hb with rfl | rfl | rfl | rfl | rfl | rfl | rfl
    all_goals decide

theorem describes_kind {owner : VersionId} {d : Decl} {k : Text} {x : TypeView}
    (h : d.Describes owner k x) : PlainKind x.kind := by
  cases d with
  | enum => obtain ⟨-, -, -, rfl⟩ := h; exact .enum
  | «class» => obtain ⟨-, -, -, rfl⟩ := h; exact .class
  | struct => obtain ⟨-, -, -, rfl⟩ := h; exact .struct
  | resource => exact h.elim
  | error => exact h.elim

theorem mem_declaredTypes {ds : List Decl} {k : Text} (h : k ∈ declaredTypes ds) :
    ∃ d ∈ ds, ∃ kind, d.declaredType = some (k, kind) := by
  unfold declaredTypes at h
  obtain ⟨d, hd, he⟩ := List.mem_filterMap.mp h
  obtain ⟨p, hp, rfl⟩ := Option.map_eq_some_iff.mp he
  exact ⟨d, hd, p.2, hp⟩

theorem predefined_builtin {k : Text} (h : k ∈ predefinedLists) : k ∈ builtinKeys := by
  simp only [predefinedLists, List.mem_cons, List.not_mem_nil, or_false] at h
  rcases h with rfl | rfl | rfl | rfl | rfl | rfl | rfl <;> decide

theorem scalar_builtin {b : Text × Kind} (h : b ∈ builtinScalars) :
    b.1 ∈ builtinKeys ∧ b.1 ∉ predefinedLists := by
  simp only [builtinScalars, List.mem_cons, List.not_mem_nil, or_false] at h
  rcases h with rfl | rfl | rfl | rfl | rfl | rfl | rfl <;> decide

/-- What is known about a version. -/
structure VersionIs (s : Session) (a b : Text) (v : LoadedVersion) (ds : List Decl) : Prop where
  inv : ReadInv s
  found : s.version a b = some v
  types : TypesAre v.id ds (s.typeView v)
  resources : ResourcesAre ds (s.resourceView v)
  good : GoodDecls ds

variable {s : Session} {a b : Text} {v : LoadedVersion} {ds : List Decl}

/-- The type that a name denotes isn't a map, and it is a list only if it is a predefined one. -/
theorem VersionIs.name (h : VersionIs s a b v ds) {k : Text}
    (hk : k ∈ builtinKeys ∨ k ∈ declaredTypes ds) :
    ∃ id c, TypeAt s v k id c ∧
      ((k ∉ predefinedLists ∧ PlainKind c.kind) ∨
       (k ∈ predefinedLists ∧ c.kind = .list ∧ ∃ e ce, c.element = some e ∧
         TypeAt s v (View.typeKey s.heap e) e ce ∧ PlainKind ce.kind)) := by
  rcases hk with hk | hk
  · obtain ⟨x, hx, hb⟩ := h.types.builtin k hk
    obtain ⟨id, c, hc, rfl⟩ := typeAt_of_view h.inv h.found hx
    refine ⟨id, c, hc, ?_⟩
    rcases builtin_kind hb with h1 | ⟨h1, h2, b', hb', h3⟩
    · exact .inl h1
    · obtain ⟨e, ce, he, hce⟩ := typeAt_element h.inv h.found hc h3
      have hs := scalar_builtin hb'
      obtain ⟨y, hy, hby⟩ := h.types.builtin b'.1 hs.1
      have hview := hce.view
      rw [hy] at hview
      have hye := Option.some.inj hview
      have hkey : View.typeKey s.heap e = b'.1 := by
        unfold View.typeKey
        rw [hce.cell]
        exact hce.key
      rcases builtin_kind hby with ⟨-, h4⟩ | ⟨h4, -⟩
      · rw [hye] at h4
        exact .inr ⟨h1, h2, e, ce, he, by rw [hkey]; exact hce, h4⟩
      · exact absurd h4 hs.2
  · obtain ⟨d, hd, kind, hdk⟩ := mem_declaredTypes hk
    obtain ⟨x, hx, hdes⟩ := h.types.declared d hd k kind hdk
    obtain ⟨id, c, hc, rfl⟩ := typeAt_of_view h.inv h.found hx
    refine ⟨id, c, hc, .inl ⟨?_, describes_kind hdes⟩⟩
    intro hp
    exact h.good.acceptable.notBuiltin k hk (predefined_builtin hp)

theorem simple_iff {id : TypeId} {c : TypeCell} (i : ReadInv s) (hc : s.heap[id]? = some c) :
    Simple (typeOf s id) ↔ c.kind ≠ .list ∧ c.kind ≠ .map := by
  rw [typeOf_eq i.ok.heap hc]
  cases c.kind <;> simp <;> first | exact .basic _ | exact .enum _ | exact .struct _ | (intro h; cases h)

theorem isMap_iff {id : TypeId} {c : TypeCell} (i : ReadInv s) (hc : s.heap[id]? = some c) :
    IsMap (typeOf s id) ↔ c.kind = .map := by
  rw [typeOf_eq i.ok.heap hc]
  cases c.kind <;> simp <;> first | exact .map _ _ | (intro h; cases h)

theorem isList_iff {id : TypeId} {c : TypeCell} (i : ReadInv s) (hc : s.heap[id]? = some c) :
    (typeOf s id).isList = true ↔ c.kind = .list := by
  rw [typeOf_eq i.ok.heap hc]
  cases c.kind <;> simp [Typ.isList]

theorem isStruct_iff {id : TypeId} {c : TypeCell} (i : ReadInv s) (hc : s.heap[id]? = some c) :
    (typeOf s id).isStruct = true ↔ c.kind = .struct ∨ c.kind = .class := by
  rw [typeOf_eq i.ok.heap hc]
  cases c.kind <;> simp [Typ.isStruct]

theorem flat_iff {id : TypeId} {c : TypeCell} (i : ReadInv s) (hc : s.heap[id]? = some c) :
    Flat (typeOf s id) ↔ (c.kind ≠ .list ∧ c.kind ≠ .map) ∨
      ((c.kind = .list ∨ c.kind = .map) ∧ ∀ e, c.element = some e → Simple (typeOf s e)) := by
  have hs := simple_iff i hc
  have ok := i.ok.heap id c hc
  by_cases hk : c.kind = .list ∨ c.kind = .map
  · obtain ⟨e, he, -⟩ := ok.element hk
    have : typeOf s id = .list (declOf s c) (typeOf s e) ∨ typeOf s id = .map (declOf s c) (typeOf s e) := by
      rw [typeOf_eq i.ok.heap hc]
      rcases hk with hk | hk
      · rw [hk, he]; exact .inl rfl
      · rw [hk, he]; exact .inr rfl
    constructor
    · intro hf
      refine .inr ⟨hk, fun e' he' => ?_⟩
      rw [he] at he'
      cases he'
      rcases this with h | h <;> rw [h] at hf <;> cases hf
      · rename_i h'; cases h'
      · assumption
      · rename_i h'; cases h'
      · assumption
    · rintro (⟨h1, h2⟩ | ⟨-, h⟩)
      · rcases hk with hk | hk
        · exact absurd hk h1
        · exact absurd hk h2
      · rcases this with h' | h' <;> rw [h']
        · exact .list _ (h e he)
        · exact .map _ (h e he)
  · have hk1 : c.kind ≠ .list := fun h => hk (.inl h)
    have hk2 : c.kind ≠ .map := fun h => hk (.inr h)
    constructor
    · intro _
      exact .inl ⟨hk1, hk2⟩
    · intro _
      exact .simple (hs.mpr ⟨hk1, hk2⟩)

theorem collection_iff {id : TypeId} {c : TypeCell} (i : ReadInv s) (hc : s.heap[id]? = some c) :
    Collection (typeOf s id) ↔ c.kind = .list ∧ ∀ e, c.element = some e → ¬ IsMap (typeOf s e) := by
  have ok := i.ok.heap id c hc
  rw [typeOf_eq i.ok.heap hc]
  cases hk : c.kind
  case list =>
    obtain ⟨e, he, -⟩ := ok.element (.inl hk)
    rw [he]
    constructor
    · intro h
      cases h
      refine ⟨rfl, fun e' he' => ?_⟩
      cases he'
      assumption
    · intro h
      exact .list _ (h.2 e rfl)
  all_goals
    constructor
    · intro h; cases h
    · intro h; cases h.1

theorem PlainKind.ne {k : Kind} (h : PlainKind k) : k ≠ .list ∧ k ≠ .map ∧ k ≠ .undefined := by
  cases h <;> simp

theorem VersionIs.known (h : VersionIs s a b v ds) {e : TypeExpr} (he : e ∈ refsOf ds) {n : Text}
    (hn : n ∈ e.names) : keyOf n ∈ builtinKeys ∨ keyOf n ∈ declaredTypes ds :=
  h.good.acceptable.knownTypes _ (List.mem_flatMap.mpr ⟨e, he, List.mem_map.mpr ⟨n, hn, rfl⟩⟩)

theorem TypeAt.unique {k : Text} {id id' : TypeId} {c c' : TypeCell} (h : TypeAt s v k id c)
    (h' : TypeAt s v k id' c') : id = id' ∧ c = c' := by
  have e : id = id' := by
    have := h.found
    rw [h'.found] at this
    exact (Option.some.inj this).symm
  subst e
  have := h.cell
  rw [h'.cell] at this
  exact ⟨rfl, (Option.some.inj this).symm⟩

/-- The type of the element of a reference. -/
theorem VersionIs.element (h : VersionIs s a b v ds) {e : TypeExpr} (he : e ∈ refsOf ds) {n : Text}
    (hn : n ∈ e.names) {id : TypeId} {c : TypeCell} (hc : TypeAt s v (keyOf n) id c) :
    (Simple (typeOf s id) ↔ keyOf n ∉ predefinedLists) ∧ ¬ IsMap (typeOf s id) := by
  obtain ⟨id', c', hc', hcase⟩ := h.name (h.known he hn)
  obtain ⟨rfl, rfl⟩ := hc.unique hc'
  rw [simple_iff h.inv hc.cell, isMap_iff h.inv hc.cell]
  rcases hcase with ⟨h1, h2⟩ | ⟨h1, h2, -⟩
  · exact ⟨⟨fun _ => h1, fun _ => ⟨h2.ne.1, h2.ne.2.1⟩⟩, h2.ne.2.1⟩
  · exact ⟨⟨fun h => absurd h2 h.1, fun h => absurd h1 h⟩, by rw [h2]; simp⟩

/-- The type that a reference denotes. -/
theorem VersionIs.ref (h : VersionIs s a b v ds) {e : TypeExpr} (he : e ∈ refsOf ds) {id : TypeId}
    {c : TypeCell} (hc : TypeAt s v e.key id c) :
    (Flat (typeOf s id) ↔ OneLevel e) ∧ (Collection (typeOf s id) ↔ IsListRef e) ∧
      ((typeOf s id).isList = true ↔ IsListRef e) := by
  rw [flat_iff h.inv hc.cell, collection_iff h.inv hc.cell, isList_iff h.inv hc.cell]
  cases e with
  | plain n =>
    obtain ⟨id', c', hc', hcase⟩ := h.name (h.known he (n := n) (by simp [TypeExpr.names]))
    obtain ⟨rfl, rfl⟩ := TypeAt.unique hc hc'
    unfold OneLevel IsListRef
    dsimp only
    rcases hcase with ⟨h1, h2⟩ | ⟨h1, h2, e, ce, h3, h4, h5⟩
    · have := h2.ne
      simp [h1, this.1, this.2.1]
    · refine ⟨⟨fun _ => trivial, fun _ => .inr ⟨.inl h2, fun e' he' => ?_⟩⟩,
        ⟨fun _ => h1, fun _ => ⟨h2, fun e' he' => ?_⟩⟩, ⟨fun _ => h1, fun _ => h2⟩⟩
      · rw [h3] at he'
        cases he'
        exact (simple_iff h.inv h4.cell).mpr ⟨h5.ne.1, h5.ne.2.1⟩
      · rw [h3] at he'
        cases he'
        rw [isMap_iff h.inv h4.cell]
        exact h5.ne.2.1
  | list n =>
    have hd := h.types.derived _ he rfl
    rw [hc.view] at hd
    have hd := Option.some.inj hd
    have hk : c.kind = .list := congrArg TypeView.kind hd
    have hel : (View.ofCell s.heap c).element = some (keyOf n) := congrArg TypeView.element hd
    obtain ⟨e, ce, h1, h2⟩ := typeAt_element h.inv h.found hc hel
    have h3 := h.element he (n := n) (by simp [TypeExpr.names]) h2
    unfold OneLevel IsListRef
    dsimp only
    rw [h1]
    refine ⟨⟨?_, fun hn => .inr ⟨.inl hk, fun e' he' => ?_⟩⟩, ⟨fun _ => trivial, fun _ => ⟨hk, fun e' he' => ?_⟩⟩,
      ⟨fun _ => trivial, fun _ => hk⟩⟩
    · rintro (⟨h4, -⟩ | ⟨-, h4⟩)
      · exact absurd hk h4
      · exact h3.1.mp (h4 e rfl)
    · cases he'
      exact h3.1.mpr hn
    · cases he'
      exact h3.2
  | map i n =>
    have hd := h.types.derived _ he rfl
    rw [hc.view] at hd
    have hd := Option.some.inj hd
    have hk : c.kind = .map := congrArg TypeView.kind hd
    have hel : (View.ofCell s.heap c).element = some (keyOf n) := congrArg TypeView.element hd
    obtain ⟨e, ce, h1, h2⟩ := typeAt_element h.inv h.found hc hel
    have h3 := h.element he (n := n) (by simp [TypeExpr.names]) h2
    unfold OneLevel IsListRef
    dsimp only
    rw [h1]
    refine ⟨⟨?_, fun hn => .inr ⟨.inr hk, fun e' he' => ?_⟩⟩, ⟨fun hh => ?_, fun hh => hh.elim⟩,
      ⟨fun hh => ?_, fun hh => hh.elim⟩⟩
    · rintro (⟨-, h4⟩ | ⟨-, h4⟩)
      · exact absurd hk h4
      · exact h3.1.mp (h4 e rfl)
    · cases he'
      exact h3.1.mpr hn
    · rw [hk] at hh; cases hh.1
    · rw [hk] at hh; cases hh

/-! ## Attributes -/

theorem memberRef_mem {d : Decl} (hd : d ∈ ds) {e : TypeExpr} (he : e ∈ d.typeRefs) : e ∈ refsOf ds :=
  List.mem_flatMap.mpr ⟨d, hd, he⟩

/-- The attribute that a member describes. -/
theorem VersionIs.attribute (h : VersionIs s a b v ds) {d : Decl} (hd : d ∈ ds) {m : MemberDecl}
    (hm : m.ref ∈ d.typeRefs) {k : Text} {id : TypeId} {c : TypeCell} (hc : TypeAt s v k id c)
    {x : Attribute} (hx : x ∈ c.attributes) (hv : View.ofAttribute s.heap x = m.view) :
    AttrOk (attributeInfo s x) ↔ MemberFine m := by
  have ho := (h.inv.locals.cells id c hc.cell).attributes x hx
  rw [hc.owner] at ho
  obtain ⟨ct, hct⟩ := typeAt_of_owned h.inv h.found ho.1
  have hkey : View.typeKey s.heap x.typ = m.ref.key := congrArg AttributeView.typ hv
  rw [hkey] at hct
  have hlink : x.link = m.link := congrArg AttributeView.link hv
  obtain ⟨h1, h2, h3⟩ := h.ref (memberRef_mem hd hm) hct
  unfold AttrOk MemberFine attributeInfo
  dsimp only
  rw [hlink]
  by_cases hc : m.link = true ∧ (typeOf s x.typ).isList = true
  · rw [if_pos hc, h2]
    have hr := h3.mp hc.2
    refine ⟨fun _ => ?_, fun _ => hr⟩
    cases he : m.ref with
    | plain n => exact .inr trivial
    | list n => exact .inl ⟨hc.1, n, rfl⟩
    | map i n => rw [he] at hr; exact hr.elim
  · rw [if_neg hc, h1]
    refine ⟨.inr, ?_⟩
    rintro (⟨hl, n, he⟩ | ho)
    · exact absurd ⟨hl, h3.mpr (by rw [he]; trivial)⟩ hc
    · exact ho

/-- The classes and structs of a version are those that are declared. -/
theorem VersionIs.struct (h : VersionIs s a b v ds) {k : Text} {id : TypeId} {c : TypeCell}
    (hc : TypeAt s v k id c) (hk : c.kind = .struct ∨ c.kind = .class) :
    ∃ name doc as ms sorted, IsSortOf AttributeView.name sorted (ms.map MemberDecl.view) ∧
      c.attributes.map (View.ofAttribute s.heap) = sorted ∧
      ((c.kind = .class ∧ Decl.class name doc as ms ∈ ds) ∨
       (c.kind = .struct ∧ Decl.struct name doc as ms ∈ ds)) := by
  have hlist : c.kind ≠ .list := by rintro e; rw [e] at hk; simp at hk
  have hmap : c.kind ≠ .map := by rintro e; rw [e] at hk; simp at hk
  have hview := hc.view
  have given : k ∈ givenTypes ds := by
    rcases h.types.nothingElse k _ hview with hg | ⟨k0, hk0, x0, hx0, hl0, rfl⟩
    · exact hg
    · refine Classical.byContradiction fun hn => ?_
      have := h.types.lists k0 hk0 x0 hx0 hl0 hn
      rw [hview] at this
      exact hlist (congrArg TypeView.kind (Option.some.inj this))
  unfold givenTypes at given
  rw [List.mem_append, List.mem_append] at given
  rcases given with (hg | hg) | hg
  · obtain ⟨x, hx, hb⟩ := h.types.builtin k hg
    rw [hview] at hx
    have hx := Option.some.inj hx
    subst hx
    obtain ⟨b', hb', ⟨-, he⟩ | ⟨-, he⟩⟩ := hb
    · have hke : c.kind = b'.2 := congrArg TypeView.kind he
      simp only [builtinScalars, List.mem_cons, List.not_mem_nil, or_false] at hb'
      rcases hb' with rfl | rfl | rfl | rfl | rfl | rfl | rfl <;> rw [hke] at hk <;> simp at hk
    · exact absurd (congrArg TypeView.kind he) hlist
  · obtain ⟨d, hd, kind, hdk⟩ := mem_declaredTypes hg
    obtain ⟨x, hx, hdes⟩ := h.types.declared d hd k kind hdk
    rw [hview] at hx
    have hx := Option.some.inj hx
    subst hx
    cases d with
    | enum =>
      obtain ⟨-, _, _, he⟩ := hdes
      have hke : c.kind = .enum := congrArg TypeView.kind he
      rw [hke] at hk; simp at hk
    | «class» name doc as ms =>
      obtain ⟨-, sorted, hs, he⟩ := hdes
      exact ⟨name, doc, as, ms, sorted, hs, congrArg TypeView.attributes he,
        .inl ⟨congrArg TypeView.kind he, hd⟩⟩
    | struct name doc as ms =>
      obtain ⟨-, sorted, hs, he⟩ := hdes
      exact ⟨name, doc, as, ms, sorted, hs, congrArg TypeView.attributes he,
        .inr ⟨congrArg TypeView.kind he, hd⟩⟩
    | resource => exact hdes.elim
    | error => exact hdes.elim
  · unfold derivedTypes at hg
    obtain ⟨e, he, rfl⟩ := List.mem_map.mp hg
    obtain ⟨he, hder⟩ := List.mem_filter.mp he
    have := h.types.derived e he hder
    rw [hview] at this
    cases e with
    | plain n => cases hder
    | list n => exact absurd (congrArg TypeView.kind (Option.some.inj this)) hlist
    | map i n => exact absurd (congrArg TypeView.kind (Option.some.inj this)) hmap

/-- The types of a version are defined. -/
theorem VersionIs.defined (h : VersionIs s a b v ds) {k : Text} {x : TypeView}
    (hview : s.typeView v k = some x) : x.kind ≠ .undefined := by
  intro hu
  have given : k ∈ givenTypes ds := by
    rcases h.types.nothingElse k _ hview with hg | ⟨k0, hk0, x0, hx0, hl0, rfl⟩
    · exact hg
    · refine Classical.byContradiction fun hn => ?_
      have := h.types.lists k0 hk0 x0 hx0 hl0 hn
      rw [hview] at this
      have hk := congrArg TypeView.kind (Option.some.inj this)
      rw [hu] at hk
      cases hk
  unfold givenTypes at given
  rw [List.mem_append, List.mem_append] at given
  rcases given with (hg | hg) | hg
  · obtain ⟨x', hx, hb⟩ := h.types.builtin k hg
    rw [hview] at hx
    cases hx
    rcases builtin_kind hb with ⟨-, h1⟩ | ⟨-, h1, -⟩
    · exact h1.ne.2.2 hu
    · rw [hu] at h1; cases h1
  · obtain ⟨d, hd, kind, hdk⟩ := mem_declaredTypes hg
    obtain ⟨x', hx, hdes⟩ := h.types.declared d hd k kind hdk
    rw [hview] at hx
    cases hx
    exact (describes_kind hdes).ne.2.2 hu
  · unfold derivedTypes at hg
    obtain ⟨e, he, rfl⟩ := List.mem_map.mp hg
    obtain ⟨he, hder⟩ := List.mem_filter.mp he
    have := h.types.derived e he hder
    rw [hview] at this
    cases e with
    | plain n => cases hder
    | list n => have := congrArg TypeView.kind (Option.some.inj this); rw [hu] at this; cases this
    | map i n => have := congrArg TypeView.kind (Option.some.inj this); rw [hu] at this; cases this

/-- The attributes of a class or struct, and their number. -/
theorem VersionIs.structFine (h : VersionIs s a b v ds) {k : Text} {id : TypeId} {c : TypeCell}
    (hc : TypeAt s v k id c) {d : Decl} (hd : d ∈ ds) {ms : List MemberDecl}
    (hrefs : d.typeRefs = ms.map (·.ref)) {sorted : List AttributeView}
    (hs : IsSortOf AttributeView.name sorted (ms.map MemberDecl.view))
    (hat : c.attributes.map (View.ofAttribute s.heap) = sorted) :
    c.attributes.length = ms.length ∧
    ((∀ x ∈ c.attributes, AttrOk (attributeInfo s x)) ↔ ∀ m ∈ ms, MemberFine m) := by
  refine ⟨?_, ?_, ?_⟩
  · have := hs.1.length_eq
    rw [← hat, List.length_map, List.length_map] at this
    exact this
  · intro hall m hm
    have : m.view ∈ sorted := hs.1.mem_iff.mpr (List.mem_map.mpr ⟨m, hm, rfl⟩)
    rw [← hat] at this
    obtain ⟨x, hx, he⟩ := List.mem_map.mp this
    exact (h.attribute hd (by rw [hrefs]; exact List.mem_map.mpr ⟨m, hm, rfl⟩) hc hx he).mp (hall x hx)
  · intro hall x hx
    have : View.ofAttribute s.heap x ∈ sorted := by rw [← hat]; exact List.mem_map.mpr ⟨x, hx, rfl⟩
    obtain ⟨m, hm, he⟩ := List.mem_map.mp (hs.1.mem_iff.mp this)
    exact (h.attribute hd (by rw [hrefs]; exact List.mem_map.mpr ⟨m, hm, rfl⟩) hc hx he.symm).mpr (hall m hm)

/-! ## Parameters -/

theorem all2_mem {α β : Type} {R : α → β → Prop} {xs : List α} {ys : List β} (h : All2 R xs ys) :
    (∀ x ∈ xs, ∃ y ∈ ys, R x y) ∧ ∀ y ∈ ys, ∃ x ∈ xs, R x y := by
  induction h with
  | nil => exact ⟨fun _ h => (nomatch h), fun _ h => (nomatch h)⟩
  | cons h1 _ ih =>
    refine ⟨fun x hx => ?_, fun y hy => ?_⟩
    · rcases List.mem_cons.mp hx with rfl | hx
      · exact ⟨_, List.mem_cons_self, h1⟩
      · obtain ⟨y, hy, hr⟩ := ih.1 x hx
        exact ⟨y, List.mem_cons_of_mem _ hy, hr⟩
    · rcases List.mem_cons.mp hy with rfl | hy
      · exact ⟨_, List.mem_cons_self, h1⟩
      · obtain ⟨x, hx, hr⟩ := ih.2 y hy
        exact ⟨x, List.mem_cons_of_mem _ hx, hr⟩

theorem mem_methodDecls {ms : List ResourceMember} {m : MethodDecl} :
    m ∈ methodDecls ms ↔ .method m ∈ ms := by
  unfold methodDecls
  rw [List.mem_filterMap]
  constructor
  · rintro ⟨x, hx, he⟩
    cases x with
    | method m' => cases he; exact hx
    | locator l => cases he
  · intro h
    exact ⟨_, h, rfl⟩

/-- The parameter that a declaration describes. -/
theorem VersionIs.parameter (h : VersionIs s a b v ds) {d : Decl} (hd : d ∈ ds) {md : MethodDecl}
    {pd : ParameterDecl} (hp : pd.ref ∈ d.typeRefs) {m : Method} {p : Parameter}
    (ho : Owned s.heap (some v.id) p.typ.id) (hm : m.name = parseUsingCase md.name)
    (hv : View.ofParameter s.heap p = pd.view) :
    ParamOk (api s) m p ↔ ParameterFine md pd := by
  obtain ⟨ct, hct⟩ := typeAt_of_owned h.inv h.found ho
  have hkey : View.typeKey s.heap p.typ.id = pd.ref.key := congrArg ParameterView.typ hv
  rw [hkey] at hct
  have hname : p.name = parseUsingCase pd.name := congrArg ParameterView.name hv
  obtain ⟨h1, h2, -⟩ := h.ref (memberRef_mem hd hp) hct
  have hi : IsItemsOf m p ↔ IsItemsDecl md pd := by
    unfold IsItemsOf IsItemsDecl SameName
    rw [hm, hname]
    rfl
  unfold ParamOk ParameterFine
  rw [hi]
  show (_ → Collection (typeOf s p.typ.id)) ∧ (_ → Flat (typeOf s p.typ.id)) ↔ _
  rw [h1, h2]

/-- The resource with the given key. -/
theorem VersionIs.resource (h : VersionIs s a b v ds) {k : Text} {id : ResId} {res : Resource}
    (hf : v.resources.find k = some id) (hg : s.graph[id]? = some res) {name doc : Text}
    {as : List Annotation} {ms : List ResourceMember} (hd : Decl.resource name doc as ms ∈ ds)
    (hdes : (Decl.resource name doc as ms).DescribesResource k (View.ofResource s.heap s.graph res)) :
    (∀ m ∈ res.methods, ∀ p ∈ m.parameters, ParamOk (api s) m p) ↔
      ∀ m, .method m ∈ ms → ∀ p ∈ m.parameters, ParameterFine m p := by
  obtain ⟨-, -, -, ⟨methods, hall, hsort⟩, -⟩ := hdes
  have ho := h.inv.locals.resources a b v h.found k id res hf hg
  have href : ∀ md, .method md ∈ ms → ∀ pd ∈ md.parameters,
      pd.ref ∈ (Decl.resource name doc as ms).typeRefs := by
    intro md hmd pd hpd
    exact List.mem_flatMap.mpr ⟨_, hmd, List.mem_map.mpr ⟨pd, hpd, rfl⟩⟩
  constructor
  · intro hh md hmd pd hpd
    obtain ⟨mv, hmv, hn, -, -, hps⟩ := (all2_mem hall).1 md (mem_methodDecls.mpr hmd)
    have hmv := hsort.1.mem_iff.mpr hmv
    obtain ⟨m, hm, rfl⟩ := List.mem_map.mp hmv
    have hpv := hps.1.mem_iff.mpr (List.mem_map.mpr ⟨pd, hpd, rfl⟩)
    obtain ⟨p, hp, he⟩ := List.mem_map.mp hpv
    exact (h.parameter hd (href md hmd pd hpd) (ho m hm p hp) hn he).mp (hh m hm p hp)
  · intro hh m hm p hp
    have hmv : View.ofMethod s.heap m ∈ methods :=
      hsort.1.mem_iff.mp (List.mem_map.mpr ⟨m, hm, rfl⟩)
    obtain ⟨md, hmd, hn, -, -, hps⟩ := (all2_mem hall).2 _ hmv
    have hmd := mem_methodDecls.mp hmd
    have hpv := hps.1.mem_iff.mp (List.mem_map.mpr ⟨p, hp, rfl⟩)
    obtain ⟨pd, hpd, he⟩ := List.mem_map.mp hpv
    exact (h.parameter hd (href md hmd pd hpd) (ho m hm p hp) hn he.symm).mpr (hh md hmd pd hpd)

end Verif.Whole
