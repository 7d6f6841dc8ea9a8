import Verif.Lemmas.WholeTargets
import Verif.Lemmas.WholeSources
import Verif.Spec.Accept
import Verif.Props.Checks

/-! Helper lemmas: the checks of a version and the declarations of that version. -/

namespace Verif.Accept

open Whole Reader Session

/-! ## Kinds -/

theorem builtin_exact {owner : VersionId} {k : Text} {x : TypeView} (h : BuiltinView owner k x) :
    (k ∈ [t!"boolean", t!"integer", t!"long", t!"float", t!"string", t!"date"] ∧ x.kind = .scalar) ∨
    (k = t!"interface" ∧ x.kind = .interface) ∨ (k ∈ predefinedLists ∧ x.kind = .list) := by
  obtain ⟨b, hb, h⟩ := h
  simp only [builtinScalars, List.mem_cons, List.not_mem_nil, or_false] at hb
  rcases h with ⟨rfl, rfl⟩ | ⟨rfl, rfl⟩
  · rcases hb with rfl | rfl | rfl | rfl | rfl | rfl | rfl
    all_goals first
      | exact .inl ⟨by decide, rfl⟩
      | exact .inr (.inl ⟨rfl, rfl⟩)
  · refine .inr (.inr ⟨?_, rfl⟩)
    rcases hb with rfl | rfl | rfl | rfl | rfl | rfl | rfl <;> decide

theorem describes_exact {owner : VersionId} {d : Decl} {k k' : Text} {kind : Kind} {x : TypeView}
    (h : d.Describes owner k x) (hd : d.declaredType = some (k', kind)) : x.kind = kind := by
  cases d with
  | enum => obtain ⟨-, -, -, rfl⟩ := h; cases hd; rfl
  | «class» => obtain ⟨-, -, -, rfl⟩ := h; cases hd; rfl
  | struct => obtain ⟨-, -, -, rfl⟩ := h; cases hd; rfl
  | resource => exact h.elim
  | error => exact h.elim

variable {s : Session} {a b : Text} {v : LoadedVersion} {ds : _root_.List Decl}

/-- The kind of the type of a reference is the one of the specification. -/
theorem kind_iff (h : VersionIs s a b v ds) {e : TypeExpr} (he : e ∈ refsOf ds) {id : TypeId}
    {c : TypeCell} (hc : TypeAt s v e.key id c) (k : Kind) : c.kind = k ↔ KindOf ds e k := by
  have hview := hc.view
  cases e with
  | plain n =>
    have hview : s.typeView v (keyOf n) = some (View.ofCell s.heap c) := hview
    have hbuiltin : keyOf n ∈ builtinKeys →
        (keyOf n ∈ [t!"boolean", t!"integer", t!"long", t!"float", t!"string", t!"date"] ∧
          (View.ofCell s.heap c).kind = .scalar) ∨
        (keyOf n = t!"interface" ∧ (View.ofCell s.heap c).kind = .interface) ∨
        (keyOf n ∈ predefinedLists ∧ (View.ofCell s.heap c).kind = .list) := fun hk => by
      obtain ⟨x, hx, hb⟩ := h.types.builtin _ hk
      rw [hview] at hx
      cases hx
      exact builtin_exact hb
    constructor
    · rintro rfl
      rcases h.known he (n := n) (by simp [TypeExpr.names]) with hk | hk
      · rcases hbuiltin hk with ⟨h1, h2⟩ | ⟨h1, h2⟩ | ⟨h1, h2⟩
        all_goals
          have h2 : c.kind = _ := h2
          rw [h2]
        · exact .scalar h1
        · exact .interface h1
        · exact .predefined h1
      · obtain ⟨d, hd, kind, hk⟩ := mem_declaredTypes hk
        obtain ⟨x, hx, hdes⟩ := h.types.declared d hd _ _ hk
        rw [hview] at hx
        cases hx
        have : c.kind = kind := describes_exact hdes hk
        rw [this]
        exact .declared hd hk
    · intro hk
      cases hk with
      | scalar hm =>
        rcases hbuiltin (by
            simp only [List.mem_cons, List.not_mem_nil, or_false] at hm
            rcases hm with e | e | e | e | e | e <;> rw [e] <;> decide) with ⟨-, h2⟩ | ⟨h1, -⟩ | ⟨h1, -⟩
        · exact h2
        · rw [h1] at hm; exact absurd hm (by decide)
        · exfalso
          simp only [List.mem_cons, List.not_mem_nil, or_false] at hm
          rcases hm with e | e | e | e | e | e <;> rw [e] at h1 <;> exact absurd h1 (by decide)
      | interface hm =>
        rcases hbuiltin (by rw [hm]; decide) with ⟨h1, -⟩ | ⟨-, h2⟩ | ⟨h1, -⟩
        · rw [hm] at h1; exact absurd h1 (by decide)
        · exact h2
        · rw [hm] at h1; exact absurd h1 (by decide)
      | predefined hm =>
        rcases hbuiltin (predefined_builtin hm) with ⟨h1, -⟩ | ⟨h1, -⟩ | ⟨-, h2⟩
        · exfalso
          simp only [List.mem_cons, List.not_mem_nil, or_false] at h1
          rcases h1 with e | e | e | e | e | e <;> rw [e] at hm <;> exact absurd hm (by decide)
        · rw [h1] at hm; exact absurd hm (by decide)
        · exact h2
      | declared hd hk =>
        obtain ⟨x, hx, hdes⟩ := h.types.declared _ hd _ _ hk
        rw [hview] at hx
        cases hx
        exact describes_exact hdes hk
  | list n =>
    have := h.types.derived _ he rfl
    rw [hview] at this
    have hk : c.kind = .list := congrArg TypeView.kind (Option.some.inj this)
    rw [hk]
    exact ⟨fun e => e ▸ .list, fun h => by cases h; rfl⟩
  | map i n =>
    have := h.types.derived _ he rfl
    rw [hview] at this
    have hk : c.kind = .map := congrArg TypeView.kind (Option.some.inj this)
    rw [hk]
    exact ⟨fun e => e ▸ .map, fun h => by cases h; rfl⟩

/-! ## Parameters -/

/-- The parameter is the one of the declaration. -/
structure Paired (ds : _root_.List Decl) (b : Builtins) (p : Parameter) (d : ParameterDecl) : Prop where
  name : p.name = parseUsingCase d.name
  kind : ∀ k, p.typ.kind = k ↔ KindOf ds d.ref k
  isIn : p.isIn = true ↔ In d
  isOut : p.isOut = true ↔ Out d
  dflt : p.dflt = d.dflt
  boolean : b.boolean = some p.typ.id ↔ Predefined t!"boolean" d
  integer : b.integer = some p.typ.id ↔ Predefined t!"integer" d
  string : b.string = some p.typ.id ↔ Predefined t!"string" d

namespace Paired

variable {bs : Builtins} {p : Parameter} {d : ParameterDecl}

theorem scalar (h : Paired ds bs p d) : Rule.Scalar p ↔ Scalar ds d :=
  or_congr (h.kind _) (or_congr (h.kind _) (h.kind _))

theorem struct (h : Paired ds bs p d) : Rule.Struct p ↔ Struct ds d := or_congr (h.kind _) (h.kind _)

theorem isList (h : Paired ds bs p d) : Rule.IsList p ↔ IsList ds d := h.kind _

theorem called (h : Paired ds bs p d) (n : Text) : p.name = parseUsingCase n ↔ Called n d := by
  rw [h.name]
  exact Iff.rfl

theorem onlyIn (h : Paired ds bs p d) : Rule.OnlyIn p ↔ OnlyIn d := by
  unfold Rule.OnlyIn OnlyIn
  rw [h.isIn, ← h.isOut, Bool.not_eq_true]

theorem onlyOut (h : Paired ds bs p d) : Rule.OnlyOut p ↔ OnlyOut d := by
  unfold Rule.OnlyOut OnlyOut
  rw [h.isOut, ← h.isIn, Bool.not_eq_true, and_comm]

theorem inOut (h : Paired ds bs p d) : Rule.InOut p ↔ InOut d := and_congr h.isIn h.isOut

theorem defaultFits (h : Paired ds bs p d) : Rule.DefaultFits bs p ↔ DefaultFits d := by
  unfold Rule.DefaultFits DefaultFits
  rw [h.dflt, h.boolean, h.integer, h.string]

end Paired

theorem predefined_iff {k : Text} (h1 : ¬ t!"_list" <:+ k) (h2 : ¬ t!"_map" <:+ k) (d : ParameterDecl) :
    d.ref.key = k ↔ Predefined k d := by
  unfold Predefined
  cases d.ref with
  | plain n =>
    constructor
    · exact fun h => ⟨n, rfl, h⟩
    · rintro ⟨n', e, h⟩
      cases e
      exact h
  | list n =>
    constructor
    · exact fun h => absurd ⟨keyOf n, h⟩ h1
    · rintro ⟨n', e, -⟩
      cases e
  | map i n =>
    constructor
    · exact fun h => absurd ⟨keyOf i ++ t!"_" ++ keyOf n, h⟩ h2
    · rintro ⟨n', e, -⟩
      cases e

/-- A parameter of a resource of the version and its declaration. -/
theorem paired (h : VersionIs s a b v ds) {d : Decl} (hd : d ∈ ds) {pd : ParameterDecl}
    (hr : pd.ref ∈ d.typeRefs) {p : Parameter} (ho : Owned s.heap (some v.id) p.typ.id)
    (hk : ∀ c, s.heap[p.typ.id]? = some c → p.typ.kind = c.kind)
    (hv : View.ofParameter s.heap p = pd.view) : Paired ds (s.versionView v).builtins p pd := by
  obtain ⟨c, hc⟩ := typeAt_of_owned h.inv h.found ho
  have hkey : View.typeKey s.heap p.typ.id = pd.ref.key := congrArg ParameterView.typ hv
  have hfind : ∀ k : Text, v.types.find k = some p.typ.id ↔ pd.ref.key = k := by
    intro k
    constructor
    · intro hf
      obtain ⟨c', hc'⟩ := typeAt_of_find h.inv h.found hf
      rw [← hkey, ← hc.key, ← hc'.key]
      have := hc.cell
      rw [hc'.cell] at this
      rw [Option.some.inj this]
    · rintro rfl
      rw [← hkey]
      exact hc.found
  refine ⟨congrArg ParameterView.name hv, ?_, ?_, ?_, congrArg ParameterView.dflt hv, ?_, ?_, ?_⟩
  · intro k
    rw [hk c hc.cell]
    rw [hkey] at hc
    exact kind_iff h (memberRef_mem hd hr) hc k
  · have : p.isIn = pd.isIn := congrArg ParameterView.isIn hv
    rw [this]
    unfold ParameterDecl.isIn In
    rw [List.contains_iff_mem]
  · have : p.isOut = pd.isOut := congrArg ParameterView.isOut hv
    rw [this]
    unfold ParameterDecl.isOut Out
    rw [Bool.or_eq_true, List.contains_iff_mem, List.isEmpty_iff, or_comm]
  · exact (hfind t!"boolean").trans (predefined_iff (by decide) (by decide) pd)
  · exact (hfind t!"integer").trans (predefined_iff (by decide) (by decide) pd)
  · exact (hfind t!"string").trans (predefined_iff (by decide) (by decide) pd)

/-! ## Lists of parameters -/

theorem exactlyOne_congr {α : Type} {P Q : α → Prop} {l : _root_.List α} (h : ∀ x ∈ l, P x ↔ Q x) :
    ExactlyOne P l ↔ ExactlyOne Q l := by
  classical
  rw [← exactlyOne_iff (fun x => decide (P x)) P (fun x => by simp),
    ← exactlyOne_iff (fun x => decide (Q x)) Q (fun x => by simp)]
  rw [List.filter_congr fun x hx => by rw [h x hx]]

theorem exactlyOne_perm {α : Type} {P : α → Prop} {l l' : _root_.List α} (h : l.Perm l') :
    ExactlyOne P l ↔ ExactlyOne P l' := by
  classical
  rw [← exactlyOne_iff (fun x => decide (P x)) P (fun x => by simp),
    ← exactlyOne_iff (fun x => decide (P x)) P (fun x => by simp), (h.filter _).length_eq]

theorem exactlyOne_map {α β : Type} {P : β → Prop} {f : α → β} {l : _root_.List α} :
    ExactlyOne P (l.map f) ↔ ExactlyOne (fun x => P (f x)) l := by
  classical
  rw [← exactlyOne_iff (fun x => decide (P x)) P (fun x => by simp),
    ← exactlyOne_iff (fun x => decide (P (f x))) _ (fun x => by simp), List.filter_map, List.length_map]
  rfl

/-- The lists of parameters and declarations are the same up to the order. -/
def Matched (ds : _root_.List Decl) (b : Builtins) (ps : _root_.List Parameter)
    (pds : _root_.List ParameterDecl) : Prop :=
  ∃ f : Parameter → ParameterView, (ps.map f).Perm (pds.map ParameterDecl.view) ∧
    ∀ p ∈ ps, ∀ pd ∈ pds, f p = pd.view → Paired ds b p pd

namespace Matched

variable {bs : Builtins} {ps : _root_.List Parameter} {pds : _root_.List ParameterDecl}
  {P : Parameter → Prop} {Q : ParameterDecl → Prop}

theorem decl (h : Matched ds bs ps pds) {p : Parameter} (hp : p ∈ ps) : ∃ pd ∈ pds, Paired ds bs p pd := by
  obtain ⟨f, h1, h2⟩ := h
  obtain ⟨pd, hpd, e⟩ := List.mem_map.mp (h1.mem_iff.mp (List.mem_map.mpr ⟨p, hp, rfl⟩))
  exact ⟨pd, hpd, h2 p hp pd hpd e.symm⟩

theorem parameter (h : Matched ds bs ps pds) {pd : ParameterDecl} (hp : pd ∈ pds) :
    ∃ p ∈ ps, Paired ds bs p pd := by
  obtain ⟨f, h1, h2⟩ := h
  obtain ⟨p, hpp, e⟩ := List.mem_map.mp (h1.mem_iff.mpr (List.mem_map.mpr ⟨pd, hp, rfl⟩))
  exact ⟨p, hpp, h2 p hpp pd hp e⟩

theorem all (h : Matched ds bs ps pds) (hpq : ∀ p pd, Paired ds bs p pd → (P p ↔ Q pd)) :
    (∀ p ∈ ps, P p) ↔ ∀ pd ∈ pds, Q pd := by
  constructor
  · intro hh pd hpd
    obtain ⟨p, hp, e⟩ := h.parameter hpd
    exact (hpq p pd e).mp (hh p hp)
  · intro hh p hp
    obtain ⟨pd, hpd, e⟩ := h.decl hp
    exact (hpq p pd e).mpr (hh pd hpd)

theorem one (h : Matched ds bs ps pds) (hpq : ∀ p pd, Paired ds bs p pd → (P p ↔ Q pd)) :
    ExactlyOne P ps ↔ ExactlyOne Q pds := by
  have h' := h
  obtain ⟨f, h1, h2⟩ := h
  have e1 : ExactlyOne P ps ↔
      ExactlyOne (fun x => (fun y : ParameterView => ∃ pd ∈ pds, pd.view = y ∧ Q pd) (f x)) ps := by
    apply exactlyOne_congr
    intro p hp
    constructor
    · intro hpp
      obtain ⟨pd, hpd, e⟩ := List.mem_map.mp (h1.mem_iff.mp (List.mem_map.mpr ⟨p, hp, rfl⟩))
      exact ⟨pd, hpd, e, (hpq p pd (h2 p hp pd hpd e.symm)).mp hpp⟩
    · rintro ⟨pd, hpd, e, hq⟩
      exact (hpq p pd (h2 p hp pd hpd e.symm)).mpr hq
  have e2 : ExactlyOne Q pds ↔
      ExactlyOne (fun x => (fun y : ParameterView => ∃ pd ∈ pds, pd.view = y ∧ Q pd)
        (ParameterDecl.view x)) pds := by
    apply exactlyOne_congr
    intro pd hpd
    constructor
    · exact fun hq => ⟨pd, hpd, rfl, hq⟩
    · rintro ⟨pd', hpd', e, hq⟩
      obtain ⟨p, hp, e'⟩ := List.mem_map.mp (h1.mem_iff.mpr (List.mem_map.mpr ⟨pd, hpd, rfl⟩))
      have hpp := (hpq p pd' (h2 p hp pd' hpd' (e'.trans e.symm))).mpr hq
      exact (hpq p pd (h2 p hp pd hpd e')).mp hpp
  have e3 := exactlyOne_perm (P := fun y : ParameterView => ∃ pd ∈ pds, pd.view = y ∧ Q pd) h1
  exact e1.trans ((exactlyOne_map.symm.trans (e3.trans exactlyOne_map)).trans e2.symm)

theorem atMost (h : Matched ds bs ps pds) (hpq : ∀ p pd, Paired ds bs p pd → (P p ↔ Q pd)) :
    AtMostOne P ps ↔ AtMostOne Q pds :=
  or_congr (h.one hpq) (h.all fun p pd e => not_congr (hpq p pd e))

end Matched

theorem atMostOne_before {α : Type} {P : α → Prop} {l before after : _root_.List α} {x : α}
    (h : AtMostOne P l) (e : l = before ++ x :: after) (hx : P x) : ∀ y ∈ before, ¬ P y := by
  classical
  have h' : (l.filter fun x => decide (P x)).length ≤ 1 := by
    rw [atMostOne_iff]
    have : (fun x => decide (P x) = true) = P := by funext x; simp
    rw [this]
    exact h
  intro y hy hp
  rw [e, List.filter_append, List.filter_cons_of_pos (by simpa using hx), List.length_append,
    List.length_cons] at h'
  have : y ∈ before.filter fun x => decide (P x) := List.mem_filter.mpr ⟨hy, by simpa using hp⟩
  have := List.length_pos_of_mem this
  omega

theorem first_iff {m : Method} {n : Name} {P : Parameter → Prop}
    (h : AtMostOne (fun p : Parameter => p.name = n) m.parameters) :
    Rule.First m n P ↔ ∀ p ∈ m.parameters, p.name = n → P p := by
  constructor
  · intro hf p hp hn
    obtain ⟨before, after, e⟩ := List.append_of_mem hp
    exact hf before p after e hn (atMostOne_before h e hn)
  · intro hh before p after e hn _
    exact hh p (by rw [e]; simp) hn

/-! ## Methods -/

/-- The names of the parameters for paging aren't repeated. -/
def Once (md : MethodDecl) : Prop := ∀ n ∈ [t!"Page", t!"Size", t!"Total"], AtMostOne (Called n) md.parameters

variable {bs : Builtins} {m : Method} {md : MethodDecl}

theorem add_iff (h : Matched ds bs m.parameters md.parameters) : Rule.Add m ↔ Add ds md := by
  have h1 := h.all (P := fun p => Rule.Scalar p ∨ Rule.Struct p) fun p pd e => or_congr e.scalar e.struct
  have h2 := h.one (P := Rule.Struct) fun p pd e => e.struct
  have h3 := h.all (P := fun p => Rule.Struct p → Rule.InOut p ∧ p.name = Nom.body) fun p pd e =>
    imp_congr e.struct (and_congr e.inOut (e.called _))
  exact ⟨fun x => ⟨h1.mp x.types, h2.mp x.one, h3.mp x.body⟩,
    fun x => ⟨h1.mpr x.types, h2.mpr x.one, h3.mpr x.body⟩⟩

theorem delete_iff (h : Matched ds bs m.parameters md.parameters) : Rule.Delete m ↔ Delete ds md := by
  have h1 := h.all (P := Rule.Scalar) fun p pd e => e.scalar
  have h2 := h.all (P := Rule.OnlyIn) fun p pd e => e.onlyIn
  exact ⟨fun x => ⟨h1.mp x.types, h2.mp x.directions⟩, fun x => ⟨h1.mpr x.types, h2.mpr x.directions⟩⟩

theorem get_iff (h : Matched ds bs m.parameters md.parameters) : Rule.Get m ↔ Get ds md := by
  have h1 := h.all (P := fun p => Rule.Scalar p ∨ Rule.Struct p) fun p pd e => or_congr e.scalar e.struct
  have h2 := h.one (P := Rule.Struct) fun p pd e => e.struct
  have h3 := h.all (P := fun p => Rule.Scalar p → Rule.OnlyIn p) fun p pd e => imp_congr e.scalar e.onlyIn
  have h4 := h.all (P := fun p => Rule.Struct p → Rule.OnlyOut p ∧ p.name = Nom.body) fun p pd e =>
    imp_congr e.struct (and_congr e.onlyOut (e.called _))
  exact ⟨fun x => ⟨h1.mp x.types, h2.mp x.one, h3.mp x.scalars, h4.mp x.body⟩,
    fun x => ⟨h1.mpr x.types, h2.mpr x.one, h3.mpr x.scalars, h4.mpr x.body⟩⟩

theorem paging_iff (h : Matched ds bs m.parameters md.parameters) (ho : Once md) :
    Rule.Paging bs m ↔ Paging md := by
  have ha : ∀ n ∈ [t!"Page", t!"Size", t!"Total"],
      AtMostOne (fun p : Parameter => p.name = parseUsingCase n) m.parameters := by
    intro n hn
    exact (h.atMost fun p pd e => e.called n).mpr (ho n hn)
  have f1 := first_iff (P := fun p => bs.integer = some p.typ.id ∧ Rule.InOut p ∧ p.dflt = some (.int 1))
    (ha t!"Page" (by decide))
  have f2 := first_iff (P := fun p => bs.integer = some p.typ.id ∧ Rule.InOut p ∧ p.dflt = some (.int 100))
    (ha t!"Size" (by decide))
  have f3 := first_iff (P := fun p => bs.integer = some p.typ.id ∧ Rule.OnlyOut p)
    (ha t!"Total" (by decide))
  have h1 := h.all (P := fun p => p.name = parseUsingCase t!"Page" →
      bs.integer = some p.typ.id ∧ Rule.InOut p ∧ p.dflt = some (.int 1)) fun p pd e =>
    imp_congr (e.called _) (and_congr e.integer (and_congr e.inOut (by rw [e.dflt])))
  have h2 := h.all (P := fun p => p.name = parseUsingCase t!"Size" →
      bs.integer = some p.typ.id ∧ Rule.InOut p ∧ p.dflt = some (.int 100)) fun p pd e =>
    imp_congr (e.called _) (and_congr e.integer (and_congr e.inOut (by rw [e.dflt])))
  have h3 := h.all (P := fun p => p.name = parseUsingCase t!"Total" →
      bs.integer = some p.typ.id ∧ Rule.OnlyOut p) fun p pd e =>
    imp_congr (e.called _) (and_congr e.integer e.onlyOut)
  exact ⟨fun x => ⟨h1.mp (f1.mp x.page), h2.mp (f2.mp x.size), h3.mp (f3.mp x.total)⟩,
    fun x => ⟨f1.mpr (h1.mpr x.page), f2.mpr (h2.mpr x.size), f3.mpr (h3.mpr x.total)⟩⟩

theorem list_iff (h : Matched ds bs m.parameters md.parameters) (ho : Once md) :
    Rule.List bs m ↔ List ds md := by
  have h1 := h.all (P := fun p => Rule.Scalar p ∨ Rule.IsList p) fun p pd e => or_congr e.scalar e.isList
  have h2 := h.one (P := Rule.IsList) fun p pd e => e.isList
  have h3 := h.all (P := fun p => Rule.IsList p → Rule.OnlyOut p ∧ p.name = Nom.items) fun p pd e =>
    imp_congr e.isList (and_congr e.onlyOut (e.called _))
  have h4 := paging_iff h ho
  exact ⟨fun x => ⟨h1.mp x.types, h2.mp x.one, h3.mp x.items, h4.mp x.paging⟩,
    fun x => ⟨h1.mpr x.types, h2.mpr x.one, h3.mpr x.items, h4.mpr x.paging⟩⟩

theorem search_iff (h : Matched ds bs m.parameters md.parameters) (ho : Once md) :
    Rule.Search bs m ↔ Search ds md := by
  have h1 := h.all (P := fun p => p.isOut = true → Rule.Scalar p ∨ Rule.IsList p) fun p pd e =>
    imp_congr e.isOut (or_congr e.scalar e.isList)
  have h2 := h.all (P := fun p => p.isIn = true → Rule.Scalar p ∨ Rule.Struct p) fun p pd e =>
    imp_congr e.isIn (or_congr e.scalar e.struct)
  have h3 := h.one (P := Rule.IsList) fun p pd e => e.isList
  have h4 := h.all (P := fun p => Rule.IsList p → Rule.OnlyOut p ∧ p.name = Nom.items) fun p pd e =>
    imp_congr e.isList (and_congr e.onlyOut (e.called _))
  have h5 := h.one (P := fun p => Rule.Struct p ∧ p.isIn = true) fun p pd e => and_congr e.struct e.isIn
  have h6 := h.all (P := fun p => Rule.Struct p → p.isIn = true → Rule.OnlyIn p ∧ p.name = Nom.body)
    fun p pd e => imp_congr e.struct (imp_congr e.isIn (and_congr e.onlyIn (e.called _)))
  have h7 := paging_iff h ho
  exact ⟨fun x => ⟨h1.mp x.outs, h2.mp x.ins, h3.mp x.oneItems, h4.mp x.items, h5.mp x.oneBody,
      h6.mp x.body, h7.mp x.paging⟩,
    fun x => ⟨h1.mpr x.outs, h2.mpr x.ins, h3.mpr x.oneItems, h4.mpr x.items, h5.mpr x.oneBody,
      h6.mpr x.body, h7.mpr x.paging⟩⟩

theorem in_or_out (p : ParameterDecl) : In p ∨ Out p := by
  unfold In Out
  cases p.directions with
  | nil => exact .inr (.inr rfl)
  | cons d ds =>
    cases d
    · exact .inl List.mem_cons_self
    · exact .inr (.inl List.mem_cons_self)

theorem post_iff (h : Matched ds bs m.parameters md.parameters) : Rule.Post m ↔ Post ds md := by
  have h1 := h.atMost (P := fun p => p.isIn = true) fun p pd e => e.isIn
  have h2 := h.one (P := fun p => p.isOut = true) fun p pd e => e.isOut
  have h3 := h.all (P := fun p => p.isIn = true ∨ p.isOut = true → Rule.Struct p)
    (Q := fun pd => In pd ∨ Out pd → Struct ds pd) fun p pd e =>
      imp_congr (or_congr e.isIn e.isOut) e.struct
  exact ⟨fun x => ⟨h1.mp x.oneIn, h2.mp x.oneOut, fun p hp => h3.mp x.types p hp (in_or_out p)⟩,
    fun x => ⟨h1.mpr x.oneIn, h2.mpr x.oneOut, h3.mpr fun p hp _ => x.types p hp⟩⟩

theorem update_iff (h : Matched ds bs m.parameters md.parameters) : Rule.Update m ↔ Update ds md := by
  have h1 := h.all (P := fun p => Rule.Scalar p ∨ Rule.Struct p ∨ Rule.IsList p) fun p pd e =>
    or_congr e.scalar (or_congr e.struct e.isList)
  have h2 := h.one (P := fun p => Rule.Struct p ∨ Rule.IsList p) fun p pd e => or_congr e.struct e.isList
  have h3 := h.all (P := fun p => Rule.Scalar p → Rule.OnlyIn p) fun p pd e => imp_congr e.scalar e.onlyIn
  have h4 := h.all (P := fun p => Rule.Struct p ∨ Rule.IsList p → Rule.InOut p ∧ p.name = Nom.body)
    fun p pd e => imp_congr (or_congr e.struct e.isList) (and_congr e.inOut (e.called _))
  exact ⟨fun x => ⟨h1.mp x.types, h2.mp x.one, h3.mp x.scalars, h4.mp x.body⟩,
    fun x => ⟨h1.mpr x.types, h2.mpr x.one, h3.mpr x.scalars, h4.mpr x.body⟩⟩

/-- The checks of a method. -/
theorem method_iff (hb : bs.Present) (h : Matched ds bs m.parameters md.parameters)
    (hn : m.name = parseUsingCase md.name)
    (ho : SameName md.name t!"List" ∨ SameName md.name t!"Search" → Once md) :
    Accepted (Check.checkMethod bs m) ↔ MethodFine ds md := by
  have hd : DefaultsFit bs m ↔ ∀ p ∈ md.parameters, DefaultFits p := h.all fun p pd e => e.defaultFits
  have hs : ∀ n, SameName md.name n ↔ m.name = parseUsingCase n := by
    intro n
    rw [hn]
    exact Iff.rfl
  constructor
  · intro hacc
    refine ⟨fun e => ?_, fun e => ?_, fun e => ?_, fun e => ?_, fun e => ?_, fun e => ?_, fun e => ?_,
      hd.mp ((accepted_checkMethod bs hb m).mp hacc).2⟩
    · exact (add_iff h).mp ((c11_add_accepted_iff bs hb m ((hs _).mp e)).mp hacc).1
    · exact (delete_iff h).mp ((c12_delete_accepted_iff bs hb m (e.imp (hs _).mp (hs _).mp)).mp hacc).1
    · exact (get_iff h).mp ((c13_get_accepted_iff bs hb m ((hs _).mp e)).mp hacc).1
    · exact (list_iff h (ho (.inl e))).mp ((c14_list_accepted_iff bs hb m ((hs _).mp e)).mp hacc).1
    · exact (post_iff h).mp ((c15_post_accepted_iff bs hb m ((hs _).mp e)).mp hacc).1
    · exact (search_iff h (ho (.inr e))).mp ((c15_search_accepted_iff bs hb m ((hs _).mp e)).mp hacc).1
    · exact (update_iff h).mp ((c16_update_accepted_iff bs hb m (e.imp (hs _).mp (hs _).mp)).mp hacc).1
  · intro f
    have hdf := hd.mpr f.defaults
    by_cases h1 : m.name = Nom.add
    · exact (c11_add_accepted_iff bs hb m h1).mpr ⟨(add_iff h).mpr (f.add ((hs _).mpr h1)), hdf⟩
    by_cases h2 : m.name = Nom.delete ∨ m.name = Nom.asyncDelete
    · exact (c12_delete_accepted_iff bs hb m h2).mpr
        ⟨(delete_iff h).mpr (f.delete (h2.imp (hs _).mpr (hs _).mpr)), hdf⟩
    by_cases h3 : m.name = Nom.get
    · exact (c13_get_accepted_iff bs hb m h3).mpr ⟨(get_iff h).mpr (f.get ((hs _).mpr h3)), hdf⟩
    by_cases h4 : m.name = Nom.list
    · have e := (hs t!"List").mpr h4
      exact (c14_list_accepted_iff bs hb m h4).mpr ⟨(list_iff h (ho (.inl e))).mpr (f.list e), hdf⟩
    by_cases h5 : m.name = Nom.post
    · exact (c15_post_accepted_iff bs hb m h5).mpr ⟨(post_iff h).mpr (f.post ((hs _).mpr h5)), hdf⟩
    by_cases h6 : m.name = Nom.search
    · have e := (hs t!"Search").mpr h6
      exact (c15_search_accepted_iff bs hb m h6).mpr ⟨(search_iff h (ho (.inr e))).mpr (f.search e), hdf⟩
    by_cases h7 : m.name = Nom.update ∨ m.name = Nom.asyncUpdate
    · exact (c16_update_accepted_iff bs hb m h7).mpr
        ⟨(update_iff h).mpr (f.update (h7.imp (hs _).mpr (hs _).mpr)), hdf⟩
    refine (c16_action_accepted_iff bs hb m ?_).mpr hdf
    simp only [List.mem_cons, List.not_mem_nil, or_false, not_or]
    exact ⟨h1, fun e => h2 (.inl e), fun e => h2 (.inr e), h3, h4, h5, h6, fun e => h7 (.inl e),
      fun e => h7 (.inr e)⟩

end Verif.Accept
