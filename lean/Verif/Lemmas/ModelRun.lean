import Verif.Spec.ModelRun
import Verif.Lemmas.GoRefs
import Verif.Lemmas.WholeTypes
import Verif.Props.GoBuffer

/-! Lemmas about the generated program of a model. -/

namespace Verif.ModelRun

open GoJson (Val Schema Shape AttrShape)
open GoProgram
open GoRef (Typ Ref)
open TypesRun (Legal value SameKind)
open BuildersRun (Program Code resolve Fits Names ListNames Matches Linked Whole)
open Whole (HeapOk typeOf declOf typeOf_eq)

/-! ## Texts -/

theorem removeAll_keep (sel : Text) (ch : Char) (rest : Text) (hch : ch ∉ sel) (hne : ch ≠ '.') :
    ∀ pre : Text, '.' ∉ pre →
      GoRef.removeAll (sel ++ t!".") 0 (pre ++ ch :: rest) = pre ++ ch :: GoRef.removeAll (sel ++ t!".") 0 rest := by
  have key : ∀ pre : Text, '.' ∉ pre → (sel ++ t!".").isPrefixOf (pre ++ ch :: rest) = false := by
    intro pre hp
    apply Bool.eq_false_iff.mpr
    intro h
    obtain ⟨r, hr⟩ := List.isPrefixOf_iff_prefix.mp h
    by_cases hl : pre.length < sel.length
    · have e1 : (pre ++ ch :: rest)[pre.length]? = some ch := by simp
      rw [← hr, List.append_assoc, List.getElem?_append_left hl] at e1
      exact hch (List.mem_of_getElem? e1)
    · have e1 : (sel ++ t!"." ++ r)[sel.length]? = some '.' := by simp
      rw [hr] at e1
      by_cases hl2 : sel.length < pre.length
      · rw [List.getElem?_append_left hl2] at e1
        exact hp (List.mem_of_getElem? e1)
      · have : sel.length = pre.length := by omega
        rw [this] at e1
        simp at e1
        exact hne e1
  intro pre
  induction pre with
  | nil =>
    intro hp
    have := key [] hp
    rw [List.nil_append] at this ⊢
    rw [GoRef.removeAll, this]
    simp
  | cons c pre ih =>
    intro hp
    have := key (c :: pre) hp
    rw [List.cons_append] at this ⊢
    rw [GoRef.removeAll, this, ih fun h => hp (List.mem_cons_of_mem _ h)]
    simp

theorem emit_keep {pkg : Text} {ref : Ref} {pre : Text} {ch : Char} {rest : Text} (ht : ref.text = pre ++ ch :: rest)
    (hch : ch ∉ ref.selector) (hne : ch ≠ '.') (hp : '.' ∉ pre) :
    ∃ r, GoRef.emit pkg ref = pre ++ ch :: r := by
  unfold GoRef.emit
  split
  · rw [ht, removeAll_keep _ _ _ hch hne _ hp]
    exact ⟨_, rfl⟩
  · exact ⟨rest, ht⟩

theorem dropWhile_dot : ∀ {t : Text}, '.' ∉ t → t.dropWhile (· ≠ '.') = []
  | [], _ => rfl
  | c :: cs, h => by
    have hc : c ≠ '.' := fun e => h (by simp [e])
    rw [List.dropWhile_cons, if_pos (by simpa using hc)]
    exact dropWhile_dot fun hm => h (List.mem_cons_of_mem _ hm)

theorem resolve_bare (pkg : Text) {t : Text} (h : '.' ∉ t) : resolve pkg t = (pkg, t) := by
  unfold resolve
  rw [dropWhile_dot h]

theorem resolve_qualified (pkg : Text) {sel : Text} (h : '.' ∉ sel) (t : Text) :
    resolve pkg (sel ++ t!"." ++ t) = (sel, t) := by
  have hall : ∀ c ∈ sel, (decide (c ≠ '.')) = true := by
    intro c hc
    simp only [ne_eq, decide_not, Bool.not_eq_eq_eq_not, Bool.not_true, decide_eq_false_iff_not]
    intro e
    exact h (e ▸ hc)
  have e : sel ++ t!"." ++ t = sel ++ ('.' :: t) := by simp
  unfold resolve
  rw [e, List.dropWhile_append_of_pos hall, List.takeWhile_append_of_pos hall]
  simp

/-! ## Zero values -/

theorem goZero_pointer (P : Program) (pkg t : Text) : goZero P pkg (t!"*" ++ t) = .nil := rfl

theorem goZero_slice (P : Program) (pkg t : Text) : goZero P pkg ('[' :: t) = .nil := rfl

theorem goZero_map (P : Program) (pkg t : Text) : goZero P pkg (t!"map[" ++ t) = .nil := rfl

theorem goZero_enum (P : Program) (pkg : Text) {n : Text} (hn : Exported n) (h : .scalar n t!"string" ∈ P pkg) :
    goZero P pkg n = .str [] := by
  obtain ⟨c, cs, rfl, hc⟩ := hn.first
  have hr := resolve_bare pkg hn.dot
  have hu : ∀ d : Char, d.isUpper = false → c ≠ d := by
    intro d hd e
    rw [e, hd] at hc
    cases hc
  have h1 : goZero P pkg (c :: cs) =
      (if (c :: cs) = t!"bool" then .bool false
      else if (c :: cs) ∈ [t!"int", t!"int64", t!"uint32", t!"uint64"] then .int 0
      else if (c :: cs) = t!"float64" then .other (.float t!"0")
      else if (c :: cs) = t!"string" then .str []
      else if (c :: cs) = t!"time.Time" then .other (.date { text := t!"0001-01-01T00:00:00Z" })
      else if (c :: cs) = t!"error" ∨ (c :: cs) = t!"interface{}" then .nil
      else if (P (resolve pkg (c :: cs)).1).any (fun
          | .scalar x y => x = (resolve pkg (c :: cs)).2 && y = t!"string"
          | _ => false) then .str []
      else .nil) := by
    rw [goZero.eq_def]
    split
    · rename_i e; cases e
    · rename_i e; cases e; exact absurd rfl (hu '*' (by decide))
    · rename_i e; cases e; exact absurd rfl (hu '[' (by decide))
    · rename_i e; cases e; exact absurd rfl (hu 'm' (by decide))
    · rfl
  have hb := hu 'b' (by decide)
  have hi := hu 'i' (by decide)
  have hu' := hu 'u' (by decide)
  have hf := hu 'f' (by decide)
  have hs := hu 's' (by decide)
  have ht := hu 't' (by decide)
  have he := hu 'e' (by decide)
  rw [h1, hr]
  simp only [List.cons.injEq, hb, hi, hu', hf, hs, ht, he, false_and, if_false, List.mem_cons, List.not_mem_nil,
    or_self]
  rw [if_pos]
  rw [List.any_eq_true]
  exact ⟨_, h, by simp⟩

/-- All the declared types inside of a type. -/
def AllDecls (p : GoRef.Decl → Prop) : Typ → Prop
  | .basic _ => True
  | .enum d => p d
  | .struct d => p d
  | .list d e => p d ∧ AllDecls p e
  | .map d e => p d ∧ AllDecls p e

/-- A selector that can be before a name. -/
def Clean (t : Text) : Prop := '*' ∉ t ∧ '[' ∉ t

theorem clean_home {base : Text} (hb : base ≠ []) {o : GoRef.Owner} (h : Packageable o) :
    Clean (GoRef.pathBase (GoRef.versionImport base o)) := by
  rw [GoRef.versionImport_eq hb h.usable, GoRef.pathBase_home h.usable]
  exact ⟨h.star, h.bracket⟩

theorem clean_package {base : Text} (hb : base ≠ []) : ∀ {t : Typ}, AllDecls (fun d => Packageable d.owner) t →
    Clean (GoRef.package base t).selector := by
  intro t h
  cases t with
  | basic b => cases b <;> exact ⟨by simp [GoRef.package] <;> decide, by simp [GoRef.package] <;> decide⟩
  | enum d => exact clean_home hb h
  | struct d => exact clean_home hb h
  | list d e => exact clean_home hb h.1
  | map d e => exact ⟨by simp [GoRef.package], by simp [GoRef.package]⟩

theorem clean_value {base : Text} (hb : base ≠ []) : ∀ {t : Typ}, AllDecls (fun d => Packageable d.owner) t →
    Clean (GoRef.valueReference base t).selector := by
  intro t
  induction t with
  | basic b => intro h; cases b <;> exact ⟨by simp [GoRef.valueReference] <;> decide, by simp [GoRef.valueReference] <;> decide⟩
  | enum d => intro h; exact clean_home hb h
  | struct d => intro h; exact clean_home hb h
  | list d e ih =>
    intro h
    rw [GoRef.valueReference]
    split
    · exact ih h.2
    · split
      · exact ih h.2
      · exact ⟨by simp, by simp⟩
  | map d e ih =>
    intro h
    rw [GoRef.valueReference]
    split
    · exact ih h.2
    · split
      · exact ih h.2
      · exact ⟨by simp, by simp⟩

variable {P : Program} {p pkg base : Text}

theorem zero_star {ref : Ref} {rest : Text} (h : ref.text = t!"*" ++ rest) (hc : Clean ref.selector) :
    goZero P p (GoRef.emit pkg ref) = .nil := by
  obtain ⟨r, hr⟩ := emit_keep (pkg := pkg) (pre := []) (ch := '*') (rest := rest) h hc.1 (by decide) (by simp)
  rw [hr]
  rfl

theorem zero_slice {ref : Ref} {rest : Text} (h : ref.text = '[' :: rest) (hc : Clean ref.selector) :
    goZero P p (GoRef.emit pkg ref) = .nil := by
  obtain ⟨r, hr⟩ := emit_keep (pkg := pkg) (pre := []) (ch := '[') (rest := rest) h hc.2 (by decide) (by simp)
  rw [hr]
  rfl

theorem zero_map {ref : Ref} {rest : Text} (h : ref.text = t!"map[" ++ rest) (hc : Clean ref.selector) :
    goZero P p (GoRef.emit pkg ref) = .nil := by
  obtain ⟨r, hr⟩ := emit_keep (pkg := pkg) (pre := t!"map") (ch := '[') (rest := rest) h hc.2 (by decide) (by decide)
  rw [hr]
  rfl

theorem zero_empty {ref : Ref} (h : ref.text = []) : goZero P p (GoRef.emit pkg ref) = .nil := by
  have : GoRef.emit pkg ref = [] := by
    unfold GoRef.emit
    split
    · rw [h]; rfl
    · exact h
  rw [this]
  rfl

/-- What is needed to know the zero value of the Go type of a type. -/
structure Zeroable (P : Program) (p pkg : Text) (t : Typ) : Prop where
  decls : AllDecls (fun d => Packageable d.owner) t
  empty : pkg ≠ []
  time : pkg ≠ t!"time"
  enum : ∀ d, t = .enum d → Exported (GoRef.goTypeName d) ∧ .scalar (GoRef.goTypeName d) t!"string" ∈ P p

theorem zero_value (hb : base ≠ []) {t : Typ} {sh : Shape} (hk : SameKind t sh) (hz : Zeroable P p pkg t)
    (hs : t.isStruct = false) :
    goZero P p (GoRef.emit pkg (GoRef.valueReference base t)) = value (GoJson.zero sh) := by
  have hc := clean_value hb hz.decls
  have hfar : ∀ r : Ref, r.imprt = [] ∨ r.imprt = t!"time" → GoRef.emit pkg r = r.text := by
    intro r hr
    apply GoRef.emit_foreign
    rcases hr with h | h
    · rw [h]; exact fun e => hz.empty e.symm
    · rw [h]; exact fun e => hz.time e.symm
  cases hk with
  | boolean => rw [hfar _ (.inl rfl)]; rfl
  | integer => rw [hfar _ (.inl rfl)]; rfl
  | long => rw [hfar _ (.inl rfl)]; rfl
  | float => rw [hfar _ (.inl rfl)]; rfl
  | string => rw [hfar _ (.inl rfl)]; rfl
  | date => rw [hfar _ (.inr rfl)]; rfl
  | interface => rw [hfar _ (.inl rfl)]; rfl
  | @enum d =>
    obtain ⟨he, hm⟩ := hz.enum d rfl
    rw [GoRef.emit_bare _ _ (show '.' ∉ (GoRef.valueReference base (.enum d)).text from he.dot)]
    exact goZero_enum P p he hm
  | struct => cases hs
  | @list d e _ _ =>
    have : value (GoJson.zero (.list ‹_› ‹_›)) = .nil := rfl
    rw [this]
    by_cases h1 : e.isScalar
    · refine zero_slice (rest := ']' :: (GoRef.valueReference base e).text) ?_ hc
      rw [GoRef.valueReference, if_pos h1]; rfl
    · by_cases h2 : e.isStruct
      · refine zero_slice (rest := t!"]*" ++ (GoRef.valueReference base e).selector ++ t!"." ++
          (GoRef.valueReference base e).text) ?_ hc
        rw [GoRef.valueReference, if_neg h1, if_pos h2]; rfl
      · refine zero_empty ?_
        rw [GoRef.valueReference, if_neg h1, if_neg h2]
  | @map d e _ =>
    have : value (GoJson.zero (.map ‹_›)) = .nil := rfl
    rw [this]
    by_cases h1 : e.isScalar
    · refine zero_map (rest := t!"string]" ++ (GoRef.valueReference base e).text) ?_ hc
      rw [GoRef.valueReference, if_pos h1]; rfl
    · by_cases h2 : e.isStruct
      · refine zero_map (rest := t!"string]*" ++ (GoRef.valueReference base e).selector ++ t!"." ++
          (GoRef.valueReference base e).text) ?_ hc
        rw [GoRef.valueReference, if_neg h1, if_pos h2]; rfl
      · refine zero_empty ?_
        rw [GoRef.valueReference, if_neg h1, if_neg h2]

theorem zero_nullable_struct (hb : base ≠ []) {d : GoRef.Decl} (hz : Packageable d.owner) (ref : Text) :
    goZero P p (GoRef.emit pkg (GoRef.nullableReference base (.struct d) ref)) = .nil := by
  have hc : Clean (GoRef.valueReference base (.struct d)).selector := clean_home hb hz
  unfold GoRef.nullableReference
  rw [if_neg (by simp [Typ.isScalar]), if_pos (by rfl)]
  split
  · exact zero_star (rest := ref ++ t!"." ++ (GoRef.valueReference base (.struct d)).name)
      (by simp [List.append_assoc]) hc
  · exact zero_star (rest := (GoRef.valueReference base (.struct d)).selector ++ t!"." ++
      (GoRef.valueReference base (.struct d)).name) (by simp [List.append_assoc]) hc

theorem zero_list (hb : base ≠ []) {d : GoRef.Decl} {e : Typ} (he : AllDecls (fun d => Packageable d.owner) e) :
    goZero P p (GoRef.emit pkg (GoRef.listReference base (.list d e))) = .nil := by
  have hc := clean_package hb he
  exact zero_star (rest := (GoRef.package base e).selector ++ t!"." ++ (e.decl ++ t!"List"))
    (by simp [GoRef.listReference, List.append_assoc]) hc

theorem zero_builder (hb : base ≠ []) {t : Typ} (ht : AllDecls (fun d => Packageable d.owner) t) (ref : Text) :
    Clean (GoRef.builderReference base t ref).selector ∧
      ((∃ d, t = .struct d) ∨ (∃ d e, t = .list d e) → ∃ rest, (GoRef.builderReference base t ref).text = t!"*" ++ rest) := by
  cases t with
  | struct d =>
    have hc : Clean (GoRef.package base (.struct d)).selector := clean_home hb ht
    unfold GoRef.builderReference
    dsimp only
    split
    · exact ⟨hc, fun _ => ⟨_, by rw [List.append_assoc, List.append_assoc]⟩⟩
    · exact ⟨hc, fun _ => ⟨_, by rw [List.append_assoc, List.append_assoc]⟩⟩
  | list d e =>
    have hc : Clean (GoRef.package base e).selector := clean_package hb ht.2
    unfold GoRef.builderReference
    dsimp only
    split
    · exact ⟨hc, fun _ => ⟨_, by rw [List.append_assoc, List.append_assoc]⟩⟩
    · exact ⟨hc, fun _ => ⟨_, by rw [List.append_assoc, List.append_assoc]⟩⟩
  | basic b => exact ⟨⟨by simp [GoRef.builderReference], by simp [GoRef.builderReference]⟩, by simp⟩
  | enum b => exact ⟨⟨by simp [GoRef.builderReference], by simp [GoRef.builderReference]⟩, by simp⟩
  | map b e => exact ⟨⟨by simp [GoRef.builderReference], by simp [GoRef.builderReference]⟩, by simp⟩

/-- The zero value of the fields of objects. -/
theorem zero_fieldType (hb : base ≠ []) {a : GoRef.Attr} {sh : Shape} (hk : SameKind a.typ sh)
    (hz : Zeroable P p pkg a.typ) :
    goZero P p (GoRef.emit pkg (GoRef.fieldType base a)) = value (GoJson.zero sh) := by
  unfold GoRef.fieldType
  obtain ⟨t, l, o⟩ := a
  dsimp only at hk hz ⊢
  cases hk' : t with
  | basic b => rw [if_pos (by rfl)]; subst hk'; exact zero_value hb hk hz rfl
  | enum d => rw [if_pos (by rfl)]; subst hk'; exact zero_value hb hk hz rfl
  | struct d =>
    subst hk'
    rw [if_neg (by simp [Typ.isScalar]), if_pos (by rfl)]
    cases hk
    exact zero_nullable_struct hb hz.decls _
  | list d e =>
    subst hk'
    rw [if_neg (by simp [Typ.isScalar]), if_neg (by simp [Typ.isStruct]), if_pos (by rfl)]
    split
    · cases hk
      exact zero_list hb hz.decls.2
    · unfold GoRef.nullableReference
      rw [if_neg (by simp [Typ.isScalar]), if_neg (by simp [Typ.isStruct])]
      exact zero_value hb hk hz rfl
  | map d e =>
    subst hk'
    rw [if_neg (by simp [Typ.isScalar]), if_neg (by simp [Typ.isStruct]), if_neg (by simp [Typ.isList])]
    unfold GoRef.nullableReference
    rw [if_neg (by simp [Typ.isScalar]), if_neg (by simp [Typ.isStruct])]
    exact zero_value hb hk hz rfl

/-- The zero value of what the getters return. -/
theorem zero_getterType (hb : base ≠ []) {a : GoRef.Attr} {sh : Shape} (hk : SameKind a.typ sh)
    (hz : Zeroable P p pkg a.typ) :
    goZero P p (GoRef.emit pkg (GoRef.getterType base a)) = value (GoJson.zero sh) :=
  zero_fieldType hb hk hz

/-- The zero value of the fields of builders. -/
theorem zero_builderFieldType (hb : base ≠ []) {a : GoRef.Attr} {sh : Shape} (hk : SameKind a.typ sh)
    (hz : Zeroable P p pkg a.typ) :
    goZero P p (GoRef.emit pkg (GoRef.builderFieldType base a)) = value (GoJson.zero sh) := by
  unfold GoRef.builderFieldType
  obtain ⟨t, l, o⟩ := a
  dsimp only at hk hz ⊢
  cases hk' : t with
  | basic b => subst hk'; exact zero_value hb hk hz rfl
  | enum d => subst hk'; exact zero_value hb hk hz rfl
  | struct d =>
    subst hk'
    cases hk
    obtain ⟨h1, h2⟩ := zero_builder hb (t := .struct d) hz.decls (GoRef.Attr.referencedVersion ⟨.struct d, l, o⟩)
    obtain ⟨r, hr⟩ := h2 (.inl ⟨d, rfl⟩)
    exact zero_star hr h1
  | list d e =>
    subst hk'
    dsimp only
    split
    · cases hk
      obtain ⟨h1, h2⟩ := zero_builder hb (t := .list d e) hz.decls (GoRef.Attr.referencedVersion ⟨.list d e, l, o⟩)
      obtain ⟨r, hr⟩ := h2 (.inr ⟨d, e, rfl⟩)
      exact zero_star hr h1
    · split
      · unfold GoRef.nullableReference
        rw [if_neg (by simp [Typ.isScalar]), if_neg (by simp [Typ.isStruct])]
        exact zero_value hb hk hz rfl
      · cases hk
        obtain ⟨h1, -⟩ := zero_builder hb (t := e) hz.decls.2 (GoRef.Attr.referencedVersion ⟨.list d e, l, o⟩)
        exact zero_slice (rest := ']' :: _) rfl h1
  | map d e =>
    subst hk'
    dsimp only
    split
    · unfold GoRef.nullableReference
      rw [if_neg (by simp [Typ.isScalar]), if_neg (by simp [Typ.isStruct])]
      exact zero_value hb hk hz rfl
    · cases hk
      obtain ⟨h1, -⟩ := zero_builder hb (t := e) hz.decls.2 (GoRef.Attr.referencedVersion ⟨.map d e, l, o⟩)
      exact zero_map (rest := t!"string]" ++ _) rfl h1

/-! ## The types of the model -/

/-- The type of the model that is a predefined type. -/
def basicShape : GoRef.Basic → Shape
  | .boolean => .boolean
  | .integer => .integer
  | .long => .long
  | .float => .float
  | .string => .string
  | .date => .date
  | .interface => .interface

theorem basicShape_scalar (b : GoRef.Basic) : (basicShape b).isScalar = true := by cases b <;> rfl

theorem basicShape_kind (b : GoRef.Basic) : SameKind (.basic b) (basicShape b) := by cases b <;> constructor

theorem scalarShape_eq (n : Name) : scalarShape n = basicShape (Whole.basicOf n) := by
  unfold scalarShape Whole.basicOf
  repeat' split
  all_goals rfl

/-- What a type is for the generators and for the code. -/
inductive Seen (s : Session) (T : TypeCell → Bool) (id : TypeId) (c : TypeCell) : Prop
  | basic (b : GoRef.Basic) : typeOf s id = .basic b → schemaOf s T id = basicShape b → Seen s T id c
  | enum : c.kind = .enum → typeOf s id = .enum (declOf s c) → schemaOf s T id = .enum → Seen s T id c
  | struct : c.kind.isStruct = true → typeOf s id = .struct (declOf s c) →
    schemaOf s T id = .struct (c.kind == .class) (goName c) (c.attributes.mapIdx (GoJson.attrShape c)) → Seen s T id c
  | list (e : TypeId) (u : TypeCell) (n : Text) : c.kind = .list → c.element = some e → e < id →
    s.heap[e]? = some u → T u = true → typeOf s id = .list (declOf s c) (typeOf s e) →
    schemaOf s T id = .list n e → Seen s T id c
  | map (e : TypeId) (u : TypeCell) : c.kind = .map → c.element = some e → e < id →
    s.heap[e]? = some u → T u = true → typeOf s id = .map (declOf s c) (typeOf s e) →
    schemaOf s T id = .map e → Seen s T id c

variable {s : Session} {T : TypeCell → Bool}

theorem schemaOf_eq {id : TypeId} {c : TypeCell} (hc : s.heap[id]? = some c) (hT : T c = true) :
    schemaOf s T id = match c.kind, c.element with
      | .undefined, _ => .other
      | .scalar, _ => scalarShape c.name
      | .interface, _ => .interface
      | .enum, _ => .enum
      | .struct, _ => .struct false (goName c) (c.attributes.mapIdx (GoJson.attrShape c))
      | .class, _ => .struct true (goName c) (c.attributes.mapIdx (GoJson.attrShape c))
      | .list, some e => .list ((s.heap[e]?.map goName).getD [] ++ t!"List") e
      | .map, some e => .map e
      | .list, none => .other
      | .map, none => .other := by
  rw [schemaOf, hc]
  dsimp only
  rw [if_neg (by simp [hT])]
  cases c.kind <;> cases c.element <;> rfl

theorem typeOf_struct (h : HeapOk s.heap) {id : TypeId} {c : TypeCell} (hc : s.heap[id]? = some c)
    (hk : c.kind.isStruct = true) : typeOf s id = .struct (declOf s c) := by
  rw [typeOf_eq h hc]
  cases hk' : c.kind <;> rw [hk'] at hk <;> first | rfl | cases hk

theorem seen (h : HeapOk s.heap) (hu : Usable s T base) {id : TypeId} {c : TypeCell} (hc : s.heap[id]? = some c)
    (hT : T c = true) : Seen s T id c := by
  have ht := typeOf_eq h hc
  have ok := h id c hc
  have hs := schemaOf_eq hc hT
  cases hk : c.kind with
  | undefined => exact absurd hk (hu.defined id c hc hT)
  | scalar =>
    rw [hk] at ht hs
    exact .basic _ ht (by rw [hs]; exact scalarShape_eq _)
  | interface =>
    rw [hk] at ht hs
    exact .basic _ ht hs
  | enum =>
    rw [hk] at ht hs
    exact .enum hk ht hs
  | struct =>
    rw [hk] at ht hs
    exact .struct (by rw [hk]; rfl) ht (by rw [hs, hk]; rfl)
  | «class» =>
    rw [hk] at ht hs
    exact .struct (by rw [hk]; rfl) ht (by rw [hs, hk]; rfl)
  | list =>
    obtain ⟨e, he, hl⟩ := ok.element (.inl hk)
    obtain ⟨u, hu1, hu2⟩ := hu.elements id c hc hT e he
    rw [hk, he] at ht hs
    exact .list e u _ hk he hl hu1 hu2 ht hs
  | map =>
    obtain ⟨e, he, hl⟩ := ok.element (.inr hk)
    obtain ⟨u, hu1, hu2⟩ := hu.elements id c hc hT e he
    rw [hk, he] at ht hs
    exact .map e u hk he hl hu1 hu2 ht hs

theorem Seen.same {id : TypeId} {c : TypeCell} (h : Seen s T id c) : SameKind (typeOf s id) (schemaOf s T id) := by
  cases h with
  | basic b h1 h2 => rw [h1, h2]; exact basicShape_kind b
  | enum _ h1 h2 => rw [h1, h2]; constructor
  | struct _ h1 h2 => rw [h1, h2]; constructor
  | list e u n _ _ _ _ _ h1 h2 => rw [h1, h2]; constructor
  | map e u _ _ _ _ _ h1 h2 => rw [h1, h2]; constructor

theorem allDecls (h : HeapOk s.heap) (hu : Usable s T base) : ∀ (n id : Nat) (c : TypeCell), id < n →
    s.heap[id]? = some c → T c = true → AllDecls (fun d => Packageable d.owner) (typeOf s id) := by
  intro n
  induction n with
  | zero => intro id c h; omega
  | succ n ih =>
    intro id c hn hc hT
    have hv : Packageable (declOf s c).owner := hu.versions id c hc hT
    cases seen h hu hc hT with
    | basic b h1 h2 => rw [h1]; trivial
    | enum _ h1 h2 => rw [h1]; exact hv
    | struct _ h1 h2 => rw [h1]; exact hv
    | list e u n _ _ hl he hu2 h1 h2 =>
      rw [h1]
      exact ⟨hv, ih e u (Nat.lt_of_lt_of_le hl (by omega)) he hu2⟩
    | map e u _ _ hl he hu2 h1 h2 =>
      rw [h1]
      exact ⟨hv, ih e u (Nat.lt_of_lt_of_le hl (by omega)) he hu2⟩

/-! ## The code -/

theorem context_pkg (hu : Usable s T base) {id : Nat} {c : TypeCell} (hc : s.heap[id]? = some c) (hT : T c = true) :
    (TypesCode.contextOf s base (c.owner.getD 0)).pkg = GoRef.home base (Whole.ownerOf s c.owner) ∧
    (TypesCode.contextOf s base (c.owner.getD 0)).owner = Whole.ownerOf s c.owner := by
  have ho := hu.owned id c hc hT
  have hp := (hu.versions id c hc hT).usable
  obtain ⟨v, hv⟩ : ∃ v, c.owner = some v := by
    cases h : c.owner with
    | none => exact absurd h ho
    | some v => exact ⟨v, rfl⟩
  rw [hv] at hp ⊢
  exact ⟨GoRef.versionImport_eq hu.base hp, rfl⟩

theorem packageOf_eq (hu : Usable s T base) {id : Nat} {c : TypeCell} (hc : s.heap[id]? = some c) (hT : T c = true) :
    packageOf s c = (Whole.ownerOf s c.owner).version.lowerJoined [] :=
  GoRef.versionSelector_eq (hu.versions id c hc hT).usable

theorem packageOf_dot (hu : Usable s T base) {id : Nat} {c : TypeCell} (hc : s.heap[id]? = some c) (hT : T c = true) :
    '.' ∉ packageOf s c := by
  rw [packageOf_eq hu hc hT]
  exact (hu.versions id c hc hT).usable.dot

/-- The names of an object that an attribute uses. -/
theorem resolve_target (hu : Usable s T base) {id uid : Nat} {c u : TypeCell} (hc : s.heap[id]? = some c)
    (hT : T c = true) {a : Attribute} (ha : a ∈ c.attributes) (huc : s.heap[uid]? = some u) (huT : T u = true)
    (hm : Mentions s a.typ u) (hk : u.kind.isStruct = true) {x : BuildersCode.Context}
    (hx : x.ownerOf = fun v => Whole.ownerOf s (some v)) {name : Text} (hn : '.' ∉ name) :
    resolve (packageOf s c) (BuildersCode.selectorOf x a ++ name) = (packageOf s u, name) := by
  have hp := hu.placed id c hc hT a ha
  unfold BuildersCode.selectorOf
  cases hl : a.linkOwner with
  | none =>
    have := hp.same u hm hk hl
    dsimp only
    rw [List.nil_append, resolve_bare _ hn]
    unfold packageOf
    rw [this]
  | some v =>
    have := hp.other u v hm hk hl
    dsimp only
    have hd := packageOf_dot hu huc huT
    unfold packageOf at hd ⊢
    rw [this] at hd ⊢
    rw [hx]
    exact resolve_qualified _ hd _

theorem exported_dot {n x : Text} (h : Exported n) (hx : '.' ∉ x) : '.' ∉ n ++ x := GoRef.dot_append h.dot hx

theorem codeOf_eq {id : Nat} {c : TypeCell} (hc : s.heap[id]? = some c) : codeOf s base id = cellCode s base c := by
  rw [codeOf, hc]
  rfl

/-- The names of the builder of an object that an attribute uses. -/
theorem names_target (hu : Usable s T base) {id uid : Nat} {c u : TypeCell} (hc : s.heap[id]? = some c)
    (hT : T c = true) {a : Attribute} (ha : a ∈ c.attributes) (huc : s.heap[uid]? = some u) (huT : T u = true)
    (hm : Mentions s a.typ u) (hk : u.kind.isStruct = true) {x : BuildersCode.Context}
    (hx : x.ownerOf = fun v => Whole.ownerOf s (some v)) :
    Names (packageOf s c) (BuildersCode.targetOf (BuildersCode.selectorOf x a)
      (BuildersCode.typeName (.struct (declOf s u)))) (codeOf s base uid) := by
  have he := hu.named uid u huc huT (.inl hk)
  rw [codeOf_eq huc]
  refine ⟨?_, ?_⟩
  · show resolve _ (_ ++ _ ++ _) = _
    rw [List.append_assoc]
    exact resolve_target hu hc hT ha huc huT hm hk hx (exported_dot he (by decide))
  · show resolve _ (_ ++ _ ++ _) = _
    rw [List.append_assoc]
    exact resolve_target hu hc hT ha huc huT hm hk hx (GoRef.dot_append (by decide) he.dot)

theorem listNames_target (hu : Usable s T base) {id uid : Nat} {c u : TypeCell} (hc : s.heap[id]? = some c)
    (hT : T c = true) {a : Attribute} (ha : a ∈ c.attributes) (huc : s.heap[uid]? = some u) (huT : T u = true)
    (hm : Mentions s a.typ u) (hk : u.kind.isStruct = true) {x : BuildersCode.Context}
    (hx : x.ownerOf = fun v => Whole.ownerOf s (some v)) :
    ListNames (packageOf s c) (BuildersCode.targetOf (BuildersCode.selectorOf x a)
      (BuildersCode.typeName (.struct (declOf s u)) ++ t!"List")) (codeOf s base uid) := by
  have he := hu.named uid u huc huT (.inl hk)
  rw [codeOf_eq huc]
  refine ⟨?_, ?_⟩
  · have := resolve_target hu hc hT ha huc huT hm hk hx (name := goName u ++ t!"ListBuilder")
      (exported_dot he (by decide))
    show resolve _ (_ ++ (goName u ++ t!"List") ++ t!"Builder") = (_, goName u ++ t!"ListBuilder")
    refine Eq.trans ?_ this
    congr 1
    simp [List.append_assoc]
  · have := resolve_target hu hc hT ha huc huT hm hk hx (name := t!"New" ++ (goName u ++ t!"List"))
      (GoRef.dot_append (by decide) (exported_dot he (by decide)))
    show resolve _ (_ ++ t!"New" ++ (goName u ++ t!"List")) = (_, t!"New" ++ (goName u ++ t!"List"))
    refine Eq.trans ?_ this
    rw [List.append_assoc]

theorem Seen.scalar {id : TypeId} {c : TypeCell} (h : Seen s T id c) :
    ((typeOf s id).isScalar = true ∧ (schemaOf s T id).isScalar = true ∧ BuildersRun.isObject (schemaOf s T id) = false) ∨
    (c.kind.isStruct = true ∧ typeOf s id = .struct (declOf s c) ∧ (schemaOf s T id).isScalar = false ∧
      BuildersRun.isObject (schemaOf s T id) = true) ∨
    ((∃ d e, typeOf s id = .list d e ∨ typeOf s id = .map d e) ∧ (schemaOf s T id).isScalar = false ∧
      BuildersRun.isObject (schemaOf s T id) = false) := by
  cases h with
  | basic b h1 h2 => rw [h1, h2]; exact .inl ⟨rfl, basicShape_scalar b, by cases b <;> rfl⟩
  | enum _ h1 h2 => rw [h1, h2]; exact .inl ⟨rfl, rfl, rfl⟩
  | struct hk h1 h2 => rw [h1, h2]; exact .inr (.inl ⟨hk, rfl, rfl, rfl⟩)
  | list e u n _ _ _ _ _ h1 h2 => rw [h1, h2]; exact .inr (.inr ⟨⟨_, _, .inl rfl⟩, rfl, rfl⟩)
  | map e u _ _ _ _ _ h1 h2 => rw [h1, h2]; exact .inr (.inr ⟨⟨_, _, .inr rfl⟩, rfl, rfl⟩)

/-- The form of an attribute is that of its type. -/
theorem fits (h : HeapOk s.heap) (hu : Usable s T base) {id : Nat} {c : TypeCell} (hc : s.heap[id]? = some c)
    (hT : T c = true) {a : Attribute} (ha : a ∈ c.attributes) (i : Nat) (v : VersionId) :
    Fits (schemaOf s T) (codeOf s base) (packageOf s c) (GoJson.attrShape c i a)
      (BuildersCode.memberOf (BuildersCode.contextOf s base v) c i a).form := by
  obtain ⟨w, hw, hwT⟩ := hu.types id c hc hT a ha
  have hx : (BuildersCode.contextOf s base v).ownerOf = fun v => Whole.ownerOf s (some v) := rfl
  show Fits _ _ _ (GoJson.attrShape c i a) (BuildersCode.formOf _ _ a.link (typeOf s a.typ))
  have hm0 : Mentions s a.typ w := ⟨w, hw, .inl rfl⟩
  cases seen h hu hw hwT with
  | basic b h1 h2 =>
    rw [h1]
    show (schemaOf s T a.typ).isScalar = true
    rw [h2]
    exact basicShape_scalar b
  | enum _ h1 h2 =>
    rw [h1]
    show (schemaOf s T a.typ).isScalar = true
    rw [h2]
    rfl
  | struct hk h1 h2 =>
    rw [h1]
    refine ⟨?_, names_target hu hc hT ha hw hwT hm0 hk hx⟩
    show BuildersRun.isObject (schemaOf s T a.typ) = true
    rw [h2]
    rfl
  | list e u n hk he hl heu heT h1 h2 =>
    rw [h1]
    have hme : Mentions s a.typ u := ⟨w, hw, .inr ⟨.inl hk, e, he, heu⟩⟩
    have hse := seen h hu heu heT
    by_cases hlink : a.link = true
    · rw [BuildersCode.formOf, if_pos hlink]
      refine ⟨n, e, h2, hlink, fun ho => ?_⟩
      rcases hse.scalar with ⟨-, -, h5⟩ | ⟨h3, h4, -, -⟩ | ⟨-, -, h5⟩
      · rw [h5] at ho; cases ho
      · rw [h4]
        exact listNames_target hu hc hT ha heu heT hme h3 hx
      · rw [h5] at ho; cases ho
    · have hlink' : a.link = false := by simpa using hlink
      rw [BuildersCode.formOf, if_neg hlink]
      rcases hse.scalar with ⟨h3, h4, -⟩ | ⟨h3, h4, -, h6⟩ | ⟨⟨d, e', h3⟩, h4, h5⟩
      · cases ht : typeOf s e with
        | basic b => exact ⟨n, e, h2, hlink', h4⟩
        | enum d => exact ⟨n, e, h2, hlink', h4⟩
        | struct d => rw [ht] at h3; cases h3
        | list d e => rw [ht] at h3; cases h3
        | map d e => rw [ht] at h3; cases h3
      · rw [h4]
        exact ⟨n, e, h2, hlink', h6, names_target hu hc hT ha heu heT hme h3 hx⟩
      · rcases h3 with h3 | h3
        · rw [h3]
          exact ⟨n, e, h2, hlink', h4, h5⟩
        · rw [h3]
          exact ⟨n, e, h2, hlink', h4, h5⟩
  | map e u hk he hl heu heT h1 h2 =>
    rw [h1]
    have hme : Mentions s a.typ u := ⟨w, hw, .inr ⟨.inr hk, e, he, heu⟩⟩
    rcases (seen h hu heu heT).scalar with ⟨h3, h4, -⟩ | ⟨h3, h4, -, h6⟩ | ⟨⟨d, e', h3⟩, h4, h5⟩
    · cases ht : typeOf s e with
      | basic b => exact ⟨e, h2, h4⟩
      | enum d => exact ⟨e, h2, h4⟩
      | struct d => rw [ht] at h3; cases h3
      | list d e => rw [ht] at h3; cases h3
      | map d e => rw [ht] at h3; cases h3
    · rw [h4]
      exact ⟨e, h2, h6, names_target hu hc hT ha heu heT hme h3 hx⟩
    · rcases h3 with h3 | h3
      · rw [h3]
        exact ⟨e, h2, h4, h5⟩
      · rw [h3]
        exact ⟨e, h2, h4, h5⟩

/-- The zero values of the types of the attributes. -/
theorem zeroable (h : HeapOk s.heap) (hu : Usable s T base) (hP : Contains P s T base) {id : Nat} {c : TypeCell}
    (hc : s.heap[id]? = some c) (hT : T c = true) {a : Attribute} (ha : a ∈ c.attributes) :
    Zeroable P (packageOf s c) (TypesCode.contextOf s base (c.owner.getD 0)).pkg (typeOf s a.typ) := by
  obtain ⟨w, hw, hwT⟩ := hu.types id c hc hT a ha
  obtain ⟨hpkg, -⟩ := context_pkg hu hc hT
  refine ⟨allDecls h hu _ _ w (Nat.lt_succ_self _) hw hwT, ?_, ?_, ?_⟩
  · rw [hpkg]
    exact (GoRef.nil_ne_home _ _).symm
  · rw [hpkg]
    exact (GoRef.time_ne_home _ _).symm
  · intro d hd
    cases seen h hu hw hwT with
    | basic b h1 h2 => rw [h1] at hd; cases hd
    | struct _ h1 h2 => rw [h1] at hd; cases hd
    | list e u n _ _ _ _ _ h1 h2 => rw [h1] at hd; cases hd
    | map e u _ _ _ _ _ h1 h2 => rw [h1] at hd; cases hd
    | enum hk h1 h2 =>
      rw [h1] at hd
      cases hd
      refine ⟨hu.named a.typ w hw hwT (.inr hk), ?_⟩
      have ho := (hu.placed id c hc hT a ha).enum w ⟨w, hw, .inl rfl⟩ hk
      have he := hP.enums a.typ w hw hwT hk
      have hp : packageOf s w = packageOf s c := by unfold packageOf; rw [ho]
      rw [hp] at he
      exact he _ (by unfold TypesCode.Enumeration.items; exact List.mem_cons_self)

/-- The code of the structs and classes is part of the program. -/
theorem whole (h : HeapOk s.heap) (hu : Usable s T base) (hP : Contains P s T base) :
    Whole P (goZero P) (schemaOf s T) (codeOf s base) := by
  refine ⟨fun pkg => ⟨rfl, rfl, rfl, fun _ => rfl, fun _ => rfl⟩, ?_⟩
  intro id isClass n as hS
  obtain ⟨c, hc, hT⟩ : ∃ c, s.heap[id]? = some c ∧ T c = true := by
    rw [schemaOf] at hS
    cases hc : s.heap[id]? with
    | none => rw [hc] at hS; cases hS
    | some c =>
      rw [hc] at hS
      dsimp only at hS
      split at hS
      · cases hS
      · exact ⟨c, rfl, by simpa using ‹¬ T c = false›⟩
  obtain ⟨hk, hS'⟩ : c.kind.isStruct = true ∧
      schemaOf s T id = .struct (c.kind == .class) (goName c) (c.attributes.mapIdx (GoJson.attrShape c)) := by
    cases seen h hu hc hT with
    | basic b h1 h2 => rw [h2] at hS; cases b <;> cases hS
    | enum _ h1 h2 => rw [h2] at hS; cases hS
    | struct hk h1 h2 => exact ⟨hk, h2⟩
    | list e u n _ _ _ _ _ h1 h2 => rw [h2] at hS; cases hS
    | map e u _ _ _ _ _ h1 h2 => rw [h2] at hS; cases hS
  rw [hS'] at hS
  cases hS
  rw [codeOf_eq hc]
  refine ⟨hP.legal _, hP.objects id c hc hT hk, (hu.named id c hc hT (.inl hk)).dot, rfl, rfl, rfl, rfl, ?_, ?_, ?_,
    ?_, ?_⟩
  · show (List.mapIdx _ _).length = _
    simp
  · show (List.mapIdx _ _).length = _
    simp
  · intro i a m f h1 h2 h3
    change (List.mapIdx _ _)[i]? = _ at h2
    change (List.mapIdx _ _)[i]? = _ at h3
    rw [List.getElem?_mapIdx] at h1 h2 h3
    cases hat : c.attributes[i]? with
    | none => rw [hat] at h1; cases h1
    | some at' =>
      rw [hat] at h1 h2 h3
      cases h1; cases h2; cases h3
      have ha := List.mem_of_getElem? hat
      have hi := (List.getElem?_eq_some_iff.mp hat).1
      obtain ⟨w, hw, hwT⟩ := hu.types id c hc hT at' ha
      have hz := zeroable h hu hP hc hT ha
      have hkind := (seen h hu hw hwT).same
      refine ⟨?_, fits h hu hc hT ha i _, rfl, rfl, ?_, ?_⟩
      · show (if c.kind = .class then 3 else 0) + i = Bitmap.bitIndex c i
        rw [bitIndex_eq c i hi, reservedBits]
      · exact zero_builderFieldType (a := (TypesCode.contextOf s base (c.owner.getD 0)).attr at') hu.base hkind hz
      · exact zero_fieldType (a := (TypesCode.contextOf s base (c.owner.getD 0)).attr at') hu.base hkind hz
  · show goZero P _ (if _ then t!"uint32" else t!"uint64") = _
    split <;> split <;> rfl
  · show goZero P _ (if _ then t!"uint32" else t!"uint64") = _
    split <;> split <;> rfl

end Verif.ModelRun
