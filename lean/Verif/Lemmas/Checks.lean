import Verif.Spec.Checks
import Verif.Props.Names

/-! Helper lemmas about the checks. -/

namespace Verif

theorem accepted_iff_all (ms : List Message) :
    Accepted ms ↔ ms.all (fun m => !m.isError) = true := by
  simp only [Accepted, List.all_eq_true, Bool.not_eq_true']
  constructor
  · intro h m hm
    cases m with
    | error p => exact absurd hm (h p)
    | warning p => rfl
  · intro h p hp
    exact absurd (h _ hp) (by simp [Message.isError])

instance (ms : List Message) : Decidable (Accepted ms) :=
  decidable_of_iff _ (accepted_iff_all ms).symm

theorem accepted_nil : Accepted [] := by simp [Accepted]

theorem accepted_append (a b : List Message) : Accepted (a ++ b) ↔ Accepted a ∧ Accepted b := by
  simp only [Accepted, List.mem_append, not_or]
  exact ⟨fun h => ⟨fun p => (h p).1, fun p => (h p).2⟩, fun h p => ⟨h.1 p, h.2 p⟩⟩

theorem accepted_warning (p : Problem) : Accepted [.warning p] := by simp [Accepted]

theorem accepted_flatMap {α : Type} (l : List α) (f : α → List Message) :
    Accepted (l.flatMap f) ↔ ∀ x ∈ l, Accepted (f x) := by
  simp only [Accepted, List.mem_flatMap, not_exists, not_and]
  exact ⟨fun h x hx p => h p x hx, fun h p x hx => h x hx p⟩

theorem accepted_reportIf (b : Bool) (p : Problem) : Accepted (Check.reportIf b p) ↔ b = false := by
  cases b <;> simp [Check.reportIf, Accepted]

theorem accepted_forParams (ps : List Parameter) (bad : Parameter → Bool)
    (f : Parameter → Problem) :
    Accepted (Check.forParams ps bad f) ↔ ∀ p ∈ ps, bad p = false := by
  simp only [Accepted, Check.forParams, List.mem_map, List.mem_filter, Message.error.injEq,
    not_exists, not_and, and_imp]
  constructor
  · intro h p hp
    cases hb : bad p with
    | false => rfl
    | true => exact absurd rfl (h _ p hp hb)
  · intro h q p hp hb
    rw [h p hp] at hb
    cases hb

theorem exactlyOne_iff {α : Type} (f : α → Bool) (P : α → Prop) (h : ∀ x, f x = true ↔ P x)
    (l : List α) : (l.filter f).length = 1 ↔ ExactlyOne P l := by
  have e : (l.filter f).length = 1 ↔ ExactlyOne (fun x => f x = true) l := by
    rw [List.length_eq_one_iff]
    constructor
    · rintro ⟨x, hx⟩
      rw [List.filter_eq_cons_iff] at hx
      obtain ⟨l1, l2, rfl, h1, h2, h3⟩ := hx
      rw [List.filter_eq_nil_iff] at h3
      exact ⟨l1, x, l2, rfl, h2, h1, h3⟩
    · rintro ⟨l1, x, l2, rfl, h1, h2, h3⟩
      refine ⟨x, ?_⟩
      rw [List.filter_append, List.filter_cons_of_pos h1, List.filter_eq_nil_iff.mpr h2,
        List.filter_eq_nil_iff.mpr h3]
      rfl
  rw [e]
  have : (fun x => f x = true) = P := funext fun x => propext (h x)
  rw [this]

theorem atMostOne_iff {α : Type} (f : α → Bool) (l : List α) :
    (l.filter f).length ≤ 1 ↔ AtMostOne (fun x => f x = true) l := by
  unfold AtMostOne
  rw [← exactlyOne_iff f _ (fun _ => Iff.rfl) l]
  rw [← List.filter_eq_nil_iff, ← List.length_eq_zero_iff]
  omega

theorem kind_scalar (p : Parameter) : p.typ.isScalar = true ↔ Rule.Scalar p := by
  simp only [TypeRef.isScalar, Kind.isScalar, Rule.Scalar, Bool.or_eq_true, beq_iff_eq]
  exact or_assoc

theorem kind_struct (p : Parameter) : p.typ.isStruct = true ↔ Rule.Struct p := by
  simp only [TypeRef.isStruct, Kind.isStruct, Rule.Struct, Bool.or_eq_true, beq_iff_eq]
  exact or_comm

theorem kind_list (p : Parameter) : p.typ.isList = true ↔ Rule.IsList p := by
  simp only [TypeRef.isList, Rule.IsList, beq_iff_eq]

theorem sameName_iff (a b : Name) : Check.sameName a b = true ↔ b = a := by
  unfold Check.sameName
  rw [c01_equals_iff]
  simp [eq_comm]

theorem named_iff (m : Method) (n : Name) : m.named n = true ↔ m.name = n := by
  unfold Method.named
  rw [c01_equals_iff]
  simp

theorem getParameter_none (m : Method) (n : Name) :
    m.getParameter n = none ↔ ∀ p ∈ m.parameters, p.name ≠ n := by
  unfold Method.getParameter findMember
  simp only [List.find?_eq_none, c01_equals_iff, Option.some.injEq]

theorem getParameter_some (m : Method) (n : Name) (p : Parameter) :
    m.getParameter n = some p ↔ ∃ before after, m.parameters = before ++ p :: after ∧
      p.name = n ∧ ∀ q ∈ before, q.name ≠ n := by
  unfold Method.getParameter findMember
  simp only [List.find?_eq_some_iff_append, c01_equals_iff, Option.some.injEq, Bool.not_eq_true',
    bool_eq_false_iff_not]
  constructor
  · rintro ⟨h1, as, bs, h2, h3⟩; exact ⟨as, bs, h2, h1, h3⟩
  · rintro ⟨as, bs, h2, h1, h3⟩; exact ⟨h1, as, bs, h2, h3⟩

theorem first_iff (m : Method) (n : Name) (P : Parameter → Prop) :
    Rule.First m n P ↔ ∀ p, m.getParameter n = some p → P p := by
  unfold Rule.First
  constructor
  · intro h p hp
    obtain ⟨as, bs, h1, h2, h3⟩ := (getParameter_some m n p).mp hp
    exact h as p bs h1 h2 h3
  · intro h as p bs h1 h2 h3
    exact h p ((getParameter_some m n p).mpr ⟨as, bs, h1, h2, h3⟩)

theorem accepted_request (b : Builtins) (m : Method) (n : Name) (d : Int) :
    Accepted (Check.requestParameter b m n d) ↔
      Rule.First m n fun p => b.integer = some p.typ.id ∧ Rule.InOut p ∧ p.dflt = some (.int d) := by
  rw [first_iff]
  unfold Check.requestParameter
  cases h : m.getParameter n with
  | none => simp [accepted_warning]
  | some p =>
    simp only [accepted_append, accepted_reportIf, Rule.InOut, Option.some.injEq, forall_eq']
    have e : some p.typ.id = b.integer ↔ b.integer = some p.typ.id := eq_comm
    cases p.isIn <;> cases p.isOut <;> simp [e]

theorem accepted_response (b : Builtins) (m : Method) (n : Name) :
    Accepted (Check.responseParameter b m n) ↔
      Rule.First m n fun p => b.integer = some p.typ.id ∧ Rule.OnlyOut p := by
  rw [first_iff]
  unfold Check.responseParameter
  cases h : m.getParameter n with
  | none => simp [accepted_warning]
  | some p =>
    simp only [accepted_append, accepted_reportIf, Rule.OnlyOut, Option.some.injEq, forall_eq']
    have e : some p.typ.id = b.integer ↔ b.integer = some p.typ.id := eq_comm
    cases p.isIn <;> cases p.isOut <;> simp [e]

theorem accepted_paging (b : Builtins) (m : Method) :
    (Accepted (Check.requestParameter b m Nom.page 1) ∧
     Accepted (Check.requestParameter b m Nom.size 100) ∧
     Accepted (Check.responseParameter b m Nom.total)) ↔ Rule.Paging b m := by
  rw [accepted_request, accepted_request, accepted_response]
  exact ⟨fun h => ⟨h.1, h.2.1, h.2.2⟩, fun h => ⟨h.page, h.size, h.total⟩⟩

theorem exactlyOne_mem {α : Type} {P : α → Prop} {l : List α} (h : ExactlyOne P l) :
    ∃ x ∈ l, P x := by
  obtain ⟨a, x, b, rfl, hx, -, -⟩ := h
  exact ⟨x, by simp, hx⟩

theorem accepted_parameter (b : Builtins) (hb : b.boolean.isSome ∧ b.integer.isSome ∧
    b.string.isSome) (p : Parameter) :
    Accepted (Check.checkParameter b p) ↔ Rule.DefaultFits b p := by
  obtain ⟨⟨x, hx⟩, ⟨y, hy⟩, ⟨z, hz⟩⟩ := hb.imp Option.isSome_iff_exists.mp
    (And.imp Option.isSome_iff_exists.mp Option.isSome_iff_exists.mp)
  unfold Check.checkParameter Rule.DefaultFits Check.typeOfDefault
  cases h : p.dflt with
  | none => simp [accepted_nil]
  | some v =>
    cases v <;> simp [hx, hy, hz, accepted_reportIf]

/-! The conditions of the loops in terms of the rules. -/

theorem bad_scalar_struct (p : Parameter) :
    (!p.typ.isScalar && !p.typ.isStruct) = false ↔ Rule.Scalar p ∨ Rule.Struct p := by
  rw [← kind_scalar, ← kind_struct]
  cases p.typ.isScalar <;> cases p.typ.isStruct <;> simp

theorem bad_scalar_list (p : Parameter) :
    (!p.typ.isScalar && !p.typ.isList) = false ↔ Rule.Scalar p ∨ Rule.IsList p := by
  rw [← kind_scalar, ← kind_list]
  cases p.typ.isScalar <;> cases p.typ.isList <;> simp

theorem bad_scalar_struct_list (p : Parameter) :
    (!p.typ.isScalar && !p.typ.isStruct && !p.typ.isList) = false ↔
      Rule.Scalar p ∨ Rule.Struct p ∨ Rule.IsList p := by
  rw [← kind_scalar, ← kind_struct, ← kind_list]
  cases p.typ.isScalar <;> cases p.typ.isStruct <;> cases p.typ.isList <;> simp

theorem bad_scalar (p : Parameter) : (!p.typ.isScalar) = false ↔ Rule.Scalar p := by
  rw [← kind_scalar]
  cases p.typ.isScalar <;> simp

theorem bad_struct (p : Parameter) : (!p.typ.isStruct) = false ↔ Rule.Struct p := by
  rw [← kind_struct]
  cases p.typ.isStruct <;> simp

theorem bad_inOut (p : Parameter) : (!p.isIn || !p.isOut) = false ↔ Rule.InOut p := by
  unfold Rule.InOut
  cases p.isIn <;> cases p.isOut <;> simp

theorem bad_onlyIn (p : Parameter) : (!p.isIn || p.isOut) = false ↔ Rule.OnlyIn p := by
  unfold Rule.OnlyIn
  cases p.isIn <;> cases p.isOut <;> simp

theorem bad_onlyIn' (p : Parameter) : (p.isOut || !p.isIn) = false ↔ Rule.OnlyIn p := by
  unfold Rule.OnlyIn
  cases p.isIn <;> cases p.isOut <;> simp

theorem bad_onlyOut (p : Parameter) : (p.isIn || !p.isOut) = false ↔ Rule.OnlyOut p := by
  unfold Rule.OnlyOut
  cases p.isIn <;> cases p.isOut <;> simp

theorem bad_onlyOut' (p : Parameter) : (!p.isOut || p.isIn) = false ↔ Rule.OnlyOut p := by
  unfold Rule.OnlyOut
  cases p.isIn <;> cases p.isOut <;> simp

theorem bad_scalar_onlyIn (p : Parameter) :
    (p.typ.isScalar && (!p.isIn || p.isOut)) = false ↔ (Rule.Scalar p → Rule.OnlyIn p) := by
  rw [← kind_scalar, ← bad_onlyIn]
  cases p.typ.isScalar <;> simp

theorem bad_name (n : Name) (p : Parameter) : (!Check.sameName n p.name) = false ↔ p.name = n := by
  rw [← sameName_iff]
  simp

theorem kind_struct_in (p : Parameter) :
    (p.typ.isStruct && p.isIn) = true ↔ Rule.Struct p ∧ p.isIn = true := by
  rw [← kind_struct, Bool.and_eq_true]

theorem kind_struct_list (p : Parameter) :
    (p.typ.isStruct || p.typ.isList) = true ↔ Rule.Struct p ∨ Rule.IsList p := by
  rw [← kind_struct, ← kind_list, Bool.or_eq_true]

theorem items_isNone (m : Method) (n : Name) :
    (m.getParameter n).isNone = false ↔ ∃ p ∈ m.parameters, p.name = n := by
  cases h : m.getParameter n with
  | none =>
    rw [getParameter_none] at h
    simp only [Option.isNone_none, Bool.true_eq_false, false_iff, not_exists, not_and]
    exact h
  | some p =>
    obtain ⟨a, b, h1, h2, -⟩ := (getParameter_some m n p).mp h
    simp only [Option.isNone_some, true_iff]
    exact ⟨p, by rw [h1]; simp, h2⟩

end Verif
