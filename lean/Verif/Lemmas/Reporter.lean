import Verif.Spec.Reporter
import Verif.Lemmas.Checks
import Verif.Lemmas.Binding

/-! # Lemmas about the messages of the checks -/

namespace Verif

theorem counts_iff {α : Type} (f : α → Bool) (P : α → Prop) (h : ∀ x, f x = true ↔ P x) :
    ∀ (l : List α) (n : Nat), Counts P l n ↔ n = (l.filter f).length
  | [], n => by
    constructor
    · rintro ⟨⟩; rfl
    · rintro rfl; exact .nil
  | x :: l, n => by
    have ih := counts_iff f P h l
    by_cases hx : f x = true
    · rw [List.filter_cons_of_pos hx, List.length_cons]
      constructor
      · intro hc
        cases hc with
        | yes _ hc => rw [(ih _).mp hc]
        | no hn _ => exact absurd ((h x).mp hx) hn
      · rintro rfl
        exact .yes ((h x).mp hx) ((ih _).mpr rfl)
    · rw [List.filter_cons_of_neg hx]
      constructor
      · intro hc
        cases hc with
        | yes hp _ => exact absurd ((h x).mpr hp) hx
        | no _ hc => exact (ih _).mp hc
      · rintro rfl
        exact .no (fun hp => hx ((h x).mpr hp)) ((ih _).mpr rfl)

theorem error_mem_forParams (ps : List Parameter) (bad : Parameter → Bool)
    (f : Parameter → Problem) (pr : Problem) :
    Message.error pr ∈ Check.forParams ps bad f ↔ ∃ p ∈ ps, ¬ (bad p = false) ∧ f p = pr := by
  simp only [Check.forParams, List.mem_map, List.mem_filter, Message.error.injEq,
    Bool.not_eq_false, and_assoc]

theorem error_mem_reportIf (bad : Bool) (p pr : Problem) :
    Message.error pr ∈ Check.reportIf bad p ↔ ¬ (bad = false) ∧ p = pr := by
  cases bad <;> simp [Check.reportIf, eq_comm]

/-- The pattern of the parameters of paging. -/
theorem firstParam_iff (m : Method) (n : Name) (P : Parameter → Prop) :
    Flaw.FirstParam m n P ↔ ∃ p, m.getParameter n = some p ∧ P p := by
  constructor
  · rintro ⟨before, p, after, h1, h2, h3, h4⟩
    exact ⟨p, (getParameter_some m n p).mpr ⟨before, after, h1, h2, h3⟩, h4⟩
  · rintro ⟨p, h, hp⟩
    obtain ⟨before, after, h1, h2, h3⟩ := (getParameter_some m n p).mp h
    exact ⟨before, p, after, h1, h2, h3, hp⟩

theorem getParameter_name {m : Method} {n : Name} {p : Parameter} (h : m.getParameter n = some p) :
    p.name = n := by
  obtain ⟨before, after, h1, h2, h3⟩ := (getParameter_some m n p).mp h
  exact h2

theorem error_mem_request (b : Builtins) (m : Method) (n : Name) (d : Int) (pr : Problem) :
    Message.error pr ∈ Check.requestParameter b m n d ↔
      (pr = .notInteger n ∧ Flaw.FirstParam m n fun q => b.integer ≠ some q.typ.id) ∨
      (pr = .wrongDirection n ∧ Flaw.FirstParam m n fun q => ¬ Rule.InOut q) ∨
      (pr = .wrongDefault n d ∧ Flaw.FirstParam m n fun q => q.dflt ≠ some (.int d)) := by
  simp only [firstParam_iff]
  unfold Check.requestParameter
  cases h : m.getParameter n with
  | none => simp
  | some p =>
    have hn := getParameter_name h
    simp only [List.mem_append, error_mem_reportIf, bad_inOut, Option.some.injEq, exists_eq_left',
      hn, or_assoc]
    have e : ¬ (decide (some p.typ.id ≠ b.integer) = false) ↔ b.integer ≠ some p.typ.id := by
      rw [decide_eq_false_iff_not, Classical.not_not]
      exact ⟨fun h h' => h h'.symm, fun h h' => h h'.symm⟩
    have e2 : ¬ (decide (p.dflt ≠ some (.int d)) = false) ↔ p.dflt ≠ some (.int d) := by simp
    rw [e, e2, and_comm, @eq_comm _ (Problem.notInteger n), and_comm (b := _ = pr),
      @eq_comm _ (Problem.wrongDirection n), and_comm (b := _ = pr),
      @eq_comm _ (Problem.wrongDefault n d)]

theorem error_mem_response (b : Builtins) (m : Method) (n : Name) (pr : Problem) :
    Message.error pr ∈ Check.responseParameter b m n ↔
      (pr = .notInteger n ∧ Flaw.FirstParam m n fun q => b.integer ≠ some q.typ.id) ∨
      (pr = .wrongDirection n ∧ Flaw.FirstParam m n fun q => ¬ Rule.OnlyOut q) := by
  simp only [firstParam_iff]
  unfold Check.responseParameter
  cases h : m.getParameter n with
  | none => simp
  | some p =>
    have hn := getParameter_name h
    simp only [List.mem_append, error_mem_reportIf, bad_onlyOut, Option.some.injEq, exists_eq_left',
      hn]
    have e : ¬ (decide (some p.typ.id ≠ b.integer) = false) ↔ b.integer ≠ some p.typ.id := by
      rw [decide_eq_false_iff_not, Classical.not_not]
      exact ⟨fun h h' => h h'.symm, fun h h' => h h'.symm⟩
    rw [e, and_comm, @eq_comm _ (Problem.notInteger n), and_comm (b := _ = pr),
      @eq_comm _ (Problem.wrongDirection n)]

theorem error_mem_paging (b : Builtins) (m : Method) (pr : Problem) :
    (Message.error pr ∈ Check.requestParameter b m Nom.page 1 ∨
     Message.error pr ∈ Check.requestParameter b m Nom.size 100 ∨
     Message.error pr ∈ Check.responseParameter b m Nom.total) ↔ Flaw.Paging b m pr := by
  rw [error_mem_request, error_mem_request, error_mem_response]
  cases pr with
  | notInteger p =>
    simp only [Flaw.Paging, Problem.notInteger.injEq, reduceCtorEq, false_and, or_false,
      List.mem_cons, List.not_mem_nil]
    constructor
    · rintro (⟨rfl, h⟩ | ⟨rfl, h⟩ | ⟨rfl, h⟩)
      · exact ⟨.inl rfl, h⟩
      · exact ⟨.inr (.inl rfl), h⟩
      · exact ⟨.inr (.inr rfl), h⟩
    · rintro ⟨rfl | rfl | rfl, h⟩
      · exact .inl ⟨rfl, h⟩
      · exact .inr (.inl ⟨rfl, h⟩)
      · exact .inr (.inr ⟨rfl, h⟩)
  | wrongDirection p =>
    simp only [Flaw.Paging, Problem.wrongDirection.injEq, reduceCtorEq, false_and, or_false,
      false_or, List.mem_cons, List.not_mem_nil]
    constructor
    · rintro (⟨rfl, h⟩ | ⟨rfl, h⟩ | ⟨rfl, h⟩)
      · exact .inl ⟨.inl rfl, h⟩
      · exact .inl ⟨.inr rfl, h⟩
      · exact .inr ⟨rfl, h⟩
    · rintro (⟨rfl | rfl, h⟩ | ⟨rfl, h⟩)
      · exact .inl ⟨rfl, h⟩
      · exact .inr (.inl ⟨rfl, h⟩)
      · exact .inr (.inr ⟨rfl, h⟩)
  | wrongDefault p d =>
    simp only [Flaw.Paging, Problem.wrongDefault.injEq, reduceCtorEq, false_and, or_false,
      false_or]
    constructor
    · rintro (⟨⟨rfl, rfl⟩, h⟩ | ⟨⟨rfl, rfl⟩, h⟩)
      · exact ⟨.inl ⟨rfl, rfl⟩, h⟩
      · exact ⟨.inr ⟨rfl, rfl⟩, h⟩
    · rintro ⟨⟨rfl, rfl⟩ | ⟨rfl, rfl⟩, h⟩
      · exact .inl ⟨⟨rfl, rfl⟩, h⟩
      · exact .inr ⟨⟨rfl, rfl⟩, h⟩
  | _ => simp [Flaw.Paging]

theorem error_mem_parameter (b : Builtins) (hb : b.boolean.isSome ∧ b.integer.isSome ∧
    b.string.isSome) (p : Parameter) (pr : Problem) :
    Message.error pr ∈ Check.checkParameter b p ↔
      pr = .incompatibleDefault p.name ∧ ¬ Rule.DefaultFits b p := by
  rw [← accepted_parameter b hb]
  have key : Check.checkParameter b p = [] ∨
      Check.checkParameter b p = [.error (.incompatibleDefault p.name)] := by
    unfold Check.checkParameter
    cases p.dflt with
    | none => exact .inl rfl
    | some v =>
      dsimp only
      cases Check.typeOfDefault b v with
      | none => exact .inl rfl
      | some t =>
        dsimp only [Check.reportIf]
        by_cases ht : decide (t ≠ p.typ.id) = true
        · exact .inr (if_pos ht)
        · exact .inl (if_neg ht)
  rcases key with h | h
  · rw [h]
    simp [accepted_nil]
  · rw [h]
    constructor
    · intro hm
      simp at hm
      exact ⟨hm, fun ha => ha _ List.mem_cons_self⟩
    · rintro ⟨rfl, -⟩
      exact List.mem_cons_self

theorem error_mem_defaults (b : Builtins) (hb : b.boolean.isSome ∧ b.integer.isSome ∧
    b.string.isSome) (m : Method) (pr : Problem) :
    Message.error pr ∈ m.parameters.flatMap (Check.checkParameter b) ↔ Flaw.Default b m pr := by
  rw [List.mem_flatMap]
  simp only [error_mem_parameter b hb]
  cases pr with
  | incompatibleDefault p =>
    simp only [Flaw.Default, Flaw.Param, Problem.incompatibleDefault.injEq]
    constructor
    · rintro ⟨q, hq, h1, h2⟩; exact ⟨q, hq, h1.symm, h2⟩
    · rintro ⟨q, hq, h1, h2⟩; exact ⟨q, hq, h1.symm, h2⟩
  | _ => simp [Flaw.Default]

/-- Turns the membership of a message into the conditions of the checks. -/
macro "flaw_simp" : tactic => `(tactic|
  simp only [List.mem_append, error_mem_forParams, error_mem_reportIf, List.mem_filter,
    bne_eq_false_iff_eq, bad_scalar_struct, bad_scalar_list, bad_scalar_struct_list, bad_scalar,
    bad_struct, bad_inOut, bad_onlyIn, bad_onlyIn', bad_onlyOut, bad_onlyOut', bad_scalar_onlyIn,
    bad_name, kind_scalar, kind_struct, kind_list, kind_struct_in, kind_struct_list, items_isNone,
    reduceCtorEq, and_false, or_false, false_or, exists_false,
    Problem.wrongType.injEq, Problem.wrongCount.injEq, Problem.wrongDirection.injEq,
    Problem.wrongName.injEq, Problem.missing.injEq, Problem.notInteger.injEq,
    Problem.wrongDefault.injEq])

theorem flaws_add (m : Method) (pr : Problem) :
    Message.error pr ∈ Check.checkAdd m ↔ Flaw.Add m pr := by
  unfold Check.checkAdd
  have hc := counts_iff (fun p : Parameter => p.typ.isStruct) _ kind_struct m.parameters
  cases pr <;> simp only [Flaw.Add, Flaw.ParamOf, Flaw.Param, hc] <;> flaw_simp <;> grind

theorem flaws_delete (m : Method) (pr : Problem) :
    Message.error pr ∈ Check.checkDelete m ↔
      (∃ p ∈ m.parameters, ¬ Rule.Scalar p ∧ pr = .wrongType m.name p.typ.kind) ∨
      (∃ p ∈ m.parameters, ¬ Rule.OnlyIn p ∧ pr = .wrongDirection p.name) := by
  unfold Check.checkDelete
  flaw_simp
  grind

theorem flaws_get (m : Method) (pr : Problem) :
    Message.error pr ∈ Check.checkGet m ↔ Flaw.Get m pr := by
  unfold Check.checkGet
  have hc := counts_iff (fun p : Parameter => p.typ.isStruct) _ kind_struct m.parameters
  cases pr <;> simp only [Flaw.Get, Flaw.ParamOf, Flaw.Param, hc] <;> flaw_simp <;> grind

theorem flaws_list (b : Builtins) (m : Method) (pr : Problem) :
    Message.error pr ∈ Check.checkList b m ↔ Flaw.List m pr ∨ Flaw.Paging b m pr := by
  rw [← error_mem_paging]
  unfold Check.checkList
  have hc := counts_iff (fun p : Parameter => p.typ.isList) _ kind_list m.parameters
  cases pr <;> simp only [Flaw.List, Flaw.ParamOf, Flaw.Param, hc] <;> flaw_simp <;> grind

theorem flaws_post (m : Method) (pr : Problem) :
    Message.error pr ∈ Check.checkPost m ↔ Flaw.Post m pr := by
  unfold Check.checkPost
  have h1 := counts_iff (fun p : Parameter => p.isIn) _ (fun _ => Iff.rfl) m.parameters
  have h2 := counts_iff (fun p : Parameter => p.isOut) _ (fun _ => Iff.rfl) m.parameters
  cases pr <;> simp only [Flaw.Post, Flaw.ParamOf, Flaw.Param, h1, h2] <;> flaw_simp <;> grind

theorem flaws_search (b : Builtins) (m : Method) (pr : Problem) :
    Message.error pr ∈ Check.checkSearch b m ↔ Flaw.Search m pr ∨ Flaw.Paging b m pr := by
  rw [← error_mem_paging]
  unfold Check.checkSearch
  have h1 := counts_iff (fun p : Parameter => p.typ.isList) _ kind_list m.parameters
  have h2 := counts_iff (fun p : Parameter => p.typ.isStruct && p.isIn) _ kind_struct_in
    m.parameters
  cases pr <;> simp only [Flaw.Search, Flaw.ParamOf, Flaw.Param, h1, h2] <;> flaw_simp <;> grind

theorem flaws_update (m : Method) (pr : Problem) :
    Message.error pr ∈ Check.checkUpdate m ↔ Flaw.Update m pr := by
  unfold Check.checkUpdate
  have hc := counts_iff (fun p : Parameter => p.typ.isStruct || p.typ.isList) _ kind_struct_list
    m.parameters
  cases pr <;> simp only [Flaw.Update, Flaw.ParamOf, Flaw.Param, hc] <;> flaw_simp <;> grind

end Verif
