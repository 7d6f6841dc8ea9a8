import Verif.Spec.Bodies
import Verif.Lemmas.JsonLoop
import Verif.Lemmas.Checks

/-! Lemmas about the bodies of requests and responses. -/

namespace Verif

namespace GoJson

/-! ## The loop with cases -/

/-- The effect of a member. -/
def caseEffect (D : DateParser) (S : Schema) (cases : List Case) (k : Text) (j : Json) :
    Decoded ((Parameter → Val) → (Parameter → Val)) :=
  match cases.find? (fun c => c.tag == k) with
  | some c => (decode D S c.param.typ.id false j).bind fun v =>
      .ok fun f => setField f c.param (c.value v)
  | none => .ok id

theorem readCase_agrees (D : DateParser) (S : Schema) (cases : List Case) :
    StepAgrees (caseEffect D S cases) (readCase D S cases) := by
  intro fuel k j s rest hk hf
  unfold caseEffect readCase
  cases hc : cases.find? (fun c => c.tag == k) with
  | none => simp [Decoded.bind, Agrees, skipValue_tokens j fuel s rest hf]
  | some c =>
    have h := agrees_val D S j fuel c.param.typ.id false rest hf
    cases hd : decode D S c.param.typ.id false j with
    | ok v => simp only [hd, Agrees] at h; simp [hd, Decoded.bind, Agrees, h]
    | error => simp only [hd, Agrees] at h; simp [hd, Decoded.bind, Agrees, h]
    | lost => simp [hd, Decoded.bind, Agrees]

theorem decode_reads {D : DateParser} {S : Schema} {ty : TypeId} {j : Json} (hn : j.NamedMembers) :
    (∀ v, decode D S ty false j = .ok v ↔ Reads D S ty j v) ∧
    (decode D S ty false j = .error ↔ Unreadable D S ty j) := by
  have hl := decode_named D S j ty false hn
  have ha := fun fuel h => agrees_val D S j fuel ty false [] h
  simp only [List.append_nil] at ha
  have h0 := ha _ (Nat.le_refl _)
  cases hd : decode D S ty false j with
  | ok v =>
    simp only [hd, Agrees] at ha h0
    refine ⟨fun w => ?_, ?_⟩
    · constructor
      · intro h fuel hf
        rw [Decoded.ok.injEq] at h
        rw [ha fuel hf, h]
      · intro h
        have := h _ (Nat.le_refl _)
        rw [h0] at this
        simp at this
        rw [this]
    · constructor
      · intro h; simp at h
      · intro h
        have := h _ (Nat.le_refl _)
        rw [h0] at this; simp at this
  | error =>
    simp only [hd, Agrees] at ha h0
    refine ⟨fun w => ?_, ?_⟩
    · constructor
      · intro h; simp at h
      · intro h
        have := h _ (Nat.le_refl _)
        rw [h0] at this; simp at this
    · constructor
      · intro _ fuel hf; exact ha fuel hf
      · intro _; rfl
  | lost => exact absurd hd hl

/-- Cases that can be told apart. -/
structure GoodCases (cases : List Case) : Prop where
  tags : ∀ c ∈ cases, ∀ c' ∈ cases, c.tag = c'.tag → c = c'
  params : ∀ c ∈ cases, ∀ c' ∈ cases, c.param = c'.param → c = c'

theorem GoodCases.find {cases : List Case} (h : GoodCases cases) {c : Case} (hc : c ∈ cases) :
    cases.find? (fun d => d.tag == c.tag) = some c := by
  cases hf : cases.find? (fun d => d.tag == c.tag) with
  | none =>
    have := List.find?_eq_none.1 hf c hc
    simp at this
  | some d =>
    have h1 := List.find?_some hf
    have h2 := List.mem_of_find?_eq_some hf
    rw [h.tags d h2 c hc (by simpa using h1)]

theorem decodeCases_ok {D : DateParser} {S : Schema} {cases : List Case} (hg : GoodCases cases)
    (ms : List (Text × Json)) (hn : Json.NamedList ms) (f g : Parameter → Val)
    (h : decodeLoop (caseEffect D S cases) f ms = .ok g) :
    (∀ c ∈ cases, (∃ j v, LastMember ms c.tag j ∧ Reads D S c.param.typ.id j v ∧
        g c.param = c.value v) ∨ ((∀ e ∈ ms, e.1 ≠ c.tag) ∧ g c.param = f c.param)) ∧
    (∀ p, (∀ c ∈ cases, c.param ≠ p) → g p = f p) := by
  induction ms generalizing f with
  | nil =>
    simp only [decodeLoop, Decoded.ok.injEq] at h
    subst h
    exact ⟨fun c _ => .inr ⟨by simp, rfl⟩, fun _ _ => rfl⟩
  | cons e ms ih =>
    obtain ⟨k, j⟩ := e
    simp only [Json.NamedList] at hn
    obtain ⟨hk, hj, hn⟩ := hn
    simp only [decodeLoop, hk, if_false] at h
    cases he : caseEffect D S cases k j with
    | error => simp [he, Decoded.bind] at h
    | lost => simp [he, Decoded.bind] at h
    | ok u =>
      simp only [he, Decoded.bind] at h
      obtain ⟨h1, h2⟩ := ih hn (u f) h
      unfold caseEffect at he
      refine ⟨fun c hc => ?_, fun p hp => ?_⟩
      · rcases h1 c hc with ⟨j', v, ⟨before, after, hms, ha⟩, hr, hv⟩ | ⟨hno, hsame⟩
        · exact .inl ⟨j', v, ⟨(k, j) :: before, after, by simp [hms], ha⟩, hr, hv⟩
        · by_cases ht : k = c.tag
          · subst ht
            rw [hg.find hc] at he
            dsimp only at he
            cases hd : decode D S c.param.typ.id false j with
            | error => simp [hd, Decoded.bind] at he
            | lost => simp [hd, Decoded.bind] at he
            | ok v =>
              simp only [hd, Decoded.bind, Decoded.ok.injEq] at he
              subst he
              refine .inl ⟨j, v, ⟨[], ms, rfl, hno⟩, ((decode_reads hj).1 v).1 hd, ?_⟩
              rw [hsame]
              simp [setField]
          · refine .inr ⟨?_, ?_⟩
            · intro e he'
              rcases List.mem_cons.1 he' with rfl | he'
              · exact ht
              · exact hno e he'
            · rw [hsame]
              cases hf : cases.find? (fun d => d.tag == k) with
              | none => simp only [hf, Decoded.ok.injEq] at he; subst he; rfl
              | some d =>
                have hd1 := List.find?_some hf
                have hd2 := List.mem_of_find?_eq_some hf
                have hne : c.param ≠ d.param := by
                  intro e
                  have := hg.params c hc d hd2 e
                  subst this
                  exact ht (by simpa using (eq_of_beq hd1).symm)
                simp only [hf] at he
                cases hd : decode D S d.param.typ.id false j with
                | error => simp [hd, Decoded.bind] at he
                | lost => simp [hd, Decoded.bind] at he
                | ok v =>
                  simp only [hd, Decoded.bind, Decoded.ok.injEq] at he
                  subst he
                  simp [setField, hne]
      · rw [h2 p hp]
        cases hf : cases.find? (fun d => d.tag == k) with
        | none => simp only [hf, Decoded.ok.injEq] at he; subst he; rfl
        | some d =>
          have hd2 := List.mem_of_find?_eq_some hf
          simp only [hf] at he
          cases hd : decode D S d.param.typ.id false j with
          | error => simp [hd, Decoded.bind] at he
          | lost => simp [hd, Decoded.bind] at he
          | ok v =>
            simp only [hd, Decoded.bind, Decoded.ok.injEq] at he
            subst he
            have := hp d hd2
            simp [setField, Ne.symm this]

theorem decodeCases_error {D : DateParser} {S : Schema} {cases : List Case} (hg : GoodCases cases)
    (ms : List (Text × Json)) (hn : Json.NamedList ms) (f : Parameter → Val) :
    decodeLoop (caseEffect D S cases) f ms ≠ .lost ∧
    (decodeLoop (caseEffect D S cases) f ms = .error ↔
      ∃ e ∈ ms, ∃ c ∈ cases, c.tag = e.1 ∧ Unreadable D S c.param.typ.id e.2) := by
  induction ms generalizing f with
  | nil => simp [decodeLoop]
  | cons e ms ih =>
    obtain ⟨k, j⟩ := e
    simp only [Json.NamedList] at hn
    obtain ⟨hk, hj, hn⟩ := hn
    simp only [decodeLoop, hk, if_false, List.mem_cons]
    unfold caseEffect
    cases hf : cases.find? (fun d => d.tag == k) with
    | none =>
      refine ⟨(ih hn _).1, ?_⟩
      refine ((ih hn _).2).trans ?_
      have hnone := List.find?_eq_none.1 hf
      constructor
      · rintro ⟨e, he, h⟩; exact ⟨e, .inr he, h⟩
      · rintro ⟨e, rfl | he, c, hc, ht, hu⟩
        · exact absurd (by simpa using ht) (hnone c hc)
        · exact ⟨e, he, c, hc, ht, hu⟩
    | some d =>
      have hd1 := List.find?_some hf
      have hd2 := List.mem_of_find?_eq_some hf
      have hdt : d.tag = k := by simpa using hd1
      cases hd : decode D S d.param.typ.id false j with
      | error =>
        simp only [hd, Decoded.bind]
        refine ⟨by simp, ?_⟩
        simp only [true_iff]
        exact ⟨(k, j), .inl rfl, d, hd2, hdt, (decode_reads hj).2.1 hd⟩
      | lost => exact absurd hd (decode_named D S j _ _ hj)
      | ok v =>
        simp only [hd, Decoded.bind]
        refine ⟨(ih hn _).1, ?_⟩
        refine ((ih hn _).2).trans ?_
        constructor
        · rintro ⟨e, he, h⟩; exact ⟨e, .inr he, h⟩
        · rintro ⟨e, rfl | he, c, hc, ht, hu⟩
          · have := hg.tags c hc d hd2 (ht.trans hdt.symm)
            subst this
            have := (decode_reads hj).2.2 hu
            rw [hd] at this; simp at this
          · exact ⟨e, he, c, hc, ht, hu⟩

/-! ## Assignments in loops -/

theorem lastWhere_spec {α : Type} (P : α → Bool) (l : List α) :
    (∀ a, lastWhere P l = some a → a ∈ l ∧ P a = true) ∧
    (lastWhere P l = none → ∀ a ∈ l, P a = false) := by
  unfold lastWhere
  suffices h : ∀ acc : Option α,
      (∀ a, l.foldl (fun acc a => if P a then some a else acc) acc = some a →
        (a ∈ l ∧ P a = true) ∨ acc = some a) ∧
      (l.foldl (fun acc a => if P a then some a else acc) acc = none →
        acc = none ∧ ∀ a ∈ l, P a = false) by
    refine ⟨fun a ha => ?_, fun hn => ((h none).2 hn).2⟩
    rcases (h none).1 a ha with h | h
    · exact h
    · simp at h
  induction l with
  | nil => intro acc; simp
  | cons x l ih =>
    intro acc
    simp only [List.foldl_cons]
    by_cases hx : P x = true
    · simp only [hx, if_true]
      refine ⟨fun a ha => ?_, fun hn => ?_⟩
      · rcases (ih (some x)).1 a ha with ⟨h1, h2⟩ | h
        · exact .inl ⟨by simp [h1], h2⟩
        · simp only [Option.some.injEq] at h; subst h; exact .inl ⟨by simp, hx⟩
      · have := ((ih (some x)).2 hn).1; simp at this
    · simp only [hx, if_false, Bool.false_eq_true]
      refine ⟨fun a ha => ?_, fun hn => ?_⟩
      · rcases (ih acc).1 a ha with ⟨h1, h2⟩ | h
        · exact .inl ⟨by simp [h1], h2⟩
        · exact .inr h
      · obtain ⟨h1, h2⟩ := (ih acc).2 hn
        refine ⟨h1, fun a ha => ?_⟩
        rcases List.mem_cons.1 ha with rfl | ha
        · simpa using hx
        · exact h2 a ha

theorem unique_mem {m : Method} (hu : UniqueNames m) {p q : Parameter} (hp : p ∈ m.parameters)
    (hq : q ∈ m.parameters) (h : p.name = q.name) : p = q := by
  unfold UniqueNames at hu
  generalize m.parameters = l at hu hp hq
  induction l with
  | nil => simp at hp
  | cons a l ih =>
    obtain ⟨ha, hl⟩ := List.pairwise_cons.1 hu
    rcases List.mem_cons.1 hp with e | hp' <;> rcases List.mem_cons.1 hq with e' | hq'
    · rw [e, e']
    · subst e; exact absurd h (ha q hq')
    · subst e'; exact absurd h.symm (ha p hp')
    · exact ih hl hp' hq'

theorem getParameter_unique {m : Method} (hu : UniqueNames m) (n : Name) (p : Parameter) :
    m.getParameter n = some p ↔ p ∈ m.parameters ∧ p.name = n := by
  constructor
  · intro h
    obtain ⟨a, b, h1, h2, -⟩ := (getParameter_some m n p).1 h
    exact ⟨by simp [h1], h2⟩
  · rintro ⟨h1, h2⟩
    cases h : m.getParameter n with
    | none => exact absurd h2 ((getParameter_none m n).1 h p h1)
    | some q =>
      obtain ⟨a, b, h3, h4, -⟩ := (getParameter_some m n q).1 h
      rw [unique_mem hu h1 (q := q) (by simp [h3]) (h2.trans h4.symm)]

theorem lastNamed_unique {m : Method} (hu : UniqueNames m) (n : Name) (p : Parameter) :
    lastNamed m n = some p ↔ p ∈ m.parameters ∧ p.name = n := by
  have hs := lastWhere_spec (fun p : Parameter => Name.equals (some p.name) (some n)) m.parameters
  simp only [c01_equals_iff, Option.some.injEq, bool_eq_false_iff_not] at hs
  constructor
  · intro h
    exact hs.1 p h
  · rintro ⟨h1, h2⟩
    cases h : lastNamed m n with
    | none => exact absurd h2 (hs.2 h p h1)
    | some q =>
      have := hs.1 q h
      rw [unique_mem hu h1 this.1 (h2.trans this.2.symm)]

theorem exactlyOne_unique {α : Type} {P : α → Prop} {l : List α} (h : ExactlyOne P l) {x y : α}
    (hx : x ∈ l) (hy : y ∈ l) (px : P x) (py : P y) : x = y := by
  obtain ⟨a, z, b, rfl, -, h1, h2⟩ := h
  have key : ∀ w ∈ a ++ z :: b, P w → w = z := by
    intro w hw pw
    rcases List.mem_append.1 hw with hw | hw
    · exact absurd pw (h1 w hw)
    · rcases List.mem_cons.1 hw with rfl | hw
      · rfl
      · exact absurd pw (h2 w hw)
  rw [key x hx px, key y hy py]

theorem lastWhere_one {l : List Parameter} {f : Parameter → Bool}
    (h : AtMostOne (fun p => f p = true) l) {p : Parameter} (hp : p ∈ l) (hf : f p = true) :
    lastWhere f l = some p := by
  have hs := lastWhere_spec f l
  cases hl : lastWhere f l with
  | none => have := hs.2 hl p hp; rw [hf] at this; simp at this
  | some q =>
    obtain ⟨h1, h2⟩ := hs.1 q hl
    rcases h with h | h
    · rw [exactlyOne_unique h h1 hp h2 hf]
    · exact absurd hf (h p hp)

theorem lastWhere_none {l : List Parameter} {f : Parameter → Bool}
    (h : ∀ p ∈ l, f p = false) : lastWhere f l = none := by
  cases hl : lastWhere f l with
  | none => rfl
  | some q =>
    obtain ⟨h1, h2⟩ := (lastWhere_spec f l).1 q hl
    rw [h q h1] at h2; simp at h2

/-! ## The marshal functions -/

theorem typed_struct {S : Schema} {m : Method} (ht : Typed S m) {p : Parameter}
    (hp : p ∈ m.parameters) (h : Rule.Struct p) : hasMarshal S p.typ.id = true := by
  obtain ⟨c, n, as, e⟩ := ht.structs p hp h
  simp [hasMarshal, e]

theorem typed_list {S : Schema} {m : Method} (ht : Typed S m) {p : Parameter}
    (hp : p ∈ m.parameters) (h : Rule.IsList p) : hasMarshal S p.typ.id = true := by
  obtain ⟨n, e, h1, h2⟩ := ht.lists p hp h
  simp only [hasMarshal, h1]
  rcases h2 with h2 | ⟨c, n, as, h2⟩
  · cases he : S e <;> simp_all
  · simp [h2]

theorem marshalBody_eq {S : Schema} {ty : TypeId} (h : hasMarshal S ty = true) (v : Val) :
    marshalBody S ty v = sentFor (marshal S ty v) := by
  unfold marshalBody
  rw [if_pos h]
  cases marshal S ty v <;> rfl

theorem unmarshalBody_eq {D : DateParser} {S : Schema} {fuel : Nat} {p : Parameter}
    (h : hasMarshal S p.typ.id = true) (fields : Parameter → Val) (source : List Tok) :
    unmarshalBody D S fuel p fields source
      = receivedFor fields p (unmarshal D S fuel p.typ.id source) := by
  unfold unmarshalBody
  rw [if_pos h]
  cases unmarshal D S fuel p.typ.id source <;> rfl

theorem struct_not_scalar {p : Parameter} (h : Rule.Struct p) : p.typ.isScalar = false := by
  rw [bool_eq_false_iff_not, kind_scalar]
  rintro (h' | h' | h') <;> rcases h with h | h <;> rw [h] at h' <;> simp at h'

theorem list_not_scalar {p : Parameter} (h : Rule.IsList p) : p.typ.isScalar = false := by
  rw [bool_eq_false_iff_not, kind_scalar]
  rintro (h' | h' | h') <;> rw [Rule.IsList] at h <;> rw [h] at h' <;> simp at h'

theorem requestBody_of_mem {S : Schema} {m : Method} {fields : Parameter → Val} {p : Parameter}
    (h : p ∈ Binding.requestBodyParameters m) :
    requestBody S m fields = writeRequest S m fields := by
  unfold requestBody
  cases hb : Binding.requestBodyParameters m with
  | nil => simp [hb] at h
  | cons _ _ => rfl

theorem requestBody_of_none {S : Schema} {m : Method} {fields : Parameter → Val}
    (h : ∀ p, p ∉ Binding.requestBodyParameters m) : requestBody S m fields = .nothing := by
  unfold requestBody
  cases hb : Binding.requestBodyParameters m with
  | nil => rfl
  | cons p _ => exact absurd (by simp [hb]) (h p)

theorem mem_body_fixed {m : Method} (hm : m.isAction = false) (p : Parameter) :
    p ∈ Binding.requestBodyParameters m ↔
      p ∈ m.parameters ∧ p.isIn = true ∧ p.typ.isScalar = false := by
  simp [Binding.requestBodyParameters, hm]

end GoJson

end Verif
