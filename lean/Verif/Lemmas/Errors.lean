import Verif.Spec.Errors
import Verif.Lemmas.Bodies
import Verif.Lemmas.JsonRound

/-! Lemmas about the generated error type. -/

namespace Verif

namespace GoJson

/-- The loop, when names aren't empty. -/
theorem decodeLoop_ok {σ : Type} (eff : Text → Json → Option (σ → σ)) (ms : List (Text × Json))
    (hn : ∀ m ∈ ms, m.1 ≠ []) (s : σ) :
    decodeLoop (fun k j => .ofOption (eff k j)) s ms ≠ .lost ∧
    (decodeLoop (fun k j => .ofOption (eff k j)) s ms = .error ↔ ∃ m ∈ ms, eff m.1 m.2 = none) := by
  induction ms generalizing s with
  | nil => simp [decodeLoop]
  | cons m ms ih =>
    obtain ⟨k, j⟩ := m
    have hk : k ≠ [] := hn (k, j) (by simp)
    simp only [decodeLoop, hk, if_false]
    cases he : eff k j with
    | none => simp [Decoded.ofOption, Decoded.bind, he]
    | some f =>
      simp only [Decoded.ofOption, Decoded.bind, List.mem_cons, exists_eq_or_imp, he, reduceCtorEq,
        false_or]
      exact ih (fun m hm => hn m (by simp [hm])) (f s)

/-- What is known about a part of the state that only one member changes. -/
theorem decodeLoop_last {σ α : Type} (eff : Text → Json → Option (σ → σ)) (part : σ → α)
    (key : Text) (value : Json → α → Prop)
    (h1 : ∀ j f, eff key j = some f → ∀ s, value j (part (f s)))
    (h2 : ∀ k j f, k ≠ key → eff k j = some f → ∀ s, part (f s) = part s)
    (ms : List (Text × Json)) (s s' : σ)
    (h : decodeLoop (fun k j => .ofOption (eff k j)) s ms = .ok s') :
    (∀ j, LastMember ms key j → value j (part s')) ∧
    ((∀ m ∈ ms, m.1 ≠ key) → part s' = part s) := by
  induction ms generalizing s with
  | nil =>
    simp only [decodeLoop, Decoded.ok.injEq] at h
    subst h
    refine ⟨?_, fun _ => rfl⟩
    rintro j ⟨u, v, h, -⟩
    simp at h
  | cons m ms ih =>
    obtain ⟨k, j⟩ := m
    simp only [decodeLoop] at h
    by_cases hk : k = []
    · simp [hk] at h
    · simp only [hk, if_false] at h
      cases he : eff k j with
      | none => simp [he, Decoded.ofOption, Decoded.bind] at h
      | some f =>
        simp only [he, Decoded.ofOption, Decoded.bind] at h
        obtain ⟨h3, h4⟩ := ih (f s) h
        refine ⟨?_, fun hno => ?_⟩
        · rintro j' ⟨u, v, h5, h6⟩
          cases u with
          | nil =>
            simp only [List.nil_append, List.cons.injEq, Prod.mk.injEq] at h5
            obtain ⟨⟨rfl, rfl⟩, rfl⟩ := h5
            rw [h4 h6]
            exact h1 _ _ he s
          | cons x u =>
            simp only [List.cons_append, List.cons.injEq] at h5
            exact h3 j' ⟨u, v, h5.2, h6⟩
        · rw [h4 fun m hm => hno m (by simp [hm])]
          exact h2 k j f (hno (k, j) (by simp)) he s

/-- Members that may be present. -/
def optionalMembers : List (Bool × Text × Json) → List (Text × Json)
  | [] => []
  | (b, k, j) :: rest => if b then (k, j) :: optionalMembers rest else optionalMembers rest

theorem optionalMembers_names (os : List (Bool × Text × Json)) :
    ∀ m ∈ optionalMembers os, ∃ b, (b, m.1, m.2) ∈ os := by
  induction os with
  | nil => simp [optionalMembers]
  | cons o os ih =>
    obtain ⟨b, k, j⟩ := o
    intro m hm
    cases b with
    | true =>
      simp only [optionalMembers, if_true, List.mem_cons] at hm
      rcases hm with rfl | hm
      · exact ⟨true, by simp⟩
      · obtain ⟨b, h⟩ := ih m hm; exact ⟨b, by simp [h]⟩
    | false =>
      simp only [optionalMembers] at hm
      obtain ⟨b, h⟩ := ih m hm; exact ⟨b, by simp [h]⟩

theorem optionalMembers_last (os : List (Bool × Text × Json))
    (hd : os.Pairwise fun a b => a.2.1 ≠ b.2.1) (k : Text) (j : Json) :
    ((true, k, j) ∈ os → LastMember (optionalMembers os) k j) ∧
    ((false, k, j) ∈ os → ∀ m ∈ optionalMembers os, m.1 ≠ k) := by
  induction os with
  | nil => simp
  | cons o os ih =>
    obtain ⟨b, k', j'⟩ := o
    obtain ⟨h1, h2⟩ := List.pairwise_cons.1 hd
    obtain ⟨h3, h4⟩ := ih h2
    have hother : ∀ b' j'', (b', k, j'') ∈ os → k' ≠ k := fun b' j'' h => h1 _ h
    have hnone : k' = k → ∀ m ∈ optionalMembers os, m.1 ≠ k := by
      intro e m hm hk
      obtain ⟨b', h⟩ := optionalMembers_names os m hm
      exact h1 _ h (e.trans hk.symm)
    constructor
    · intro h
      rcases List.mem_cons.1 h with h | h
      · simp only [Prod.mk.injEq] at h
        obtain ⟨rfl, rfl, rfl⟩ := h
        exact ⟨[], optionalMembers os, by simp [optionalMembers], hnone rfl⟩
      · obtain ⟨u, v, e, h5⟩ := h3 h
        cases b with
        | true => exact ⟨(k', j') :: u, v, by simp [optionalMembers, e], h5⟩
        | false => exact ⟨u, v, by simp [optionalMembers, e], h5⟩
    · intro h
      rcases List.mem_cons.1 h with h | h'
      · simp only [Prod.mk.injEq] at h
        obtain ⟨rfl, rfl, rfl⟩ := h
        simpa [optionalMembers] using hnone rfl
      · intro m hm
        cases b with
        | true =>
          simp only [optionalMembers, if_true, List.mem_cons] at hm
          rcases hm with rfl | hm
          · exact hother _ _ h'
          · exact h4 h' m hm
        | false => exact h4 h' m (by simpa [optionalMembers] using hm)

end GoJson

namespace GoError

open GoJson

/-- The integer in a document. -/
def intOf : Json → Option Int
  | .num t => parseInt64 t
  | _ => none

/-- The effect of a member. -/
def errorEffect (D : DateParser) (k : Text) (j : Json) : Option (ErrorObject → ErrorObject) :=
  if k = t!"status" then
    (intOf j).map fun v e => { e with status := v, bitmap := e.bitmap ||| 1 }
  else if k = t!"id" then
    (stringOf j).map fun v e => { e with id := v, bitmap := e.bitmap ||| 2 }
  else if k = t!"href" then
    (stringOf j).map fun v e => { e with href := v, bitmap := e.bitmap ||| 4 }
  else if k = t!"code" then
    (stringOf j).map fun v e => { e with code := v, bitmap := e.bitmap ||| 8 }
  else if k = t!"reason" then
    (stringOf j).map fun v e => { e with reason := v, bitmap := e.bitmap ||| 16 }
  else if k = t!"operation_id" then
    (stringOf j).map fun v e => { e with operationID := v, bitmap := e.bitmap ||| 32 }
  else if k = t!"details" then
    some fun e => { e with details := j, bitmap := e.bitmap ||| 64 }
  else if k = t!"timestamp" then
    ((stringOf j).bind D).map fun v e => { e with timestamp := some v, bitmap := e.bitmap ||| 128 }
  else some id

theorem readInt_tokens (j : Json) (rest : List Tok) :
    readInt (j.tokens ++ rest) = (intOf j).map fun v => (v, rest) := by
  match j with
  | .null => simp [Json.tokens, readInt, intOf]
  | .bool b => simp [Json.tokens, readInt, intOf]
  | .num t => simp [Json.tokens, readInt, intOf]
  | .str s => simp [Json.tokens, readInt, intOf]
  | .arr js => simp [tokens_arr, readInt, intOf]
  | .obj ms => simp [tokens_obj, readInt, intOf]

theorem readErrorField_agrees (D : DateParser) :
    StepAgrees (fun k j => .ofOption (errorEffect D k j)) (readErrorField D) := by
  intro fuel k j s rest hk hf
  unfold errorEffect readErrorField
  simp only [readString_tokens, readInt_tokens, skipValue_tokens j fuel s rest hf,
    parseVal_tokens j fuel rest (by omega)]
  repeat'
    split
    · first
      | (cases intOf j <;> simp [Decoded.ofOption, Decoded.bind, Agrees]; done)
      | (cases hs : stringOf j with
         | none => simp [Decoded.ofOption, Decoded.bind, Agrees]
         | some t =>
           first
           | (simp [Decoded.ofOption, Decoded.bind, Agrees]; done)
           | (simp only [Option.bind, Option.map_some]
              cases D t <;> simp [Decoded.ofOption, Decoded.bind, Agrees]))
      | simp [Decoded.ofOption, Decoded.bind, Agrees]
  simp [Decoded.ofOption, Decoded.bind, Agrees]

end GoError

end Verif
