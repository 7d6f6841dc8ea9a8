import Verif.Lemmas.JsonOrder
import Verif.Model.JsonLoop

/-! Lemmas about the loop over the members of an object. -/

namespace Verif

namespace GoJson

/-- The loop on documents. -/
def decodeLoop {σ : Type} (eff : Text → Json → Decoded (σ → σ)) (s : σ) :
    List (Text × Json) → Decoded σ
  | [] => .ok s
  | (k, j) :: ms =>
    if k = [] then .lost else (eff k j).bind fun f => decodeLoop eff (f s) ms

/-- The `switch` does to the state what the document says. -/
def StepAgrees {σ : Type} (eff : Text → Json → Decoded (σ → σ))
    (step : Nat → Text → σ → List Tok → Option (σ × List Tok)) : Prop :=
  ∀ fuel k j s rest, k ≠ [] → 2 * j.tokens.length ≤ fuel →
    Agrees ((eff k j).bind fun f => .ok (f s)) (step fuel k s (j.tokens ++ rest)) rest

theorem agrees_tail {σ : Type} {eff : Text → Json → Decoded (σ → σ)}
    {step : Nat → Text → σ → List Tok → Option (σ × List Tok)} (hs : StepAgrees eff step)
    (ms : List (Text × Json)) (fuel : Nat) (s : σ) (rest : List Tok)
    (h : 2 * (Json.membersTail ms).length + 1 ≤ fuel) :
    Agrees (decodeLoop eff s ms)
      (readLoop step fuel s (Json.membersTail ms ++ .objectEnd :: rest)) rest := by
  induction ms generalizing fuel s with
  | nil =>
    match fuel with
    | 0 => omega
    | fuel + 1 => simp [decodeLoop, readLoop, Json.membersTail, readObject, Agrees]
  | cons e ms ih =>
    obtain ⟨k, j⟩ := e
    match fuel with
    | 0 => omega
    | fuel + 1 =>
      simp only [Json.membersTail, List.length_cons, List.length_append] at h
      simp only [decodeLoop, readLoop, Json.membersTail, List.cons_append, List.append_assoc,
        readObject_member]
      by_cases hk : k = []
      · simp [hk, Agrees]
      · simp only [hk, if_false]
        have h1 := hs fuel k j s (Json.membersTail ms ++ .objectEnd :: rest) hk (by omega)
        cases he : eff k j with
        | ok f =>
          simp only [he, Decoded.bind, Agrees] at h1
          simp only [h1, Decoded.bind]
          exact ih fuel (f s) (by omega)
        | error =>
          simp only [he, Decoded.bind, Agrees] at h1
          simp [h1, Decoded.bind, Agrees]
        | lost => simp [Decoded.bind, Agrees]

theorem agrees_loop {σ : Type} {eff : Text → Json → Decoded (σ → σ)}
    {step : Nat → Text → σ → List Tok → Option (σ × List Tok)} (hs : StepAgrees eff step)
    (ms : List (Text × Json)) (fuel : Nat) (s : σ) (rest : List Tok)
    (h : 2 * (Json.obj ms).tokens.length ≤ fuel) :
    Agrees (decodeLoop eff s ms) (readLoop step fuel s ((Json.obj ms).tokens ++ rest)) rest := by
  have hlen : (Json.membersTail ms).length + 1 ≤ (Json.obj ms).tokens.length := by
    match ms with
    | [] => simp [Json.tokens, Json.membersTail]
    | (k, j) :: ms => simp [Json.tokens, Json.membersTail]; omega
  have := agrees_tail hs ms fuel s rest (by omega)
  match fuel with
  | 0 => omega
  | fuel + 1 =>
    rw [readLoop] at this ⊢
    rw [readObject_tokens]
    exact this

theorem skipValue_tokens {σ : Type} (j : Json) (fuel : Nat) (s : σ) (rest : List Tok)
    (h : 2 * j.tokens.length ≤ fuel) : skipValue fuel s (j.tokens ++ rest) = some (s, rest) := by
  unfold skipValue
  rw [parseVal_tokens j fuel rest (by omega)]
  rfl

theorem decodeLoop_append {σ : Type} (eff : Text → Json → Decoded (σ → σ)) (s : σ)
    (ms ns : List (Text × Json)) :
    decodeLoop eff s (ms ++ ns) = (decodeLoop eff s ms).bind fun s => decodeLoop eff s ns := by
  induction ms generalizing s with
  | nil => rfl
  | cons e ms ih =>
    obtain ⟨k, j⟩ := e
    simp only [List.cons_append, decodeLoop]
    by_cases hk : k = []
    · simp [hk, Decoded.bind]
    · simp only [hk, if_false]
      cases eff k j with
      | ok f => simp only [Decoded.bind]; exact ih (f s)
      | error => rfl
      | lost => rfl

end GoJson

end Verif
