import Verif.Model.PollClient
import Verif.Props.Clients

/-!
# C112: responses can be used whatever happened

When there is no response the status, the headers and the error of the responses of polling and of the metadata can be
obtained. But the getters of their parameters panic, unlike those of the responses of methods.
-/

namespace Verif

namespace GoClient

open GoJson GoError GoHelpers

/-- What polling returns for wrong arguments. -/
theorem c112_arguments (fuel : Nat) (deadline : Option Int) (interval : Int) (statuses : List Int)
    (predicates : List (Response → Bool)) (rounds : Nat → Round Response SendResult) (now : Int) :
    (deadline = none → startContext fuel deadline interval statuses predicates rounds now =
      some (none, some .noDeadline)) ∧
    (deadline ≠ none → interval ≤ 0 → startContext fuel deadline interval statuses predicates rounds now =
      some (none, some .badInterval)) := by
  obtain ⟨h1, h2⟩ := c46_arguments (ρ := Response) (ε := SendResult) fuel deadline interval statuses predicates rounds now
  refine ⟨fun h => ?_, fun h h' => ?_⟩
  · rw [startContext, h1 h]
  · rw [startContext, h2 h h']

/-- Polling returns what the last request returned: the same error, and the same response if the transport answered. It is
the first request that failed, that satisfies the conditions, or after which there is no more time. -/
theorem c112_start (sends : Nat → SendResult) (times : Nat → Int × Int)
    (rounds : Nat → Round Response SendResult)
    (hr : ∀ n, task (sends n) (times n).1 (times n).2 = some (rounds n))
    (fuel : Nat) (deadline interval : Int) (hi : 0 < interval) (statuses : List Int)
    (predicates : List (Response → Bool)) (now : Int) (response : Option PollResponse) (err : Option PollError) :
    startContext fuel (some deadline) interval statuses predicates rounds now = some (response, err) ↔
      ∃ n, n < fuel ∧
        (∃ r e, (sends n).pair = some (r, e) ∧ response = r.map (fun r => { response := some r }) ∧
          err = e.map .sent) ∧
        (CommunicationError (rounds n) ∨ Satisfied statuses predicates (rounds n) ∨
          returnTime interval now rounds n + interval > deadline) ∧
        ∀ j < n, ¬ CommunicationError (rounds j) ∧ ¬ Satisfied statuses predicates (rounds j) ∧
          returnTime interval now rounds j + interval ≤ deadline := by
  have hc := c46_result fuel deadline interval hi statuses predicates rounds now
  have hp : ∀ n, (sends n).pair = some ((rounds n).result, (rounds n).err) := by
    intro n
    have := hr n
    rw [task] at this
    cases hs : (sends n).pair with
    | none => rw [hs] at this; cases this
    | some x =>
      obtain ⟨r, e⟩ := x
      rw [hs] at this
      cases r <;> (simp only [Option.some.injEq] at this; rw [← this])
  have hs : ∀ res er m fin, pollContext fuel (some deadline) interval statuses predicates rounds now =
      some (.returned res er m fin) →
      startContext fuel (some deadline) interval statuses predicates rounds now =
        some (res.map (fun r => { response := some r }), er.map .sent) := by
    intro res er m fin h
    rw [startContext, h]
    cases res <;> rfl
  constructor
  · intro h
    cases hq : pollContext fuel (some deadline) interval statuses predicates rounds now with
    | none => rw [startContext, hq] at h; cases h
    | some out =>
      obtain ⟨n, hn, ho, hw, hb⟩ := (hc out).mp hq
      subst ho
      rw [hs _ _ _ _ hq] at h
      cases h
      exact ⟨n, hn, ⟨_, _, hp n, rfl, rfl⟩, hw, hb⟩
  · rintro ⟨n, hn, ⟨r, e, h1, rfl, rfl⟩, hw, hb⟩
    rw [hp n] at h1
    cases h1
    exact hs _ _ _ _ ((hc _).mpr ⟨n, hn, rfl, hw, hb⟩)

/-- There is a response exactly when the transport answered the last request. -/
theorem c112_answered (sent : SendResult) (r : Option Response) (e : Option SendResult)
    (h : sent.pair = some (r, e)) : r = none ↔ sent = .failed := by
  cases sent <;> simp [SendResult.pair] at h <;> simp [← h.1]

/-- The status, the headers and the error are those of the response, or the zero values if there is no response. -/
theorem c112_common (r : Option PollResponse) :
    PollResponse.getStatus r = (r.bind (·.response)).elim 0 (·.status) ∧
    PollResponse.getHeader r = (r.bind (·.response)).elim (fun _ => []) (·.header) ∧
    PollResponse.getError r = (r.bind (·.response)).bind (·.err) := by
  rcases r with _ | ⟨_ | r⟩ <;> exact ⟨rfl, rfl, rfl⟩

/-- The getters of the parameters of the response of polling panic exactly if there is no response, and otherwise return
what those of the response of the method do. -/
theorem c112_getters_partial (S : Schema) (p : Parameter) (r : Option PollResponse) :
    (PollResponse.get S p r = none ↔ r = none) ∧ (PollResponse.getOk S p r = none ↔ r = none) ∧
    ∀ x, r = some { response := x } →
      PollResponse.get S p r = some (Response.get S p x) ∧ PollResponse.getOk S p r = some (Response.getOk S p x) := by
  cases r with
  | none => simp [PollResponse.get, PollResponse.getOk]
  | some r =>
    refine ⟨by simp [PollResponse.get], by simp [PollResponse.getOk], fun x hx => ?_⟩
    cases hx
    exact ⟨rfl, rfl⟩

/-- Using the parameters of what polling returns panics, for example when the transport fails. -/
theorem c112_getters_refuted :
    ¬ ∀ (S : Schema) (p : Parameter) (sent : SendResult) (round : Round Response SendResult)
      (fuel : Nat) (response : Option PollResponse) (err : Option PollError), task sent 1 0 = some round →
      startContext fuel (some 100) 10 [] [] (fun _ => round) 0 = some (response, err) →
      (PollResponse.get S p response).isSome := by
  intro h
  let body : Parameter := { name := [⟨t!"Body", false⟩], typ := { id := 0, kind := .scalar }, isOut := true }
  have := h (fun _ => .other) body .failed _ 1 none (some (.sent .failed)) rfl rfl
  exact absurd this (by decide)

/-- The response of the metadata exists exactly when the transport answered, and what its methods return. -/
theorem c112_metadata_partial (r : Option MetadataResponse) :
    MetadataResponse.getStatus r = r.elim 0 (·.status) ∧
    MetadataResponse.getHeader r = r.elim (fun _ => []) (·.header) ∧
    MetadataResponse.getError r = r.bind (·.err) ∧
    (MetadataResponse.getBody r = none ↔ r = none) ∧
    ∀ x, r = some x → MetadataResponse.getBody r = some x.body := by
  cases r with
  | none => exact ⟨rfl, rfl, rfl, by simp [MetadataResponse.getBody], fun x h => by cases h⟩
  | some r =>
    refine ⟨rfl, rfl, rfl, by simp [MetadataResponse.getBody], fun x h => ?_⟩
    cases h
    rfl

/-- Getting the metadata from the response panics exactly when the transport fails; otherwise the status is the one that
was received. -/
theorem c112_metadata_sent (D : DateParser) (transport : HttpRequest → Answer) (path : Text) (sending : Sending) :
    let answer := transport { verb := t!"GET", path := path, query := sending.query, header := sending.header,
                              body := none }
    let response := (sendMetadata D transport path sending).response
    (MetadataResponse.getBody response = none ↔ answer = .failure) ∧
    ∀ status header body, answer = .response status header body →
      MetadataResponse.getStatus response = status ∧ MetadataResponse.getHeader response = header := by
  dsimp only
  rw [sendMetadata]
  generalize transport _ = answer
  cases answer with
  | failure => simp [MetadataResult.response, MetadataResponse.getBody]
  | response status header body =>
    dsimp only
    refine ⟨?_, fun s h b hx => ?_⟩
    · simp only [reduceCtorEq, iff_false]
      repeat' split
      all_goals simp [MetadataResult.response, MetadataResponse.getBody]
    · cases hx
      repeat' split
      all_goals exact ⟨rfl, rfl⟩

/-- What the error and the metadata of the response are when the transport answers and the body can be read, or there is
no body: the error for a status of 400 or more, the metadata for a smaller one, and neither of them when there is no
body. -/
theorem c112_metadata_content (D : DateParser) (transport : HttpRequest → Answer) (path : Text) (sending : Sending)
    (status : Int) (header : Text → List Text) (body : Body)
    (h : transport { verb := t!"GET", path := path, query := sending.query, header := sending.header, body := none } =
      .response status header body) :
    let response := (sendMetadata D transport path sending).response
    (body.peek = some .empty →
      MetadataResponse.getError response = none ∧ MetadataResponse.getBody response = some none) ∧
    (∀ e, body.peek ≠ some .empty → status ≥ 400 →
      unmarshalErrorStatus D body.fuel body.source status = some e →
      MetadataResponse.getError response = some e ∧ MetadataResponse.getBody response = some none) ∧
    (∀ md, body.peek ≠ some .empty → status < 400 → readMetadata body.fuel body.source = some md →
      MetadataResponse.getError response = none ∧ MetadataResponse.getBody response = some (some md)) := by
  dsimp only
  rw [sendMetadata, h]
  dsimp only
  refine ⟨fun hp => ?_, fun e hp hs hu => ?_, fun md hp hs hu => ?_⟩
  · rw [if_pos hp]
    exact ⟨rfl, rfl⟩
  · rw [if_neg hp, if_pos hs, hu]
    exact ⟨rfl, rfl⟩
  · rw [if_neg hp, if_neg (by omega), hu]
    exact ⟨rfl, rfl⟩

/-- Polling that ends after the second request, because the first one was answered with a status that isn't the expected
one and the second one with the one that is. -/
example :
    let first : Response := { status := 404, header := fun _ => [] }
    let second : Response := { status := 200, header := fun _ => [] }
    let sends : Nat → SendResult := fun n => if n = 0 then .received first else .received second
    let rounds : Nat → Round Response SendResult := fun n =>
      if n = 0 then { status := 404, result := some first, err := none, elapsed := 1, late := 0 }
      else { status := 200, result := some second, err := none, elapsed := 1, late := 0 }
    (∀ n, task (sends n) 1 0 = some (rounds n)) ∧
    ∃ r, startContext 5 (some 100) 10 [200] [] rounds 0 = some (r, none) ∧ PollResponse.getStatus r = 200 := by
  refine ⟨fun n => ?_, some { response := some { status := 200, header := fun _ => [] } }, rfl, rfl⟩
  by_cases h : n = 0
  · simp only [h, if_true]; rfl
  · simp only [h, if_false]; rfl

end GoClient

end Verif
