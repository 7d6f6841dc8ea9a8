import Verif.Spec.Clients
import Verif.Props.Bodies
import Verif.Props.Errors
import Verif.Props.Polling

/-! C47: interpretation of responses. -/

namespace Verif

open Check

namespace GoClient

open GoJson GoError GoHelpers

variable (D : DateParser) (S : Schema)

/-! ## What is sent -/

/-- C47: the transport receives one request, with the verb of the method, the path, the query and the
headers of the request, and the body written for its parameters; the result depends only on the
answer to it. If the body can't be written then nothing is sent. -/
theorem c47_request (transport : HttpRequest → Answer) (m : Method) (path : Text)
    (sending : Sending) (fields : Parameter → Val) :
    (requestBody S m fields = .panic ∧
      sendContext D S transport m path sending fields = .panic) ∨
    (requestBody S m fields = .doesNotCompile ∧
      sendContext D S transport m path sending fields = .doesNotCompile) ∨
    ∃ body, SendsBody S m fields body ∧
      (body = none ↔ Binding.requestBodyParameters m = []) ∧
      sendContext D S transport m path sending fields =
        match transport { verb := Binding.method m, path := path, query := sending.query
                          header := sending.header, body := body } with
        | .failure => .failed
        | .response status header body => interpret D S m status header body := by
  unfold sendContext requestBody SendsBody
  cases hp : Binding.requestBodyParameters m with
  | nil => exact .inr (.inr ⟨none, .inr ⟨by simp [requestBody, hp], rfl⟩, by simp, rfl⟩)
  | cons p ps =>
    simp only
    cases hw : writeRequest S m fields with
    | panic => exact .inl ⟨rfl, rfl⟩
    | doesNotCompile => exact .inr (.inl ⟨rfl, rfl⟩)
    | nothing =>
      exact .inr (.inr ⟨some [], .inr ⟨by simp [requestBody, hp, hw], rfl⟩, by simp, rfl⟩)
    | body ts =>
      exact .inr (.inr ⟨some ts, .inl ⟨ts, by simp [requestBody, hp, hw], rfl⟩, by simp, rfl⟩)

/-! ## What is received -/

/-- C47: a response without content is successful and has no parameters, whatever the status. -/
theorem c47_empty (m : Method) (status : Int) (header : Text → List Text) :
    interpret D S m status header .empty
      = .received { status := status, header := header, err := none, fields := fun _ => .nil } := rfl

/-- C47: a status of 400 or more with some content is always an error: the one in the body if it
can be read, with the status of the response. -/
theorem c47_status_partial (m : Method) (status : Int) (h : 400 ≤ status)
    (header : Text → List Text) (body : Body) (hb : body ≠ .empty) :
    (interpret D S m status header body).Reports ∧
    (∀ ts, body = .content ts →
      (∀ e, unmarshalErrorStatus D (2 * ts.length + 10) ts status = some e →
        interpret D S m status header body =
          .refused { status := status, header := header, err := some e, fields := fun _ => .nil } e ∧
        getStatus (some e) = (status, true)) ∧
      (unmarshalErrorStatus D (2 * ts.length + 10) ts status = none →
        interpret D S m status header body = .incomplete status header .malformed)) ∧
    (body = .broken → interpret D S m status header body = .incomplete status header .unreadable) := by
  have hp : body.peek ≠ some .empty := by cases body <;> simp_all [Body.peek]
  have h' : status ≥ 400 := h
  unfold interpret
  simp only [if_neg hp, if_pos h']
  refine ⟨?_, ?_, ?_⟩
  · split <;> trivial
  · rintro ts rfl
    refine ⟨fun e he => ?_, fun he => ?_⟩
    · have he' : unmarshalErrorStatus D (Body.content ts).fuel (Body.content ts).source status
          = some e := he
      rw [he']
      refine ⟨rfl, ?_⟩
      obtain ⟨e0, h0, rfl⟩ := Option.map_eq_some_iff.1 he
      simp [getStatus, getWith]
    · have he' : unmarshalErrorStatus D (Body.content ts).fuel (Body.content ts).source status
          = none := he
      rw [he']
      rfl
  · rintro rfl
    rfl

/-- C47 isn't true for all responses: a status of 400 or more without content isn't reported as an
error. -/
theorem c47_status_refuted (m : Method) (header : Text → List Text) :
    ∀ status ≥ 400, ¬ (interpret D S m status header .empty).Reports ∧
      (interpret D S m status header .empty).Succeeds :=
  fun _ _ => ⟨fun h => h, _, rfl⟩

/-- C47: with a status lower than 400 and some content, the response has the parameters read from the
content, and there is an error exactly if they can't be read. If there are no parameters the content
doesn't matter. -/
theorem c47_content (m : Method) (status : Int) (h : status < 400) (header : Text → List Text)
    (ts : List Tok) :
    (Binding.responseParameters m = [] → interpret D S m status header (.content ts)
      = .received { status := status, header := header, err := none, fields := fun _ => .nil }) ∧
    (Binding.responseParameters m ≠ [] → interpret D S m status header (.content ts) =
      match readResponse D S (2 * ts.length + 10) m (fun _ => .nil) ts with
      | .doesNotCompile => .doesNotCompile
      | .error => .incomplete status header .malformed
      | .fields f => .received { status := status, header := header, err := none, fields := f }) := by
  have h1 : ¬ status ≥ 400 := by omega
  unfold interpret
  simp only [Body.peek, h1, if_false, reduceCtorEq]
  constructor
  · intro hp; rw [hp]
  · intro hp
    cases hr : Binding.responseParameters m with
    | nil => exact absurd hr hp
    | cons p ps => rfl

theorem unmarshal_empty (fuel : Nat) (ty : TypeId) (h : hasMarshal S ty = true) :
    unmarshal D S fuel ty [] = none := by
  cases fuel with
  | zero => simp [unmarshal, readVal]
  | succ fuel =>
    unfold hasMarshal at h
    unfold unmarshal
    rw [readVal]
    cases hs : S ty with
    | struct c n as => cases fuel <;> simp [readFields, readObject]
    | list n e => cases fuel <;> simp [readItems, readArray]
    | _ => simp [hs] at h

theorem readResponse_empty (m : Method) (hm : m.name ≠ Nom.delete) (hm' : m.name ≠ Nom.asyncDelete)
    (hr : Binding.responseParameters m ≠ []) (fuel : Nat) (fields : Parameter → Val) :
    readResponse D S fuel m fields [] = .error ∨
    readResponse D S fuel m fields [] = .doesNotCompile := by
  have hu : ∀ p : Parameter, unmarshalBody D S fuel p fields [] = .error ∨
      unmarshalBody D S fuel p fields [] = .doesNotCompile := by
    intro p
    unfold unmarshalBody
    by_cases h : hasMarshal S p.typ.id = true
    · rw [if_pos h, unmarshal_empty D S fuel _ h]; exact .inl rfl
    · rw [if_neg h]; exact .inr rfl
  have hc : ∀ cases, readCases D S fuel cases fields [] = .error := by
    intro cases
    unfold readCases
    cases fuel <;> simp [readLoop, readObject]
  unfold readResponse
  have hd : (m.isDelete || m.isAsyncDelete) = false := by
    simp only [Method.isDelete, Method.isAsyncDelete, named_decide rfl]
    simp [hm, hm']
  simp only [hd]
  split
  · split
    · exact .inr rfl
    · exact hu _
  rw [if_neg (by simp)]
  split
  · split
    · exact .inr rfl
    · exact hu _
  split
  · split
    · exact .inr rfl
    · exact .inl (hc _)
  split
  · split
    · rename_i h
      exfalso
      apply hr
      unfold Binding.responseParameters
      rw [List.filter_eq_nil_iff]
      intro p hp ho
      have := (lastWhere_spec _ _).2 h p hp
      simp [this] at ho
    · exact hu _
  split
  · split
    · exact .inr rfl
    · exact .inl (hc _)
  split
  · split
    · exact .inr rfl
    · exact hu _
  · exact .inl (hc _)

/-- C47: if the content can't be read then there is an error, for all the methods but those that
delete. -/
theorem c47_broken (m : Method) (status : Int) (header : Text → List Text)
    (hm : (m.name ≠ Nom.delete ∧ m.name ≠ Nom.asyncDelete) ∨ Binding.responseParameters m = [] ∨
      400 ≤ status) :
    interpret D S m status header .broken = .incomplete status header .unreadable ∨
    interpret D S m status header .broken = .doesNotCompile := by
  by_cases h : status ≥ 400
  · exact .inl ((c47_status_partial D S m status h header .broken (by simp)).2.2 rfl)
  · unfold interpret
    simp only [Body.peek, h, if_false, reduceCtorEq, Option.some.injEq]
    cases hr : Binding.responseParameters m with
    | nil => exact .inl rfl
    | cons p ps =>
      rcases hm with hm | hm | hm
      · simp only
        rcases readResponse_empty D S m hm.1 hm.2 (by rw [hr]; simp) (Body.fuel .broken)
          (fun _ => .nil) with e | e
        · exact .inl (by rw [show Body.source .broken = [] from rfl, e]; rfl)
        · exact .inr (by rw [show Body.source .broken = [] from rfl, e])
      · rw [hr] at hm; simp at hm
      · omega

/-- C47: the response of a method that deletes something and has output parameters is never read. -/
theorem c47_delete_refuted (m : Method) (hm : m.name = Nom.delete ∨ m.name = Nom.asyncDelete)
    (hr : Binding.responseParameters m ≠ []) (status : Int) (h : status < 400)
    (header : Text → List Text) (body : Body) :
    interpret D S m status header body
      = .received { status := status, header := header, err := none, fields := fun _ => .nil } := by
  have h1 : ¬ status ≥ 400 := by omega
  unfold interpret
  simp only [h1, if_false]
  cases hp : Binding.responseParameters m with
  | nil => exact absurd hp hr
  | cons p ps =>
    simp only [c66_delete_response m hm]
    split <;> rfl

/-! ## From the server to the client -/

/-- C47: the error that a server sends is the error that the client reports, with the status of the
response, for identifiers that are status codes of errors. -/
theorem c47_server_error (N : Instant → Text) (e : ErrorObject) (n : Int)
    (hid : GoQuery.Denotes (getID (some e)).1 n) (h1 : 400 ≤ n) (h2 : n ≤ 999)
    (hstatus : ∀ v, getStatus (some e) = (v, true) → -2 ^ 63 ≤ v ∧ v < 2 ^ 63)
    (htime : ∀ v, getTimestamp (some e) = (v, true) → ∃ d, v = some d ∧ D (N d) = some d)
    (m : Method) (header : Text → List Text) :
    ∃ body, sendError N (some e) = .reply n t!"application/json" body ∧
      ∃ e', interpret D S m n header (.content body) =
          .refused { status := n, header := header, err := some e', fields := fun _ => .nil } e' ∧
        getStatus (some e') = (n, true) ∧ SameButStatus e' e := by
  obtain ⟨source, hs, hr⟩ := c51_round_trip D N e hstatus htime
  rw [c51_write, Option.some.injEq] at hs
  subst hs
  refine ⟨_, c52_status_partial N e n hid (by omega) h2, ?_⟩
  rw [if_neg (by omega)]
  obtain ⟨e1, he1, hsame⟩ := hr (2 * (objectTokens (errorMembers N e)).length + 10) (by omega)
  obtain ⟨hn, hst⟩ := c51_status D (2 * (objectTokens (errorMembers N e)).length + 10)
    (objectTokens (errorMembers N e)) n
  cases hu : unmarshalErrorStatus D (2 * (objectTokens (errorMembers N e)).length + 10)
      (objectTokens (errorMembers N e)) n with
  | none => rw [hn.1 hu] at he1; simp at he1
  | some e' =>
    obtain ⟨a1, a2, a3, a4, a5, a6, a7, a8⟩ := hst e1 e' he1 hu
    refine ⟨e', ((c47_status_partial D S m n h1 header (.content _) (by simp)).2.1 _ rfl).1 e' hu
      |>.1, a1, ?_⟩
    exact ⟨a2.trans hsame.id, a3.trans hsame.href, a4.trans hsame.code, a5.trans hsame.reason,
      a6.trans hsame.operationID, a7.trans hsame.details, a8.trans hsame.timestamp⟩

/-- C47: the object that a server sends with a status lower than 400 is the body of the response. -/
theorem c47_object (b : Builtins) (hb : b.Present) (m : Method)
    (hm : m.name = Nom.add ∨ m.name = Nom.get ∨ m.name = Nom.update ∨ m.name = Nom.asyncUpdate)
    (ha : Accepted (checkMethod b m)) (hu : UniqueNames m) (ht : Typed S m) (hS : Proper S) :
    ∃ p ∈ m.parameters, p.name = Nom.body ∧ ∀ v, Normal D S p.typ.id false v →
      ∃ ts, marshal S p.typ.id v = some ts ∧ ∀ status < 400, ∀ header,
        ∃ r, interpret D S m status header (.content ts) = .received r ∧
          r.status = status ∧ r.header = header ∧ r.err = none ∧ r.fields p = v ∧
          ∀ q, q ≠ p → r.fields q = .nil := by
  obtain ⟨p, hp, hn, h⟩ := c66_round_trip b hb m hm ha hu D S ht hS
  refine ⟨p, hp, hn, fun v hv => ?_⟩
  obtain ⟨ts, h1, h2⟩ := h v hv
  refine ⟨ts, h1, fun status hs header => ?_⟩
  obtain ⟨f, f1, f2, f3⟩ := h2 (2 * ts.length + 10) (fun _ => .nil) (by omega)
  have hr : Binding.responseParameters m ≠ [] := by
    have hout : p.isOut = true := by
      rcases hm with hm | hm | hm
      · obtain ⟨ha, -⟩ := (c11_add_accepted_iff b hb m hm).1 ha
        obtain ⟨q, hq, hs⟩ := exactlyOne_mem ha.one
        obtain ⟨h1, h2⟩ := ha.body q hq hs
        rw [unique_mem hu hp hq (hn.trans h2.symm)]
        exact h1.2
      · obtain ⟨ha, -⟩ := (c13_get_accepted_iff b hb m hm).1 ha
        obtain ⟨q, hq, hs⟩ := exactlyOne_mem ha.one
        obtain ⟨h1, h2⟩ := ha.body q hq hs
        rw [unique_mem hu hp hq (hn.trans h2.symm)]
        exact h1.2
      · obtain ⟨ha, -⟩ := (c16_update_accepted_iff b hb m hm).1 ha
        obtain ⟨q, hq, hs⟩ := exactlyOne_mem ha.one
        obtain ⟨h1, h2⟩ := ha.body q hq hs
        rw [unique_mem hu hp hq (hn.trans h2.symm)]
        exact h1.2
    intro he
    have : p ∈ Binding.responseParameters m := by
      simp [Binding.responseParameters, hp, hout]
    rw [he] at this
    simp at this
  refine ⟨{ status := status, header := header, err := none, fields := f }, ?_, rfl, rfl, rfl, f2, f3⟩
  rw [(c47_content D S m status hs header ts).2 hr, f1]

/-! ## Metadata -/

/-- C47: the metadata request. An error is reported exactly if the transport fails, the response has
no content or it can't be read, or the status is 400 or more. -/
theorem c47_metadata (transport : HttpRequest → Answer) (path : Text) (sending : Sending) :
    let answer := transport { verb := t!"GET", path := path, query := sending.query
                              header := sending.header, body := none }
    (answer = .failure → sendMetadata D transport path sending = .failed) ∧
    (∀ status header body, answer = .response status header body →
      ((sendMetadata D transport path sending).Reports ↔
        400 ≤ status ∨ body = .empty ∨ body = .broken ∨
        ∃ ts, body = .content ts ∧ readMetadata (2 * ts.length + 10) ts = none) ∧
      (∀ ts, body = .content ts → 400 ≤ status →
        ∀ e, unmarshalErrorStatus D (2 * ts.length + 10) ts status = some e →
          sendMetadata D transport path sending =
            .refused { status := status, header := header, err := some e, body := none } e) ∧
      (∀ ts, body = .content ts → status < 400 → ∀ md, readMetadata (2 * ts.length + 10) ts = some md →
        sendMetadata D transport path sending =
          .received { status := status, header := header, err := none, body := some md })) := by
  intro answer
  refine ⟨fun h => ?_, fun status header body h => ?_⟩
  · have h : transport { verb := t!"GET", path := path, query := sending.query
                         header := sending.header, body := none } = .failure := h
    unfold sendMetadata
    rw [h]
  · have h : transport { verb := t!"GET", path := path, query := sending.query
                         header := sending.header, body := none } = .response status header body := h
    unfold sendMetadata
    rw [h]
    simp only
    refine ⟨?_, ?_, ?_⟩
    · cases body with
      | empty => simp [Body.peek, MetadataResult.Reports]
      | broken =>
        simp only [Body.peek, Option.some.injEq, reduceCtorEq, if_false]
        have e1 : unmarshalErrorStatus D (Body.fuel .broken) (Body.source .broken) status = none := rfl
        have e2 : readMetadata (Body.fuel .broken) (Body.source .broken) = none := rfl
        rw [e1, e2]
        split <;> simp [MetadataResult.Reports]
      | content ts =>
        simp only [Body.peek, reduceCtorEq, if_false, false_or, Body.content.injEq, exists_eq_left']
        have e2 : readMetadata (Body.fuel (.content ts)) (Body.source (.content ts))
          = readMetadata (2 * ts.length + 10) ts := rfl
        rw [e2]
        by_cases hs : status ≥ 400
        · have hs' : 400 ≤ status := hs
          simp only [hs, if_true, hs', true_or, iff_true]
          split <;> trivial
        · have hs' : ¬ 400 ≤ status := hs
          simp only [hs, if_false, hs', false_or]
          cases readMetadata (2 * ts.length + 10) ts <;> simp [MetadataResult.Reports]
    · rintro ts rfl hs e he
      have he' : unmarshalErrorStatus D (Body.content ts).fuel (Body.content ts).source status
          = some e := he
      have hs : status ≥ 400 := hs
      simp only [Body.peek, reduceCtorEq, if_false, hs, if_true, he']
    · rintro ts rfl hs md hmd
      have hs : ¬ status ≥ 400 := by omega
      have e2 : readMetadata (Body.fuel (.content ts)) (Body.source (.content ts)) = some md := hmd
      simp only [Body.peek, reduceCtorEq, if_false, hs, e2]

/-- C47: responses without content are interpreted differently: the metadata request reports an error
even for successful statuses, and the others don't report it even for the statuses of errors. -/
theorem c47_metadata_empty_refuted (path : Text) (sending : Sending) (status : Int)
    (header : Text → List Text) (m : Method) :
    (sendMetadata D (fun _ => .response status header .empty) path sending).Reports ∧
    ¬ (interpret D S m status header .empty).Reports :=
  ⟨trivial, fun h => h⟩

/-! ## Methods of the responses -/

/-- C47: the getters of a response give the value of the field, and the zero value of the type if it
is nil or there is no response; the flag tells if there is a value. -/
theorem c47_getters (p : Parameter) :
    (∀ r : Response, r.fields p ≠ .nil → Response.get S p (some r) = r.fields p ∧
      Response.getOk S p (some r) = (r.fields p, true)) ∧
    (∀ r : Option Response, (∀ x, r = some x → x.fields p = .nil) →
      Response.get S p r = zeroValue (S p.typ.id) ∧
      Response.getOk S p r = (zeroValue (S p.typ.id), false)) ∧
    Response.getStatus none = 0 ∧ Response.getError none = none ∧
    (∀ name, Response.getHeader none name = []) ∧
    ∀ r, Response.getStatus (some r) = r.status ∧ Response.getError (some r) = r.err ∧
      Response.getHeader (some r) = r.header := by
  refine ⟨fun r h => ?_, fun r h => ?_, rfl, rfl, fun _ => rfl, fun _ => ⟨rfl, rfl, rfl⟩⟩
  · have hn : (r.fields p).isNil = false := by
      cases hv : r.fields p <;> simp_all [Val.isNil]
    simp [Response.get, Response.getOk, hn]
  · have hz : (S p.typ.id).isScalar = false → zeroValue (S p.typ.id) = .nil := by
      cases S p.typ.id <;> simp [Shape.isScalar, zeroValue]
    cases r with
    | none =>
      cases hs : (S p.typ.id).isScalar
      · simp [Response.get, Response.getOk, hs, hz hs]
      · simp [Response.get, Response.getOk, hs]
    | some r =>
      have hn := h r rfl
      cases hs : (S p.typ.id).isScalar
      · simp [Response.get, Response.getOk, hs, hz hs, hn, Val.isNil]
      · simp [Response.get, Response.getOk, hs, hn, Val.isNil]

/-- The zero values. -/
theorem c47_zero : zeroValue .boolean = .bool false ∧ zeroValue .integer = .int 0 ∧
    zeroValue .long = .int 0 ∧ zeroValue .float = .float t!"0" ∧ zeroValue .string = .str [] ∧
    zeroValue .enum = .str [] ∧ zeroValue .interface = .nil ∧
    (∃ d, zeroValue .date = .date d ∧ d.text = t!"0001-01-01T00:00:00Z" ∧ d.nanos = 0) :=
  ⟨rfl, rfl, rfl, rfl, rfl, rfl, rfl, _, rfl, rfl, rfl⟩

/-! ## Polling a resource -/

/-- C46, for the requests that clients send: the polling stops immediately if the transport fails,
and the caller gets that error and no response. Errors sent by the server don't stop it, unless their
status is one of the expected ones, or there is no more time; then the caller gets the response and
the error. -/
theorem c46_client (sends : Nat → SendResult) (times : Nat → Int × Int)
    (rounds : Nat → Round Response SendResult)
    (hr : ∀ n, task (sends n) (times n).1 (times n).2 = some (rounds n))
    (hstatus : ∀ n r e, (sends n).pair = some (some r, e) → r.status ≠ 0)
    (fuel : Nat) (deadline interval : Int) (hi : 0 < interval) (statuses : List Int)
    (predicates : List (Response → Bool)) (start : Int) (result : Option Response)
    (err : Option SendResult) (n : Nat) (finish : Int)
    (h : pollContext fuel (some deadline) interval statuses predicates rounds start
      = some (.returned result err n finish)) :
    ∃ k, n = k + 1 ∧
      (sends k = .failed → result = none ∧ err = some .failed) ∧
      (∀ r, sends k = .received r → result = some r ∧ err = none) ∧
      (∀ r e, sends k = .refused r e → result = some r ∧ err = some (.refused r e)) ∧
      (sends k = .failed ∨ Satisfied statuses predicates (rounds k) ∨
        returnTime interval start rounds k + interval > deadline) ∧
      (∀ j < k, sends j ≠ .failed ∧ ¬ Satisfied statuses predicates (rounds j) ∧
        returnTime interval start rounds j + interval ≤ deadline) := by
  obtain ⟨k, -, e, hstop, hbefore⟩ := (c46_result fuel deadline interval hi statuses predicates rounds
    start _).1 h
  simp only [Polled.returned.injEq] at e
  obtain ⟨rfl, rfl, rfl, -⟩ := e
  have hk := hr k
  have hcom : ∀ n, CommunicationError (rounds n) ↔ sends n = .failed := by
    intro n
    have hn := hr n
    have hst := hstatus n
    cases hs : sends n with
    | failed =>
      rw [hs] at hn
      simp only [task, SendResult.pair, Option.some.injEq] at hn
      rw [← hn]
      simp [CommunicationError]
    | received r =>
      rw [hs] at hn
      simp only [task, SendResult.pair, Option.some.injEq] at hn
      rw [← hn]
      simp [CommunicationError]
    | refused r e =>
      rw [hs] at hn hst
      have := hst r _ rfl
      simp only [task, SendResult.pair, Option.some.injEq] at hn
      rw [← hn]
      simp [CommunicationError, Response.getStatus, this]
    | incomplete st he c =>
      rw [hs] at hn hst
      have := hst _ _ rfl
      simp only [task, SendResult.pair, Option.some.injEq] at hn
      rw [← hn]
      simp only [CommunicationError, Response.getStatus, ne_eq, reduceCtorEq, not_false_eq_true,
        true_and, iff_false]
      exact this
    | panic => rw [hs] at hn; simp [task, SendResult.pair] at hn
    | doesNotCompile => rw [hs] at hn; simp [task, SendResult.pair] at hn
  simp only [hcom] at hstop hbefore
  refine ⟨k, rfl, fun hs => ?_, fun r hs => ?_, fun r e hs => ?_, hstop, hbefore⟩
  all_goals
    rw [hs] at hk
    simp only [task, SendResult.pair, Option.some.injEq] at hk
    rw [← hk]
    exact ⟨rfl, rfl⟩

/-! ## Examples -/

/-- A document with an error, a status and what the client does. -/
example : ∃ e, interpret (fun _ => none) (fun _ => .other) { name := Nom.get } 404 (fun _ => [])
      (.content (objectTokens [(t!"id", [.str t!"404"])])) =
        .refused { status := 404, err := some e } e ∧ getID (some e) = (t!"404", true) :=
  ⟨_, rfl, by simp (decide := true) [getID, getWith]⟩

example : interpret (fun _ => none) (fun _ => .other) { name := Nom.get } 200 (fun _ => [])
    (.content [.objectStart]) = .received { status := 200 } := rfl

/-- The hypotheses of the theorem about polling are satisfied by a first failure of the server and
then a success. -/
example : ∃ rounds, (∀ n, task
      (if n = 0 then .refused { status := 500 } {} else .received { status := 200 }) 1 0
        = some (rounds n)) ∧
    pollContext 5 (some 100) 10 [] [] rounds 0 =
      some (.returned (some { status := 200 }) none 2 12) := by
  refine ⟨fun n => if n = 0
    then { status := 500, result := some { status := 500 }
           err := some (.refused { status := 500 } {}), elapsed := 1, late := 0 }
    else { status := 200, result := some { status := 200 }, err := none, elapsed := 1, late := 0 },
    fun n => ?_, rfl⟩
  by_cases h : n = 0 <;> simp [h, task, SendResult.pair, Response.getStatus]

end GoClient

end Verif
