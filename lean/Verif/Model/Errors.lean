import Verif.Model.JsonLoop
import Verif.Model.Query

/-!
# The generated error type

Model of the code generated by `generateCommonErrors`,
pkg/generators/golang/errors_generator.go:152-723: the type, its builder, its JSON support, and the
functions that send errors.
-/

namespace Verif

namespace GoError

open GoJson

/-- `Error` and `ErrorBuilder`, which have the same fields,
pkg/generators/golang/errors_generator.go:188-213. The details are represented by the JSON document
that they are converted from and to. -/
structure ErrorObject where
  bitmap : Nat := 0
  status : Int := 0
  id : Text := []
  href : Text := []
  code : Text := []
  reason : Text := []
  details : Json := .null
  operationID : Text := []
  timestamp : Option Instant := none
deriving Repr

/-! ## Builder -/

/-- The methods of the builder. -/
inductive Setter
  | status (value : Int)
  | id (value : Text)
  | href (value : Text)
  | code (value : Text)
  | reason (value : Text)
  | operationID (value : Text)
  | details (value : Json)
  | timestamp (value : Option Instant)
  | copy (object : Option ErrorObject)

/-- The methods of the builder, pkg/generators/golang/errors_generator.go:221-292. -/
def Setter.apply (b : ErrorObject) : Setter → ErrorObject
  | .status value => { b with status := value, bitmap := b.bitmap ||| 1 }
  | .id value => { b with id := value, bitmap := b.bitmap ||| 2 }
  | .href value => { b with href := value, bitmap := b.bitmap ||| 4 }
  | .code value => { b with code := value, bitmap := b.bitmap ||| 8 }
  | .reason value => { b with reason := value, bitmap := b.bitmap ||| 16 }
  | .operationID value => { b with operationID := value, bitmap := b.bitmap ||| 32 }
  | .details value => { b with details := value, bitmap := b.bitmap ||| 64 }
  | .timestamp value => { b with timestamp := value, bitmap := b.bitmap ||| 128 }
  | .copy none => b
  | .copy (some object) =>
    { bitmap := object.bitmap
      status := object.status
      id := object.id
      href := object.href
      code := object.code
      reason := object.reason
      details := object.details
      operationID := object.operationID
      timestamp := object.timestamp }

/-- `Build`, pkg/generators/golang/errors_generator.go:295-308. -/
def build (b : ErrorObject) : ErrorObject :=
  { status := b.status
    id := b.id
    href := b.href
    code := b.code
    reason := b.reason
    details := b.details
    operationID := b.operationID
    timestamp := b.timestamp
    bitmap := b.bitmap }

/-- `NewError()` followed by the calls, and `Build`. -/
def buildWith (calls : List Setter) : ErrorObject := build (calls.foldl Setter.apply {})

/-! ## Getters -/

/-- `Kind`, pkg/generators/golang/errors_generator.go:311-316. -/
def kind : Option ErrorObject → Text
  | none => t!"ErrorNil"
  | some _ => t!"Error"

/-- `value, ok` of the getters. -/
def getWith {α : Type} (e : Option ErrorObject) (bit : Nat) (field : ErrorObject → α) (zero : α) :
    α × Bool :=
  match e with
  | none => (zero, false)
  | some e => if e.bitmap.testBit bit then (field e, true) else (zero, false)

/-- `Status` and `GetStatus`, pkg/generators/golang/errors_generator.go:319-334. -/
def getStatus (e : Option ErrorObject) : Int × Bool := getWith e 0 (·.status) 0
/-- `ID` and `GetID`, pkg/generators/golang/errors_generator.go:337-352. -/
def getID (e : Option ErrorObject) : Text × Bool := getWith e 1 (·.id) []
/-- `HREF` and `GetHREF`, pkg/generators/golang/errors_generator.go:355-370. -/
def getHREF (e : Option ErrorObject) : Text × Bool := getWith e 2 (·.href) []
/-- `Code` and `GetCode`, pkg/generators/golang/errors_generator.go:373-388. -/
def getCode (e : Option ErrorObject) : Text × Bool := getWith e 3 (·.code) []
/-- `Reason` and `GetReason`, pkg/generators/golang/errors_generator.go:391-406. -/
def getReason (e : Option ErrorObject) : Text × Bool := getWith e 4 (·.reason) []
/-- `OperationID` and `GetOperationID`, pkg/generators/golang/errors_generator.go:409-424. -/
def getOperationID (e : Option ErrorObject) : Text × Bool := getWith e 5 (·.operationID) []
/-- `Details` and `GetDetails`, pkg/generators/golang/errors_generator.go:427-442. -/
def getDetails (e : Option ErrorObject) : Json × Bool := getWith e 6 (·.details) .null
/-- `Timestamp` and `GetTimestamp`, pkg/generators/golang/errors_generator.go:445-460. -/
def getTimestamp (e : Option ErrorObject) : Option Instant × Bool := getWith e 7 (·.timestamp) none

/-! ## Text -/

/-- `append(chunks, ...)` if the bit is set. -/
def chunk (e : ErrorObject) (bit : Nat) (text : Text) : List Text :=
  if e.bitmap.testBit bit then [text] else []

/-- The variable `chunks` of `Error`, pkg/generators/golang/errors_generator.go:465-480: `none` if
there is a panic, because the timestamp is nil. -/
def chunks (e : ErrorObject) : Option (List Text) :=
  let first :=
    chunk e 0 (t!"status is " ++ intText e.status)
      ++ chunk e 1 (t!"identifier is '" ++ e.id ++ t!"'")
      ++ chunk e 3 (t!"code is '" ++ e.code ++ t!"'")
  let last := chunk e 5 (t!"operation identifier is '" ++ e.operationID ++ t!"'")
  if e.bitmap.testBit 7 then
    match e.timestamp with
    | none => none
    | some d => some (first ++ [t!"at '" ++ d.text ++ t!"'"] ++ last)
  else some (first ++ last)

/-- The variable `result` of `Error`, pkg/generators/golang/errors_generator.go:481-487. -/
def joinChunks (chunks : List Text) : Text :=
  if chunks.length = 1 then chunks.headD []
  else if chunks.length > 1 then
    joinText t!", " (chunks.take (chunks.length - 1)) ++ t!" and " ++ chunks.getLastD []
  else []

/-- `Error`, pkg/generators/golang/errors_generator.go:464-498: `none` if there is a panic, because
the error or its timestamp are nil. -/
def errorText : Option ErrorObject → Option Text
  | none => none
  | some e =>
    match chunks e with
    | none => none
    | some chunks =>
      let result := joinChunks chunks
      let result :=
        if e.bitmap.testBit 4 then
          (if result ≠ [] then result ++ t!": " else result) ++ e.reason
        else result
      some (if result = [] then t!"unknown error" else result)

/-! ## JSON -/

/-- `WriteMore`, `WriteObjectField` and the value, if the bit is set. -/
def errorMember (e : ErrorObject) (bit : Nat) (name : Text) (value : List Tok) : List Tok :=
  if e.bitmap.testBit bit then [.comma, .str name, .colon] ++ value else []

/-- `writeError`, pkg/generators/golang/errors_generator.go:584-629: `none` if there is a panic,
because the error is nil. The first argument is the text that `WriteVal` (jsoniter) writes for an
instant: `time.Time.MarshalJSON` (Go standard library). -/
def writeError (N : Instant → Text) : Option ErrorObject → Option (List Tok)
  | none => none
  | some e => some (
    [.objectStart, .str t!"kind", .colon, .str t!"Error"]
      ++ errorMember e 0 t!"status" [.num (intText e.status)]
      ++ errorMember e 1 t!"id" [.str e.id]
      ++ errorMember e 2 t!"href" [.str e.href]
      ++ errorMember e 3 t!"code" [.str e.code]
      ++ errorMember e 4 t!"reason" [.str e.reason]
      ++ errorMember e 5 t!"operation_id" [.str e.operationID]
      ++ errorMember e 6 t!"details" e.details.tokens
      ++ errorMember e 7 t!"timestamp"
          (match e.timestamp with
           | none => [.null]
           | some d => [.str (N d)])
      ++ [.objectEnd])

/-- The `switch` of `readError`, pkg/generators/golang/errors_generator.go:535-568. -/
def readErrorField (D : DateParser) (fuel : Nat) (field : Text) (e : ErrorObject) (r : List Tok) :
    Option (ErrorObject × List Tok) :=
  if field = t!"status" then
    (readInt r).map fun p => ({ e with status := p.1, bitmap := e.bitmap ||| 1 }, p.2)
  else if field = t!"id" then
    (readString r).map fun p => ({ e with id := p.1, bitmap := e.bitmap ||| 2 }, p.2)
  else if field = t!"href" then
    (readString r).map fun p => ({ e with href := p.1, bitmap := e.bitmap ||| 4 }, p.2)
  else if field = t!"code" then
    (readString r).map fun p => ({ e with code := p.1, bitmap := e.bitmap ||| 8 }, p.2)
  else if field = t!"reason" then
    (readString r).map fun p => ({ e with reason := p.1, bitmap := e.bitmap ||| 16 }, p.2)
  else if field = t!"operation_id" then
    (readString r).map fun p => ({ e with operationID := p.1, bitmap := e.bitmap ||| 32 }, p.2)
  else if field = t!"details" then
    (parseVal fuel r).map fun p => ({ e with details := p.1, bitmap := e.bitmap ||| 64 }, p.2)
  else if field = t!"timestamp" then
    match readString r with
    | none => none
    | some (text, r) =>
      (D text).map fun d => ({ e with timestamp := some d, bitmap := e.bitmap ||| 128 }, r)
  else skipValue fuel e r

/-- `UnmarshalError`, pkg/generators/golang/errors_generator.go:507-515, and `readError`, lines
529-571: `none` if an error is returned. -/
def unmarshalError (D : DateParser) (fuel : Nat) (source : List Tok) : Option ErrorObject :=
  (readLoop (readErrorField D) fuel {} source).map Prod.fst

/-- `UnmarshalErrorStatus`, pkg/generators/golang/errors_generator.go:519-527. -/
def unmarshalErrorStatus (D : DateParser) (fuel : Nat) (source : List Tok) (status : Int) :
    Option ErrorObject :=
  (unmarshalError D fuel source).map fun e => { e with status := status, bitmap := e.bitmap ||| 1 }

/-! ## Sending -/

/-- What the client receives: the status, the content type and the body. -/
inductive Sent
  | reply (status : Int) (contentType : Text) (body : List Tok)
  | panic
deriving DecidableEq, Repr

/-- `bodyAllowedForStatus` (net/http, Go standard library). -/
def bodyAllowed (status : Int) : Bool :=
  if 100 ≤ status ∧ status ≤ 199 then false
  else if status = 204 then false
  else if status = 304 then false
  else true

/-- What is answered when a body is written to the `http.ResponseWriter` after the calls to
`WriteHeader`, if there is one (net/http, Go standard library): codes that don't have three digits
panic, informational ones other than 101 don't end the header, and 200 is the default. The bodies of
codes that don't allow it are discarded. -/
def respond (status : Option Int) (contentType : Text) (body : List Tok) : Sent :=
  match status with
  | none => .reply 200 contentType body
  | some status =>
    if status < 100 ∨ status > 999 then .panic
    else if 100 ≤ status ∧ status ≤ 199 ∧ status ≠ 101 then .reply 200 contentType body
    else .reply status contentType (if bodyAllowed status then body else [])

/-- `panicError`, pkg/generators/golang/errors_generator.go:631-636. -/
def panicError : ErrorObject :=
  buildWith [.id t!"1000", .reason
    t!"An unexpected error happened, please check the log of the service for details"]

/-- `SendPanic`, pkg/generators/golang/errors_generator.go:658-668. -/
def sendPanic (N : Instant → Text) : Sent :=
  match writeError N (some panicError) with
  | none => .panic
  | some body => respond none t!"application/json" body

/-- `SendError`, pkg/generators/golang/errors_generator.go:641-654. -/
def sendError (N : Instant → Text) (object : Option ErrorObject) : Sent :=
  match GoQuery.parseInt (getID object).1 with
  | none => sendPanic N
  | some status =>
    match writeError N object with
    | none => .panic
    | some body => respond (some status) t!"application/json" body

/-- `SendNotFound`, pkg/generators/golang/errors_generator.go:671-685. -/
def sendNotFound (N : Instant → Text) (path : Text) : Sent :=
  sendError N (some (buildWith
    [.id t!"404", .reason (t!"Can't find resource for path '" ++ path ++ t!"'")]))

/-- `SendMethodNotAllowed`, pkg/generators/golang/errors_generator.go:688-702. -/
def sendMethodNotAllowed (N : Instant → Text) (method path : Text) : Sent :=
  sendError N (some (buildWith
    [.id t!"405", .reason
      (t!"Method '" ++ method ++ t!"' isn't supported for path '" ++ path ++ t!"'")]))

/-- `SendInternalServerError`, pkg/generators/golang/errors_generator.go:705-720. -/
def sendInternalServerError (N : Instant → Text) (method path : Text) : Sent :=
  sendError N (some (buildWith
    [.id t!"500", .reason
      (t!"Can't process '" ++ method ++ t!"' request for path '" ++ path
        ++ t!"' due to an internalserver error")]))

end GoError

end Verif
