import Verif.Model.Bodies
import Verif.Model.Errors
import Verif.Model.UrlValues
import Verif.Model.Polling

/-!
# Clients: sending requests

Model of the `SendContext` methods generated by pkg/generators/golang/clients_generator.go:839-898 for
the methods of the model, and lines 345-397 for the metadata, and of the types of the responses.
-/

namespace Verif

namespace GoClient

open GoJson GoError GoHelpers

/-- The HTTP request given to the transport, pkg/generators/golang/clients_generator.go:859-872. The
body is nothing if there is none. -/
structure HttpRequest where
  verb : Text
  path : Text
  query : Text → List Text
  header : Text → List Text
  body : Option (List Tok)

/-- The body of an HTTP response: without bytes, one that can't be read, or some content. -/
inductive Body
  | empty
  | broken
  | content (ts : List Tok)
deriving DecidableEq, Repr

/-- What the transport returns: an error, or a response. -/
inductive Answer
  | failure
  | response (status : Int) (header : Text → List Text) (body : Body)

/-- The types of responses, pkg/generators/golang/clients_generator.go:930-944. The value of the
fields that haven't been assigned is nil. -/
structure Response where
  status : Int := 0
  header : Text → List Text := fun _ => []
  err : Option ErrorObject := none
  fields : Parameter → Val := fun _ => .nil

/-- Why sending failed without a complete response: the response can't be read, it isn't valid, or
it is empty. -/
inductive Cause
  | unreadable
  | malformed
  | empty
deriving DecidableEq, Repr

/-- The results of `SendContext`. In Go there are two: the response and the error.

- `failed`: no response, and the error of the transport.
- `received`: a response, and no error.
- `refused`: a response, and the error that the server sent.
- `incomplete`: a response with the given status and headers, whose other fields aren't specified
  here because they depend on how much was read, and an error. -/
inductive SendResult
  | failed
  | received (r : Response)
  | refused (r : Response) (e : ErrorObject)
  | incomplete (status : Int) (header : Text → List Text) (cause : Cause)
  | panic
  | doesNotCompile

/-- What reading the body gives after `Peek`: the tokens; there are none if it can't be read. -/
def Body.source : Body → List Tok
  | .content ts => ts
  | _ => []

/-- The bound for the recursion while reading. -/
def Body.fuel (b : Body) : Nat := 2 * b.source.length + 10

/-- The error of `reader.Peek(1)` (bufio, Go standard library). -/
def Body.peek : Body → Option Cause
  | .empty => some .empty
  | .broken => some .unreadable
  | .content _ => none

/-- The cause of an error while reading the body. -/
def Body.cause : Body → Cause
  | .broken => .unreadable
  | _ => .malformed

/-- The part of `SendContext` after receiving a response,
pkg/generators/golang/clients_generator.go:877-897. -/
def interpret (D : DateParser) (S : Schema) (m : Method) (status : Int)
    (header : Text → List Text) (body : Body) : SendResult :=
  let result : Response := { status := status, header := header }
  if body.peek = some .empty then .received result
  else if status ≥ 400 then
    match unmarshalErrorStatus D body.fuel body.source status with
    | none => .incomplete status header body.cause
    | some e => .refused { result with err := some e } e
  else
    match Binding.responseParameters m with
    | [] =>
      match body.peek with
      | some cause => .incomplete status header cause
      | none => .received result
    | _ =>
      match readResponse D S body.fuel m result.fields body.source with
      | .doesNotCompile => .doesNotCompile
      | .error => .incomplete status header body.cause
      | .fields f => .received { result with fields := f }

/-- The request that is sent, pkg/generators/golang/clients_generator.go:859-872. -/
def httpRequest (m : Method) (path : Text) (sending : Sending) (body : Option (List Tok)) :
    HttpRequest :=
  { verb := Binding.method m, path := path, query := sending.query, header := sending.header
    body := body }

/-- `SendContext`, pkg/generators/golang/clients_generator.go:839-898, given the query and header
calculated in the first lines (see `assemble`). -/
def sendContext (D : DateParser) (S : Schema) (transport : HttpRequest → Answer) (m : Method)
    (path : Text) (sending : Sending) (fields : Parameter → Val) : SendResult :=
  let go := fun body =>
    match transport (httpRequest m path sending body) with
    | .failure => SendResult.failed
    | .response status header body => interpret D S m status header body
  match Binding.requestBodyParameters m with
  | [] => go none
  | _ =>
    match writeRequest S m fields with
    | .panic => .panic
    | .doesNotCompile => .doesNotCompile
    | .nothing => go (some [])
    | .body ts => go (some ts)

/-! ## Metadata -/

/-- `MetadataResponse`, pkg/generators/golang/clients_generator.go:317-322. -/
structure MetadataResponse where
  status : Int := 0
  header : Text → List Text := fun _ => []
  err : Option ErrorObject := none
  body : Option Metadata := none

/-- The results of `SendContext` for the metadata; like `SendResult`. -/
inductive MetadataResult
  | failed
  | received (r : MetadataResponse)
  | refused (r : MetadataResponse) (e : ErrorObject)
  | incomplete (status : Int) (header : Text → List Text) (cause : Cause)

/-- The `SendContext` method of `MetadataRequest`,
pkg/generators/golang/clients_generator.go:345-397. The argument is the answer of the transport to the
request. -/
def sendMetadata (D : DateParser) (transport : HttpRequest → Answer) (path : Text)
    (sending : Sending) : MetadataResult :=
  match transport { verb := t!"GET", path := path, query := sending.query
                    header := sending.header, body := none } with
  | .failure => .failed
  | .response status header body =>
    let result : MetadataResponse := { status := status, header := header }
    if body.peek = some .empty then .incomplete status header .empty
    else if status ≥ 400 then
      match unmarshalErrorStatus D body.fuel body.source status with
      | none => .incomplete status header body.cause
      | some e => .refused { result with err := some e } e
    else
      match readMetadata body.fuel body.source with
      | none => .incomplete status header body.cause
      | some md => .received { result with body := some md }

/-! ## Methods of the responses -/

/-- `Status`, pkg/generators/golang/clients_generator.go:946-952. -/
def Response.getStatus : Option Response → Int
  | none => 0
  | some r => r.status

/-- `Header`, pkg/generators/golang/clients_generator.go:954-960. -/
def Response.getHeader : Option Response → Text → List Text
  | none => fun _ => []
  | some r => r.header

/-- `Error`, pkg/generators/golang/clients_generator.go:962-968. -/
def Response.getError : Option Response → Option ErrorObject
  | none => none
  | some r => r.err

/-- `ZeroValue`, pkg/generators/golang/types_calculator.go:407-434. The text of the zero instant is
what Go gives for it. -/
def zeroValue : Shape → Val
  | .struct _ _ _ | .list _ _ | .map _ | .interface => .nil
  | .enum => .str []
  | .boolean => .bool false
  | .integer => .int 0
  | .long => .int 0
  | .float => .float t!"0"
  | .date => .date { text := t!"0001-01-01T00:00:00Z" }
  | .string => .str []
  | .other => .nil

/-- The getter of a response parameter, pkg/generators/golang/clients_generator.go:978-991. -/
def Response.get (S : Schema) (p : Parameter) (r : Option Response) : Val :=
  if (S p.typ.id).isScalar then
    match r with
    | none => zeroValue (S p.typ.id)
    | some r => if (r.fields p).isNil then zeroValue (S p.typ.id) else r.fields p
  else
    match r with
    | none => .nil
    | some r => r.fields p

/-- The getter of a response parameter with a flag,
pkg/generators/golang/clients_generator.go:997-1007. -/
def Response.getOk (S : Schema) (p : Parameter) (r : Option Response) : Val × Bool :=
  match r with
  | none => (zeroValue (S p.typ.id), false)
  | some r =>
    if (r.fields p).isNil then (zeroValue (S p.typ.id), false) else (r.fields p, true)

/-! ## Polling -/

/-- The two results of `SendContext`, for the polling loop. Simplification: the response of a request whose
body can't be read doesn't contain what was read before the failure. -/
def SendResult.pair : SendResult → Option (Option Response × Option SendResult)
  | .failed => some (none, some .failed)
  | .received r => some (some r, none)
  | .refused r e => some (some r, some (.refused r e))
  | .incomplete status header cause =>
    some (some { status := status, header := header }, some (.incomplete status header cause))
  | .panic => none
  | .doesNotCompile => none

/-- `task`, pkg/generators/golang/clients_generator.go:680-687, and the time that it takes: nothing if
it panics. -/
def task (sent : SendResult) (elapsed late : Int) : Option (Round Response SendResult) :=
  match sent.pair with
  | none => none
  | some (response, err) =>
    match response with
    | none => some { status := 0, result := none, err := err, elapsed := elapsed, late := late }
    | some r =>
      some { status := Response.getStatus (some r), result := some r, err := err
             elapsed := elapsed, late := late }

end GoClient

end Verif
