import Verif.Model.Clients

/-!
# Clients: polling and the getters of responses

Model of the methods generated by pkg/generators/golang/clients_generator.go:660-735 for polling, and of the getters of
the response of the metadata. A call that panics gives nothing.
-/

namespace Verif

namespace GoClient

open GoJson GoError GoHelpers

/-- The response of polling, pkg/generators/golang/clients_generator.go:686-689. -/
structure PollResponse where
  response : Option Response

/-- The error returned by polling. -/
inductive PollError
  | noDeadline
  | badInterval
  | sent (r : SendResult)

/-- `StartContext`, pkg/generators/golang/clients_generator.go:665-673: the response and the error. The response of a
request whose body can't be read is the one of `SendResult.pair`, without the part that was read before the failure. -/
def startContext (fuel : Nat) (deadline : Option Int) (interval : Int) (statuses : List Int)
    (predicates : List (Response → Bool)) (rounds : Nat → Round Response SendResult) (now : Int) :
    Option (Option PollResponse × Option PollError) :=
  match pollContext fuel deadline interval statuses predicates rounds now with
  | none => none
  | some .noDeadline => some (none, some .noDeadline)
  | some .badInterval => some (none, some .badInterval)
  | some (.returned result err _ _) =>
    match result with
    | none => some (none, err.map .sent)
    | some r => some (some { response := some r }, err.map .sent)

/-- `Status`, pkg/generators/golang/clients_generator.go:692-697. -/
def PollResponse.getStatus : Option PollResponse → Int
  | none => 0
  | some r => Response.getStatus r.response

/-- `Header`, pkg/generators/golang/clients_generator.go:700-705. -/
def PollResponse.getHeader : Option PollResponse → Text → List Text
  | none => fun _ => []
  | some r => Response.getHeader r.response

/-- `Error`, pkg/generators/golang/clients_generator.go:708-713. -/
def PollResponse.getError : Option PollResponse → Option ErrorObject
  | none => none
  | some r => Response.getError r.response

/-- The getter of a parameter, pkg/generators/golang/clients_generator.go:724-726. It doesn't check that there is a
response. -/
def PollResponse.get (S : Schema) (p : Parameter) : Option PollResponse → Option Val
  | none => none
  | some r => some (Response.get S p r.response)

/-- The getter of a parameter with a flag, pkg/generators/golang/clients_generator.go:732-734. It doesn't check that there
is a response. -/
def PollResponse.getOk (S : Schema) (p : Parameter) : Option PollResponse → Option (Val × Bool)
  | none => none
  | some r => some (Response.getOk S p r.response)

/-- The response of `SendContext` for the metadata, pkg/generators/golang/clients_generator.go:369-396: it is assigned
as soon as the transport answers. Simplification: when the body can't be read the code leaves in the response the part
that was read before the failure; here it is left empty. -/
def MetadataResult.response : MetadataResult → Option MetadataResponse
  | .failed => none
  | .received r => some r
  | .refused r _ => some r
  | .incomplete status header _ => some { status := status, header := header }

/-- `Status`, pkg/generators/golang/clients_generator.go:399-404. -/
def MetadataResponse.getStatus : Option MetadataResponse → Int
  | none => 0
  | some r => r.status

/-- `Header`, pkg/generators/golang/clients_generator.go:407-412. -/
def MetadataResponse.getHeader : Option MetadataResponse → Text → List Text
  | none => fun _ => []
  | some r => r.header

/-- `Error`, pkg/generators/golang/clients_generator.go:415-420. -/
def MetadataResponse.getError : Option MetadataResponse → Option ErrorObject
  | none => none
  | some r => r.err

/-- `Body`, pkg/generators/golang/clients_generator.go:423-425. It doesn't check that there is a response. The result is
a pointer, that can be nil. -/
def MetadataResponse.getBody : Option MetadataResponse → Option (Option Metadata)
  | none => none
  | some r => some r.body

end GoClient

end Verif
