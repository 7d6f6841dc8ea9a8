import Verif.Spec.Bodies
import Verif.Spec.Errors
import Verif.Spec.Polling
import Verif.Model.Clients

/-! Specification of what clients do with responses. -/

namespace Verif

namespace GoClient

open GoJson GoError GoHelpers

/-- The caller gets an error. -/
def SendResult.Reports : SendResult → Prop
  | .failed => True
  | .refused _ _ => True
  | .incomplete _ _ _ => True
  | _ => False

/-- The caller gets a response without error. -/
def SendResult.Succeeds (r : SendResult) : Prop := ∃ response, r = .received response

/-- The caller gets an error. -/
def MetadataResult.Reports : MetadataResult → Prop
  | .received _ => False
  | _ => True

/-- The body that the client sends for what was written. -/
def SendsBody (S : Schema) (m : Method) (fields : Parameter → Val) (body : Option (List Tok)) : Prop :=
  (∃ ts, requestBody S m fields = .body ts ∧ body = some ts) ∨
  (requestBody S m fields = .nothing ∧ body.getD [] = [])

/-- All the attributes but the status are the same. -/
structure SameButStatus (a b : ErrorObject) : Prop where
  id : getID (some a) = getID (some b)
  href : getHREF (some a) = getHREF (some b)
  code : getCode (some a) = getCode (some b)
  reason : getReason (some a) = getReason (some b)
  operationID : getOperationID (some a) = getOperationID (some b)
  details : getDetails (some a) = getDetails (some b)
  timestamp : getTimestamp (some a) = getTimestamp (some b)

end GoClient

end Verif
