import Verif.Spec.Json
import Verif.Spec.Checks
import Verif.Model.Bodies

/-! Specification of the bodies of requests and responses. -/

namespace Verif

namespace GoJson

/-- The code for a method compiles only if its parameters have different names. -/
def UniqueNames (m : Method) : Prop := m.parameters.Pairwise fun p q => p.name ≠ q.name

/-- The types of the parameters in the schema are those that the model says; lists have elements
that are scalars or structs. -/
structure Typed (S : Schema) (m : Method) : Prop where
  structs : ∀ p ∈ m.parameters, Rule.Struct p →
    ∃ isClass name as, S p.typ.id = .struct isClass name as
  lists : ∀ p ∈ m.parameters, Rule.IsList p → ∃ name element, S p.typ.id = .list name element ∧
    ((S element).isScalar = true ∨ ∃ isClass n as, S element = .struct isClass n as)

/-- What is sent for a value. -/
def sentFor : Option (List Tok) → Written
  | some ts => .body ts
  | none => .panic

/-- What is received. -/
def receivedFor (fields : Parameter → Val) (p : Parameter) : Option Val → Received
  | some v => .fields fun q => if q = p then v else fields q
  | none => .error

/-- The document is valid for the type, and it has that value. -/
def Reads (D : DateParser) (S : Schema) (ty : TypeId) (j : Json) (v : Val) : Prop :=
  ∀ fuel, 2 * j.tokens.length ≤ fuel → readVal D S fuel ty false j.tokens = some (v, [])

/-- The document isn't valid for the type. -/
def Unreadable (D : DateParser) (S : Schema) (ty : TypeId) (j : Json) : Prop :=
  ∀ fuel, 2 * j.tokens.length ≤ fuel → readVal D S fuel ty false j.tokens = none

/-- The value of the last member with that name. -/
def LastMember (ms : List (Text × Json)) (name : Text) (j : Json) : Prop :=
  ∃ before after, ms = before ++ (name, j) :: after ∧ ∀ e ∈ after, e.1 ≠ name

/-- The parameter is the one for the items of a list or search method. -/
def IsItems (m : Method) (p : Parameter) : Prop :=
  (m.name = Nom.list ∨ m.name = Nom.search) ∧ p.name = Nom.items

/-- The name of the member of the body for an output parameter: `items` for the items, and for
others the one calculated from its name and annotations. -/
def TagOf (m : Method) (p : Parameter) (tag : Text) : Prop :=
  (IsItems m p ∧ tag = t!"items") ∨ (¬ IsItems m p ∧ tag = Binding.bodyParameterName p)

/-- How the value of an output parameter is stored: items that are objects are wrapped in the
structure that represents the list. -/
def StoredAs (S : Schema) (m : Method) (p : Parameter) (v w : Val) : Prop :=
  (IsItems m p ∧ (∃ name element, S p.typ.id = .list name element ∧ (S element).isScalar = false) ∧
    w = .linkList false [] v) ∨
  (¬ (IsItems m p ∧ ∃ name element, S p.typ.id = .list name element ∧
    (S element).isScalar = false) ∧ w = v)

/-- Members for different output parameters are different; otherwise the `switch` doesn't
compile. -/
def UniqueTags (m : Method) : Prop :=
  ∀ p ∈ m.parameters, ∀ q ∈ m.parameters, p.isOut = true → q.isOut = true →
    ∀ tag, TagOf m p tag → TagOf m q tag → p = q

end GoJson

end Verif
