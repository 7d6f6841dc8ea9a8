import Verif.Model.Resources
import Verif.Model.ClientPaths
import Verif.Spec.TypesCode

/-!
# What the client of a resource contains
-/

namespace Verif.ResourceClient

/-- How a path is calculated from the path of the client: the same, or joining to it a segment or the identifier that is
passed as argument. -/
inductive PathExpr where
  | same
  | segment (s : Text)
  | id
deriving DecidableEq

/-- The Go expression. -/
def PathExpr.text : PathExpr → Text
  | .same => t!"c.path"
  | .segment s => t!"path.Join(c.path, \"" ++ s ++ t!"\")"
  | .id => t!"path.Join(c.path, id)"

/-- The value of the expression, for the path of the client and the identifier. -/
def PathExpr.value (path id : Text) : PathExpr → Text
  | .same => path
  | .segment s => GoPath.join [path, s]
  | .id => GoPath.join [path, id]

/-- A method that creates requests. -/
structure Call where
  declared : Text
  doc : Text
  method : Text
  request : Text
  path : PathExpr

/-- The lines of a method that creates requests. -/
def Call.lines (client : Text) (c : Call) : List Text := [
  t!"// " ++ c.method ++ t!" creates a request for the '" ++ c.declared ++ t!"' method.",
  t!"//",
  TypesCode.commentOf c.doc,
  t!"func (c *" ++ client ++ t!") " ++ c.method ++ t!"() *" ++ c.request ++ t!" {",
  t!"return &" ++ c.request ++ t!"{",
  t!"transport: c.transport,",
  t!"path: " ++ c.path.text ++ t!",",
  t!"}",
  t!"}"]

/-- A method that returns the client of another resource. -/
structure Step where
  doc : Text
  method : Text
  target : Text
  client : Text
  path : PathExpr

/-- The lines of a method that returns the client of another resource: it has an argument if the identifier is needed. -/
def Step.lines (client : Text) (s : Step) : List Text := [
  t!"// " ++ s.method ++ t!" returns the target '" ++ s.target ++ t!"' resource" ++
    (if s.path = .id then t!" for the given identifier." else t!"."),
  t!"//",
  TypesCode.commentOf s.doc,
  t!"func (c *" ++ client ++ t!") " ++ s.method ++ (if s.path = .id then t!"(id string)" else t!"()") ++ t!" *" ++
    s.client ++ t!" {",
  t!"return New" ++ s.client ++ t!"(",
  t!"c.transport,",
  s.path.text ++ t!",",
  t!")",
  t!"}"]

/-- The method for the metadata, that only the root has. -/
def metadataLines (client : Text) : List Text := [
  t!"// Creates a new request for the method that retrieves the metadata.",
  t!"func (c *" ++ client ++ t!") Get() *MetadataRequest {",
  t!"return &MetadataRequest{",
  t!"transport: c.transport,",
  t!"path:      c.path,",
  t!"}",
  t!"}"]

/-- The lines of the client of a resource. -/
def clientLines (client declared doc : Text) (root : Bool) (calls : List Call) (steps : List Step) : List Text := [
  t!"// " ++ client ++ t!" is the client of the '" ++ declared ++ t!"' resource.",
  t!"//",
  TypesCode.commentOf doc,
  t!"type " ++ client ++ t!" struct {",
  t!"transport http.RoundTripper",
  t!"path string",
  t!"}",
  t!"// New" ++ client ++ t!" creates a new client for the '" ++ declared ++ t!"'",
  t!"// resource using the given transport to send the requests and receive the",
  t!"// responses.",
  t!"func New" ++ client ++ t!"(transport http.RoundTripper, path string) *" ++ client ++ t!" {",
  t!"return &" ++ client ++ t!"{",
  t!"transport: transport,",
  t!"path:      path,",
  t!"}",
  t!"}"] ++ calls.flatMap (Call.lines client) ++ (if root then metadataLines client else []) ++
  steps.flatMap (Step.lines client)

/-- The name that the client of a resource has: `Client` for the root, and for the rest the name of the resource, see C29,
followed by `Client`. -/
def nameFor (r : Resource) : Text :=
  if r.name.toText = t!"root" then t!"Client" else Go.nameOf r.annotations r.name ++ t!"Client"

/-- The name of the requests of a method. -/
def requestFor (r : Resource) (m : Method) : Text :=
  (if r.name.toText = t!"root" then [] else Go.nameOf r.annotations r.name) ++ Go.nameOf m.annotations m.name ++ t!"Request"

/-- The method of the client for a method of the resource. Only actions have a segment, see C28. -/
def callFor (r : Resource) (m : Method) : Call :=
  { declared := m.name.toText, doc := m.doc, method := Go.nameOf m.annotations m.name, request := requestFor r m,
    path := if Binding.methodSegment m = [] then .same else .segment (Binding.methodSegment m) }

/-- The method of the client for a locator of the resource, whose target is given. -/
def stepFor (l : Locator) (target : Resource) : Step :=
  { doc := l.doc, method := Go.nameOf l.annotations l.name, target := target.name.toText, client := nameFor target,
    path := if l.isVariable then .id else .segment (Binding.locatorSegment l) }

end Verif.ResourceClient
