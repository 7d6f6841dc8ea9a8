import Verif.Spec.OpenApi
import Verif.Spec.ClientPaths

/-! Specification: what users of an OpenAPI document expect from it. These definitions speak only
about JSON documents, except for the last ones, that say which types a document mentions. -/

namespace Verif

namespace OpenApi

/-- The document has somewhere a `$ref` member with the given text. -/
inductive HasRef : Json → Text → Prop
  | here {members r} : (t!"$ref", .str r) ∈ members → HasRef (.obj members) r
  | member {members key value r} : (key, value) ∈ members → HasRef value r → HasRef (.obj members) r
  | item {items value r} : value ∈ items → HasRef value r → HasRef (.arr items) r

/-- The member of an object with a given name. -/
def Member (doc : Json) (key : Text) (value : Json) : Prop :=
  ∃ members, doc = .obj members ∧ (key, value) ∈ members

/-- The text of a reference names one of the schemas of the document. -/
def Resolves (doc : Json) (r : Text) : Prop :=
  ∃ components schemas key value, Member doc t!"components" components ∧
    Member components t!"schemas" schemas ∧ Member schemas key value ∧
    r = t!"#/components/schemas/" ++ key

/-- The first document is the second one, or a part of it. -/
inductive Inside : Json → Json → Prop
  | self (doc) : Inside doc doc
  | member {part members key value} : (key, value) ∈ members → Inside part value →
      Inside part (.obj members)
  | item {part items value} : value ∈ items → Inside part value → Inside part (.arr items)

/-- No object of the document repeats a key. -/
def UniqueKeys (doc : Json) : Prop :=
  ∀ members, Inside (.obj members) doc → (members.map Prod.fst).Nodup

/-- The operation of a document with the given path and verb. -/
def Operation (doc : Json) (path verb : Text) (op : Json) : Prop :=
  ∃ paths item, Member doc t!"paths" paths ∧ Member paths path item ∧ Member item verb op

/-- The value of the first member with a key. -/
def lookup (key : Text) : Json → Option Json
  | .obj members => (members.find? fun m => m.1 = key).map Prod.snd
  | _ => none

/-- The items of an array; none for other documents. -/
def itemsOf : Option Json → List Json
  | some (.arr items) => items
  | _ => []

/-- The name of a parameter, if it is a path parameter. -/
def pathParameterName (p : Json) : Option Text :=
  match lookup t!"in" p, lookup t!"name" p with
  | some (.str place), some (.str name) => if place = t!"path" then some name else none
  | _, _ => none

/-- The names of the path parameters that an operation lists, in order. -/
def pathParameterNames (op : Json) : List Text :=
  (itemsOf (lookup t!"parameters" op)).filterMap pathParameterName

/-- The names of the variables in the template of a path: the parts enclosed in curly brackets,
without the brackets. -/
def templateVariables (path : Text) : List Text :=
  ((splitOn '/' path).filter isTemplateVariable).map fun s => (s.drop 1).dropLast

/-- The types with name that describing a type requires: itself if it is an enumerated or struct type,
or those of the elements of lists and maps. -/
inductive Leaf (v : VersionView) : TypeId → TypeCell → Prop
  | named {id cell} : NotBuiltin v id cell →
      cell.kind = .enum ∨ cell.kind = .class ∨ cell.kind = .struct → Leaf v id cell
  | element {id cell element leaf} : NotBuiltin v id cell → cell.kind = .list ∨ cell.kind = .map →
      cell.element = some element → Leaf v element leaf → Leaf v id leaf

/-- The names of the schemas of a version. -/
def schemaNames (v : VersionView) : List Text :=
  [t!"Metadata"] ++
  (v.types.filter fun t => t.kind = .enum ∨ t.kind = .class ∨ t.kind = .struct).map
    (fun t => t.name.camel) ++
  [t!"Error"]

/-- The keys of the path items of a resource. -/
def resourceKeys (key : Text) (methods : List Method) : List Text :=
  (if ∃ m ∈ methods, Binding.methodSegment m = [] then [key] else []) ++
  (methods.filter fun m => Binding.methodSegment m ≠ []).map fun m =>
    key ++ '/' :: Binding.methodSegment m

/-- The keys of the path items of a version. -/
def pathKeys (v : VersionView) (root : ResId) (entries : List (Text × List Locator)) : List Text :=
  [pathKey v []] ++ resourceKeys (pathKey v []) (v.graph.methods root) ++
  entries.flatMap fun e => resourceKeys e.1 (methodsAt v e.2)

/-- The methods of a resource can be told apart: those without segment have different verbs, and the
body parameters of each method have different names. -/
def DistinctMethods (methods : List Method) : Prop :=
  ((methods.filter fun m => Binding.methodSegment m = []).map fun m =>
    (Binding.method m).map Char.toLower).Nodup ∧
  ∀ m ∈ methods, ((Binding.requestBodyParameters m).map fun p => p.name.snake).Nodup ∧
    ((Binding.responseParameters m).map fun p => p.name.snake).Nodup

/-- The properties of a type have different names, also different from those that all the classes
have. -/
def DistinctProperties (t : TypeCell) : Prop :=
  (t.kind = .struct → (t.attributes.map Binding.attributeName).Nodup) ∧
  (t.kind = .class → ([t!"kind", t!"id", t!"href"] ++ t.attributes.map Binding.attributeName).Nodup)

/-- A text that is a constant part of a template. -/
def ConstantPart (s : Text) : Prop := '/' ∉ s ∧ isTemplateVariable s = false

/-- The segments of the version, of its service, of its locators and of its methods don't contain
slashes, and those that aren't variables don't look like variables. -/
structure PlainSegments (v : VersionView) : Prop where
  service : ConstantPart v.serviceSegment
  version : ConstantPart v.versionSegment
  locators : ∀ r l, l ∈ v.graph.locators r → '/' ∉ Binding.locatorSegment l ∧
    (l.isVariable = false → ConstantPart (Binding.locatorSegment l))
  methods : ∀ r m, m ∈ v.graph.methods r → ConstantPart (Binding.methodSegment m)

end OpenApi

end Verif
