import Verif.Model.GoRefs

/-!
# What the types of the generated code should be

Go types are trees; how they are written depends on the package of the file where they are used.
-/

namespace Verif

namespace GoRef

/-- Go types. -/
inductive GoType where
  /-- A type that doesn't belong to any package. -/
  | predeclared (name : Text)
  /-- A type declared in the package with the given import path and package name. -/
  | declared (imprt package name : Text)
  | pointer (t : GoType)
  | slice (t : GoType)
  /-- A map whose keys are strings. -/
  | mapOf (t : GoType)
deriving DecidableEq

namespace GoType

/-- How a type is written in a file of the package with import path `pkg`. -/
def written (pkg : Text) : GoType → Text
  | .predeclared name => name
  | .declared imprt package name => if imprt = pkg then name else package ++ t!"." ++ name
  | .pointer t => t!"*" ++ t.written pkg
  | .slice t => t!"[]" ++ t.written pkg
  | .mapOf t => t!"map[string]" ++ t.written pkg

/-- The package that a file of the package with import path `pkg` needs to import to use a type: the
import path and the name. -/
def needs (pkg : Text) : GoType → Option (Text × Text)
  | .predeclared _ => none
  | .declared imprt package _ => if imprt = pkg then none else some (imprt, package)
  | .pointer t => t.needs pkg
  | .slice t => t.needs pkg
  | .mapOf t => t.needs pkg

end GoType

/-- The import path of the package of a version. -/
def home (base : Text) (o : Owner) : Text :=
  base ++ t!"/" ++ o.service.lowerJoined [] ++ t!"/" ++ o.version.lowerJoined []

/-- The type generated for a declared type. What `Go.nameOf` is, the name given with `@go` or the
public name, is what C29 says. -/
def declaredType (base : Text) (d : Decl) (suffix : Text) : GoType :=
  .declared (home base d.owner) (d.owner.version.lowerJoined []) (Go.nameOf d.annotations d.name ++ suffix)

/-- The types of the values of the builtin types. -/
def basicType : Basic → GoType
  | .boolean => .predeclared t!"bool"
  | .integer => .predeclared t!"int"
  | .long => .predeclared t!"int64"
  | .float => .predeclared t!"float64"
  | .string => .predeclared t!"string"
  | .interface => .predeclared t!"interface{}"
  | .date => .declared t!"time" t!"time" t!"Time"

/-- The type of the elements of lists and maps: none for lists and maps of lists or maps, that
aren't supported. -/
def elementType (base : Text) : Typ → Option GoType
  | .basic b => some (basicType b)
  | .enum d => some (declaredType base d [])
  | .struct d => some (.pointer (declaredType base d []))
  | .list _ _ => none
  | .map _ _ => none

/-- The type of values of a model type. -/
def typeOf (base : Text) : Typ → Option GoType
  | .list _ element => (elementType base element).map .slice
  | .map _ element => (elementType base element).map .mapOf
  | t => elementType base t

/-- The type of the lists of objects that have their own Go type. -/
def objectsType (base : Text) : Typ → Option GoType
  | .list _ (.struct d) => some (.pointer (declaredType base d t!"List"))
  | _ => none

/-- The type of an attribute of an object. -/
def attributeType (base : Text) (a : Attr) : Option GoType :=
  if a.typ.isList && a.link then objectsType base a.typ else typeOf base a.typ

/-- The type of an attribute of a builder: objects are replaced by their builders. -/
def attributeBuilder (base : Text) (a : Attr) : Option GoType :=
  match a.typ, a.link with
  | .struct d, _ => some (.pointer (declaredType base d t!"Builder"))
  | .list _ (.struct d), true => some (.pointer (declaredType base d t!"ListBuilder"))
  | .list _ _, true => none
  | .list _ (.struct d), false => some (.slice (.pointer (declaredType base d t!"Builder")))
  | .map _ (.struct d), _ => some (.mapOf (.pointer (declaredType base d t!"Builder")))
  | t, _ => typeOf base t

/-- The type of the field of a parameter, which must be able to be nil. -/
def parameterType (base : Text) (p : Param) : Option GoType :=
  if p.items then objectsType base p.typ
  else match p.typ with
    | .basic .interface => some (basicType .interface)
    | .basic b => some (.pointer (basicType b))
    | .enum d => some (.pointer (declaredType base d []))
    | t => typeOf base t

/-- The declared type that is mentioned by a type. -/
def mentioned : Typ → Option Decl
  | .basic _ => none
  | .enum d => some d
  | .struct d => some d
  | .list _ element => mentioned element
  | .map _ element => mentioned element

/-- The mentioned type is an enumerated type. -/
def MentionsEnum : Typ → Prop
  | .enum _ => True
  | .list _ element => MentionsEnum element
  | .map _ element => MentionsEnum element
  | _ => False

/-- The names of a version and of its service are usable in Go: they aren't empty and the name of
the version has no slashes or dots. -/
structure UsableOwner (o : Owner) : Prop where
  service : o.service.lowerJoined [] ≠ []
  version : o.version.lowerJoined [] ≠ []
  slash : '/' ∉ o.version.lowerJoined []
  dot : '.' ∉ o.version.lowerJoined []

/-- The base package isn't empty, the version where the code is generated is usable, and so is the
type mentioned, whose name has no dots. -/
structure Usable (base : Text) (here : Owner) (t : Typ) : Prop where
  base : base ≠ []
  here : UsableOwner here
  owner : ∀ d, mentioned t = some d → UsableOwner d.owner
  dot : ∀ d, mentioned t = some d → '.' ∉ Go.nameOf d.annotations d.name

/-- An expression of type `from` can be assigned to a variable of type `to`: the types are the same
or the variable can have any value. -/
def Assignable (to source : Text) : Prop := to = source ∨ to = t!"interface{}"

end GoRef

end Verif
