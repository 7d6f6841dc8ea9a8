import Verif.Spec.Whole
import Verif.Spec.GoRefs

/-!
# Specification of the Go types of what is declared in the files

The Go types of the fields, getters and setters of the generated code, as they are written in the
package of the version, in terms of the names used in the files of the version.
-/

namespace Verif.Whole

/-- The name is that of one of the predefined types, whose Go type is the given one. -/
inductive BasicText : Text → Text → Prop
  | boolean : BasicText t!"boolean" t!"bool"
  | integer : BasicText t!"integer" t!"int"
  | long : BasicText t!"long" t!"int64"
  | float : BasicText t!"float" t!"float64"
  | string : BasicText t!"string" t!"string"
  | date : BasicText t!"date" t!"time.Time"

/-- The name of the Go type of a declared type: what `Go.nameOf` is, the name given with `@go` or the
public name, is what C29 says. -/
def goName (name : Text) (as : List Annotation) : Text := Go.nameOf as (parseUsingCase name)

/-- The name is that of an enumerated type declared in the files, with the given Go name. -/
inductive EnumName (ds : List Decl) (n : Text) : Text → Prop
  | enum {name doc as vs} : Decl.enum name doc as vs ∈ ds → keyOf n = keyOf name →
    EnumName ds n (goName name as)

/-- The name is that of a class or struct declared in the files, with the given Go name. -/
inductive ObjectName (ds : List Decl) (n : Text) : Text → Prop
  | class {name doc as ms} : Decl.class name doc as ms ∈ ds → keyOf n = keyOf name →
    ObjectName ds n (goName name as)
  | struct {name doc as ms} : Decl.struct name doc as ms ∈ ds → keyOf n = keyOf name →
    ObjectName ds n (goName name as)

/-- The Go type of the values of a scalar type. -/
inductive ScalarText (ds : List Decl) (n : Text) : Text → Prop
  | basic {t} : BasicText (keyOf n) t → ScalarText ds n t
  | interface : keyOf n = t!"interface" → ScalarText ds n t!"interface{}"
  | enum {g} : EnumName ds n g → ScalarText ds n g

/-- The Go type of the values of a type: objects are pointers. -/
inductive ValueText (ds : List Decl) (n : Text) : Text → Prop
  | scalar {t} : ScalarText ds n t → ValueText ds n t
  | object {g} : ObjectName ds n g → ValueText ds n (t!"*" ++ g)

/-- The name is that of the predefined list of a scalar type, for example `StringList`. -/
inductive PredefinedText (n : Text) : Text → Prop
  | basic {k t} : BasicText k t → keyOf n = k ++ t!"_list" → PredefinedText n t
  | interface : keyOf n = t!"interface_list" → PredefinedText n t!"interface{}"

/-- The Go type of a value. -/
inductive PlainText (ds : List Decl) : TypeExpr → Text → Prop
  | plain {n t} : ValueText ds n t → PlainText ds (.plain n) t
  | predefined {n t} : PredefinedText n t → PlainText ds (.plain n) (t!"[]" ++ t)
  | list {n t} : ValueText ds n t → PlainText ds (.list n) (t!"[]" ++ t)
  | map {i n t} : ValueText ds n t → PlainText ds (.map i n) (t!"map[string]" ++ t)

/-- The Go type of an attribute: lists that are links have their own type. -/
inductive FieldText (ds : List Decl) : Bool → TypeExpr → Text → Prop
  | links {n g} : ObjectName ds n g → FieldText ds true (.list n) (t!"*" ++ g ++ t!"List")
  | plain {link r t} : ¬ (link = true ∧ IsListRef r) → PlainText ds r t → FieldText ds link r t

/-- The Go type of an attribute of a builder: objects are replaced by their builders. -/
inductive BuilderText (ds : List Decl) : Bool → TypeExpr → Text → Prop
  | links {n g} : ObjectName ds n g → BuilderText ds true (.list n) (t!"*" ++ g ++ t!"ListBuilder")
  | object {link n g} : ObjectName ds n g → BuilderText ds link (.plain n) (t!"*" ++ g ++ t!"Builder")
  | list {n g} : ObjectName ds n g → BuilderText ds false (.list n) (t!"[]*" ++ g ++ t!"Builder")
  | map {link i n g} : ObjectName ds n g →
    BuilderText ds link (.map i n) (t!"map[string]*" ++ g ++ t!"Builder")
  | scalar {link n t} : ScalarText ds n t → BuilderText ds link (.plain n) t
  | predefined {n t} : PredefinedText n t → BuilderText ds false (.plain n) (t!"[]" ++ t)
  | scalars {n t} : ScalarText ds n t → BuilderText ds false (.list n) (t!"[]" ++ t)
  | scalarMap {link i n t} : ScalarText ds n t →
    BuilderText ds link (.map i n) (t!"map[string]" ++ t)

/-- The Go type of the setter of a request or of the getter of a response for a parameter: the items of
`List` and `Search` have their own type. -/
inductive AccessText (ds : List Decl) : Bool → TypeExpr → Text → Prop
  | items {n g} : ObjectName ds n g → AccessText ds true (.list n) (t!"*" ++ g ++ t!"List")
  | plain {r t} : PlainText ds r t → AccessText ds false r t

/-- The Go type of the field of a parameter, which can be nil. -/
inductive ParameterText (ds : List Decl) : Bool → TypeExpr → Text → Prop
  | items {n g} : ObjectName ds n g → ParameterText ds true (.list n) (t!"*" ++ g ++ t!"List")
  | basic {n t} : BasicText (keyOf n) t → ParameterText ds false (.plain n) (t!"*" ++ t)
  | enum {n g} : EnumName ds n g → ParameterText ds false (.plain n) (t!"*" ++ g)
  | interface {n} : keyOf n = t!"interface" → ParameterText ds false (.plain n) t!"interface{}"
  | object {n g} : ObjectName ds n g → ParameterText ds false (.plain n) (t!"*" ++ g)
  | predefined {n t} : PredefinedText n t → ParameterText ds false (.plain n) (t!"[]" ++ t)
  | list {n t} : ValueText ds n t → ParameterText ds false (.list n) (t!"[]" ++ t)
  | map {i n t} : ValueText ds n t → ParameterText ds false (.map i n) (t!"map[string]" ++ t)

/-- The Go code that uses the type needs the package `time`. -/
def NeedsTime : TypeExpr → Prop
  | .plain n => keyOf n = t!"date" ∨ keyOf n = t!"date_list"
  | .list n => keyOf n = t!"date"
  | .map _ n => keyOf n = t!"date"

/-- The names that have the same key as the name of a declared type are the same name. -/
def SpelledAlike (ds : List Decl) : Prop :=
  ∀ e ∈ refsOf ds, ∀ n ∈ e.names, ∀ d ∈ ds, ∀ name, d.typeName = some name →
    name.toText = keyOf n → parseUsingCase n = name

/-- The Go names of the declared types have no dots. -/
def NoDots (ds : List Decl) : Prop :=
  ∀ d ∈ ds, ∀ name, d.typeName = some name → '.' ∉ Go.nameOf d.typeAnnotations name

/-- An attribute has a Go type: lists and maps are of things that aren't lists, and links to lists are
written with brackets and are lists of classes or structs. -/
def FieldFine (ds : List Decl) (link : Bool) (r : TypeExpr) : Prop :=
  OneLevel r ∧ (link = true → IsListRef r → ∃ n g, r = .list n ∧ ObjectName ds n g)

/-- A parameter has a Go type: items are written with brackets and are lists of classes or structs. -/
def ParameterTyped (ds : List Decl) (items : Bool) (r : TypeExpr) : Prop :=
  OneLevel r ∧ (items = true → ∃ n g, r = .list n ∧ ObjectName ds n g)

open GoRef (emit importOf home fieldType getterType builderFieldType builderSetterType setterParameter
  setterAssigned copyAssigned buildAssigned requestField requestSetter responseField responseGetter)

/-- The attribute is the one declared, and the texts of the types written in the package of the version
`here` are the right ones: those of the field and the getter of the generated type; those of the field
of the builder, of the parameter of its setter, and of what the setter and `Copy` assign to that field; and
that of what `Build` assigns to the field of the object, when it isn't built by another builder. -/
structure GeneratedField (s : Session) (base : Text) (here : GoRef.Owner) (ds : List Decl) (x : Attribute)
    (m : MemberDecl) : Prop where
  name : x.name = parseUsingCase m.name
  field : FieldText ds m.link m.ref (emit (home base here) (fieldType base (attributeInfo s x)))
  getter : FieldText ds m.link m.ref (emit (home base here) (getterType base (attributeInfo s x)))
  imports : NeedsTime m.ref → importOf (home base here) (fieldType base (attributeInfo s x)) =
    some (t!"time", t!"time")
  nothingElse : ¬ NeedsTime m.ref → importOf (home base here) (fieldType base (attributeInfo s x)) = none
  builder : BuilderText ds m.link m.ref (emit (home base here) (builderFieldType base (attributeInfo s x)))
  setter : BuilderText ds m.link m.ref (setterParameter base (home base here) (attributeInfo s x))
  set : BuilderText ds m.link m.ref (setterAssigned base (home base here) (attributeInfo s x))
  copied : BuilderText ds m.link m.ref (copyAssigned base (home base here) (attributeInfo s x))
  built : ∀ t, buildAssigned base (home base here) (attributeInfo s x) = some t →
    FieldText ds m.link m.ref t

/-- The parameter is the one declared, and the texts of the types written in the package of the version
`here` are the right ones: those of the fields of requests and responses, of the parameters of the setters
and of the results of the getters. -/
structure GeneratedParameter (s : Session) (base : Text) (here : GoRef.Owner) (ds : List Decl) (items : Bool)
    (m : Method) (x : Parameter) (p : ParameterDecl) : Prop where
  name : x.name = parseUsingCase p.name
  request : ParameterText ds items p.ref (requestField base (home base here) (Outcome.paramOf (typeOf s) m x))
  response : ParameterText ds items p.ref (responseField base (home base here) (Outcome.paramOf (typeOf s) m x))
  setter : AccessText ds items p.ref (requestSetter base (home base here) (Outcome.paramOf (typeOf s) m x))
  getter : AccessText ds items p.ref (responseGetter base (home base here) (Outcome.paramOf (typeOf s) m x))

end Verif.Whole
