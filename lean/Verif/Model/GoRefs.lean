import Verif.Model.GoNames

/-!
# Types written by the Go generators

Model of the calculation of the Go types of fields, getters, setters and parameters: the types
calculator, the functions of the types, builders and clients generators that use it, and the
replacement of references by texts done by the buffer.

Simplifications: the model types are trees instead of pointers; the messages reported are only
counted; the base package and the names of the packages are clean paths, so `path.Join` only puts a
slash between the elements that aren't empty.
-/

namespace Verif

namespace GoRef

/-- The version that owns a type, `Owner` of pkg/concepts/type.go:95-98: the name of its service
and its own name. -/
structure Owner where
  service : Name
  version : Name
deriving DecidableEq

/-- The part of a declared type that the calculators use: the owner, the name and the annotations,
pkg/concepts/type.go:70-83. -/
structure Decl where
  owner : Owner
  name : Name
  annotations : List Annotation := []

/-- The types that every version has, pkg/concepts/version.go:53-63. -/
inductive Basic where
  | boolean | integer | long | float | string | date | interface
deriving DecidableEq

/-- The types, pkg/concepts/type.go:70-83. `struct` are both structs and classes: the calculators
don't make a difference between them. -/
inductive Typ where
  | basic (b : Basic)
  | enum (d : Decl)
  | struct (d : Decl)
  | list (d : Decl) (element : Typ)
  | map (d : Decl) (element : Typ)

namespace Typ

/-- `IsScalar`, pkg/concepts/type.go:170-174, which also holds for the interface type and for
enumerated types. -/
def isScalar : Typ → Bool
  | .basic _ => true
  | .enum _ => true
  | _ => false

/-- `IsInterface`, pkg/concepts/type.go:155-158. -/
def isInterface : Typ → Bool
  | .basic .interface => true
  | _ => false

/-- `IsStruct`, pkg/concepts/type.go:187-191. -/
def isStruct : Typ → Bool
  | .struct _ => true
  | _ => false

/-- `IsList`, pkg/concepts/type.go:160-163. -/
def isList : Typ → Bool
  | .list _ _ => true
  | _ => false

end Typ

/-- `TypeReference`, pkg/generators/golang/types_calculator.go:546-552, together with the number of
errors reported while it was calculated. -/
structure Ref where
  imprt : Text := []
  selector : Text := []
  name : Text := []
  text : Text := []
  errors : Nat := 0
deriving DecidableEq

/-- `path.Join` of two clean elements. -/
def pathJoin (a b : Text) : Text :=
  if a = [] then b else if b = [] then a else a ++ t!"/" ++ b

/-- `path.Base` (Go standard library) of a clean path: the part after the last slash. -/
def pathBase (path : Text) : Text := (splitOn '/' path).getLastD []

/-- `VersionImport`, pkg/generators/golang/packages_calculator.go:106-108. -/
def versionImport (base : Text) (o : Owner) : Text :=
  pathJoin base (Go.versionPackage o.service o.version)

/-- `VersionSelector`, pkg/generators/golang/packages_calculator.go:111-113. -/
def versionSelector (o : Owner) : Text := pathBase (Go.versionPackage o.service o.version)

/-- The name of the Go type of a declared type: lines 134-137 of `StructReference`,
pkg/generators/golang/types_calculator.go, repeated in the other functions. -/
def goTypeName (d : Decl) : Text := Go.nameOf d.annotations d.name

/-- The name of a type: the `Name` method, pkg/concepts/named.go:30-32, and the annotations. The
names of the builtin types are those of pkg/nomenclator, and have no annotations. -/
def Typ.decl : Typ → Text
  | .basic .boolean => Go.publicName Nom.boolean
  | .basic .integer => Go.publicName Nom.integer
  | .basic .long => Go.publicName Nom.long
  | .basic .float => Go.publicName Nom.float
  | .basic .string => Go.publicName Nom.string
  | .basic .date => Go.publicName Nom.date
  | .basic .interface => Go.publicName Nom.interface
  | .enum d => goTypeName d
  | .struct d => goTypeName d
  | .list d _ => goTypeName d
  | .map d _ => goTypeName d

/-- `Package`, pkg/generators/golang/types_calculator.go:436-468, as a reference that only has the
import, the selector and the errors. -/
def package (base : Text) : Typ → Ref
  | .basic .date => { imprt := t!"time", selector := t!"time" }
  | .basic _ => {}
  | .enum d => { imprt := versionImport base d.owner, selector := pathBase (versionImport base d.owner) }
  | .struct d =>
    { imprt := versionImport base d.owner, selector := pathBase (versionImport base d.owner) }
  | .list d _ =>
    { imprt := versionImport base d.owner, selector := pathBase (versionImport base d.owner) }
  | .map _ _ => { errors := 1 }

/-- `ValueReference`, pkg/generators/golang/types_calculator.go:165-246. -/
def valueReference (base : Text) : Typ → Ref
  | .basic .boolean => { name := t!"bool", text := t!"bool" }
  | .basic .integer => { name := t!"int", text := t!"int" }
  | .basic .long => { name := t!"int64", text := t!"int64" }
  | .basic .float => { name := t!"float64", text := t!"float64" }
  | .basic .string => { name := t!"string", text := t!"string" }
  | .basic .interface => { name := t!"interface{}", text := t!"interface{}" }
  | .basic .date => { imprt := t!"time", selector := t!"time", name := t!"Time", text := t!"time.Time" }
  | .enum d =>
    { package base (.enum d) with name := goTypeName d, text := goTypeName d }
  | .list _ element =>
    if element.isScalar then
      let ref := valueReference base element
      { ref with text := t!"[]" ++ ref.text }
    else if element.isStruct then
      let ref := valueReference base element
      { ref with text := t!"[]*" ++ ref.selector ++ t!"." ++ ref.text }
    else { errors := 1 }
  | .map _ element =>
    if element.isScalar then
      let ref := valueReference base element
      { ref with text := t!"map[string]" ++ ref.text }
    else if element.isStruct then
      let ref := valueReference base element
      { ref with text := t!"map[string]*" ++ ref.selector ++ t!"." ++ ref.text }
    else { errors := 1 }
  | .struct d =>
    { package base (.struct d) with name := goTypeName d, text := goTypeName d }

/-- `EnumReference`, pkg/generators/golang/types_calculator.go:111-125. -/
def enumReference (base : Text) : Typ → Ref
  | .enum d => valueReference base (.enum d)
  | _ => { errors := 1 }

/-- `StructReference`, pkg/generators/golang/types_calculator.go:132-163. -/
def structReference (base : Text) : Typ → Ref
  | .list _ element =>
    { package base element with name := element.decl ++ t!"List", text := element.decl ++ t!"List" }
  | .struct d => { package base (.struct d) with name := goTypeName d, text := goTypeName d }
  | _ => { errors := 1 }

/-- `NullableReference`, pkg/generators/golang/types_calculator.go:248-267. -/
def nullableReference (base : Text) (typ : Typ) (referencedVersion : Text) : Ref :=
  if typ.isScalar && !typ.isInterface then
    let ref := valueReference base typ
    { ref with text := t!"*" ++ ref.text }
  else if typ.isStruct then
    let ref := valueReference base typ
    if referencedVersion ≠ [] then
      { ref with text := t!"*" ++ referencedVersion ++ t!"." ++ ref.name }
    else { ref with text := t!"*" ++ ref.selector ++ t!"." ++ ref.name }
  else valueReference base typ

/-- `ListReference`, pkg/generators/golang/types_calculator.go:274-295. -/
def listReference (base : Text) : Typ → Ref
  | .list _ element =>
    let ref := package base element
    let name := element.decl ++ t!"List"
    { ref with name := name, text := t!"*" ++ ref.selector ++ t!"." ++ name }
  | _ => { errors := 1 }

/-- `BuilderReference`, pkg/generators/golang/types_calculator.go:365-404. -/
def builderReference (base : Text) (typ : Typ) (refVersion : Text) : Ref :=
  match typ with
  | .struct d =>
    let ref := package base (.struct d)
    let name := goTypeName d ++ t!"Builder"
    if refVersion = [] then { ref with name := name, text := t!"*" ++ ref.selector ++ t!"." ++ name }
    else { ref with name := name, text := t!"*" ++ refVersion ++ t!"." ++ name }
  | .list _ element =>
    let ref := package base element
    let name := element.decl ++ t!"ListBuilder"
    if refVersion = [] then { ref with name := name, text := t!"*" ++ ref.selector ++ t!"." ++ name }
    else { ref with name := name, text := t!"*" ++ refVersion ++ t!"." ++ name }
  | _ => { errors := 1 }

/-- `ZeroValue`, pkg/generators/golang/types_calculator.go:406-434. The default case can't happen. -/
def zeroValue (base : Text) (typ : Typ) : Text :=
  match typ with
  | .struct _ => t!"nil"
  | .list _ _ => t!"nil"
  | .map _ _ => t!"nil"
  | .basic .interface => t!"nil"
  | .enum d => (valueReference base (.enum d)).name ++ t!"(\"\")"
  | .basic .boolean => t!"false"
  | .basic .integer => t!"0"
  | .basic .long => t!"0"
  | .basic .float => t!"0.0"
  | .basic .date => t!"time.Time{}"
  | .basic .string => t!"\"\""

/-- The loop of `strings.Replace` (Go standard library) with an empty replacement and no limit, for
a text to remove that isn't empty: `skip` is the number of characters of the current match that
haven't been skipped yet. -/
def removeAll (old : Text) : Nat → Text → Text
  | _, [] => []
  | skip + 1, _ :: cs => removeAll old skip cs
  | 0, c :: cs =>
    if old.isPrefixOf (c :: cs) then removeAll old (old.length - 1) cs else c :: removeAll old 0 cs

/-- The text that `replaceValue` puts instead of a reference,
pkg/generators/golang/buffer.go:410-425, for the buffer of a file of the package with the given
import path. -/
def emit (pkg : Text) (ref : Ref) : Text :=
  if ref.imprt = pkg then removeAll (ref.selector ++ t!".") 0 ref.text else ref.text

/-- The import that `replaceValue` adds for a reference, pkg/generators/golang/buffer.go:142-148 and
416: the import path and the selector. -/
def importOf (pkg : Text) (ref : Ref) : Option (Text × Text) :=
  if ref.imprt ≠ [] ∧ ref.imprt ≠ pkg then some (ref.imprt, ref.selector) else none

/-- The part of an attribute that is used to calculate types, pkg/concepts/attribute.go:24-32. -/
structure Attr where
  typ : Typ
  link : Bool := false
  linkOwner : Option Owner := none

/-- The calculation of `referencedVersion`, for example
pkg/generators/golang/types_generator.go:609-612. -/
def Attr.referencedVersion (a : Attr) : Text :=
  match a.linkOwner with
  | none => []
  | some o => o.version.toText

/-- `fieldType` of the types generator, pkg/generators/golang/types_generator.go:669-698. -/
def fieldType (base : Text) (a : Attr) : Ref :=
  if a.typ.isScalar then valueReference base a.typ
  else if a.typ.isStruct then nullableReference base a.typ a.referencedVersion
  else if a.typ.isList then
    if a.link then listReference base a.typ
    else nullableReference base a.typ a.referencedVersion
  else nullableReference base a.typ a.referencedVersion

/-- `getterType` of the types generator, pkg/generators/golang/types_generator.go:606-635. -/
def getterType (base : Text) (a : Attr) : Ref :=
  if a.typ.isScalar then valueReference base a.typ
  else if a.typ.isStruct then nullableReference base a.typ a.referencedVersion
  else if a.typ.isList then
    if a.link then listReference base a.typ
    else nullableReference base a.typ a.referencedVersion
  else nullableReference base a.typ a.referencedVersion

/-- `builderName`, pkg/generators/golang/builders_generator.go:585-610. The error reported for other
types isn't modelled. -/
def builderName : Typ → Text
  | .struct d => goTypeName d ++ t!"Builder"
  | .list _ element => element.decl ++ t!"ListBuilder"
  | _ => []

/-- `builderCtor`, pkg/generators/golang/builders_generator.go:612-636. The error reported for other
types isn't modelled. -/
def builderCtor : Typ → Text
  | .list _ element => t!"New" ++ element.decl ++ t!"List"
  | .struct d => t!"New" ++ goTypeName d
  | _ => []

/-- `objectName` of the builders generator, pkg/generators/golang/builders_generator.go:560-583. -/
def objectName : Typ → Text
  | .struct d => goTypeName d
  | .list _ element => element.decl ++ t!"List"
  | _ => []

/-- `fieldType` of the builders generator, pkg/generators/golang/builders_generator.go:642-693. -/
def builderFieldType (base : Text) (a : Attr) : Ref :=
  match a.typ with
  | .struct d => builderReference base (.struct d) a.referencedVersion
  | .list d element =>
    if a.link then builderReference base (.list d element) a.referencedVersion
    else if element.isScalar then nullableReference base (.list d element) a.referencedVersion
    else
      let ref := builderReference base element a.referencedVersion
      { imprt := ref.imprt, selector := ref.selector, text := t!"[]" ++ ref.text,
        errors := ref.errors }
  | .map d element =>
    if element.isScalar then nullableReference base (.map d element) a.referencedVersion
    else
      let ref := builderReference base element a.referencedVersion
      { imprt := ref.imprt, selector := ref.selector, text := t!"map[string]" ++ ref.text,
        errors := ref.errors }
  | t => valueReference base t

/-- `setterType` of the builders generator, pkg/generators/golang/builders_generator.go:710-761. -/
def builderSetterType (base : Text) (a : Attr) : Ref :=
  match a.typ with
  | .struct d => builderReference base (.struct d) a.referencedVersion
  | .list d element =>
    if a.link then builderReference base (.list d element) a.referencedVersion
    else if element.isScalar then valueReference base (.list d element)
    else
      let ref := builderReference base element a.referencedVersion
      { imprt := ref.imprt, selector := ref.selector, text := t!"[]" ++ ref.text,
        errors := ref.errors }
  | .map d element =>
    if element.isScalar then valueReference base (.map d element)
    else
      let ref := builderReference base element a.referencedVersion
      { imprt := ref.imprt, selector := ref.selector, text := t!"map[string]" ++ ref.text,
        errors := ref.errors }
  | t => valueReference base t

/-- `selectorType`, pkg/generators/golang/builders_generator.go:695-700. -/
def selectorType (a : Attr) : Text :=
  match a.linkOwner with
  | none => []
  | some o => versionSelector o ++ t!"."

/-- The type of the variable `value` or `values` of the setters of builders, as written in the
generated code: pkg/generators/golang/builders_generator.go:285, 293, 301 and 313. Inside the
function a variadic parameter is a slice. -/
def setterParameter (base pkg : Text) (a : Attr) : Text :=
  match a.typ with
  | .list _ element =>
    if a.link then emit pkg (builderSetterType base a)
    else if element.isScalar then t!"[]" ++ emit pkg (valueReference base element)
    else t!"[]*" ++ selectorType a ++ builderName element
  | _ => emit pkg (builderSetterType base a)

/-- The type of the value that the setters of builders assign to the field,
pkg/generators/golang/builders_generator.go:286, 294, 302 and 314: the parameter or a new slice. -/
def setterAssigned (base pkg : Text) (a : Attr) : Text :=
  match a.typ with
  | .list _ element =>
    if a.link then setterParameter base pkg a
    else if element.isScalar then t!"[]" ++ emit pkg (valueReference base element)
    else t!"[]*" ++ selectorType a ++ builderName element
  | _ => setterParameter base pkg a

/-- The type of the value that the `Copy` method of builders assigns to the field,
pkg/generators/golang/builders_generator.go:343-383. A constructor `pkg.NewX()` returns `*pkg.XBuilder`
and `Copy` returns its receiver (lines 238 and 330); the fields of scalar types are assigned the
field of the object. -/
def copyAssigned (base pkg : Text) (a : Attr) : Text :=
  match a.typ with
  | .struct d => t!"*" ++ selectorType a ++ builderName (.struct d)
  | .list d element =>
    if a.link then t!"*" ++ selectorType a ++ builderName (.list d element)
    else if element.isScalar then emit pkg (builderFieldType base a)
    else t!"[]*" ++ selectorType a ++ builderName element
  | .map _ element =>
    if element.isScalar then emit pkg (builderFieldType base a)
    else t!"map[string]*" ++ selectorType a ++ builderName element
  | _ => emit pkg (fieldType base a)

/-- The type of the slice or map that the `Build` method of builders assigns to the field of the
object, pkg/generators/golang/builders_generator.go:402-447, for the attributes that aren't built by
another builder. -/
def buildAssigned (base pkg : Text) (a : Attr) : Option Text :=
  match a.typ with
  | .struct _ => none
  | .list _ element =>
    if a.link then none
    else if element.isScalar then some (emit pkg (builderFieldType base a))
    else some (t!"[]*" ++ selectorType a ++ objectName element)
  | .map _ element =>
    if element.isScalar then some (emit pkg (builderFieldType base a))
    else some (t!"map[string]*" ++ selectorType a ++ objectName element)
  | _ => some (emit pkg (builderFieldType base a))

/-- The part of a parameter used to calculate types: `items` is the result of `IsItems`,
pkg/concepts/parameter.go:82-85. -/
structure Param where
  typ : Typ
  items : Bool := false

/-- `fieldType` of the clients generator, pkg/generators/golang/clients_generator.go:1045-1061. -/
def parameterFieldType (base : Text) (p : Param) : Ref :=
  if p.items then listReference base p.typ else nullableReference base p.typ []

/-- `accessorType` of the clients generator, pkg/generators/golang/clients_generator.go:1089-1109,
which is also `getterType` and `setterType`. -/
def accessorType (base : Text) (p : Param) : Ref :=
  match p.typ with
  | .list d element =>
    if element.isScalar then nullableReference base (.list d element) []
    else if p.items then listReference base (.list d element)
    else nullableReference base (.list d element) []
  | t =>
    if p.items then listReference base t
    else if t.isScalar then valueReference base t
    else nullableReference base t []

/-- The type of the field of a parameter in the struct of the request,
pkg/generators/golang/clients_generator.go:789-791. -/
def requestField (base pkg : Text) (p : Param) : Text := emit pkg (parameterFieldType base p)

/-- The type of the parameter of the setter of the request,
pkg/generators/golang/clients_generator.go:821. -/
def requestSetter (base pkg : Text) (p : Param) : Text := emit pkg (accessorType base p)

/-- The type of the value that the setter of a request assigns to the field,
pkg/generators/golang/clients_generator.go:822-826: the value or its address. -/
def requestAssigned (base pkg : Text) (p : Param) : Text :=
  if p.typ.isStruct || p.typ.isList then requestSetter base pkg p
  else t!"*" ++ requestSetter base pkg p

/-- The type of the field of a parameter in the struct of the response,
pkg/generators/golang/clients_generator.go:937-943. -/
def responseField (base pkg : Text) (p : Param) : Text :=
  match p.typ with
  | .list _ element =>
    if element.isScalar then t!"[]" ++ emit pkg (valueReference base element)
    else emit pkg (parameterFieldType base p)
  | _ => emit pkg (parameterFieldType base p)

/-- The type of the result of the getter of the response,
pkg/generators/golang/clients_generator.go:976-977. -/
def responseGetter (base pkg : Text) (p : Param) : Text := emit pkg (accessorType base p)

/-- Tells if the getter of a response returns what the field points to instead of the field itself,
pkg/generators/golang/clients_generator.go:979-989. -/
def responseDereferences (p : Param) : Bool := p.typ.isScalar

end GoRef

end Verif
