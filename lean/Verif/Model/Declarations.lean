import Verif.Model.GoNames

/-!
# The names declared and used by the package of a version

Model of the names that the generators of Go code give to the constants, variables, types and
functions of the package generated for a version: `types_generator.go`, `builders_generator.go`,
`clients_generator.go`, `json_generator.go`, `errors_generator.go` and `openapi_generator.go` of
`pkg/generators/golang`. Methods, fields and local variables aren't names of the package: see
`Verif.Model.Members`.
-/

namespace Verif.Decls

/-- The name and the annotations of a concept, pkg/concepts/named.go:24-36 and
pkg/concepts/annotated.go:20-45. -/
structure Label where
  name : Name
  annotations : List Annotation := []
deriving DecidableEq, Repr

/-- The types of a version, pkg/concepts/type.go:70-83, as far as the names need it. `builtin` are
the scalar types that aren't enumerated types. The attributes are in `TypeView`. -/
inductive TypeShape where
  | builtin (l : Label)
  | enum (l : Label) (values : List EnumValue)
  | struct (l : Label) (isClass : Bool)
  | list (l : Label) (element : TypeShape)
  | map (l : Label) (element : TypeShape)

/-- The name of a type. -/
def TypeShape.label : TypeShape → Label
  | .builtin l => l
  | .enum l _ => l
  | .struct l _ => l
  | .list l _ => l
  | .map l _ => l

/-- `IsScalar`, pkg/concepts/type.go:172-177. -/
def TypeShape.isScalar : TypeShape → Bool
  | .builtin _ => true
  | .enum _ _ => true
  | _ => false

/-- `IsStruct`, pkg/concepts/type.go:189-191: also for classes. -/
def TypeShape.isStruct : TypeShape → Bool
  | .struct _ _ => true
  | _ => false

/-- `Attribute`, pkg/concepts/attribute.go:24-33. The owner of the link is the selector of its
package, as calculated by `VersionSelector`, pkg/generators/golang/packages_calculator.go:111-113. -/
structure AttributeView where
  label : Label
  typ : TypeShape
  link : Bool := false
  linkOwner : Option Text := none

/-- A type together with its attributes. -/
structure TypeView where
  shape : TypeShape
  attributes : List AttributeView := []

/-- A version: the types, resources and errors that `Types`, `Resources` and `Errors` return,
pkg/concepts/version.go:66-205, and the targets of the locators. -/
structure VersionView where
  types : List TypeView := []
  resources : List Resource := []
  errors : List Name := []
  target : Locator → Option Resource := fun _ => none

/-- The name given with the annotation or the public name: `objectName`,
pkg/generators/golang/types_generator.go:637-643, and the same code in the other generators. -/
def goName (l : Label) : Text := Go.nameOf l.annotations l.name

/-- `IsRoot`, pkg/concepts/resource.go:112-114, for a resource of the version: `Root` is the one whose
key is the name `Root`, pkg/concepts/version.go:188-190. -/
def isRoot (r : Resource) : Bool := r.name.toText == Nom.root.toText

/-! ## Types generator -/

/-- `listName`, pkg/generators/golang/types_generator.go:700-706. -/
def listName (l : Label) : Text := goName l ++ t!"List"

/-- The declarations of the file of a type: `generateTypeSource`, `generateEnumTypeSource` and
`generateStructTypeSource`, pkg/generators/golang/types_generator.go:283-462. The other types don't
have a file, lines 164-168. -/
def typeDecls : TypeShape → List Text
  | .enum l values => goName l :: values.map (Go.enumConstant l.annotations l.name)
  | .struct l isClass =>
    (if isClass then
      [goName l ++ t!"Kind", goName l ++ t!"LinkKind", goName l ++ t!"NilKind"]
     else []) ++
    [goName l, listName l ++ t!"Kind", listName l ++ t!"LinkKind", listName l ++ t!"NilKind",
     listName l]
  | _ => []

/-- The declarations of the types generator: the metadata,
pkg/generators/golang/types_generator.go:216-243, and the types. -/
def typesDecls (v : VersionView) : List Text :=
  t!"Metadata" :: v.types.flatMap fun t => typeDecls t.shape

/-! ## Builders generator -/

/-- `builderName`, pkg/generators/golang/builders_generator.go:585-610. The error for other types
can't happen: the file is only generated for these. -/
def builderName : TypeShape → Text
  | .struct l _ => goName l ++ t!"Builder"
  | .list _ element => goName element.label ++ t!"ListBuilder"
  | _ => []

/-- `builderCtor`, pkg/generators/golang/builders_generator.go:612-636. -/
def builderCtor : TypeShape → Text
  | .struct l _ => t!"New" ++ goName l
  | .list _ element => t!"New" ++ (goName element.label ++ t!"List")
  | _ => []

/-- The declarations of the file of the builder of a type: `Run`,
pkg/generators/golang/builders_generator.go:139-159, and the templates of lines 210-245 and
493-512. -/
def builderDecls (t : TypeShape) : List Text :=
  match t with
  | .struct _ _ => [builderName t, builderCtor t]
  | .list _ element => if element.isStruct then [builderName t, builderCtor t] else []
  | _ => []

/-- The declarations of the builders generator. -/
def buildersDecls (v : VersionView) : List Text := v.types.flatMap fun t => builderDecls t.shape

/-! ## JSON generator -/

/-- `marshalTypeFunc`, pkg/generators/golang/json_generator.go:1519-1526. -/
def marshalTypeFunc (t : TypeShape) : Text := t!"Marshal" ++ goName t.label
/-- `writeTypeFunc`, pkg/generators/golang/json_generator.go:1528-1531. -/
def writeTypeFunc (t : TypeShape) : Text := Go.publicName (Nom.write ++ t.label.name)
/-- `unmarshalTypeFunc`, pkg/generators/golang/json_generator.go:1542-1549. -/
def unmarshalTypeFunc (t : TypeShape) : Text := t!"Unmarshal" ++ goName t.label
/-- `readTypeFunc`, pkg/generators/golang/json_generator.go:1551-1554. -/
def readTypeFunc (t : TypeShape) : Text := Go.publicName (Nom.read ++ t.label.name)

/-- The functions of the file of a type: pkg/generators/golang/json_generator.go:596-680 and
780-818. -/
def jsonFuncs (t : TypeShape) : List Text :=
  [marshalTypeFunc t, writeTypeFunc t, unmarshalTypeFunc t, readTypeFunc t]

/-- The types that have a file: the `switch` of `Run`,
pkg/generators/golang/json_generator.go:189-197. -/
def jsonTypeDecls (t : TypeShape) : List Text :=
  match t with
  | .struct _ _ => jsonFuncs t
  | .list _ element => if element.isScalar || element.isStruct then jsonFuncs t else []
  | _ => []

/-- `writeRequestFunc`, pkg/generators/golang/json_generator.go:1617-1634 and
pkg/generators/golang/clients_generator.go:1204-1221. -/
def writeRequestFunc (r : Resource) (m : Method) : Text :=
  if isRoot r then Go.privateName (Nom.write ++ m.name ++ Nom.request)
  else Go.privateName (Nom.write ++ r.name ++ m.name ++ Nom.request)

/-- `readResponseFunc`, pkg/generators/golang/json_generator.go:1636-1653 and
pkg/generators/golang/clients_generator.go:1223-1240. -/
def readResponseFunc (r : Resource) (m : Method) : Text :=
  if isRoot r then Go.privateName (Nom.read ++ m.name ++ Nom.response)
  else Go.privateName (Nom.read ++ r.name ++ m.name ++ Nom.response)

/-- The functions of the file of a resource: all the cases of `generateMethodSource`,
pkg/generators/golang/json_generator.go:884-908, generate these two. The default case can't happen:
a method that isn't one of the others is an action. -/
def jsonResourceDecls (r : Resource) : List Text :=
  r.methods.flatMap fun m => [writeRequestFunc r m, readResponseFunc r m]

/-- The declarations of the JSON generator, `Run`, pkg/generators/golang/json_generator.go:150-210,
with the metadata, lines 478-513. The helpers are in another package. -/
def jsonDecls (v : VersionView) : List Text :=
  [t!"MarshalMetadata", t!"writeMetadata", t!"UnmarshalMetadata", t!"readMetadata"] ++
  (v.types.flatMap fun t => jsonTypeDecls t.shape) ++
  v.resources.flatMap jsonResourceDecls

/-! ## Clients generator -/

/-- `clientName`, pkg/generators/golang/clients_generator.go:1127-1137. -/
def clientName (r : Resource) : Text :=
  (if isRoot r then [] else Go.nameOf r.annotations r.name) ++ t!"Client"

/-- `pollRequestName` and `pollResponseName`, pkg/generators/golang/clients_generator.go:1186-1202,
for the suffixes `PollRequest` and `PollResponse`. -/
def pollName (suffix : Text) (r : Resource) : Text := Go.nameOf r.annotations r.name ++ suffix

/-- The declarations of the file of a resource: `generateResourceClientSource`,
`generatePollMethodSource`, `generateRequestSource` and `generateResponseSource`,
pkg/generators/golang/clients_generator.go:484-1012. -/
def clientDecls (r : Resource) : List Text :=
  [clientName r, t!"New" ++ clientName r] ++
  (if (r.methods.find? Method.isGet).isSome then
    [pollName t!"PollRequest" r, pollName t!"PollResponse" r] else []) ++
  r.methods.flatMap fun m =>
    [Go.messageName t!"Request" (isRoot r) r m, Go.messageName t!"Response" (isRoot r) r m]

/-- The declarations of the clients generator for a version: `generateVersionClient`,
pkg/generators/golang/clients_generator.go:258-274 and 306-332. -/
def clientsDecls (v : VersionView) : List Text :=
  [t!"MetadataRequest", t!"MetadataResponse"] ++ v.resources.flatMap clientDecls

/-! ## Errors and OpenAPI generators -/

/-- `errorName`, pkg/generators/golang/errors_generator.go:777-779. -/
def errorName (n : Name) : Text := Go.publicName (n ++ parseUsingCase t!"Error")

/-- The declarations of the errors generator for a version,
pkg/generators/golang/errors_generator.go:757-771. -/
def errorsDecls (v : VersionView) : List Text := v.errors.map errorName

/-- The variable of the embedded specification, pkg/generators/golang/openapi_generator.go:225-232. -/
def openapiDecls : List Text := [t!"OpenAPI"]

/-- All the names declared in the package of the version: the files that the generators write for a
version are all in the package `VersionPackage`, pkg/generators/golang/packages_calculator.go:98-103. -/
def declared (v : VersionView) : List Text :=
  errorsDecls v ++ typesDecls v ++ buildersDecls v ++ clientsDecls v ++ jsonDecls v ++ openapiDecls

/-! ## Names used -/

/-- A name used, with the selector of the package if it is qualified. -/
abbrev Use := Option Text × Text

/-- The names used by the code that reads a value: `generateReadValue`,
pkg/generators/golang/json_generator.go:1322-1399. `StructReference` of a list is the name of the
element followed by `List`, pkg/generators/golang/types_calculator.go:134-148; the selectors that the
buffer adds to the types of other versions are the subject of C78 and aren't repeated here. -/
def readUses (link : Bool) (owner : Option Text) : TypeShape → List Use
  | .builtin _ => []
  | .enum l _ => [(none, goName l)]
  | .struct l _ => [(owner, readTypeFunc (.struct l false))]
  | .list l element =>
    if link then
      [(owner, goName element.label ++ t!"List"), (owner, goName element.label ++ t!"List" ++ t!"LinkKind"),
       (owner, readTypeFunc (.list l element))]
    else [(none, readTypeFunc (.list l element))]
  | .map _ element => readUses false owner element

/-- The names used by the code that writes a value: `generateWriteValue`,
pkg/generators/golang/json_generator.go:1443-1500. -/
def writeUses (link : Bool) (owner : Option Text) : TypeShape → List Use
  | .builtin _ => []
  | .enum _ _ => []
  | .struct l _ => [(owner, writeTypeFunc (.struct l false))]
  | .list l element =>
    if link then [(owner, writeTypeFunc (.list l element))]
    else [(none, writeTypeFunc (.list l element))]
  | .map _ element => writeUses false owner element

/-- The names used by the code that writes and reads an attribute,
pkg/generators/golang/json_generator.go:607-715. -/
def attributeUses (a : AttributeView) : List Use :=
  writeUses a.link a.linkOwner a.typ ++ readUses a.link a.linkOwner a.typ

/-- The names of the package used by the client of a resource,
pkg/generators/golang/clients_generator.go:484-1012: those of the requests and responses, the
functions that write and read them, only if there are parameters, the metadata of the root and the
clients of the targets of the locators. -/
def clientUses (v : VersionView) (r : Resource) : List Text :=
  (if isRoot r then [t!"MetadataRequest"] else []) ++
  (r.locators.flatMap fun l =>
    match v.target l with
    | none => []
    | some target => [clientName target, t!"New" ++ clientName target]) ++
  r.methods.flatMap fun m =>
    [Go.messageName t!"Request" (isRoot r) r m, Go.messageName t!"Response" (isRoot r) r m] ++
    (if Binding.requestBodyParameters m = [] then [] else [writeRequestFunc r m]) ++
    (if Binding.responseParameters m = [] then [] else [readResponseFunc r m])

end Verif.Decls
