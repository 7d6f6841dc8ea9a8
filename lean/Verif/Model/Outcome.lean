import Verif.Model.GoRefs
import Verif.Model.Files
import Verif.Model.Checks
import Verif.Model.Bodies

/-!
# What the generators of Go code report

Model of the functions of `pkg/generators/golang` seen as sources of errors: for each file, whether an
error is sent to the reporter while its content is generated. Errors come from types that the
calculators don't support, and from templates that use a nil pointer: the buffer reports those too
(pkg/generators/golang/buffer.go:270-299). The errors aren't counted: `Write` only checks if there are
any (pkg/generators/golang/buffer.go:302-310), and nothing is reported after the first file with errors.

The templates use `and` with operands that can only be evaluated if the first one is true
(pkg/generators/golang/clients_generator.go:938), so the generators have to be built with a version of
Go where `and` doesn't evaluate the rest of the operands (1.18 or newer).
-/

namespace Verif.Outcome

open GoRef (Typ Attr Param)

/-- A type of a version: the part used by the type calculators, whether it is a class, and its
attributes, pkg/concepts/type.go:70-83. -/
structure TypeInfo where
  typ : Typ
  isClass : Bool := false
  attributes : List Attr := []

/-- A version: its name, its types and resources in the order in which `Types` and `Resources` return
them, the root and the predefined types, pkg/concepts/version.go:27-37. Resources are pointers to the
memory. -/
structure VersionInfo where
  name : Name
  types : List TypeInfo
  root : Option ResId
  resources : List ResId
  builtins : Builtins
  errors : GoMap ErrorConcept := []

/-- A service: its name and its versions, pkg/concepts/service.go:26-32. -/
structure ServiceInfo where
  name : Name
  versions : List VersionInfo

/-- A model: its services, pkg/concepts/model.go:23-25, the memory where the resources live and, for
each pointer to a type, the type. -/
structure Api where
  services : List ServiceInfo
  graph : Graph
  typeOf : TypeId → Typ

/-! ## Types -/

/-- `BitmapType` reports an error, pkg/generators/golang/types_calculator.go:493-528, for a struct. -/
def bitmapReports (isClass : Bool) (attributes : List Attr) : Bool :=
  let max := if isClass then 64 - 3 else 64
  decide (attributes.length > max)

/-- An error is reported for a reference. -/
def wrong (ref : GoRef.Ref) : Bool := decide (ref.errors ≠ 0)

/-- `generateStructTypeSource`, pkg/generators/golang/types_generator.go:308-592, for one attribute:
the type of the field (lines 341 and 346) and of the getter (line 419). -/
def attributeTypeReports (base : Text) (a : Attr) : Bool :=
  wrong (GoRef.fieldType base a) || wrong (GoRef.getterType base a)

/-- The file of a struct or of an enumerated type, pkg/generators/golang/types_generator.go:282-306 and
308-592. -/
def typeReports (base : Text) (t : TypeInfo) : Bool :=
  match t.typ with
  | .struct _ => bitmapReports t.isClass t.attributes || t.attributes.any (attributeTypeReports base)
  | .enum d => wrong (GoRef.enumReference base (.enum d))
  | _ => false

/-! ## Builders -/

/-- `builderName`, pkg/generators/golang/builders_generator.go:585-610, which reports an error for
types that aren't structs or lists. `builderCtor` and `objectName`, lines 560-583 and 612-636, report
an error for the same types. -/
def builderNameReports : Typ → Bool
  | .struct _ => false
  | .list _ _ => false
  | _ => true

/-- `generateStructBuilderSource`, pkg/generators/golang/builders_generator.go:210-456, for one
attribute: the types of the field and of the setter, for all of them (lines 227, 232 and 276); the
element of lists that aren't links, lines 291-300 and 357-363; and the element of maps, lines 371-380.
The names used only inside of branches for structs or lists can't fail. -/
def attributeBuilderReports (base : Text) (a : Attr) : Bool :=
  wrong (GoRef.builderFieldType base a) || wrong (GoRef.builderSetterType base a) ||
    match a.typ with
    | .list _ element =>
      !a.link && (wrong (GoRef.valueReference base element) ||
        (!element.isScalar && builderNameReports element))
    | .map _ element => element.isStruct && builderNameReports element
    | _ => false

/-- The file of the builder of a struct or of a list of structs,
pkg/generators/golang/builders_generator.go:210-456 and 492-555. -/
def builderReports (base : Text) (t : TypeInfo) : Bool :=
  match t.typ with
  | .struct d =>
    builderNameReports (.struct d) || bitmapReports t.isClass t.attributes ||
      t.attributes.any (attributeBuilderReports base)
  | .list d element => builderNameReports (.list d element) || builderNameReports element
  | _ => false

/-! ## Readers and writers of JSON -/

/-- `generateReadValue`, pkg/generators/golang/json_generator.go:1323-1396. -/
def readReports (base : Text) (link : Bool) : Typ → Bool
  | .basic _ => false
  | .enum d => wrong (GoRef.enumReference base (.enum d))
  | .struct _ => false
  | .list d element => link && wrong (GoRef.structReference base (.list d element))
  | .map d element => wrong (GoRef.valueReference base (.map d element)) || readReports base false element

/-- The file of the readers and writers of a struct or of a list,
pkg/generators/golang/json_generator.go:582-716 and 763-829. `generateWriteValue`, lines 1438-1501,
reports nothing. -/
def typeJsonReports (base : Text) (t : TypeInfo) : Bool :=
  match t.typ with
  | .struct d =>
    wrong (GoRef.structReference base (.struct d)) ||
      t.attributes.any fun a => readReports base a.link a.typ
  | .list d element =>
    wrong (GoRef.structReference base (.list d element)) ||
      wrong (GoRef.valueReference base (.list d element)) || readReports base false element
  | _ => false

/-- `generateReadBodyParameter`, pkg/generators/golang/json_generator.go:1300-1321. -/
def readParameterReports (base : Text) (typeOf : TypeId → Typ) (p : Parameter) : Bool :=
  readReports base false (typeOf p.typ.id)

/-- The case for the items of the function that reads the response of `List` and `Search` methods,
pkg/generators/golang/json_generator.go:1027-1036 and 1159-1168. Without items the template fails. -/
def itemsReports (base : Text) (typeOf : TypeId → Typ) : Option Parameter → Bool
  | none => true
  | some items =>
    readReports base false (typeOf items.typ.id) ||
      match typeOf items.typ.id with
      | .list d element => !element.isScalar && wrong (GoRef.structReference base (.list d element))
      | t => wrong (GoRef.structReference base t)

/-- `generateListMethodSource` and `generateSearchMethodSource`,
pkg/generators/golang/json_generator.go:972-1053 and 1097-1187. The names are those of the parameters
that are treated in a special way. -/
def pageReports (base : Text) (typeOf : TypeId → Typ) (m : Method) (names : List Name) : Bool :=
  (GoJson.lastNamed m Nom.page).any (readParameterReports base typeOf) ||
  (GoJson.lastNamed m Nom.size).any (readParameterReports base typeOf) ||
  (GoJson.lastNamed m Nom.total).any (readParameterReports base typeOf) ||
  ((GoJson.otherParameters m names).filter fun p => p.isOut).any (readParameterReports base typeOf) ||
  itemsReports base typeOf (GoJson.lastNamed m Nom.items)

/-- `generateMethodSource`, pkg/generators/golang/json_generator.go:884-908, and the functions that it
calls, lines 910-1264. The template of methods with a body fails if there isn't a parameter for it. -/
def methodJsonReports (base : Text) (typeOf : TypeId → Typ) (m : Method) : Bool :=
  if m.isAdd then (m.getParameter Nom.body).isNone
  else if m.isDelete || m.isAsyncDelete then false
  else if m.isGet then (m.getParameter Nom.body).isNone
  else if m.isList then pageReports base typeOf m [Nom.page, Nom.size, Nom.total, Nom.items]
  else if m.isPost then false
  else if m.isSearch then
    pageReports base typeOf m [Nom.page, Nom.size, Nom.total, Nom.body, Nom.items]
  else if m.isUpdate || m.isAsyncUpdate then (m.getParameter Nom.body).isNone
  else if m.isAction then
    (Binding.responseParameters m).any (readParameterReports base typeOf)
  else true

/-- The file of the readers and writers of the requests and responses of a resource,
pkg/generators/golang/json_generator.go:831-882. -/
def resourceJsonReports (base : Text) (typeOf : TypeId → Typ) (r : Resource) : Bool :=
  r.methods.any (methodJsonReports base typeOf)

/-! ## Clients -/

/-- The part of a parameter that the type calculators use: the type and the result of `IsItems`,
pkg/concepts/parameter.go:82-85. -/
def paramOf (typeOf : TypeId → Typ) (m : Method) (p : Parameter) : Param :=
  { typ := typeOf p.typ.id, items := p.isItems m }

/-- `generateRequestSource`, pkg/generators/golang/clients_generator.go:754-902: the types of the
fields and of the setters of the request. -/
def requestReports (base : Text) (typeOf : TypeId → Typ) (m : Method) : Bool :=
  (Binding.requestParameters m).any fun p =>
    wrong (GoRef.parameterFieldType base (paramOf typeOf m p)) ||
      wrong (GoRef.accessorType base (paramOf typeOf m p))

/-- `generateResponseSource`, pkg/generators/golang/clients_generator.go:904-1013: the types of the
fields and of the getters of the response. -/
def responseReports (base : Text) (typeOf : TypeId → Typ) (m : Method) : Bool :=
  (Binding.responseParameters m).any fun p =>
    (match typeOf p.typ.id with
      | .list _ element =>
        if element.isScalar then wrong (GoRef.valueReference base element)
        else wrong (GoRef.parameterFieldType base (paramOf typeOf m p))
      | _ => wrong (GoRef.parameterFieldType base (paramOf typeOf m p))) ||
      wrong (GoRef.accessorType base (paramOf typeOf m p))

/-- `generatePollMethodSource`, pkg/generators/golang/clients_generator.go:586-752: the types of the
setters of the request and of the getters of the response. -/
def pollReports (base : Text) (typeOf : TypeId → Typ) (m : Method) : Bool :=
  (Binding.requestParameters m).any (fun p => wrong (GoRef.accessorType base (paramOf typeOf m p))) ||
    (Binding.responseParameters m).any fun p => wrong (GoRef.accessorType base (paramOf typeOf m p))

/-- `FindMethod`, pkg/concepts/resource.go:66-73. -/
def findMethod (r : Resource) (name : Name) : Option Method :=
  r.methods.find? fun m => m.named name

/-- `generateResourceClientSource`, pkg/generators/golang/clients_generator.go:483-584: whether
something is reported. It panics if the resource has a `Get` method without parameters for the
response, because line 588 takes the first one. A locator without a target makes the template
fail. -/
def clientReports (base : Text) (typeOf : TypeId → Typ) (r : Resource) : Run Bool :=
  let locators := r.locators.any fun l => l.target.isNone
  let methods := r.methods.any fun m => requestReports base typeOf m || responseReports base typeOf m
  match findMethod r Nom.get with
  | none => .done (locators || methods)
  | some m =>
    match Binding.responseBodyParameters m with
    | [] => .panic
    | _ :: _ => .done (locators || pollReports base typeOf m || methods)

/-- `generateServiceClientSource`, pkg/generators/golang/clients_generator.go:220-262: a version
without root makes the template fail. -/
def serviceClientReports (s : ServiceInfo) : Bool := s.versions.any fun v => v.root.isNone

/-- `generateVersionErrorsSource`, pkg/generators/golang/errors_generator.go:757-769: the template asks for the errors of
the version, and if that panics the template engine recovers and returns an error (Go standard library, `safeCall` of
`text/template`), which is reported by `Eval`, pkg/generators/golang/buffer.go:235-246. -/
def errorsReports (v : VersionInfo) : Bool :=
  match errorsListing v.errors with
  | .panic => true
  | .value _ => false

/-! ## All the files -/

/-- The name of a type, pkg/concepts/named.go:30-32. -/
def typeName : Typ → Name
  | .basic .boolean => Nom.boolean
  | .basic .integer => Nom.integer
  | .basic .long => Nom.long
  | .basic .float => Nom.float
  | .basic .string => Nom.string
  | .basic .date => Nom.date
  | .basic .interface => Nom.interface
  | .enum d => d.name
  | .struct d => d.name
  | .list d _ => d.name
  | .map d _ => d.name

/-- The kind of a type, as told apart by the `Run` methods of the generators. -/
def typeKind : Typ → Files.Kind
  | .basic .interface => .interface
  | .basic _ => .scalar
  | .enum _ => .enum
  | .struct _ => .struct
  | .map _ _ => .map
  | .list _ (.basic _) => .listOfScalar
  | .list _ (.enum _) => .listOfEnum
  | .list _ (.struct _) => .listOfStruct
  | .list _ _ => .listOfOther

namespace Api

variable (api : Api)

/-- The resources of a version. -/
def resourcesOf (v : VersionInfo) : List Resource := v.resources.filterMap fun r => api.graph[r]?

/-- What the `Run` methods of the generators see of the model. -/
def view : List Files.ServiceView :=
  api.services.map fun s =>
    { name := s.name
      versions := s.versions.map fun v =>
        { name := v.name
          types := v.types.map fun t => { name := typeName t.typ, kind := typeKind t.typ }
          resources := (api.resourcesOf v).map Resource.name } }

/-- What the checks see of the model. -/
def checkViews : List Check.VersionView :=
  api.services.flatMap fun s =>
    s.versions.map fun v => { builtins := v.builtins, root := v.root, resources := v.resources }

/-- The versions with those names. -/
def versionsNamed (service version : Name) : List VersionInfo :=
  (api.services.filter fun s => s.name = service).flatMap fun s =>
    s.versions.filter fun v => v.name = version

/-- The types with those names. -/
def typesNamed (service version type : Name) : List TypeInfo :=
  (api.versionsNamed service version).flatMap fun v => v.types.filter fun t => typeName t.typ = type

/-- The resources with those names. -/
def resourcesNamed (service version resource : Name) : List Resource :=
  (api.versionsNamed service version).flatMap fun v =>
    (api.resourcesOf v).filter fun r => r.name = resource

/-- Whether an error is reported while the content of a file is generated. The files that aren't in
the list have no templates that can fail: common errors, helpers and metadata. -/
def reports (base : Text) : Files.Slot → Bool
  | .type s v t => (api.typesNamed s v t).any (typeReports base)
  | .builder s v t => (api.typesNamed s v t).any (builderReports base)
  | .typeJson s v t => (api.typesNamed s v t).any (typeJsonReports base)
  | .client s v r =>
    (api.resourcesNamed s v r).any fun r => clientReports base api.typeOf r ≠ .done false
  | .resourceJson s v r => (api.resourcesNamed s v r).any (resourceJsonReports base api.typeOf)
  | .errors s v => (api.versionsNamed s v).any errorsReports
  | .serviceClient s => (api.services.filter fun x => x.name = s).any serviceClientReports
  | _ => false

/-- The environment of the generators: the files that can be written are given. The generation of the
specifications reports errors only for types of unknown kinds
(pkg/generators/openapi/openapi_generator.go:581-586), which this model doesn't have. -/
def env (base : Text) (writable specWritable : Text → Bool) : Files.Env :=
  { reports := fun slot => if api.reports base slot then 1 else 0
    specReports := fun _ _ => 0
    writable := writable
    specWritable := specWritable }

/-- The segments and roots used by the metrics generator. The names are those of the model, without
annotations. -/
def roots : List ServiceRoots :=
  api.services.map fun s =>
    { segment := Binding.segment s.name []
      versions := s.versions.map fun v => { segment := Binding.segment v.name [], root := v.root } }

end Api

end Verif.Outcome
