import Verif.Model.OpenApiBuffer
import Verif.Model.ClientPaths
import Verif.Model.Resources

/-!
# The OpenAPI generator

Model of pkg/generators/openapi/openapi_generator.go and names_calculator.go. Each function gives the
calls that it makes to the buffer, in order.
-/

namespace Verif

namespace OpenApi

/-- What the generator uses of a version: the memory of types, the types of all the versions (the
owner of a type can be another version), its own identifier, its name and the one of the service with
their annotations, the memory of resources and the root. -/
structure VersionView where
  heap : Heap
  tables : VersionId → GoMap TypeId
  id : VersionId
  name : Name
  annotations : List Annotation := []
  service : Name
  serviceAnnotations : List Annotation := []
  graph : Graph
  root : Option ResId

namespace VersionView

/-- `FindType`, pkg/concepts/version.go:94-99, for the names of the types defined by the language:
`Boolean`, `IntegerType`... lines 117-149. -/
def builtin (v : VersionView) (owner : VersionId) (name : Name) : Option TypeId :=
  (v.tables owner).find name.toText

/-- `Types`, pkg/concepts/version.go:81-91. -/
def types (v : VersionView) : List TypeCell :=
  sortByName TypeCell.name ((v.tables v.id).values.filterMap fun id => v.heap[id]?)

/-- `ServiceSegment(version.Owner())`. -/
def serviceSegment (v : VersionView) : Text := Binding.segment v.service v.serviceAnnotations

/-- `VersionSegment(version)`. -/
def versionSegment (v : VersionView) : Text := Binding.segment v.name v.annotations

end VersionView

/-- `SchemaName`, pkg/generators/openapi/names_calculator.go:78-80. -/
def schemaName (t : TypeCell) : Text := t.name.camel

/-- `AttributePropertyName`, pkg/generators/openapi/names_calculator.go:83-89. -/
def attributePropertyName (a : Attribute) : Text :=
  if jsonName a.annotations = [] then a.name.snake else jsonName a.annotations

/-- `ParameterPropertyName`, pkg/generators/openapi/names_calculator.go:92-94. -/
def parameterPropertyName (p : Parameter) : Text := p.name.snake

/-- `generateDescription`, pkg/generators/openapi/openapi_generator.go:641-645. -/
def generateDescription (doc : Text) : List Call :=
  if doc ≠ [] then [.field t!"description" (.str doc)] else []

/-- `generateSchemaReference`, pkg/generators/openapi/openapi_generator.go:548-587. A nil type, or one
without owner, makes it panic. -/
def generateSchemaReference (v : VersionView) : Nat → Option TypeId → Run (List Call)
  | 0, _ => .outOfFuel
  | _ + 1, none => .panic
  | fuel + 1, some id =>
    match v.heap[id]? with
    | none => .panic
    | some typ =>
      match typ.owner with
      | none => .panic
      | some version =>
        if v.builtin version Nom.boolean = some id then
          .done [.field t!"type" (.str t!"boolean")]
        else if v.builtin version Nom.integer = some id then
          .done [.field t!"type" (.str t!"integer"), .field t!"format" (.str t!"int32")]
        else if v.builtin version Nom.long = some id then
          .done [.field t!"type" (.str t!"integer"), .field t!"format" (.str t!"int64")]
        else if v.builtin version Nom.float = some id then
          .done [.field t!"type" (.str t!"number"), .field t!"format" (.str t!"float")]
        else if v.builtin version Nom.string = some id then
          .done [.field t!"type" (.str t!"string")]
        else if v.builtin version Nom.date = some id then
          .done [.field t!"type" (.str t!"string"), .field t!"format" (.str t!"date-time")]
        else if v.builtin version Nom.interface = some id then
          .done [.field t!"type" (.str t!"object")]
        else if typ.isEnum || typ.kind.isStruct then
          .done [.field t!"$ref" (.str (t!"#/components/schemas/" ++ schemaName typ))]
        else if typ.isList then
          (generateSchemaReference v fuel typ.element).bind fun element =>
            .done ([.field t!"type" (.str t!"array"), .startObject (some t!"items")] ++ element
              ++ [.endObject])
        else if typ.isMap then
          (generateSchemaReference v fuel typ.element).bind fun element =>
            .done ([.field t!"type" (.str t!"object"),
                .startObject (some t!"additionalProperties")] ++ element ++ [.endObject])
        else .done [.report]

/-- `genrateParameterProperty`, pkg/generators/openapi/openapi_generator.go:427-433. -/
def generateParameterProperty (v : VersionView) (fuel : Nat) (p : Parameter) : Run (List Call) :=
  (generateSchemaReference v fuel (some p.typ.id)).bind fun reference =>
    .done ([.startObject (some (parameterPropertyName p))] ++ generateDescription p.doc ++ reference
      ++ [.endObject])

/-- The content of the `schema` objects of requests and responses,
pkg/generators/openapi/openapi_generator.go:325-334 and 399-408, for a list that isn't empty. -/
def generateParametersSchema (v : VersionView) (fuel : Nat) (m : Method)
    (parameters : List Parameter) : Run (List Call) :=
  match parameters with
  | [] => .panic
  | first :: rest =>
    if parameters.length > 1 ∨ m.isAction then
      (forEach (generateParameterProperty v fuel) (first :: rest)).bind fun properties =>
        .done ([.field t!"type" (.str t!"object"), .startObject (some t!"properties")] ++ properties
          ++ [.endObject])
    else generateSchemaReference v fuel (some first.typ.id)

/-- `generatePathParameter`, pkg/generators/openapi/openapi_generator.go:368-377. -/
def generatePathParameter (l : Locator) : List Call :=
  [ .startObject none,
    .field t!"name" (.str (Binding.locatorSegment l ++ t!"_id")),
    .field t!"in" (.str t!"path"),
    .startObject (some t!"schema"),
    .field t!"type" (.str t!"string"),
    .endObject,
    .field t!"required" (.bool true),
    .endObject ]

/-- `generateQueryParameter`, pkg/generators/openapi/openapi_generator.go:379-388. -/
def generateQueryParameter (v : VersionView) (fuel : Nat) (p : Parameter) : Run (List Call) :=
  (generateSchemaReference v fuel (some p.typ.id)).bind fun reference =>
    .done ([.startObject none, .field t!"name" (.str (Binding.queryParameterName p))]
      ++ generateDescription p.doc
      ++ [.field t!"in" (.str t!"query"), .startObject (some t!"schema")] ++ reference
      ++ [.endObject, .endObject])

/-- `generateURLParameters`, pkg/generators/openapi/openapi_generator.go:344-366. -/
def generateURLParameters (v : VersionView) (fuel : Nat) (path : List Locator) (m : Method) :
    Run (List Call) :=
  let locators := path.filter fun l => l.isVariable
  let parameters := Binding.requestQueryParameters m
  if locators.length + parameters.length > 0 then
    (forEach (generateQueryParameter v fuel) parameters).bind fun query =>
      .done ([.startArray (some t!"parameters")] ++ locators.flatMap generatePathParameter ++ query
        ++ [.endArray])
  else .done []

/-- The `default` response, pkg/generators/openapi/openapi_generator.go:269-278 and 414-423. -/
def generateDefaultResponse : List Call :=
  [.startObject (some t!"default")] ++ generateDescription t!"Error." ++
  [ .startObject (some t!"content"),
    .startObject (some t!"application/json"),
    .startObject (some t!"schema"),
    .field t!"$ref" (.str t!"#/components/schemas/Error"),
    .endObject, .endObject, .endObject, .endObject ]

/-- `generateResponses`, pkg/generators/openapi/openapi_generator.go:390-425. -/
def generateResponses (v : VersionView) (fuel : Nat) (m : Method) : Run (List Call) :=
  let parameters := Binding.responseParameters m
  (if parameters.length > 0 then
    (generateParametersSchema v fuel m parameters).bind fun schema =>
      .done ([ .startObject (some t!"content"),
               .startObject (some t!"application/json"),
               .startObject (some t!"schema") ] ++ schema ++ [.endObject, .endObject, .endObject])
  else .done []).bind fun content =>
    .done ([ .startObject (some t!"responses"),
             .startObject (some (natText (Binding.defaultStatus m))) ]
      ++ generateDescription t!"Success." ++ content ++ [.endObject] ++ generateDefaultResponse
      ++ [.endObject])

/-- The request body, inside `generateMethod`, pkg/generators/openapi/openapi_generator.go:319-339. -/
def generateRequestBody (v : VersionView) (fuel : Nat) (m : Method) : Run (List Call) :=
  let parameters := Binding.requestBodyParameters m
  if parameters.length > 0 then
    (generateParametersSchema v fuel m parameters).bind fun schema =>
      .done ([ .startObject (some t!"requestBody"),
               .startObject (some t!"content"),
               .startObject (some t!"application/json"),
               .startObject (some t!"schema") ] ++ schema
        ++ [.endObject, .endObject, .endObject, .endObject])
  else .done []

/-- `generateMethod`, pkg/generators/openapi/openapi_generator.go:315-342. -/
def generateMethod (v : VersionView) (fuel : Nat) (path : List Locator) (m : Method) :
    Run (List Call) :=
  (generateURLParameters v fuel path m).bind fun parameters =>
  (generateRequestBody v fuel m).bind fun body =>
  (generateResponses v fuel m).bind fun responses =>
    .done ([.startObject (some (toLower (Binding.method m)))] ++ generateDescription m.doc
      ++ parameters ++ body ++ responses ++ [.endObject])

/-- `generateResourcePaths`, pkg/generators/openapi/openapi_generator.go:284-314. -/
def generateResourcePaths (v : VersionView) (fuel : Nat) (prefixText : Text) (path : List Locator)
    (resource : Option ResId) : Run (List Call) :=
  match resource with
  | none => .panic
  | some resource =>
    let without := (v.graph.methods resource).filter fun m => Binding.methodSegment m = []
    let with_ := (v.graph.methods resource).filter fun m => Binding.methodSegment m ≠ []
    (if without.length > 0 then
      (forEach (generateMethod v fuel path) without).bind fun methods =>
        .done ([.startObject (some prefixText)] ++ methods ++ [.endObject])
    else .done []).bind fun shared =>
    (forEach (fun m =>
      (generateMethod v fuel path m).bind fun method =>
        .done ([.startObject (some (prefixText ++ t!"/" ++ Binding.methodSegment m))] ++ method
          ++ [.endObject])) with_).bind fun own =>
      .done (shared ++ own)

/-- `generateMetadataPath`, pkg/generators/openapi/openapi_generator.go:254-282. -/
def generateMetadataPath (v : VersionView) : List Call :=
  [ .startObject (some (absolutePath v.serviceSegment v.versionSegment [])),
    .startObject (some t!"get") ] ++ generateDescription t!"Retrieves the version metadata." ++
  [ .startObject (some t!"responses"),
    .startObject (some t!"200") ] ++ generateDescription t!"Success." ++
  [ .startObject (some t!"content"),
    .startObject (some t!"application/json"),
    .startObject (some t!"schema"),
    .field t!"$ref" (.str t!"#/components/schemas/Metadata"),
    .endObject, .endObject, .endObject, .endObject ] ++ generateDefaultResponse ++
  [.endObject, .endObject, .endObject]

/-- The loop that fills the index of paths, pkg/generators/openapi/openapi_generator.go:220-224. -/
def pathIndex (v : VersionView) (paths : List (List Locator)) : GoMap (List Locator) :=
  paths.foldl (fun index path =>
    index.insert (absolutePath v.serviceSegment v.versionSegment path) path) []

/-- Insertion of a text in a sorted list of texts. -/
def insertText (x : Text) : List Text → List Text
  | [] => [x]
  | y :: ys => if compareText x y < 0 then x :: y :: ys else y :: insertText x ys

/-- `sort.Strings` (Go standard library). The library uses other algorithms; the result is the
same. -/
def sortTexts (l : List Text) : List Text := l.foldl (fun acc x => insertText x acc) []

/-- The loop that generates the paths of the resources that aren't the root,
pkg/generators/openapi/openapi_generator.go:245-249: `index[prefix]`, `path[len(path)-1].Target()`. -/
def generatePathEntry (v : VersionView) (fuel : Nat) (index : GoMap (List Locator))
    (prefixText : Text) : Run (List Call) :=
  match ((index.find prefixText).getD []).getLast? with
  | none => .panic
  | some last =>
    generateResourcePaths v fuel prefixText ((index.find prefixText).getD []) last.target

/-- `generatePaths`, pkg/generators/openapi/openapi_generator.go:217-252. -/
def generatePaths (v : VersionView) (fuel : Nat) : Run (List Call) :=
  (paths v.graph fuel v.root).bind fun paths =>
  let index := pathIndex v paths
  (generateResourcePaths v fuel (absolutePath v.serviceSegment v.versionSegment []) [] v.root).bind
    fun root =>
  (forEach (generatePathEntry v fuel index) (sortTexts index.keys)).bind fun rest =>
    .done ([.startObject (some t!"paths")] ++ generateMetadataPath v ++ root ++ rest ++ [.endObject])

/-- `generateInfo`, pkg/generators/openapi/openapi_generator.go:184-197. -/
def generateInfo (v : VersionView) : List Call :=
  [ .startObject (some t!"info"),
    .field t!"version" (.str v.name.toText),
    .field t!"title" (.str v.service.toText),
    .startObject (some t!"license"),
    .field t!"name" (.str t!"Apache 2.0"),
    .field t!"url" (.str t!"http://www.apache.org/licenses/LICENSE-2.0"),
    .endObject,
    .startObject (some t!"contact"),
    .field t!"name" (.str t!"OCM Feedback"),
    .field t!"email" (.str t!"ocm-feedback@redhat.com"),
    .endObject,
    .endObject ]

/-- `generateServers`, pkg/generators/openapi/openapi_generator.go:199-215. -/
def generateServers : List Call :=
  [ .startArray (some t!"servers"),
    .startObject none,
    .field t!"description" (.str t!"Production"),
    .field t!"url" (.str t!"https://api.openshift.com"),
    .endObject,
    .startObject none,
    .field t!"description" (.str t!"Stage"),
    .field t!"url" (.str t!"https://api.stage.openshift.com"),
    .endObject,
    .endArray ]

/-- The text of the description of the `kind` of a class,
pkg/generators/openapi/openapi_generator.go:504-508. -/
def kindDescription (name : Text) : Text :=
  t!"Indicates the type of this object. Will be '" ++ name ++ t!"' if this is a complete object or '"
    ++ name ++ t!"Link' if it is just a link."

/-- A property of string type with a description, as in
pkg/generators/openapi/openapi_generator.go:503-510. -/
def generateStringProperty (name description : Text) : List Call :=
  [.startObject (some name)] ++ generateDescription description ++
  [.field t!"type" (.str t!"string"), .endObject]

/-- `generateMetadataSchema`, pkg/generators/openapi/openapi_generator.go:468-481. -/
def generateMetadataSchema : List Call :=
  [.startObject (some t!"Metadata")] ++ generateDescription t!"Version metadata." ++
  [.startObject (some t!"properties")] ++
  generateStringProperty t!"server_version" t!"Version of the server." ++
  [.endObject, .endObject]

/-- `generateEnumSchema`, pkg/generators/openapi/openapi_generator.go:483-494. -/
def generateEnumSchema (t : TypeCell) : List Call :=
  [.startObject (some (schemaName t))] ++ generateDescription t.doc ++
  [.field t!"type" (.str t!"string"), .startArray (some t!"enum")] ++
  t.values.map (fun value => .item (.str (Binding.enumValueName value))) ++
  [.endArray, .endObject]

/-- `generateStructProperty`, pkg/generators/openapi/openapi_generator.go:531-537. -/
def generateStructProperty (v : VersionView) (fuel : Nat) (a : Attribute) : Run (List Call) :=
  (generateSchemaReference v fuel (some a.typ)).bind fun reference =>
    .done ([.startObject (some (attributePropertyName a))] ++ generateDescription a.doc ++ reference
      ++ [.endObject])

/-- `generateStructSchema`, pkg/generators/openapi/openapi_generator.go:496-529. -/
def generateStructSchema (v : VersionView) (fuel : Nat) (t : TypeCell) : Run (List Call) :=
  (forEach (generateStructProperty v fuel) t.attributes).bind fun properties =>
    .done ([.startObject (some (schemaName t))] ++ generateDescription t.doc ++
      [.startObject (some t!"properties")] ++
      (if t.isClass then
        generateStringProperty t!"kind" (kindDescription (schemaName t)) ++
        generateStringProperty t!"id" t!"Unique identifier of the object." ++
        generateStringProperty t!"href" t!"Self link."
      else []) ++ properties ++ [.endObject, .endObject])

/-- `generateSchema`, pkg/generators/openapi/openapi_generator.go:459-466. -/
def generateSchema (v : VersionView) (fuel : Nat) (t : TypeCell) : Run (List Call) :=
  if t.isEnum then .done (generateEnumSchema t)
  else if t.kind.isStruct then generateStructSchema v fuel t
  else .done []

/-- `generateErrorSchema`, pkg/generators/openapi/openapi_generator.go:589-639. -/
def generateErrorSchema : List Call :=
  [ .startObject (some t!"Error"),
    .field t!"type" (.str t!"object"),
    .startObject (some t!"properties") ] ++
  generateStringProperty t!"kind" t!"Indicates the type of this object. Will always be 'Error'" ++
  [.startObject (some t!"id")] ++ generateDescription t!"Numeric identifier of the error." ++
  [ .field t!"type" (.str t!"integer"),
    .field t!"format" (.str t!"int32"),
    .endObject ] ++
  generateStringProperty t!"href" t!"Self link." ++
  generateStringProperty t!"code"
    (t!"Globally unique code of the error, composed of the unique identifier of the API " ++
     t!"and the numeric identifier of the error. For example, for if the " ++
     t!"numeric identifier of the error is `93` and the identifier of the API " ++
     t!"is `clusters_mgmt` then the code will be `CLUSTERS-MGMT-93`.") ++
  generateStringProperty t!"reason" t!"Human readable description of the error." ++
  [.startObject (some t!"details")] ++ generateDescription t!"Extra information about the error." ++
  [ .field t!"type" (.str t!"object"),
    .field t!"additionalProperties" (.bool true),
    .endObject,
    .endObject,
    .endObject ]

/-- `generateComponents`, pkg/generators/openapi/openapi_generator.go:435-457. -/
def generateComponents (v : VersionView) (fuel : Nat) : Run (List Call) :=
  (forEach (generateSchema v fuel) v.types).bind fun schemas =>
    .done ([.startObject (some t!"components"), .startObject (some t!"schemas")] ++
      generateMetadataSchema ++ schemas ++ generateErrorSchema ++
      [ .endObject,
        .startObject (some t!"securitySchemes"),
        .startObject (some t!"bearer"),
        .field t!"type" (.str t!"http"),
        .field t!"scheme" (.str t!"bearer"),
        .field t!"bearerFormat" (.str t!"JWT"),
        .endObject,
        .endObject,
        .endObject ])

/-- `generateSecurity`, pkg/generators/openapi/openapi_generator.go:539-546. -/
def generateSecurity : List Call :=
  [ .startArray (some t!"security"),
    .startObject none,
    .startArray (some t!"bearer"),
    .endArray,
    .endObject,
    .endArray ]

/-- `generateSpecSource`, pkg/generators/openapi/openapi_generator.go:173-182. -/
def generateSpecSource (v : VersionView) (fuel : Nat) : Run (List Call) :=
  (generatePaths v fuel).bind fun paths =>
  (generateComponents v fuel).bind fun components =>
    .done ([.startObject none, .field t!"openapi" (.str t!"3.0.0")] ++ generateInfo v ++
      generateServers ++ paths ++ components ++ generateSecurity ++ [.endObject])

/-- The results of `generateSpec`. -/
inductive SpecResult
  | failed
  | written (ts : List Tok)
deriving DecidableEq, Repr

/-- `generateSpec`, pkg/generators/openapi/openapi_generator.go:151-171. The number is the count of
errors that the reporter already has. -/
def generateSpec (v : VersionView) (fuel : Nat) (errors : Nat) : Run SpecResult :=
  (generateSpecSource v fuel).bind fun calls =>
    match ({ errors := errors } : Buffer).run calls with
    | none => .panic
    | some b =>
      match b.write with
      | none => .done .failed
      | some ts => .done (.written ts)

end OpenApi

end Verif
