import Verif.Model.OpenApi
import Verif.Spec.Binding

/-!
# Specification of the OpenAPI buffer and of the OpenAPI documents

The first part says which document a sequence of calls to the buffer describes. The second part is
the document that corresponds to a version.
-/

namespace Verif

namespace OpenApi

/-! ## Outlines -/

/-- An object or array that has been started and not ended yet: its name, if it is a member of an
object, and what it contains so far. -/
inductive Frame
  | object (name : Option Text) (members : List (Text × Json))
  | array (name : Option Text) (items : List Json)

/-- Adds a document to the innermost object or array: objects accept documents with name, arrays
without it. -/
def place (name : Option Text) (value : Json) : List Frame → Option (List Frame)
  | .object own members :: outer =>
    match name with
    | some key => some (.object own (members ++ [(key, value)]) :: outer)
    | none => none
  | .array own items :: outer =>
    match name with
    | some _ => none
    | none => some (.array own (items ++ [value]) :: outer)
  | [] => none

/-- Objects contain things with names and arrays things without them. -/
def accepts (name : Option Text) : List Frame → Bool
  | .object _ _ :: _ => name.isSome
  | .array _ _ :: _ => name.isNone
  | [] => false

/-- The effect of a call on what has been described so far, innermost first. There is no result if
the call isn't properly nested. -/
def outlineStep (frames : List Frame) : Call → Option (List Frame)
  | .startObject name => if accepts name frames then some (.object name [] :: frames) else none
  | .startArray name => if accepts name frames then some (.array name [] :: frames) else none
  | .field name value => place (some name) value frames
  | .item value => place none value frames
  | .endObject =>
    match frames with
    | .object name members :: outer => place name (.obj members) outer
    | _ => none
  | .endArray =>
    match frames with
    | .array name items :: outer => place name (.arr items) outer
    | _ => none
  | .report => some frames

/-- The effect of a sequence of calls. -/
def outline (frames : List Frame) : List Call → Option (List Frame)
  | [] => some frames
  | c :: cs =>
    match outlineStep frames c with
    | none => none
    | some frames => outline frames cs

/-- The calls are properly nested and describe exactly one document. -/
def Describes (calls : List Call) (doc : Json) : Prop :=
  outline [.array none []] calls = some [.array none [doc]]

/-! ## Documents -/

/-- The schemas of the types defined by the language. -/
def builtinSchemas : List (Name × List (Text × Json)) :=
  [ (plainName [t!"boolean"], [(t!"type", .str t!"boolean")]),
    (plainName [t!"integer"], [(t!"type", .str t!"integer"), (t!"format", .str t!"int32")]),
    (plainName [t!"long"], [(t!"type", .str t!"integer"), (t!"format", .str t!"int64")]),
    (plainName [t!"float"], [(t!"type", .str t!"number"), (t!"format", .str t!"float")]),
    (plainName [t!"string"], [(t!"type", .str t!"string")]),
    (plainName [t!"date"], [(t!"type", .str t!"string"), (t!"format", .str t!"date-time")]),
    (plainName [t!"interface"], [(t!"type", .str t!"object")]) ]

/-- The type is the one that its own version has with the given name. -/
def IsBuiltin (v : VersionView) (id : TypeId) (name : Name) : Prop :=
  ∃ cell owner, v.heap[id]? = some cell ∧ cell.owner = some owner ∧
    (v.tables owner).find name.toText = some id

/-- The type isn't one of those defined by the language. -/
def NotBuiltin (v : VersionView) (id : TypeId) (cell : TypeCell) : Prop :=
  v.heap[id]? = some cell ∧ ∃ owner, cell.owner = some owner ∧
    ∀ b ∈ builtinSchemas, (v.tables owner).find b.1.toText ≠ some id

/-- The members of the schema that describes a type: basic types are described in place, enumerated
and struct types with a reference to the schema that has their name, and lists and maps with the
schema of their elements. -/
inductive SchemaRef (v : VersionView) : TypeId → List (Text × Json) → Prop
  | builtin {id name members} : (name, members) ∈ builtinSchemas → IsBuiltin v id name →
      SchemaRef v id members
  | named {id cell} : NotBuiltin v id cell →
      cell.kind = .enum ∨ cell.kind = .class ∨ cell.kind = .struct →
      SchemaRef v id [(t!"$ref", .str (t!"#/components/schemas/" ++ cell.name.camel))]
  | list {id cell element members} : NotBuiltin v id cell → cell.kind = .list →
      cell.element = some element → SchemaRef v element members →
      SchemaRef v id [(t!"type", .str t!"array"), (t!"items", .obj members)]
  | map {id cell element members} : NotBuiltin v id cell → cell.kind = .map →
      cell.element = some element → SchemaRef v element members →
      SchemaRef v id [(t!"type", .str t!"object"), (t!"additionalProperties", .obj members)]

/-- The description is included only if there is one. -/
def description (doc : Text) : List (Text × Json) :=
  if doc = [] then [] else [(t!"description", .str doc)]

/-- The content of requests and responses. -/
def content (schema : List (Text × Json)) : Text × Json :=
  (t!"content", .obj [(t!"application/json", .obj [(t!"schema", .obj schema)])])

/-- A reference to a schema. -/
def reference (name : Text) : List (Text × Json) :=
  [(t!"$ref", .str (t!"#/components/schemas/" ++ name))]

/-- The response for errors. -/
def errorResponse : Text × Json :=
  (t!"default", .obj (description t!"Error." ++ [content (reference t!"Error")]))

section

/-! In the rest the argument `schema` gives the members of the schemas of the types. -/

variable (schema : TypeId → List (Text × Json))

/-- The object with the given parameters. -/
def parametersObject (ps : List Parameter) : List (Text × Json) :=
  [ (t!"type", .str t!"object"),
    (t!"properties", .obj (ps.map fun p =>
      (p.name.snake, .obj (description p.doc ++ schema p.typ.id)))) ]

/-- The schema of the body with the given parameters: actions, and methods with several parameters,
use an object; the others use directly the schema of the only parameter. -/
def bodySchema (m : Method) (ps : List Parameter) : List (Text × Json) :=
  if m.isAction then parametersObject schema ps
  else
    match ps with
    | [p] => schema p.typ.id
    | _ => parametersObject schema ps

/-- The description of a variable of the path. -/
def pathParameter (l : Locator) : Json :=
  .obj [ (t!"name", .str (Binding.locatorSegment l ++ t!"_id")),
         (t!"in", .str t!"path"),
         (t!"schema", .obj [(t!"type", .str t!"string")]),
         (t!"required", .bool true) ]

/-- The description of a query parameter. -/
def queryParameter (p : Parameter) : Json :=
  .obj ([(t!"name", .str (Binding.queryParameterName p))] ++ description p.doc ++
    [(t!"in", .str t!"query"), (t!"schema", .obj (schema p.typ.id))])

/-- The parameters of an operation. -/
def operationParameters (path : List Locator) (m : Method) : List Json :=
  (path.filter fun l => l.isVariable).map pathParameter ++
  (Binding.requestQueryParameters m).map (queryParameter schema)

/-- The members of an operation. -/
def operation (path : List Locator) (m : Method) : Json :=
  .obj (description m.doc ++
    (if operationParameters schema path m = [] then []
     else [(t!"parameters", .arr (operationParameters schema path m))]) ++
    (if Binding.requestBodyParameters m = [] then []
     else [(t!"requestBody",
       .obj [content (bodySchema schema m (Binding.requestBodyParameters m))])]) ++
    [ (t!"responses", .obj
        [ (natText (Binding.defaultStatus m), .obj (description t!"Success." ++
            (if Binding.responseParameters m = [] then []
             else [content (bodySchema schema m (Binding.responseParameters m))]))),
          errorResponse ]) ])

/-- The path items of a resource: one for all the methods without segment, if there are any, and one
for each of the other methods. -/
def resourceItems (key : Text) (path : List Locator) (methods : List Method) : List (Text × Json) :=
  let shared := methods.filter fun m => Binding.methodSegment m = []
  let own := methods.filter fun m => Binding.methodSegment m ≠ []
  (if shared = [] then []
   else [(key, .obj (shared.map fun m =>
     ((Binding.method m).map Char.toLower, operation schema path m)))]) ++
  own.map fun m =>
    (key ++ '/' :: Binding.methodSegment m,
      .obj [((Binding.method m).map Char.toLower, operation schema path m)])

/-- The path item of the metadata. -/
def metadataItem (key : Text) : Text × Json :=
  (key, .obj
    [ (t!"get", .obj (description t!"Retrieves the version metadata." ++
        [ (t!"responses", .obj
            [ (t!"200", .obj (description t!"Success." ++ [content (reference t!"Metadata")])),
              errorResponse ]) ])) ])

/-- The key of the path of a resource: `/api`, the segments of the service and of the version, and
the segments of the locators or the names of the variables in curly brackets. -/
def pathKey (v : VersionView) (path : List Locator) : Text :=
  t!"/api" ++ ([v.serviceSegment, v.versionSegment] ++ path.map fun l =>
    if l.isVariable then '{' :: Binding.locatorSegment l ++ t!"_id}"
    else Binding.locatorSegment l).flatMap fun s => '/' :: s

/-- The keys of the paths, sorted and without repetitions, with the last path that has each key. -/
structure PathEntries (v : VersionView) (paths : List (List Locator))
    (entries : List (Text × List Locator)) : Prop where
  sorted : entries.Pairwise fun a b => a.1 < b.1
  complete : ∀ path ∈ paths, ∃ e ∈ entries, e.1 = pathKey v path
  last : ∀ e ∈ entries, ∃ before after, paths = before ++ e.2 :: after ∧ e.1 = pathKey v e.2 ∧
    ∀ path ∈ after, pathKey v path ≠ e.1

/-- The methods of the resource at the end of a path. -/
def methodsAt (v : VersionView) (path : List Locator) : List Method :=
  match path.getLast? with
  | none => []
  | some l =>
    match l.target with
    | none => []
    | some r => v.graph.methods r

/-- The path items of a version. -/
def pathItems (v : VersionView) (root : ResId) (entries : List (Text × List Locator)) :
    List (Text × Json) :=
  [metadataItem (pathKey v [])] ++
  resourceItems schema (pathKey v []) [] (v.graph.methods root) ++
  entries.flatMap fun e => resourceItems schema e.1 e.2 (methodsAt v e.2)

/-- A property of string type. -/
def stringProperty (name doc : Text) : Text × Json :=
  (name, .obj (description doc ++ [(t!"type", .str t!"string")]))

/-- The schema of a type: only enumerated and struct types have one. -/
def typeSchema (t : TypeCell) : List (Text × Json) :=
  match t.kind with
  | .enum =>
    [ (t.name.camel, .obj (description t.doc ++
        [ (t!"type", .str t!"string"),
          (t!"enum", .arr (t.values.map fun e => .str (Binding.enumValueName e))) ])) ]
  | .class =>
    [ (t.name.camel, .obj (description t.doc ++
        [ (t!"properties", .obj (
            [ stringProperty t!"kind" (t!"Indicates the type of this object. Will be '" ++
                t.name.camel ++ t!"' if this is a complete object or '" ++ t.name.camel ++
                t!"Link' if it is just a link."),
              stringProperty t!"id" t!"Unique identifier of the object.",
              stringProperty t!"href" t!"Self link." ] ++
            t.attributes.map fun a =>
              (Binding.attributeName a, .obj (description a.doc ++ schema a.typ)))) ])) ]
  | .struct =>
    [ (t.name.camel, .obj (description t.doc ++
        [ (t!"properties", .obj (t.attributes.map fun a =>
            (Binding.attributeName a, .obj (description a.doc ++ schema a.typ)))) ])) ]
  | _ => []

/-- The schema of the metadata. -/
def metadataSchema : Text × Json :=
  (t!"Metadata", .obj (description t!"Version metadata." ++
    [ (t!"properties", .obj [stringProperty t!"server_version" t!"Version of the server."]) ]))

/-- The schema of errors. -/
def errorSchema : Text × Json :=
  (t!"Error", .obj
    [ (t!"type", .str t!"object"),
      (t!"properties", .obj
        [ stringProperty t!"kind" t!"Indicates the type of this object. Will always be 'Error'",
          (t!"id", .obj (description t!"Numeric identifier of the error." ++
            [(t!"type", .str t!"integer"), (t!"format", .str t!"int32")])),
          stringProperty t!"href" t!"Self link.",
          stringProperty t!"code" (t!"Globally unique code of the error, composed of the unique " ++
            t!"identifier of the API and the numeric identifier of the error. For example, for " ++
            t!"if the numeric identifier of the error is `93` and the identifier of the API is " ++
            t!"`clusters_mgmt` then the code will be `CLUSTERS-MGMT-93`."),
          stringProperty t!"reason" t!"Human readable description of the error.",
          (t!"details", .obj (description t!"Extra information about the error." ++
            [(t!"type", .str t!"object"), (t!"additionalProperties", .bool true)])) ]) ])

/-- The schemas of a version. -/
def schemas (v : VersionView) : List (Text × Json) :=
  [metadataSchema] ++ v.types.flatMap (typeSchema schema) ++ [errorSchema]

/-- The OpenAPI document of a version. -/
def document (v : VersionView) (root : ResId) (entries : List (Text × List Locator)) : Json :=
  .obj
    [ (t!"openapi", .str t!"3.0.0"),
      (t!"info", .obj
        [ (t!"version", .str v.name.toText),
          (t!"title", .str v.service.toText),
          (t!"license", .obj
            [ (t!"name", .str t!"Apache 2.0"),
              (t!"url", .str t!"http://www.apache.org/licenses/LICENSE-2.0") ]),
          (t!"contact", .obj
            [ (t!"name", .str t!"OCM Feedback"),
              (t!"email", .str t!"ocm-feedback@redhat.com") ]) ]),
      (t!"servers", .arr
        [ .obj [ (t!"description", .str t!"Production"),
                 (t!"url", .str t!"https://api.openshift.com") ],
          .obj [ (t!"description", .str t!"Stage"),
                 (t!"url", .str t!"https://api.stage.openshift.com") ] ]),
      (t!"paths", .obj (pathItems schema v root entries)),
      (t!"components", .obj
        [ (t!"schemas", .obj (schemas schema v)),
          (t!"securitySchemes", .obj
            [ (t!"bearer", .obj
                [ (t!"type", .str t!"http"),
                  (t!"scheme", .str t!"bearer"),
                  (t!"bearerFormat", .str t!"JWT") ]) ]) ]),
      (t!"security", .arr [.obj [(t!"bearer", .arr [])]]) ]

end

/-- The types that the document of a version describes: those of the parameters of the methods of the
root and of the resources at the end of the given paths, and those of the attributes of its struct
types. -/
inductive Uses (v : VersionView) (root : ResId) (paths : List (List Locator)) : TypeId → Prop
  | root {m p} : m ∈ v.graph.methods root → p ∈ m.parameters → (p.isIn ∨ p.isOut) →
      Uses v root paths p.typ.id
  | resource {path m p} : path ∈ paths → m ∈ methodsAt v path → p ∈ m.parameters →
      (p.isIn ∨ p.isOut) → Uses v root paths p.typ.id
  | property {t a} : t ∈ v.types → t.kind = .class ∨ t.kind = .struct → a ∈ t.attributes →
      Uses v root paths a.typ

end OpenApi

end Verif
