import Verif.Model.JsonCode
import Verif.Model.Bodies
import Verif.Model.Declarations

/-!
# The files of the generated JSON support of resources

Model of the part of the JSON support generator, `pkg/generators/golang/json_generator.go`, that writes the files of
the resources: the functions that write the requests and read the responses of their methods. The templates are the
same texts that are in the Go code.
-/

namespace Verif.MethodsCode

open GoTemplate GoFile

/-- What the generator needs to know about the model and the options. -/
abbrev Context := TypesCode.Context

/-- The objects used in the templates. Texts, lists of parameters and nil pointers are only used as arguments. -/
inductive Obj where
  | method (r : Resource) (m : Method)
  | parameter (p : Parameter)
  | parameters (ps : List Parameter)
  | ref (t : GoRef.Typ)
  | owner (o : Option GoRef.Owner)
  | text (t : Text)
  | nil

/-- The value that an argument of a template is. Nil pointers are only compared: using their methods is an error. -/
def inject : Obj → Value Obj
  | .text t => .text t
  | .parameters ps => .list (ps.map .parameter)
  | .nil => .flag false
  | o => .obj o

/-- A parameter, or a nil pointer. -/
def pointer : Option Parameter → Obj
  | some p => .parameter p
  | none => .nil

/-- `Element`, pkg/concepts/type.go:242-245: it can be nil. -/
def elementOf : GoRef.Typ → Obj
  | .list _ t => .ref t
  | .map _ t => .ref t
  | _ => .nil

/-- The methods of the objects: pkg/concepts/typed.go:37-39, pkg/concepts/parameter.go:63-65, and
pkg/concepts/type.go:160-177 and 242-245. `IsScalar` is false for nil pointers. -/
def member (x : Context) : Obj → Text → Option (Value Obj)
  | .parameter p, m =>
    if m = t!"Type" then some (.obj (.ref (x.typeOf p.typ.id)))
    else if m = t!"Out" then some (.flag p.isOut)
    else none
  | .ref t, m =>
    if m = t!"IsScalar" then some (.flag t.isScalar)
    else if m = t!"IsList" then some (.flag t.isList)
    else if m = t!"Element" then some (.obj (elementOf t))
    else none
  | .nil, m => if m = t!"IsScalar" then some (.flag false) else none
  | _, _ => none

/-- `clientRequestName`, pkg/generators/golang/json_generator.go:1573-1592. -/
def clientRequestName (r : Resource) (m : Method) : Text := Go.messageName t!"Request" (Decls.isRoot r) r m

/-- `clientResponseName`, pkg/generators/golang/json_generator.go:1594-1613. -/
def clientResponseName (r : Resource) (m : Method) : Text := Go.messageName t!"Response" (Decls.isRoot r) r m

/-- `parameterFieldName`, pkg/generators/golang/json_generator.go:1569-1571. -/
def parameterFieldName (p : Parameter) : Text := Go.privateName p.name

/-- A function that calculates a name from a method. -/
def ofMethod (f : Resource → Method → Text) : List (Value Obj) → Option (Value Obj × List Effect)
  | [.obj (.method r m)] => some (.text (f r m), [])
  | _ => none

/-- A function that calculates a name from a type. -/
def ofType (f : GoRef.Typ → Text) : List (Value Obj) → Option (Value Obj × List Effect)
  | [.obj (.ref t)] => some (.text (f t), [])
  | _ => none

/-- A function that selects parameters of a method. -/
def ofParameters (f : Method → List Parameter) : List (Value Obj) → Option (Value Obj × List Effect)
  | [.obj (.method _ m)] => some (.list ((f m).map .parameter), [])
  | _ => none

/-- The functions that generate the code of values. -/
def generating (x : Context) (reading : Bool) : List (Value Obj) → Option (Value Obj × List Effect)
  | [.text v, .obj (.ref t), .flag link, .obj (.owner o)] =>
    (JsonCode.valueCode x (JsonCode.depth t) reading v t link o).map fun (text, fx) => (.text text, fx)
  | _ => none

/-- The functions that generate the code of parameters. -/
def ofBody (f : Text → Parameter → Option (Text × List Effect)) : List (Value Obj) → Option (Value Obj × List Effect)
  | [.text object, .obj (.parameter p)] => (f object p).map fun (text, fx) => (.text text, fx)
  | _ => none

/-- What `generateReadBodyParameter`, if the flag is true, and `generateWriteBodyParameter` give for the name of a
variable and a parameter. -/
abbrev Bodies := Bool → Text → Parameter → Option (Text × List Effect)

/-- The functions of the generator, pkg/generators/golang/json_generator.go:842-873, and `and` (Go standard library),
for two conditions. Only those that the templates use. -/
def functions (x : Context) (bodies : Bodies) (f : Text) :
    Option (List (Value Obj) → Option (Value Obj × List Effect)) :=
  if f = t!"and" then
    some fun
      | [.flag a, .flag b] => some (.flag (a && b), [])
      | _ => none
  else if f = t!"clientRequestName" then some (ofMethod clientRequestName)
  else if f = t!"clientResponseName" then some (ofMethod clientResponseName)
  else if f = t!"generateReadBodyParameter" then some (ofBody (bodies true))
  else if f = t!"generateReadValue" then some (generating x true)
  else if f = t!"generateWriteBodyParameter" then some (ofBody (bodies false))
  else if f = t!"generateWriteValue" then some (generating x false)
  else if f = t!"marshalTypeFunc" then some (ofType JsonCode.marshalTypeFunc)
  else if f = t!"parameterFieldName" then
    some fun
      | [.obj (.parameter p)] => some (.text (parameterFieldName p), [])
      | _ => none
  else if f = t!"readResponseFunc" then some (ofMethod Decls.readResponseFunc)
  else if f = t!"requestBodyParameters" then some (ofParameters Binding.requestBodyParameters)
  else if f = t!"responseBodyParameters" then some (ofParameters Binding.responseParameters)
  else if f = t!"structName" then
    some fun
      | [.obj (.ref t)] => some (reference x.pkg (GoRef.structReference x.base t))
      | _ => none
  else if f = t!"unmarshalTypeFunc" then some (ofType JsonCode.unmarshalTypeFunc)
  else if f = t!"writeRequestFunc" then some (ofMethod Decls.writeRequestFunc)
  else none

/-- What the templates can use. None of the objects is printed. -/
def env (x : Context) (bodies : Bodies) : Env Obj :=
  { member := member x, shown := fun _ => none, functions := functions x bodies, inject := inject }

/-- The template of methods that add, `generateAddMethodSource`,
pkg/generators/golang/json_generator.go:917-927. -/
def addTemplate : Text :=
  List.flatten [
    t!"\n",
    t!"\t\tfunc {{ writeRequestFunc .Method }}(request *{{ clientRequestName .Method }}, writer io.Writer) error {\n",
    t!"\t\t\treturn {{ marshalTypeFunc .Body.Type }}(request.body, writer)\n",
    t!"\t\t}\n",
    t!"\n",
    t!"\t\tfunc {{ readResponseFunc .Method }}(response *{{ clientResponseName .Method }}, reader io.Reader) error {\n",
    t!"\t\t\tvar err error\n",
    t!"\t\t\tresponse.body, err = {{ unmarshalTypeFunc .Body.Type }}(reader)\n",
    t!"\t\t\treturn err\n",
    t!"\t\t}\n",
    t!"\t\t"]

/-- The template of methods that delete, `generateDeleteMethodSource`,
pkg/generators/golang/json_generator.go:936-944. -/
def deleteTemplate : Text :=
  List.flatten [
    t!"\n",
    t!"\t\tfunc {{ writeRequestFunc .Method }}(request *{{ clientRequestName .Method }}, writer io.Writer) error {\n",
    t!"\t\t\treturn nil\n",
    t!"\t\t}\n",
    t!"\n",
    t!"\t\tfunc {{ readResponseFunc .Method }}(response *{{ clientResponseName .Method }}, reader io.Reader) error {\n",
    t!"\t\t\treturn nil\n",
    t!"\t\t}\n",
    t!"\t\t"]

/-- The template of methods that get, `generateGetMethodSource`,
pkg/generators/golang/json_generator.go:956-966. -/
def getTemplate : Text :=
  List.flatten [
    t!"\n",
    t!"\t\tfunc {{ writeRequestFunc .Method }}(request *{{ clientRequestName .Method }}, writer io.Writer) error {\n",
    t!"\t\t\treturn nil\n",
    t!"\t\t}\n",
    t!"\n",
    t!"\t\tfunc {{ readResponseFunc .Method }}(response *{{ clientResponseName .Method }}, reader io.Reader) error {\n",
    t!"\t\t\tvar err error\n",
    t!"\t\t\tresponse.body, err = {{ unmarshalTypeFunc .Body.Type }}(reader)\n",
    t!"\t\t\treturn err\n",
    t!"\t\t}\n",
    t!"\t\t"]

/-- The template of methods that list, `generateListMethodSource`,
pkg/generators/golang/json_generator.go:999-1044. -/
def listTemplate : Text :=
  List.flatten [
    t!"\n",
    t!"\t\tfunc {{ writeRequestFunc .Method }}(request *{{ clientRequestName .Method }}, writer io.Writer) error {\n",
    t!"\t\t\treturn nil\n",
    t!"\t\t}\n",
    t!"\n",
    t!"\t\tfunc {{ readResponseFunc .Method }}(response *{{ clientResponseName .Method }}, reader io.Reader) error {\n",
    t!"\t\t\titerator, err := helpers.NewIterator(reader)\n",
    t!"\t\t\tif err != nil {\n",
    t!"\t\t\t\treturn err\n",
    t!"\t\t\t}\n",
    t!"\t\t\tfor {\n",
    t!"\t\t\t\tfield := iterator.ReadObject()\n",
    t!"\t\t\t\tif field == \"\" {\n",
    t!"\t\t\t\t\tbreak\n",
    t!"\t\t\t\t}\n",
    t!"\t\t\t\tswitch field {\n",
    t!"\t\t\t\t{{ if .Page }}\n",
    t!"\t\t\t\t\t{{ generateReadBodyParameter \"response\" .Page }}\n",
    t!"\t\t\t\t{{ end }}\n",
    t!"\t\t\t\t{{ if .Size }}\n",
    t!"\t\t\t\t\t{{ generateReadBodyParameter \"response\" .Size }}\n",
    t!"\t\t\t\t{{ end }}\n",
    t!"\t\t\t\t{{ if .Total }}\n",
    t!"\t\t\t\t\t{{ generateReadBodyParameter \"response\" .Total }}\n",
    t!"\t\t\t\t{{ end }}\n",
    t!"\t\t\t\t{{ range .Other }}\n",
    t!"\t\t\t\t\t{{ if .Out }}\n",
    t!"\t\t\t\t\t\t{{ generateReadBodyParameter \"response\" . }}\n",
    t!"\t\t\t\t\t{{ end }}\n",
    t!"\t\t\t\t{{ end }}\n",
    t!"\t\t\t\tcase \"items\":\n",
    t!"\t\t\t\t{{ generateReadValue \"items\" .Items.Type false .LinkOwner }}\n",
    t!"\t\t\t\t{{ if and .Items.Type.IsList .Items.Type.Element.IsScalar }}\n",
    t!"\t\t\t\t\tresponse.items = items\n",
    t!"\t\t\t\t{{ else }}\n",
    t!"\t\t\t\t\tresponse.items = &{{ structName .Items.Type }}{\n",
    t!"\t\t\t\t\t\titems: items,\n",
    t!"\t\t\t\t\t}\n",
    t!"\t\t\t\t{{ end }}\n",
    t!"\t\t\t\tdefault:\n",
    t!"\t\t\t\t\titerator.ReadAny()\n",
    t!"\t\t\t\t}\n",
    t!"\t\t\t}\n",
    t!"\t\t\treturn iterator.Error\n",
    t!"\t\t}\n",
    t!"\t\t"]

/-- The template of `Post` methods, `generatePostMethodSource`,
pkg/generators/golang/json_generator.go:1072-1090. -/
def postTemplate : Text :=
  List.flatten [
    t!"\n",
    t!"\t\tfunc {{ writeRequestFunc .Method }}(request *{{ clientRequestName .Method }}, writer io.Writer) error {\n",
    t!"\t\t\t{{ if .Request }}\n",
    t!"\t\t\t\treturn {{ marshalTypeFunc .Request.Type }}(request.{{ parameterFieldName .Request }}, writer)\n",
    t!"\t\t\t{{ else }}\n",
    t!"\t\t\t\treturn nil\n",
    t!"\t\t\t{{ end }}\n",
    t!"\t\t}\n",
    t!"\n",
    t!"\t\tfunc {{ readResponseFunc .Method }}(response *{{ clientResponseName .Method }}, reader io.Reader) error {\n",
    t!"\t\t\t{{ if .Response }}\n",
    t!"\t\t\t\tvar err error\n",
    t!"\t\t\t\tresponse.{{ parameterFieldName .Response }}, err = {{ unmarshalTypeFunc .Response.Type }}(reader)\n",
    t!"\t\t\t\treturn err\n",
    t!"\t\t\t{{ else }}\n",
    t!"\t\t\t\treturn nil\n",
    t!"\t\t\t{{ end }}\n",
    t!"\t\t}\n",
    t!"\t\t"]

/-- The template of methods that search, `generateSearchMethodSource`,
pkg/generators/golang/json_generator.go:1127-1176. -/
def searchTemplate : Text :=
  List.flatten [
    t!"\n",
    t!"\t\tfunc {{ writeRequestFunc .Method }}(request *{{ clientRequestName .Method }}, writer io.Writer) error {\n",
    t!"\t\t\t{{ if .Body }}\n",
    t!"\t\t\t\treturn {{ marshalTypeFunc .Body.Type }}(request.{{ parameterFieldName .Body }}, writer)\n",
    t!"\t\t\t{{ else }}\n",
    t!"\t\t\t\treturn nil\n",
    t!"\t\t\t{{ end }}\n",
    t!"\t\t}\n",
    t!"\n",
    t!"\t\tfunc {{ readResponseFunc .Method }}(response *{{ clientResponseName .Method }}, reader io.Reader) error {\n",
    t!"\t\t\titerator, err := helpers.NewIterator(reader)\n",
    t!"\t\t\tif err != nil {\n",
    t!"\t\t\t\treturn err\n",
    t!"\t\t\t}\n",
    t!"\t\t\tfor {\n",
    t!"\t\t\t\tfield := iterator.ReadObject()\n",
    t!"\t\t\t\tif field == \"\" {\n",
    t!"\t\t\t\t\tbreak\n",
    t!"\t\t\t\t}\n",
    t!"\t\t\t\tswitch field {\n",
    t!"\t\t\t\t{{ if .Page }}\n",
    t!"\t\t\t\t\t{{ generateReadBodyParameter \"response\" .Page }}\n",
    t!"\t\t\t\t{{ end }}\n",
    t!"\t\t\t\t{{ if .Size }}\n",
    t!"\t\t\t\t\t{{ generateReadBodyParameter \"response\" .Size }}\n",
    t!"\t\t\t\t{{ end }}\n",
    t!"\t\t\t\t{{ if .Total }}\n",
    t!"\t\t\t\t\t{{ generateReadBodyParameter \"response\" .Total }}\n",
    t!"\t\t\t\t{{ end }}\n",
    t!"\t\t\t\t{{ range .Other }}\n",
    t!"\t\t\t\t\t{{ if .Out }}\n",
    t!"\t\t\t\t\t\t{{ generateReadBodyParameter \"response\" . }}\n",
    t!"\t\t\t\t\t{{ end }}\n",
    t!"\t\t\t\t{{ end }}\n",
    t!"\t\t\t\tcase \"items\":\n",
    t!"\t\t\t\t\t{{ generateReadValue \"items\" .Items.Type false .LinkOwner }}\n",
    t!"\t\t\t\t\t{{ if and .Items.Type.IsList .Items.Type.Element.IsScalar }}\n",
    t!"\t\t\t\t\t\tresponse.items = items\n",
    t!"\t\t\t\t\t{{ else }}\n",
    t!"\t\t\t\t\t\tresponse.items = &{{ structName .Items.Type }}{\n",
    t!"\t\t\t\t\t\t\titems: items,\n",
    t!"\t\t\t\t\t\t}\n",
    t!"\t\t\t\t\t{{ end }}\n",
    t!"\t\t\t\tdefault:\n",
    t!"\t\t\t\t\titerator.ReadAny()\n",
    t!"\t\t\t\t}\n",
    t!"\t\t\t}\n",
    t!"\t\t\treturn iterator.Error\n",
    t!"\t\t}\n",
    t!"\t\t"]

/-- The template of methods that update, `generateUpdateMethodSource`,
pkg/generators/golang/json_generator.go:1196-1206. -/
def updateTemplate : Text :=
  List.flatten [
    t!"\n",
    t!"\t\tfunc {{ writeRequestFunc .Method }}(request *{{ clientRequestName .Method }}, writer io.Writer) error {\n",
    t!"\t\t\treturn {{ marshalTypeFunc .Body.Type }}(request.body, writer)\n",
    t!"\t\t}\n",
    t!"\n",
    t!"\t\tfunc {{ readResponseFunc .Method }}(response *{{ clientResponseName .Method }}, reader io.Reader) error {\n",
    t!"\t\t\tvar err error\n",
    t!"\t\t\tresponse.body, err = {{ unmarshalTypeFunc .Body.Type }}(reader)\n",
    t!"\t\t\treturn err\n",
    t!"\t\t}\n",
    t!"\t\t"]

/-- The template of actions, `generateActionMethodSource`,
pkg/generators/golang/json_generator.go:1215-1261. -/
def actionTemplate : Text :=
  List.flatten [
    t!"\n",
    t!"\t\t{{ $requestBodyParameters := requestBodyParameters .Method }}\n",
    t!"\t\t{{ $responseBodyParameters := responseBodyParameters .Method }}\n",
    t!"\t\tfunc {{ writeRequestFunc .Method }}(request *{{ clientRequestName .Method }}, writer io.Writer) error {\n",
    t!"\t\t\t{{ if $requestBodyParameters }} \n",
    t!"\t\t\t\tcount := 0\n",
    t!"\t\t\t\tstream := helpers.NewStream(writer)\n",
    t!"\t\t\t\tstream.WriteObjectStart()\n",
    t!"\t\t\t\t{{ range $requestBodyParameters }}\n",
    t!"\t\t\t\t\t{{ generateWriteBodyParameter \"request\" . }}\n",
    t!"\t\t\t\t{{ end }}\n",
    t!"\t\t\t\tstream.WriteObjectEnd()\n",
    t!"\t\t\t\terr := stream.Flush()\n",
    t!"\t\t\t\tif err != nil {\n",
    t!"\t\t\t\t\treturn err\n",
    t!"\t\t\t\t}\n",
    t!"\t\t\t\treturn stream.Error\n",
    t!"\t\t\t{{ else }}\n",
    t!"\t\t\t\treturn nil\n",
    t!"\t\t\t{{ end }}\n",
    t!"\t\t}\n",
    t!"\n",
    t!"\t\tfunc {{ readResponseFunc .Method }}(response *{{ clientResponseName .Method }}, reader io.Reader) error {\n",
    t!"\t\t\t{{ if $responseBodyParameters }} \n",
    t!"\t\t\t\titerator, err := helpers.NewIterator(reader)\n",
    t!"\t\t\t\tif err != nil {\n",
    t!"\t\t\t\t\treturn err\n",
    t!"\t\t\t\t}\n",
    t!"\t\t\t\tfor {\n",
    t!"\t\t\t\t\tfield := iterator.ReadObject()\n",
    t!"\t\t\t\t\tif field == \"\" {\n",
    t!"\t\t\t\t\t\tbreak\n",
    t!"\t\t\t\t\t}\n",
    t!"\t\t\t\t\tswitch field {\n",
    t!"\t\t\t\t\t{{ range $responseBodyParameters }}\n",
    t!"\t\t\t\t\t\t{{ generateReadBodyParameter \"response\" . }}\n",
    t!"\t\t\t\t\t{{ end }}\n",
    t!"\t\t\t\t\tdefault:\n",
    t!"\t\t\t\t\t\titerator.ReadAny()\n",
    t!"\t\t\t\t\t}\n",
    t!"\t\t\t\t}\n",
    t!"\t\t\t\treturn iterator.Error\n",
    t!"\t\t\t{{ else }}\n",
    t!"\t\t\t\treturn nil\n",
    t!"\t\t\t{{ end }}\n",
    t!"\t\t}\n",
    t!"\t\t"]

/-- The template of the code that reads a parameter, `generateReadBodyParameter`,
pkg/generators/golang/json_generator.go:1306-1314. -/
def readParameterTemplate : Text :=
  List.flatten [
    t!"\n",
    t!"\t\tcase \"{{ .Tag }}\":\n",
    t!"\t\t\t{{ generateReadValue \"value\" .Type false .LinkOwner }}\n",
    t!"\t\t\t{{ if .Type.IsScalar }}\n",
    t!"\t\t\t\t{{ .Object }}.{{ .Field }} = &value\n",
    t!"\t\t\t{{ else }}\n",
    t!"\t\t\t\t{{ .Object }}.{{ .Field }} = value\n",
    t!"\t\t\t{{ end }}\n",
    t!"\t\t"]

/-- The template of the value of a parameter that is a pointer, `generateWriteBodyParameter`,
pkg/generators/golang/json_generator.go:1408. -/
def pointerTemplate : Text := t!"*{{ .Object }}.{{ .Field }}"

/-- The template of the value of a parameter, `generateWriteBodyParameter`,
pkg/generators/golang/json_generator.go:1414. -/
def valueTemplate : Text := t!"{{ .Object }}.{{ .Field }}"

/-- The template of the code that writes a parameter, `generateWriteBodyParameter`,
pkg/generators/golang/json_generator.go:1419-1428. -/
def writeParameterTemplate : Text :=
  List.flatten [
    t!"\n",
    t!"\t\tif {{ .Object }}.{{ .Field }} != nil {\n",
    t!"\t\t\tif count > 0 {\n",
    t!"\t\t\t\tstream.WriteMore()\n",
    t!"\t\t\t}\n",
    t!"\t\t\tstream.WriteObjectField(\"{{ .Tag }}\")\n",
    t!"\t\t\t{{ generateWriteValue .Value .Type false .LinkOwner }}\n",
    t!"\t\t\tcount++\n",
    t!"\t\t}\n",
    t!"\t\t"]

/-- What the templates of parameters can use. -/
def parameterEnv (x : Context) : Env Obj := env x fun _ _ _ => none

/-- `IsInterface`, pkg/concepts/type.go:155-158. -/
def isInterface : GoRef.Typ → Bool
  | .basic .interface => true
  | _ => false

/-- `generateReadBodyParameter` and `generateWriteBodyParameter`, pkg/generators/golang/json_generator.go:1300-1321 and
1398-1436. The version of the links is always nil. -/
def bodyCode (x : Context) : Bodies
  | true, object, p =>
    (parse readParameterTemplate).bind (runNodes (parameterEnv x) (.args [
      (t!"Object", .text object), (t!"Field", .text (parameterFieldName p)),
      (t!"Tag", .text (Binding.bodyParameterName p)), (t!"Type", .ref (x.typeOf p.typ.id)),
      (t!"LinkOwner", .owner none)]) [])
  | false, object, p =>
    let typ := x.typeOf p.typ.id
    let field := parameterFieldName p
    ((parse (if typ.isScalar && !isInterface typ then pointerTemplate else valueTemplate)).bind
      (runNodes (parameterEnv x) (.args [(t!"Object", .text object), (t!"Field", .text field)]) [])).bind
        fun (value, fx) => after fx
          ((parse writeParameterTemplate).bind (runNodes (parameterEnv x) (.args [
            (t!"Object", .text object), (t!"Field", .text field), (t!"Tag", .text (Binding.bodyParameterName p)),
            (t!"Value", .text value), (t!"Type", .ref typ), (t!"LinkOwner", .owner none)]) []))

/-- What the templates of methods can use. -/
def methodEnv (x : Context) : Env Obj := env x (bodyCode x)

/-- The imports and the code that are added for a method. -/
def emitMethod (x : Context) (template : Text) (args : List (Text × Obj)) (b : Buffer) : Buffer :=
  ((b.imprt t!"net/http" []).imprt (Go.helpersImport x.base) []).emit (methodEnv x) template args

/-- The arguments of the templates of the methods that return pages, pkg/generators/golang/json_generator.go:978-996
and 1045-1051, and 1103-1124 and 1177-1185. The version isn't used by the template of the methods that search. -/
def pageArgs (r : Resource) (m : Method) (names : List Name) : List (Text × Obj) := [
  (t!"Method", .method r m),
  (t!"Page", pointer (GoJson.lastNamed m Nom.page)),
  (t!"Size", pointer (GoJson.lastNamed m Nom.size)),
  (t!"Total", pointer (GoJson.lastNamed m Nom.total)),
  (t!"Items", pointer (GoJson.lastNamed m Nom.items)),
  (t!"Other", .parameters (GoJson.otherParameters m names)),
  (t!"LinkOwner", .owner none)]

/-- `generateMethodSource`, pkg/generators/golang/json_generator.go:883-908, and for each kind of method lines 910-931
(add), 933-947 (delete), 949-970 (get), 972-1053 (list), 1055-1095 (post), 1097-1187 (search), 1189-1210 (update)
and 1212-1264 (action). -/
def methodSource (x : Context) (r : Resource) (b : Buffer) (m : Method) : Buffer :=
  if m.isAdd then
    emitMethod x addTemplate [(t!"Method", .method r m), (t!"Body", pointer (m.getParameter Nom.body))] b
  else if m.isDelete || m.isAsyncDelete then emitMethod x deleteTemplate [(t!"Method", .method r m)] b
  else if m.isGet then
    emitMethod x getTemplate [(t!"Method", .method r m), (t!"Body", pointer (m.getParameter Nom.body))] b
  else if m.isList then
    emitMethod x listTemplate (pageArgs r m [Nom.page, Nom.size, Nom.total, Nom.items]) b
  else if m.isPost then
    emitMethod x postTemplate [(t!"Method", .method r m),
      (t!"Request", pointer (GoJson.lastWhere (fun p => p.isIn) m.parameters)),
      (t!"Response", pointer (GoJson.lastWhere (fun p => p.isOut) m.parameters))] b
  else if m.isSearch then
    emitMethod x searchTemplate
      ((t!"Body", pointer (GoJson.lastNamed m Nom.body)) ::
        pageArgs r m [Nom.page, Nom.size, Nom.total, Nom.body, Nom.items]) b
  else if m.isUpdate || m.isAsyncUpdate then
    emitMethod x updateTemplate [(t!"Method", .method r m), (t!"Body", pointer (m.getParameter Nom.body))] b
  else if m.isAction then emitMethod x actionTemplate [(t!"Method", .method r m)] b
  else b.effect .error

/-- The code of the methods of a resource, pkg/generators/golang/json_generator.go:875-878. -/
def resourceSource (x : Context) (r : Resource) (b : Buffer) : Buffer := r.methods.foldl (methodSource x r) b

/-- `generateResourceSupport`, pkg/generators/golang/json_generator.go:831-881, given the errors reported before. -/
def resourceFile (x : Context) (r : Resource) (errors : Nat) (order : List (Text × Text)) : Option Text × Bool :=
  (resourceSource x r { pkg := x.pkg, errors := errors }).write order

end Verif.MethodsCode
