import Verif.Model.MethodsCode

/-!
# The requests and responses of the methods

Model of the part of `pkg/generators/golang/clients_generator.go` that writes the types of the requests and responses of
the methods of a resource, and of the functions that all the templates of that part and of polling use. The templates are the same texts that are in the Go code.
-/

namespace Verif.MessagesCode

open GoTemplate GoFile

/-- What the generator needs to know about the model and the options. -/
abbrev Context := TypesCode.Context

/-- The objects used in the templates. Parameters have the method that owns them. -/
inductive Obj where
  | resource (r : Resource)
  | method (r : Resource) (m : Method)
  | parameter (m : Method) (p : Parameter)
  | ref (t : GoRef.Typ)
  | name (n : Name)
  | nil

/-- `IsMap`, pkg/concepts/type.go:165-168. -/
def isMap : GoRef.Typ → Bool
  | .map _ _ => true
  | _ => false

/-- `Element`, pkg/concepts/type.go:242-245: it can be nil. -/
def elementOf : GoRef.Typ → Obj
  | .list _ t => .ref t
  | .map _ t => .ref t
  | _ => .nil

/-- The methods of the objects: pkg/concepts/named.go:30-32, pkg/concepts/documented.go:27-30,
pkg/concepts/typed.go:37-39, pkg/concepts/method.go:125-148, pkg/names/name.go:120-128, and pkg/concepts/type.go:145-192 and 243-245. `IsScalar` is
false for nil pointers. -/
def member (x : Context) : Obj → Text → Option (Value Obj)
  | .method _ m, f =>
    if f = t!"Name" then some (.obj (.name m.name))
    else if f = t!"IsAction" then some (.flag m.isAction)
    else none
  | .parameter _ p, f =>
    if f = t!"Name" then some (.obj (.name p.name))
    else if f = t!"Doc" then some (.text p.doc)
    else if f = t!"Type" then some (.obj (.ref (x.typeOf p.typ.id)))
    else none
  | .ref t, f =>
    if f = t!"IsScalar" then some (.flag t.isScalar)
    else if f = t!"IsStruct" then some (.flag t.isStruct)
    else if f = t!"IsList" then some (.flag t.isList)
    else if f = t!"IsMap" then some (.flag (isMap t))
    else if f = t!"Element" then some (.obj (elementOf t))
    else if f = t!"Name" then some (.obj (.name (TypesCode.nameOf t)))
    else none
  | .nil, f => if f = t!"IsScalar" then some (.flag false) else none
  | .name n, f => if f = t!"String" then some (.text n.toText) else none
  | .resource _, _ => none

/-- How objects are printed, pkg/names/name.go:120-128. -/
def shown : Obj → Option Text
  | .name n => some n.toText
  | _ => none

/-- `or` (Go standard library), for conditions. -/
def anyFlag : List (Value Obj) → Option Bool
  | [] => none
  | [.flag b] => some b
  | .flag b :: vs => (anyFlag vs).map (b || ·)
  | _ => none

/-- A function that calculates a name from a method. -/
def ofMethod (f : Resource → Method → Text) : List (Value Obj) → Option (Value Obj × List Effect)
  | [.obj (.method r m)] => some (.text (f r m), [])
  | _ => none

/-- A function that calculates a name from a resource. -/
def ofResource (f : Resource → Text) : List (Value Obj) → Option (Value Obj × List Effect)
  | [.obj (.resource r)] => some (.text (f r), [])
  | _ => none

/-- A function that selects parameters of a method. -/
def ofParameters (f : Method → List Parameter) : List (Value Obj) → Option (Value Obj × List Effect)
  | [.obj (.method _ m)] => some (.list ((f m).map (.parameter m)), [])
  | _ => none

/-- A function that calculates a name from a parameter. -/
def ofParameter (f : Parameter → Text) : List (Value Obj) → Option (Value Obj × List Effect)
  | [.obj (.parameter _ p)] => some (.text (f p), [])
  | _ => none

/-- A function that calculates the type of a parameter. -/
def typeOfParameter (x : Context) (f : Text → GoRef.Param → GoRef.Ref) :
    List (Value Obj) → Option (Value Obj × List Effect)
  | [.obj (.parameter m p)] => some (reference x.pkg (f x.base (Outcome.paramOf x.typeOf m p)))
  | _ => none

/-- The functions of the buffer, pkg/generators/golang/buffer.go:127, and of the generator,
pkg/generators/golang/clients_generator.go:440-467, and `and` and `or` (Go standard library), for conditions. Only those
that the templates use. -/
def functions (x : Context) (f : Text) : Option (List (Value Obj) → Option (Value Obj × List Effect)) :=
  if f = t!"and" then
    some fun
      | [.flag a, .flag b] => some (.flag (a && b), [])
      | _ => none
  else if f = t!"or" then some fun vs => (anyFlag vs).map fun b => (.flag b, [])
  else if f = t!"lineComment" then
    some fun
      | [.text t] => some (.text (GoBuffer.lineComment t), [])
      | _ => none
  else if f = t!"requestName" then
    some (ofMethod fun r m => Go.messageName t!"Request" (Decls.isRoot r) r m)
  else if f = t!"responseName" then
    some (ofMethod fun r m => Go.messageName t!"Response" (Decls.isRoot r) r m)
  else if f = t!"httpMethod" then some (ofMethod fun _ m => Binding.method m)
  else if f = t!"methodName" then some (ofMethod fun _ m => Go.nameOf m.annotations m.name)
  else if f = t!"clientName" then some (ofResource Decls.clientName)
  else if f = t!"pollRequestName" then some (ofResource (Decls.pollName t!"PollRequest"))
  else if f = t!"pollResponseName" then some (ofResource (Decls.pollName t!"PollResponse"))
  else if f = t!"readResponseFunc" then some (ofMethod Decls.readResponseFunc)
  else if f = t!"writeRequestFunc" then some (ofMethod Decls.writeRequestFunc)
  else if f = t!"requestParameters" then some (ofParameters Binding.requestParameters)
  else if f = t!"requestQueryParameters" then some (ofParameters Binding.requestQueryParameters)
  else if f = t!"requestBodyParameters" then some (ofParameters Binding.requestBodyParameters)
  else if f = t!"responseParameters" then some (ofParameters Binding.responseParameters)
  else if f = t!"fieldName" then some (ofParameter Go.parameterField)
  else if f = t!"getterName" then some (ofParameter Go.parameterGetter)
  else if f = t!"setterName" then some (ofParameter Go.parameterSetter)
  else if f = t!"parameterName" then some (ofParameter Binding.queryParameterName)
  else if f = t!"fieldType" then some (typeOfParameter x GoRef.parameterFieldType)
  else if f = t!"getterType" then some (typeOfParameter x GoRef.accessorType)
  else if f = t!"setterType" then some (typeOfParameter x GoRef.accessorType)
  else if f = t!"valueType" then
    some fun
      | [.obj (.ref t)] => some (reference x.pkg (GoRef.valueReference x.base t))
      | _ => none
  else if f = t!"zeroValue" then
    some fun
      | [.obj (.ref t)] => some (.text (GoRef.zeroValue x.base t), [])
      | _ => none
  else none

/-- What the templates can use. -/
def env (x : Context) : Env Obj := { member := member x, shown := shown, functions := functions x }

/-- The template of the requests, pkg/generators/golang/clients_generator.go:773-902. -/
def requestTemplate : Text :=
  List.flatten [
    t!"\n",
    t!"\t\t{{ $requestName := requestName .Method }}\n",
    t!"\t\t{{ $requestParameters := requestParameters .Method }}\n",
    t!"\t\t{{ $requestQueryParameters := requestQueryParameters .Method }}\n",
    t!"\t\t{{ $requestBodyParameters := requestBodyParameters .Method }}\n",
    t!"\t\t{{ $requestBodyLen := len $requestBodyParameters }}\n",
    t!"\t\t{{ $responseName := responseName .Method }}\n",
    t!"\t\t{{ $responseParameters := responseParameters .Method }}\n",
    t!"\t\t{{ $isAction := .Method.IsAction }}\n",
    t!"\n",
    t!"\t\t// {{ $requestName }} is the request for the '{{ .Method.Name }}' method.\n",
    t!"\t\ttype {{ $requestName }} struct {\n",
    t!"\t\t\ttransport http.RoundTripper\n",
    t!"\t\t\tpath      string\n",
    t!"\t\t\tquery     url.Values\n",
    t!"\t\t\theader    http.Header\n",
    t!"\t\t\t{{ range $requestParameters }}\n",
    t!"\t\t\t\t{{ fieldName . }} {{ fieldType . }}\n",
    t!"\t\t\t{{ end }}\n",
    t!"\t\t}\n",
    t!"\n",
    t!"\t\t// Parameter adds a query parameter.\n",
    t!"\t\tfunc (r *{{ $requestName }}) Parameter(name string, value interface{}) *{{ $requestName }} {\n",
    t!"\t\t\thelpers.AddValue(&r.query, name, value)\n",
    t!"\t\t\treturn r\n",
    t!"\t\t}\n",
    t!"\n",
    t!"\t\t// Header adds a request header.\n",
    t!"\t\tfunc (r *{{ $requestName }}) Header(name string, value interface{}) *{{ $requestName }} {\n",
    t!"\t\t\thelpers.AddHeader(&r.header, name, value)\n",
    t!"\t\t\treturn r\n",
    t!"\t\t}\n",
    t!"\n",
    t!"\t\t// Impersonate wraps requests on behalf of another user.\n",
    t!"\t\t// Note: Services that do not support this feature may silently ignore this call. \n",
    t!"\t\tfunc (r *{{ $requestName }}) Impersonate(user string) *{{ $requestName }} {\n",
    t!"\t\t\thelpers.AddImpersonationHeader(&r.header, user)\n",
    t!"\t\t\treturn r\n",
    t!"\t\t}\n",
    t!"\n",
    t!"\t\t{{ range $requestParameters }}\n",
    t!"\t\t\t{{ $fieldName := fieldName . }}\n",
    t!"\t\t\t{{ $setterName := setterName . }}\n",
    t!"\t\t\t{{ $setterType := setterType . }}\n",
    t!"\n",
    t!"\t\t\t// {{ $setterName }} sets the value of the '{{ .Name }}' parameter.\n",
    t!"\t\t\t//\n",
    t!"\t\t\t{{ lineComment .Doc }}\n",
    t!"\t\t\tfunc (r *{{ $requestName }}) {{ $setterName }}(value {{ $setterType }}) *{{ $requestName }} {\n",
    t!"\t\t\t\t{{ if or .Type.IsStruct .Type.IsList }}\n",
    t!"\t\t\t\t\tr.{{ $fieldName }} = value\n",
    t!"\t\t\t\t{{ else }}\n",
    t!"\t\t\t\t\tr.{{ $fieldName }} = &value\n",
    t!"\t\t\t\t{{ end }}\n",
    t!"\t\t\t\treturn r\n",
    t!"\t\t\t}\n",
    t!"\t\t{{ end }}\n",
    t!"\n",
    t!"\t\t// Send sends this request, waits for the response, and returns it.\n",
    t!"\t\t//\n",
    t!"\t\t// This is a potentially lengthy operation, as it requires network communication.\n",
    t!"\t\t// Consider using a context and the SendContext method.\n",
    t!"\t\tfunc (r *{{ $requestName }}) Send() (result *{{ $responseName }}, err error) {\n",
    t!"\t\t\treturn r.SendContext(context.Background())\n",
    t!"\t\t}\n",
    t!"\n",
    t!"\t\t// SendContext sends this request, waits for the response, and returns it.\n",
    t!"\t\tfunc (r *{{ $requestName }}) SendContext(ctx context.Context) (result *{{ $responseName }}, err error) {\n",
    t!"\t\t\tquery := helpers.CopyQuery(r.query)\n",
    t!"\t\t\t{{ range $requestQueryParameters }}\n",
    t!"\t\t\t\t{{ $fieldName := fieldName . }}\n",
    t!"\t\t\t\t{{ $parameterName := parameterName . }}\n",
    t!"\t\t\t\tif r.{{ $fieldName }} != nil {\n",
    t!"\t\t\t\t\thelpers.AddValue(&query, \"{{ $parameterName }}\", *r.{{ $fieldName }})\n",
    t!"\t\t\t\t}\n",
    t!"\t\t\t{{ end }}\n",
    t!"\t\t\theader := helpers.CopyHeader(r.header)\n",
    t!"\t\t\t{{ if $requestBodyParameters }}\n",
    t!"\t\t\t\tbuffer := &bytes.Buffer{}\n",
    t!"\t\t\t\terr = {{ writeRequestFunc .Method }}(r, buffer)\n",
    t!"\t\t\t\tif err != nil {\n",
    t!"\t\t\t\t\treturn\n",
    t!"\t\t\t\t}\n",
    t!"\t\t\t{{ end }}\n",
    t!"\t\t\turi := &url.URL{\n",
    t!"\t\t\t\tPath: r.path,\n",
    t!"\t\t\t\tRawQuery: query.Encode(),\n",
    t!"\t\t\t}\n",
    t!"\t\t\trequest := &http.Request{\n",
    t!"\t\t\t\tMethod: \"{{ httpMethod .Method }}\",\n",
    t!"\t\t\t\tURL:    uri,\n",
    t!"\t\t\t\tHeader: header,\n",
    t!"\t\t\t\t{{ if $requestBodyParameters }}\n",
    t!"\t\t\t\t\tBody: io.NopCloser(buffer),\n",
    t!"\t\t\t\t{{ end }}\n",
    t!"\t\t\t}\n",
    t!"\t\t\tif ctx != nil {\n",
    t!"\t\t\t\trequest = request.WithContext(ctx)\n",
    t!"\t\t\t}\n",
    t!"\t\t\tresponse, err := r.transport.RoundTrip(request)\n",
    t!"\t\t\tif err != nil {\n",
    t!"\t\t\t\treturn\n",
    t!"\t\t\t}\n",
    t!"\t\t\tdefer response.Body.Close()\n",
    t!"\t\t\tresult = &{{ $responseName }}{}\n",
    t!"\t\t\tresult.status = response.StatusCode\n",
    t!"\t\t\tresult.header = response.Header\n",
    t!"\t\t\treader := bufio.NewReader(response.Body)\n",
    t!"\t\t\t_, err = reader.Peek(1)\n",
    t!"\t\t\tif err == io.EOF {\n",
    t!"\t\t\t\terr = nil\n",
    t!"\t\t\t\treturn\n",
    t!"\t\t\t}\n",
    t!"\t\t\tif result.status >= 400 {\n",
    t!"\t\t\t\tresult.err, err = errors.UnmarshalErrorStatus(reader, result.status)\n",
    t!"\t\t\t\tif err != nil {\n",
    t!"\t\t\t\t\treturn\n",
    t!"\t\t\t\t}\n",
    t!"\t\t\t\terr = result.err\n",
    t!"\t\t\t\treturn\n",
    t!"\t\t\t}\n",
    t!"\t\t\t{{ if $responseParameters }}\n",
    t!"\t\t\t\terr = {{ readResponseFunc .Method }}(result, reader)\n",
    t!"\t\t\t\tif err != nil {\n",
    t!"\t\t\t\t\treturn\n",
    t!"\t\t\t\t}\n",
    t!"\t\t\t{{ end }}\n",
    t!"\t\t\treturn\n",
    t!"\t\t}\n",
    t!"\t\t"]

/-- The template of the responses, pkg/generators/golang/clients_generator.go:926-1008. -/
def responseTemplate : Text :=
  List.flatten [
    t!"\n",
    t!"\t\t{{ $responseName := responseName .Method }}\n",
    t!"\t\t{{ $responseParameters := responseParameters .Method }}\n",
    t!"\t\t{{ $responseBodyLen := len $responseParameters }}\n",
    t!"\t\t{{ $isAction := .Method.IsAction }}\n",
    t!"\n",
    t!"\t\t// {{ $responseName }} is the response for the '{{ .Method.Name }}' method.\n",
    t!"\t\ttype  {{ $responseName }} struct {\n",
    t!"\t\t\tstatus int\n",
    t!"\t\t\theader http.Header\n",
    t!"\t\t\terr    *errors.Error\n",
    t!"\t\t\t{{ range $responseParameters }}\n",
    t!"\t\t\t\t{{ if and .Type.IsList .Type.Element.IsScalar }}\n",
    t!"\t\t\t\t\t{{ fieldName . }} []{{ valueType .Type.Element }}\n",
    t!"\t\t\t\t{{ else }}\n",
    t!"\t\t\t\t\t{{ fieldName . }} {{ fieldType . }}\n",
    t!"\t\t\t\t{{ end }}\n",
    t!"\t\t\t{{ end }}\n",
    t!"\t\t}\n",
    t!"\n",
    t!"\t\t// Status returns the response status code.\n",
    t!"\t\tfunc (r *{{ $responseName }}) Status() int {\n",
    t!"\t\t\tif r == nil {\n",
    t!"\t\t\t\treturn 0\n",
    t!"\t\t\t}\n",
    t!"\t\t\treturn r.status\n",
    t!"\t\t}\n",
    t!"\n",
    t!"\t\t// Header returns header of the response.\n",
    t!"\t\tfunc (r *{{ $responseName }}) Header() http.Header {\n",
    t!"\t\t\tif r == nil {\n",
    t!"\t\t\t\treturn nil\n",
    t!"\t\t\t}\n",
    t!"\t\t\treturn r.header\n",
    t!"\t\t}\n",
    t!"\n",
    t!"\t\t// Error returns the response error.\n",
    t!"\t\tfunc (r *{{ $responseName }}) Error() *errors.Error {\n",
    t!"\t\t\tif r == nil {\n",
    t!"\t\t\t\treturn nil\n",
    t!"\t\t\t}\n",
    t!"\t\t\treturn r.err\n",
    t!"\t\t}\n",
    t!"\n",
    t!"\t\t{{ range $responseParameters }}\n",
    t!"\t\t\t{{ $fieldName := fieldName . }}\n",
    t!"\t\t\t{{ $getterName := getterName . }}\n",
    t!"\t\t\t{{ $getterType := getterType . }}\n",
    t!"\n",
    t!"\t\t\t// {{ $getterName }} returns the value of the '{{ .Name }}' parameter.\n",
    t!"\t\t\t//\n",
    t!"\t\t\t{{ lineComment .Doc }}\n",
    t!"\t\t\tfunc (r *{{ $responseName }}) {{ $getterName }}() {{ $getterType }} {\n",
    t!"\t\t\t\t{{ if .Type.IsScalar }}\n",
    t!"\t\t\t\t\tif r != nil && r.{{ $fieldName }} != nil {\n",
    t!"\t\t\t\t\t\treturn *r.{{ $fieldName }}\n",
    t!"\t\t\t\t\t}\n",
    t!"\t\t\t\t\treturn {{ zeroValue .Type }}\n",
    t!"\t\t\t\t{{ else if or .Type.IsStruct .Type.IsList .Type.IsMap }}\n",
    t!"\t\t\t\t\tif r == nil {\n",
    t!"\t\t\t\t\t\treturn nil\n",
    t!"\t\t\t\t\t}\n",
    t!"\t\t\t\t\treturn r.{{ $fieldName }}\n",
    t!"\t\t\t\t{{ end }}\n",
    t!"\t\t\t}\n",
    t!"\n",
    t!"\t\t\t// Get{{ $getterName }} returns the value of the '{{ .Name }}' parameter and\n",
    t!"\t\t\t// a flag indicating if the parameter has a value.\n",
    t!"\t\t\t//\n",
    t!"\t\t\t{{ lineComment .Doc }}\n",
    t!"\t\t\tfunc (r *{{ $responseName }}) Get{{ $getterName }}() (value {{ $getterType }}, ok bool) {\n",
    t!"\t\t\t\tok = r != nil && r.{{ $fieldName }} != nil\n",
    t!"\t\t\t\tif ok {\n",
    t!"\t\t\t\t\t{{ if .Type.IsScalar }}\n",
    t!"\t\t\t\t\t\tvalue = *r.{{ $fieldName }}\n",
    t!"\t\t\t\t\t{{ else if or .Type.IsStruct .Type.IsList .Type.IsMap }}\n",
    t!"\t\t\t\t\t\tvalue = r.{{ $fieldName }}\n",
    t!"\t\t\t\t\t{{ end }}\n",
    t!"\t\t\t\t}\n",
    t!"\t\t\t\treturn\n",
    t!"\t\t\t}\n",
    t!"\t\t{{ end }}\n",
    t!"\t\t"]

/-- `generateRequestSource`, pkg/generators/golang/clients_generator.go:751-907. The arguments `Main` and `Others` of the
template aren't used in it, and are left out. -/
def requestSource (x : Context) (r : Resource) (m : Method) (b : Buffer) : Buffer :=
  (JsonCode.Buffer.imports b [(t!"bufio", []), (t!"bytes", []), (t!"context", []), (t!"io", []), (t!"os", []),
    (t!"net/http", []), (t!"net/url", []), (Go.errorsImport x.base, []), (Go.helpersImport x.base, [])]).emit
      (env x) requestTemplate [(t!"Method", .method r m)]

/-- `generateResponseSource`, pkg/generators/golang/clients_generator.go:909-1013. The arguments `Main` and `Others` of
the template aren't used in it, and are left out. -/
def responseSource (x : Context) (r : Resource) (m : Method) (b : Buffer) : Buffer :=
  (JsonCode.Buffer.imports b [(t!"io", []), (t!"net/http", []), (Go.errorsImport x.base, [])]).emit
    (env x) responseTemplate [(t!"Method", .method r m)]

end Verif.MessagesCode
