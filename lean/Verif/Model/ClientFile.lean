import Verif.Model.MessagesCode
import Verif.Model.ResourceClient

/-!
# The file of the client of a resource

Model of the rest of the part of `pkg/generators/golang/clients_generator.go` that writes the file of the client of a
resource: the types used to poll, and the sequence of the parts of the file.
-/

namespace Verif.ClientFile

open GoTemplate GoFile
open MessagesCode (Context Obj)

/-- The template of the types used to poll, pkg/generators/golang/clients_generator.go:594-744. -/
def pollTemplate : Text :=
  List.flatten [
    t!"\n",
    t!"\t\t{{ $clientName := clientName .Resource }}\n",
    t!"\t\t{{ $requestName := pollRequestName .Resource }}\n",
    t!"\t\t{{ $responseName := pollResponseName .Resource }}\n",
    t!"\t\t{{ $methodRequestName := requestName .Method }}\n",
    t!"\t\t{{ $methodResponseName := responseName .Method }}\n",
    t!"\t\t{{ $methodRequestParameters := requestParameters .Method }}\n",
    t!"\t\t{{ $methodResponseParameters := responseParameters .Method }}\n",
    t!"\n",
    t!"\t\t// {{ $requestName }} is the request for the Poll method.\n",
    t!"\t\ttype {{ $requestName }} struct {\n",
    t!"\t\t\trequest    *{{ $methodRequestName }}\n",
    t!"\t\t\tinterval   time.Duration\n",
    t!"\t\t\tstatuses   []int\n",
    t!"\t\t\tpredicates []func (interface{}) bool\n",
    t!"\t\t}\n",
    t!"\n",
    t!"\t\t// Parameter adds a query parameter to all the requests that will be used to retrieve the object.\n",
    t!"\t\tfunc (r *{{ $requestName }}) Parameter(name string, value interface{}) *{{ $requestName }} {\n",
    t!"\t\t\tr.request.Parameter(name, value)\n",
    t!"\t\t\treturn r\n",
    t!"\t\t}\n",
    t!"\n",
    t!"\t\t// Header adds a request header to all the requests that will be used to retrieve the object.\n",
    t!"\t\tfunc (r *{{ $requestName }}) Header(name string, value interface{}) *{{ $requestName }} {\n",
    t!"\t\t\tr.request.Header(name, value)\n",
    t!"\t\t\treturn r\n",
    t!"\t\t}\n",
    t!"\n",
    t!"\t\t{{ range $methodRequestParameters }}\n",
    t!"\t\t\t{{ $setterName := setterName . }}\n",
    t!"\t\t\t{{ $setterType := setterType . }}\n",
    t!"\n",
    t!"\t\t\t// {{ $setterName }} sets the value of the '{{ .Name }}' parameter for all the requests that\n",
    t!"\t\t\t// will be used to retrieve the object.\n",
    t!"\t\t\t//\n",
    t!"\t\t\t{{ lineComment .Doc }}\n",
    t!"\t\t\tfunc (r *{{ $requestName }}) {{ $setterName }}(value {{ $setterType }}) *{{ $requestName }} {\n",
    t!"\t\t\t\tr.request.{{ $setterName }}(value)\n",
    t!"\t\t\t\treturn r\n",
    t!"\t\t\t}\n",
    t!"\t\t{{ end }}\n",
    t!"\n",
    t!"\t\t// Interval sets the polling interval. This parameter is mandatory and must be greater than zero.\n",
    t!"\t\tfunc (r *{{ $requestName }}) Interval(value time.Duration) *{{ $requestName }} {\n",
    t!"\t\t\tr.interval = value\n",
    t!"\t\t\treturn r\n",
    t!"\t\t}\n",
    t!"\n",
    t!"\t\t// Status set the expected status of the response. Multiple values can be set calling this method\n",
    t!"\t\t// multiple times. The response will be considered successful if the status is any of those values.\n",
    t!"\t\tfunc (r *{{ $requestName }}) Status(value int) *{{ $requestName }} {\n",
    t!"\t\t\tr.statuses = append(r.statuses, value)\n",
    t!"\t\t\treturn r\n",
    t!"\t\t}\n",
    t!"\n",
    t!"\t\t// Predicate adds a predicate that the response should satisfy be considered successful. Multiple\n",
    t!"\t\t// predicates can be set calling this method multiple times. The response will be considered successful\n",
    t!"\t\t// if all the predicates are satisfied.\n",
    t!"\t\tfunc (r *{{ $requestName }}) Predicate(value func (*{{ $methodResponseName }}) bool) *{{ $requestName }} {\n",
    t!"\t\t\tr.predicates = append(r.predicates, func(response interface{}) bool {\n",
    t!"\t\t\t\treturn value(response.(*{{ $methodResponseName }}))\n",
    t!"\t\t\t})\n",
    t!"\t\t\treturn r\n",
    t!"\t\t}\n",
    t!"\n",
    t!"\t\t// StartContext starts the polling loop. Responses will be considered successful if the status is one of\n",
    t!"\t\t// the values specified with the Status method and if all the predicates specified with the Predicate\n",
    t!"\t\t// method return nil.\n",
    t!"\t\t//\n",
    t!"\t\t// The context must have a timeout or deadline, otherwise this method will immediately return an error.\n",
    t!"\t\tfunc (r *{{ $requestName }}) StartContext(ctx context.Context) (response *{{ $responseName }}, err error) {\n",
    t!"\t\t\tresult, err := helpers.PollContext(ctx, r.interval, r.statuses, r.predicates, r.task)\n",
    t!"\t\t\tif result != nil {\n",
    t!"\t\t\t\tresponse = &{{ $responseName }}{\n",
    t!"\t\t\t\t\tresponse: result.(*{{ $methodResponseName }}),\n",
    t!"\t\t\t\t}\n",
    t!"\t\t\t}\n",
    t!"\t\t\treturn\n",
    t!"\t\t}\n",
    t!"\n",
    t!"\t\t// task adapts the types of the request/response types so that they can be used with the generic\n",
    t!"\t\t// polling function from the helpers package.\n",
    t!"\t\tfunc (r *{{ $requestName }}) task(ctx context.Context) (status int, result interface{}, err error) {\n",
    t!"\t\t\tresponse, err := r.request.SendContext(ctx)\n",
    t!"\t\t\tif response != nil {\n",
    t!"\t\t\t\tstatus = response.Status()\n",
    t!"\t\t\t\tresult = response\n",
    t!"\t\t\t}\n",
    t!"\t\t\treturn\n",
    t!"\t\t}\n",
    t!"\n",
    t!"\t\t// {{ $responseName }} is the response for the Poll method.\n",
    t!"\t\ttype {{ $responseName }} struct {\n",
    t!"\t\t\tresponse *{{ $methodResponseName }}\n",
    t!"\t\t}\n",
    t!"\n",
    t!"\t\t// Status returns the response status code.\n",
    t!"\t\tfunc (r *{{ $responseName }}) Status() int {\n",
    t!"\t\t\tif r == nil {\n",
    t!"\t\t\t\treturn 0\n",
    t!"\t\t\t}\n",
    t!"\t\t\treturn r.response.Status()\n",
    t!"\t\t}\n",
    t!"\n",
    t!"\t\t// Header returns header of the response.\n",
    t!"\t\tfunc (r *{{ $responseName }}) Header() http.Header {\n",
    t!"\t\t\tif r == nil {\n",
    t!"\t\t\t\treturn nil\n",
    t!"\t\t\t}\n",
    t!"\t\t\treturn r.response.Header()\n",
    t!"\t\t}\n",
    t!"\n",
    t!"\t\t// Error returns the response error.\n",
    t!"\t\tfunc (r *{{ $responseName }}) Error() *errors.Error {\n",
    t!"\t\t\tif r == nil {\n",
    t!"\t\t\t\treturn nil\n",
    t!"\t\t\t}\n",
    t!"\t\t\treturn r.response.Error()\n",
    t!"\t\t}\n",
    t!"\n",
    t!"\t\t{{ range $methodResponseParameters }}\n",
    t!"\t\t\t{{ $parameterType := .Type.Name.String }}\n",
    t!"\t\t\t{{ $fieldName := fieldName . }}\n",
    t!"\t\t\t{{ $getterName := getterName . }}\n",
    t!"\t\t\t{{ $getterType := getterType . }}\n",
    t!"\n",
    t!"\t\t\t// {{ $getterName }} returns the value of the '{{ .Name }}' parameter.\n",
    t!"\t\t\t//\n",
    t!"\t\t\t{{ lineComment .Doc }}\n",
    t!"\t\t\tfunc (r *{{ $responseName }}) {{ $getterName }}() {{ $getterType }} {\n",
    t!"\t\t\t\treturn r.response.{{ $getterName }}()\n",
    t!"\t\t\t}\n",
    t!"\n",
    t!"\t\t\t// Get{{ $getterName }} returns the value of the '{{ .Name }}' parameter and\n",
    t!"\t\t\t// a flag indicating if the parameter has a value.\n",
    t!"\t\t\t//\n",
    t!"\t\t\t{{ lineComment .Doc }}\n",
    t!"\t\t\tfunc (r *{{ $responseName }}) Get{{ $getterName }}() (value {{ $getterType }}, ok bool) {\n",
    t!"\t\t\t\treturn r.response.Get{{ $getterName }}()\n",
    t!"\t\t\t}\n",
    t!"\t\t{{ end }}\n",
    t!"\n",
    t!"\t\t// Poll creates a request to repeatedly retrieve the object till the response has one of a given set\n",
    t!"\t\t// of states and satisfies a set of predicates.\n",
    t!"\t\tfunc (c *{{ $clientName }}) Poll() *{{ $requestName }} {\n",
    t!"\t\t\treturn &{{ $requestName }}{\n",
    t!"\t\t\t\trequest: c.{{ methodName .Method }}(),\n",
    t!"\t\t\t}\n",
    t!"\t\t}\n",
    t!"\t\t"]

/-- `generatePollMethodSource`, pkg/generators/golang/clients_generator.go:586-749, after finding the body of the
response, which is the argument `Body` of the template, that isn't used in it, and is left out. -/
def pollSource (x : Context) (r : Resource) (m : Method) (b : Buffer) : Buffer :=
  (JsonCode.Buffer.imports b [(t!"net/http", []), (t!"time", []), (Go.errorsImport x.base, [])]).emit
    (MessagesCode.env x) pollTemplate [(t!"Resource", .resource r), (t!"Method", .method r m)]

/-- `generatePollMethodSource`, pkg/generators/golang/clients_generator.go:573-577 and 586-588: the method `Get` of the
resource is used, if there is one. Line 588 panics if that method has no output parameters. -/
def pollPart (x : Context) (r : Resource) (b : Buffer) : Run Buffer :=
  match Outcome.findMethod r Nom.get with
  | none => .done b
  | some m =>
    match Binding.responseBodyParameters m with
    | [] => .panic
    | _ :: _ => .done (pollSource x r m b)

/-- The loop of `generateResourceClientSource`, pkg/generators/golang/clients_generator.go:579-583. -/
def messagesPart (x : Context) (r : Resource) (b : Buffer) : Buffer :=
  r.methods.foldl (fun b m => MessagesCode.responseSource x r m (MessagesCode.requestSource x r m b)) b

/-- `generateResourceClientSource`, pkg/generators/golang/clients_generator.go:483-584. -/
def source (x : Context) (g : Graph) (r : Resource) (b : Buffer) : Run Buffer :=
  (pollPart x r (ResourceClient.clientSource g r b)).bind fun b => .done (messagesPart x r b)

/-- `generateResourceClient`, pkg/generators/golang/clients_generator.go:430-481, given the errors reported before and
the order of the imports. -/
def resourceFile (x : Context) (g : Graph) (r : Resource) (errors : Nat) (order : List (Text × Text)) :
    Run (Option Text × Bool) :=
  (source x g r { pkg := x.pkg, errors := errors }).bind fun b => .done (b.write order)

end Verif.ClientFile
