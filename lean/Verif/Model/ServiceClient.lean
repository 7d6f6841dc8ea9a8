import Verif.Model.JsonCode
import Verif.Model.Binding

/-!
# The file of the client of a service

Model of the part of `pkg/generators/golang/clients_generator.go` that writes the clients of services. The template is
the same text that is in the Go code.
-/

namespace Verif.ServiceClient

open GoTemplate GoFile

/-- A version of a service: its name, annotations and root resource, pkg/concepts/version.go:27-35. -/
structure Version where
  name : Name
  annotations : List Annotation := []
  root : Option Resource

/-- A service, pkg/concepts/service.go:26-33, with its versions in the order of the listing. -/
structure Service where
  name : Name
  versions : List Version

/-- What the generator needs to know: the base package, and the service. -/
structure Context where
  base : Text
  service : Service

/-- The objects used in the template. Resources have a flag that says if they are the root of the version that owns
them, `IsRoot`, pkg/concepts/resource.go:112-114. -/
inductive Obj where
  | service (s : Service)
  | version (v : Version)
  | resource (r : Resource) (isRoot : Bool)
  | name (n : Name)

/-- The methods of the objects: pkg/concepts/named.go:30-32, pkg/concepts/service.go:62-72 and
pkg/concepts/version.go:188-190. The function that uses the root panics if there isn't one, and then the template engine
(Go standard library) returns an error: here that happens when the root is calculated. -/
def member : Obj → Text → Option (Value Obj)
  | .service s, f =>
    if f = t!"Name" then some (.obj (.name s.name))
    else if f = t!"Versions" then some (.list (s.versions.map .version))
    else none
  | .version v, f =>
    if f = t!"Name" then some (.obj (.name v.name))
    else if f = t!"Root" then v.root.map fun r => .obj (.resource r true)
    else none
  | .resource _ _, _ => none
  | .name _, _ => none

/-- How objects are printed, pkg/names/name.go:120-128. -/
def shown : Obj → Option Text
  | .name n => some n.toText
  | _ => none

/-- The version that packages are calculated for. -/
def Context.owner (x : Context) (v : Version) : GoRef.Owner := { service := x.service.name, version := v.name }

/-- `clientName`, pkg/generators/golang/clients_generator.go:1127-1137. -/
def clientName (r : Resource) (isRoot : Bool) : Text :=
  (if !isRoot then Go.nameOf r.annotations r.name else []) ++ t!"Client"

/-- The functions of the generator, pkg/generators/golang/clients_generator.go:191-194, 1015-1021 and 1127-1137,
pkg/http/binding_calculator.go:235-241 and pkg/generators/golang/packages_calculator.go:111-113. -/
def Context.functions (x : Context) (f : Text) : Option (List (Value Obj) → Option (Value Obj × List Effect)) :=
  if f = t!"clientName" then
    some fun
      | [.obj (.resource r b)] => some (.text (clientName r b), [])
      | _ => none
  else if f = t!"versionSegment" then
    some fun
      | [.obj (.version v)] => some (.text (Binding.segment v.name v.annotations), [])
      | _ => none
  else if f = t!"versionName" then
    some fun
      | [.obj (.version v)] => some (.text (Go.nameOf v.annotations v.name), [])
      | _ => none
  else if f = t!"versionSelector" then
    some fun
      | [.obj (.version v)] => some (.text (GoRef.versionSelector (x.owner v)), [])
      | _ => none
  else none

/-- What the template can use. -/
def Context.env (x : Context) : Env Obj := { member := member, shown := shown, functions := x.functions }

/-- The template, pkg/generators/golang/clients_generator.go:227-257. -/
def clientTemplate : Text :=
  List.flatten [
    t!"\n",
    t!"\t\t// Client is the client for service '{{ .Service.Name }}'.\n",
    t!"\t\ttype Client struct {\n",
    t!"\t\t\ttransport http.RoundTripper\n",
    t!"\t\t\tpath string\n",
    t!"\t\t}\n",
    t!"\n",
    t!"\t\t// NewClient creates a new client for the service '{{ .Service.Name }}' using the\n",
    t!"\t\t// given transport to send the requests and receive the responses.\n",
    t!"\t\tfunc NewClient(transport http.RoundTripper, path string) *Client {\n",
    t!"\t\t\tclient := new(Client)\n",
    t!"\t\t\tclient.transport = transport\n",
    t!"\t\t\tclient.path = path\n",
    t!"\t\t\treturn client\n",
    t!"\t\t}\n",
    t!"\n",
    t!"\t\t{{ range .Service.Versions }}\n",
    t!"\t\t\t{{ $versionName := versionName . }}\n",
    t!"\t\t\t{{ $versionSelector := versionSelector . }}\n",
    t!"\t\t\t{{ $versionSegment := versionSegment . }}\n",
    t!"\t\t\t{{ $rootName := clientName .Root }}\n",
    t!"\n",
    t!"\t\t\t// {{ $versionName }} returns a reference to a client for version '{{ .Name }}'.\n",
    t!"\t\t\tfunc (c *Client) {{ $versionName }}() *{{ $versionSelector }}.{{ $rootName }} {\n",
    t!"\t\t\t\treturn {{ $versionSelector }}.New{{ $rootName }}(\n",
    t!"\t\t\t\t\tc.transport,\n",
    t!"\t\t\t\t\tpath.Join(c.path, \"{{ $versionSegment }}\"),\n",
    t!"\t\t\t\t)\n",
    t!"\t\t\t}\n",
    t!"\t\t{{ end }}\n",
    t!"\t\t"]

/-- `generateServiceClientSource`, pkg/generators/golang/clients_generator.go:221-262. -/
def clientSource (x : Context) (b : Buffer) : Buffer :=
  (JsonCode.Buffer.imports b ([(t!"net/http", []), (t!"path", [])] ++
    x.service.versions.map fun v => (GoRef.versionImport x.base (x.owner v), []))).emit x.env clientTemplate
      [(t!"Service", .service x.service)]

/-- The part of `generateServiceClient` that writes the file of the service,
pkg/generators/golang/clients_generator.go:177-209, given the errors reported before and the order of the imports. The
import path of the package of the buffer is that of pkg/generators/golang/buffer.go:118-121. -/
def clientFile (x : Context) (errors : Nat) (order : List (Text × Text)) : Option Text × Bool :=
  (clientSource x { pkg := GoRef.pathJoin x.base (Go.servicePackage x.service.name), errors := errors }).write order

end Verif.ServiceClient
