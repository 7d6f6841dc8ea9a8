import Verif.Model.JsonCode
import Verif.Model.Binding
import Verif.Model.Declarations
import Verif.Model.Resources

/-!
# The client of a resource

Model of the part of `pkg/generators/golang/clients_generator.go` that writes the type of the client of a resource, with
the methods that create the requests and those that return the clients of other resources. The template is the same text
that is in the Go code.
-/

namespace Verif.ResourceClient

open GoTemplate GoFile

/-- The objects used in the template. -/
inductive Obj where
  | resource (r : Resource)
  | method (r : Resource) (m : Method)
  | locator (l : Locator)
  | name (n : Name)
  | flag (b : Bool)

/-- The value that an argument of the template is. -/
def inject : Obj → Value Obj
  | .flag b => .flag b
  | o => .obj o

/-- The methods of the objects: pkg/concepts/named.go:30-32, pkg/concepts/documented.go:27-30,
pkg/concepts/resource.go:52-54 and 76-78, and pkg/concepts/locator.go:52-54 and 63-65. Using the target of a locator that
has none panics, and then the template engine (Go standard library) returns an error: here that happens when the target
is calculated. -/
def member (g : Graph) : Obj → Text → Option (Value Obj)
  | .resource r, f =>
    if f = t!"Name" then some (.obj (.name r.name))
    else if f = t!"Doc" then some (.text r.doc)
    else if f = t!"Methods" then some (.list (r.methods.map (.method r)))
    else if f = t!"Locators" then some (.list (r.locators.map .locator))
    else none
  | .method _ m, f =>
    if f = t!"Name" then some (.obj (.name m.name))
    else if f = t!"Doc" then some (.text m.doc)
    else none
  | .locator l, f =>
    if f = t!"Doc" then some (.text l.doc)
    else if f = t!"Variable" then some (.flag l.isVariable)
    else if f = t!"Target" then (l.target.bind (g[·]?)).map fun r => .obj (.resource r)
    else none
  | _, _ => none

/-- How objects are printed, pkg/names/name.go:120-128. -/
def shown : Obj → Option Text
  | .name n => some n.toText
  | _ => none

/-- The functions of the buffer, pkg/generators/golang/buffer.go:127, and of the generator,
pkg/generators/golang/clients_generator.go:440-453 and 1109-1161. Only those that the template uses. -/
def functions (f : Text) : Option (List (Value Obj) → Option (Value Obj × List Effect)) :=
  if f = t!"lineComment" then
    some fun
      | [.text t] => some (.text (GoBuffer.lineComment t), [])
      | _ => none
  else if f = t!"clientName" then
    some fun
      | [.obj (.resource r)] => some (.text (Decls.clientName r), [])
      | _ => none
  else if f = t!"methodName" then
    some fun
      | [.obj (.method _ m)] => some (.text (Go.nameOf m.annotations m.name), [])
      | _ => none
  else if f = t!"methodSegment" then
    some fun
      | [.obj (.method _ m)] => some (.text (Binding.methodSegment m), [])
      | _ => none
  else if f = t!"requestName" then
    some fun
      | [.obj (.method r m)] => some (.text (Go.messageName t!"Request" (Decls.isRoot r) r m), [])
      | _ => none
  else if f = t!"locatorName" then
    some fun
      | [.obj (.locator l)] => some (.text (Go.nameOf l.annotations l.name), [])
      | _ => none
  else if f = t!"locatorSegment" then
    some fun
      | [.obj (.locator l)] => some (.text (Binding.locatorSegment l), [])
      | _ => none
  else none

/-- What the template can use. -/
def env (g : Graph) : Env Obj := { member := member g, shown := shown, functions := functions, inject := inject }

/-- The template, pkg/generators/golang/clients_generator.go:490-568. -/
def clientTemplate : Text :=
  List.flatten [
    t!"\n",
    t!"\t\t{{ $clientName := clientName .Resource }}\n",
    t!"\n",
    t!"\t\t// {{ $clientName }} is the client of the '{{ .Resource.Name }}' resource.\n",
    t!"\t\t//\n",
    t!"\t\t{{ lineComment .Resource.Doc }}\n",
    t!"\t\ttype {{ $clientName }} struct {\n",
    t!"\t\t\ttransport http.RoundTripper\n",
    t!"\t\t\tpath string\n",
    t!"\t\t}\n",
    t!"\n",
    t!"\t\t// New{{ $clientName }} creates a new client for the '{{ .Resource.Name }}'\n",
    t!"\t\t// resource using the given transport to send the requests and receive the\n",
    t!"\t\t// responses.\n",
    t!"\t\tfunc New{{ $clientName }}(transport http.RoundTripper, path string) *{{ $clientName }} {\n",
    t!"\t\t\treturn &{{ $clientName }}{\n",
    t!"\t\t\t\ttransport: transport,\n",
    t!"\t\t\t\tpath:      path,\n",
    t!"\t\t\t}\n",
    t!"\t\t}\n",
    t!"\n",
    t!"\t\t{{ range .Resource.Methods }}\n",
    t!"\t\t\t{{ $methodName := methodName . }}\n",
    t!"\t\t\t{{ $methodSegment := methodSegment . }}\n",
    t!"\t\t\t{{ $requestName := requestName . }}\n",
    t!"\n",
    t!"\t\t\t// {{ $methodName }} creates a request for the '{{ .Name }}' method.\n",
    t!"\t\t\t//\n",
    t!"\t\t\t{{ lineComment .Doc }}\n",
    t!"\t\t\tfunc (c *{{ $clientName }}) {{ $methodName }}() *{{ $requestName }} {\n",
    t!"\t\t\t\treturn &{{ $requestName }}{\n",
    t!"\t\t\t\t\ttransport: c.transport,\n",
    t!"\t\t\t\t\t{{ if $methodSegment }}\n",
    t!"\t\t\t\t\t\tpath: path.Join(c.path, \"{{ $methodSegment }}\"),\n",
    t!"\t\t\t\t\t{{ else }}\n",
    t!"\t\t\t\t\t\tpath: c.path,\n",
    t!"\t\t\t\t\t{{ end }}\n",
    t!"\t\t\t\t}\n",
    t!"\t\t\t}\n",
    t!"\t\t{{ end }}\n",
    t!"\n",
    t!"\t\t{{ if .Root }}\n",
    t!"\t\t\t// Creates a new request for the method that retrieves the metadata.\n",
    t!"\t\t\tfunc (c *{{ $clientName }}) Get() *MetadataRequest {\n",
    t!"\t\t\t\treturn &MetadataRequest{\n",
    t!"\t\t\t\t\ttransport: c.transport,\n",
    t!"\t\t\t\t\tpath:      c.path,\n",
    t!"\t\t\t\t}\n",
    t!"\t\t\t}\n",
    t!"\t\t{{ end }}\n",
    t!"\n",
    t!"\t\t{{ range .Resource.Locators }}\n",
    t!"\t\t\t{{ $locatorName := locatorName . }}\n",
    t!"\t\t\t{{ $locatorSegment := locatorSegment . }}\n",
    t!"\t\t\t{{ $targetName := clientName .Target }}\n",
    t!"\n",
    t!"\t\t\t{{ if .Variable }}\n",
    t!"\t\t\t\t// {{ $locatorName }} returns the target '{{ .Target.Name }}' resource for the given identifier.\n",
    t!"\t\t\t\t//\n",
    t!"\t\t\t\t{{ lineComment .Doc }}\n",
    t!"\t\t\t\tfunc (c *{{ $clientName }}) {{ $locatorName }}(id string) *{{ $targetName }} {\n",
    t!"\t\t\t\t\treturn New{{ $targetName }}(\n",
    t!"\t\t\t\t\t\tc.transport,\n",
    t!"\t\t\t\t\t\tpath.Join(c.path, id),\n",
    t!"\t\t\t\t\t)\n",
    t!"\t\t\t\t}\n",
    t!"\t\t\t{{ else }}\n",
    t!"\t\t\t\t// {{ $locatorName }} returns the target '{{ .Target.Name }}' resource.\n",
    t!"\t\t\t\t//\n",
    t!"\t\t\t\t{{ lineComment .Doc }}\n",
    t!"\t\t\t\tfunc (c *{{ $clientName }}) {{ $locatorName }}() *{{ $targetName }} {\n",
    t!"\t\t\t\t\treturn New{{ $targetName }}(\n",
    t!"\t\t\t\t\t\tc.transport,\n",
    t!"\t\t\t\t\t\tpath.Join(c.path, \"{{ $locatorSegment }}\"),\n",
    t!"\t\t\t\t\t)\n",
    t!"\t\t\t\t}\n",
    t!"\t\t\t{{ end }}\n",
    t!"\t\t{{ end }}\n",
    t!"\t\t"]

/-- The first part of `generateResourceClientSource`, pkg/generators/golang/clients_generator.go:484-571. `Root` finds
the resource whose name is that of the root. The rest of that function adds the code of the requests and responses, and
isn't modelled here. -/
def clientSource (g : Graph) (r : Resource) (b : Buffer) : Buffer :=
  (JsonCode.Buffer.imports b [(t!"net/http", []), (t!"path", [])]).emit (env g) clientTemplate
    [(t!"Resource", .resource r), (t!"Root", .flag (Decls.isRoot r))]

end Verif.ResourceClient
