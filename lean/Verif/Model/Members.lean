import Verif.Model.Declarations

/-!
# The members of the generated types

Model of the names that the generators of Go code give to the fields and methods of the types generated
for objects, lists, builders, clients and polling. Those of requests and responses are in
`Verif.Model.GoNames`. In Go the fields and methods of a type share a name space.
-/

namespace Verif.Members

open Decls (Label)

/-- `Attribute`, pkg/concepts/attribute.go:24-33, as far as the names of the members need it. -/
structure Attr where
  label : Label
  isBoolean : Bool := false
deriving DecidableEq, Repr

/-- `fieldName`, pkg/generators/golang/types_generator.go:602-604 and
pkg/generators/golang/builders_generator.go:638-640. -/
def fieldName (a : Attr) : Text := Go.privateName a.label.name

/-- `getterName`, pkg/generators/golang/types_generator.go:661-667. -/
def getterName (a : Attr) : Text := Go.nameOf a.label.annotations a.label.name

/-- `setterName`, pkg/generators/golang/builders_generator.go:702-708. -/
def setterName (a : Attr) : Text := Go.nameOf a.label.annotations a.label.name

/-- The fields of the attributes, first those that aren't boolean:
pkg/generators/golang/types_generator.go:339-348 and
pkg/generators/golang/builders_generator.go:225-234. -/
def attributeFields (as : List Attr) : List Text :=
  (as.filter fun a => !a.isBoolean).map fieldName ++ (as.filter fun a => a.isBoolean).map fieldName

/-- The fields of objects, pkg/generators/golang/types_generator.go:333-349. -/
def objectFields (isClass : Bool) (as : List Attr) : List Text :=
  [t!"bitmap_"] ++ (if isClass then [t!"id", t!"href"] else []) ++ attributeFields as

/-- The methods of objects, pkg/generators/golang/types_generator.go:351-443. -/
def objectMethods (isClass : Bool) (as : List Attr) : List Text :=
  (if isClass then [t!"Kind", t!"Link", t!"ID", t!"GetID", t!"HREF", t!"GetHREF"] else []) ++
  [t!"Empty"] ++ as.flatMap fun a => [getterName a, t!"Get" ++ getterName a]

/-- The fields of lists, pkg/generators/golang/types_generator.go:458-462. -/
def listFields : List Text := [t!"href", t!"link", t!"items"]

/-- The methods of lists, pkg/generators/golang/types_generator.go:464-588. -/
def listMethods (isClass : Bool) : List Text :=
  (if isClass then [t!"Kind", t!"Link", t!"HREF", t!"GetHREF"] else []) ++
  [t!"Len", t!"SetLink", t!"SetHREF", t!"SetItems", t!"Items", t!"Empty", t!"Get", t!"Slice", t!"Each",
   t!"Range"]

/-- The fields of builders, pkg/generators/golang/builders_generator.go:219-235. -/
def builderFields (isClass : Bool) (as : List Attr) : List Text :=
  [t!"bitmap_"] ++ (if isClass then [t!"id", t!"href"] else []) ++ attributeFields as

/-- The methods of builders, pkg/generators/golang/builders_generator.go:242-455. -/
def builderMethods (isClass : Bool) (as : List Attr) : List Text :=
  (if isClass then [t!"Link", t!"ID", t!"HREF"] else []) ++ [t!"Empty"] ++ as.map setterName ++
  [t!"Copy", t!"Build"]

/-- The members of the builders of lists, pkg/generators/golang/builders_generator.go:504-552. -/
def listBuilderMembers : List Text := [t!"items", t!"Items", t!"Empty", t!"Copy", t!"Build"]

/-- The fields of clients, pkg/generators/golang/clients_generator.go:496-499. -/
def clientFields : List Text := [t!"transport", t!"path"]

/-- The methods of clients: one for each method, the one that returns the metadata if it is the root, one
for each locator, and the one to poll if the resource has a method `Get`,
pkg/generators/golang/clients_generator.go:511-568 and 737-743, with the names of lines 1111-1125. -/
def clientMethods (r : Resource) : List Text :=
  (r.methods.map fun m => Go.nameOf m.annotations m.name) ++
  (if Decls.isRoot r then [t!"Get"] else []) ++
  (r.locators.map fun l => Go.nameOf l.annotations l.name) ++
  (if (r.methods.find? Method.isGet).isSome then [t!"Poll"] else [])

/-- The members of the client of a service, with a method for each version,
pkg/generators/golang/clients_generator.go:228-257, with the names of lines 1015-1021. -/
def serviceMembers (versions : List Label) : List Text :=
  clientFields ++ versions.map fun v => Go.nameOf v.annotations v.name

/-- The fields of the requests used to poll, pkg/generators/golang/clients_generator.go:604-609, and the
method `task`, lines 675-684. -/
def pollRequestFields : List Text :=
  [t!"request", t!"interval", t!"statuses", t!"predicates", t!"task"]

/-- The other methods of the requests used to poll, with a setter for each input of the method `Get`,
pkg/generators/golang/clients_generator.go:611-673. -/
def pollRequestMethods (m : Method) : List Text :=
  [t!"Parameter", t!"Header"] ++ (Binding.requestParameters m).map Go.parameterSetter ++
  [t!"Interval", t!"Status", t!"Predicate", t!"StartContext"]

/-- The field of the responses of polling, pkg/generators/golang/clients_generator.go:686-689. -/
def pollResponseFields : List Text := [t!"response"]

/-- The methods of the responses of polling, with two getters for each output of the method `Get`,
pkg/generators/golang/clients_generator.go:691-735. -/
def pollResponseMethods (m : Method) : List Text :=
  [t!"Status", t!"Header", t!"Error"] ++
  (Binding.responseParameters m).flatMap fun p => [Go.parameterGetter p, t!"Get" ++ Go.parameterGetter p]

end Verif.Members
