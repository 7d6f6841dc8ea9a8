import Verif.Model.Binding

/-!
# Paths of the requests

Model of the `path` package of the Go standard library and of the paths that the generated clients
calculate, pkg/generators/golang/clients_generator.go, and of the path templates of the
specifications, pkg/generators/openapi/openapi_generator.go.
-/

namespace Verif

namespace GoPath

/-- What `path.Clean` (Go standard library) does with one of the parts separated by slashes: the
empty part and `.` are ignored, `..` removes the previous part if there is one that isn't `..`, and
otherwise is ignored if the path starts with a slash. The parts already processed are in reverse
order. -/
def cleanStep (rooted : Bool) (done : List Text) (part : Text) : List Text :=
  if part = [] then done
  else if part = t!"." then done
  else if part = t!".." then
    match done with
    | [] => if rooted then [] else [part]
    | last :: before => if last = t!".." then part :: done else before
  else part :: done

/-- `path.Clean` (Go standard library). The library processes the bytes one by one; here the path is
first split. -/
def clean (path : Text) : Text :=
  let rooted := path.head? == some '/'
  let parts := ((splitOn '/' path).foldl (cleanStep rooted) []).reverse
  let result := (if rooted then t!"/" else []) ++ joinText t!"/" parts
  if result = [] then t!"." else result

/-- `path.Join` (Go standard library): the empty elements at the beginning are ignored, and nothing
is cleaned if all the elements are empty. -/
def join : List Text → Text
  | [] => []
  | e :: es => if e = [] then join es else clean (joinText t!"/" (e :: es))

end GoPath

namespace GoClient

/-- The client of the root of a version, pkg/generators/golang/clients_generator.go:248-256, for the
path given to `NewClient` and the segment of the version. Clients are modelled by their `path`
field; the transport, that is just passed along, isn't modelled. -/
def versionPath (path segment : Text) : Text := GoPath.join [path, segment]

/-- One of the steps that the user takes from a client to another: the method of a locator, called
with an identifier if it is variable. -/
structure Hop where
  locator : Locator
  id : Text := []
deriving DecidableEq, Repr

/-- The client that the method of a locator returns,
pkg/generators/golang/clients_generator.go:543-567. -/
def locatorPath (path : Text) (hop : Hop) : Text :=
  if hop.locator.isVariable then GoPath.join [path, hop.id]
  else GoPath.join [path, Binding.locatorSegment hop.locator]

/-- The client reached following a chain of locators. -/
def clientPath (path : Text) (hops : List Hop) : Text := hops.foldl locatorPath path

/-- The path of the request that the method of a client creates,
pkg/generators/golang/clients_generator.go:515-529. -/
def methodPath (path : Text) (m : Method) : Text :=
  if Binding.methodSegment m ≠ [] then GoPath.join [path, Binding.methodSegment m] else path

/-- The path of the request for the metadata that the `Get` method of the root client creates,
pkg/generators/golang/clients_generator.go:531-539. -/
def metadataPath (path : Text) : Text := path

end GoClient

namespace OpenApi

/-- The part of the template of a path for a locator, inside the loop of `absolutePath`,
pkg/generators/openapi/openapi_generator.go:654-660. -/
def locatorTemplate (l : Locator) : Text :=
  if l.isVariable then t!"{" ++ Binding.locatorSegment l ++ t!"_id" ++ t!"}"
  else Binding.locatorSegment l

/-- `absolutePath`, pkg/generators/openapi/openapi_generator.go:647-664, for the segments of the
service and of the version. -/
def absolutePath (service version : Text) (path : List Locator) : Text :=
  t!"/api/" ++ joinText t!"/" ([service, version] ++ path.map locatorTemplate)

/-- The key of the path of a method, pkg/generators/openapi/openapi_generator.go:301 and 310, for the
prefix of the resource: methods without segment use the prefix. -/
def methodKey (key : Text) (m : Method) : Text :=
  if Binding.methodSegment m = [] then key else key ++ t!"/" ++ Binding.methodSegment m

end OpenApi

end Verif
