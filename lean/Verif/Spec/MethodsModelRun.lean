import Verif.Spec.JsonModelRun
import Verif.Spec.MethodsRun

/-!
# The generated code of the methods of a model

What it means that a Go program contains the code that writes the requests and reads the responses of the methods of a
model.
-/

namespace Verif.ModelRun

open GoProgram
open BuildersRun (Program)
open JsonCode (camel)
open MethodsCode (messageOf)

/-- The resource with that name is one of those of the version of the service. -/
structure ResourceOf (s : Session) (service version : Text) (v : LoadedVersion) (name : Text) (r : Resource) : Prop where
  version : s.version service version = some v
  resource : ∃ id, v.resources.find name = some id ∧ s.graph[id]? = some r

/-- The name of the package of a version. -/
def packageFor (s : Session) (v : LoadedVersion) : Text := GoRef.versionSelector (Whole.ownerOf s (some v.id))

/-- A Go program contains the code of the methods of the resources of some versions, and perhaps other things: what the
property C99 says that their files contain. -/
def MethodsContain (P : Program) (s : Session) (K : VersionId → Bool) (base : Text) : Prop :=
  ∀ a b v n r, ResourceOf s a b v n r → K v.id = true → ∀ m ∈ r.methods,
    ∀ i ∈ (messageOf (TypesCode.contextOf s base v.id) r m).items, i.decl ∈ P (packageFor s v)

/-- The code of a method can be used: the names don't have dots, the fields of the responses have different names, and
the values that are the whole body are objects or lists. -/
structure GoodMethod (s : Session) (r : Resource) (m : Method) : Prop where
  resource : '.' ∉ camel r.name
  name : '.' ∉ camel m.name
  distinct : ∀ p ∈ MethodsRun.obtained m, ∀ q ∈ MethodsRun.obtained m,
    Go.privateName p.name = Go.privateName q.name → p = q
  bodies : ∀ p ∈ MethodsRun.wholes m, ∀ c, s.heap[p.typ.id]? = some c → c.kind.isStruct = true ∨ c.kind = .list

/-- The name of the function that writes the request of a method. -/
def requestFunction (r : Resource) (m : Method) : Text :=
  t!"write" ++ (if r.name.toText = t!"root" then [] else camel r.name) ++ camel m.name ++ t!"Request"

/-- The name of the function that reads the response of a method. -/
def responseFunction (r : Resource) (m : Method) : Text :=
  t!"read" ++ (if r.name.toText = t!"root" then [] else camel r.name) ++ camel m.name ++ t!"Response"

/-- The parameters of the method when the kinds of their types are known: when all the declarations have been read. -/
def resolved (heap : Heap) (m : Method) : Method := { m with parameters := m.parameters.map (Reader.resolveParameter heap) }

end Verif.ModelRun
