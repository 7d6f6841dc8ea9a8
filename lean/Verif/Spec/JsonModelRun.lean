import Verif.Spec.ModelRun
import Verif.Spec.Whole
import Verif.Spec.JsonReadRun

/-!
# The generated JSON support of a model

What the code of the JSON support of the types of a model is, and what it means that a Go program contains it.
-/

namespace Verif.ModelRun

open GoProgram
open TypesRun (Legal)
open BuildersRun (Program)
open JsonCode (Entity camel)
open JsonRun (ListCode)

/-- The code of the JSON support of a struct or class of a model: what the property C95 says that its file contains. -/
def jsonCell (s : Session) (base : Text) (c : TypeCell) : Entity :=
  JsonCode.entityOf (TypesCode.contextOf s base (c.owner.getD 0)) c

/-- The code of the JSON support of the structs and classes of a model. -/
def jsonOf (s : Session) (base : Text) (id : TypeId) : Entity := jsonCell s base ((s.heap[id]?).getD { name := [] })

/-- The code of the JSON support of a list of a model: what the property C95 says that its file contains. -/
def listCell (s : Session) (base : Text) (c : TypeCell) : ListCode :=
  { pkg := packageOf s c
    listing := JsonCode.listingOf (TypesCode.contextOf s base (c.owner.getD 0))
      { owner := Whole.ownerOf s c.owner, name := c.name, annotations := c.annotations }
      (Whole.typeOf s (c.element.getD 0)) }

/-- The code of the JSON support of the lists of a model. -/
def listsOf (s : Session) (base : Text) (id : TypeId) : ListCode := listCell s base ((s.heap[id]?).getD { name := [] })

/-- A Go program that compiles contains the code of the JSON support of the structs, classes and lists of a part of a
model, and perhaps other things. There is no code for the lists of lists and the lists of maps, see the property C85. -/
structure JsonContains (P : Program) (s : Session) (T : TypeCell → Bool) (base : Text) : Prop where
  objects : ∀ (id : Nat) c, s.heap[id]? = some c → T c = true → c.kind.isStruct = true →
    ∀ i ∈ (jsonCell s base c).items, i.decl ∈ P (packageOf s c)
  lists : ∀ (id : Nat) c, s.heap[id]? = some c → T c = true → c.kind = .list →
    ∀ e u, c.element = some e → s.heap[e]? = some u → u.kind ≠ .list → u.kind ≠ .map →
    ∀ i ∈ (listCell s base c).listing.items, i.decl ∈ P (packageOf s c)

/-- The code of the JSON support of a type: nothing for those that have no code. -/
def jsonDeclarations (s : Session) (base : Text) (c : TypeCell) : List Declaration :=
  if c.kind.isStruct = true then (jsonCell s base c).items.map (·.decl)
  else if c.kind = .list then (listCell s base c).listing.items.map (·.decl)
  else []

/-- The program that contains the code of the types of a part of a model and of their JSON support, and nothing
else. -/
def jsonProgram (s : Session) (T : TypeCell → Bool) (base : Text) : Program := fun pkg =>
  (s.heap.filter fun c => T c && packageOf s c == pkg).flatMap fun c => declarationsOf s base c ++ jsonDeclarations s base c

/-- The types of a part of a model can be written and read: the elements of lists aren't lists or maps, the elements
of maps aren't maps, and the lists that are links are lists of objects. Each attribute refers only to types of the
same version, and the names of the functions don't have dots. -/
structure Portable (s : Session) (T : TypeCell → Bool) : Prop where
  lists : ∀ (id : Nat) c, s.heap[id]? = some c → T c = true → c.kind = .list →
    ∀ e u, c.element = some e → s.heap[e]? = some u → u.kind ≠ .list ∧ u.kind ≠ .map
  maps : ∀ (id : Nat) c, s.heap[id]? = some c → T c = true → c.kind = .map →
    ∀ e u, c.element = some e → s.heap[e]? = some u → u.kind ≠ .map
  links : ∀ (id : Nat) c, s.heap[id]? = some c → T c = true → ∀ a ∈ c.attributes, a.link = true →
    ∀ w e u, s.heap[a.typ]? = some w → w.kind = .list → w.element = some e → s.heap[e]? = some u →
      u.kind.isStruct = true
  sameVersion : ∀ (id : Nat) c, s.heap[id]? = some c → T c = true → ∀ a ∈ c.attributes,
    a.linkOwner = none ∧ ∀ w, s.heap[a.typ]? = some w → w.owner = c.owner
  elements : ∀ (id : Nat) c, s.heap[id]? = some c → T c = true → ∀ e u, c.element = some e → s.heap[e]? = some u →
    u.owner = c.owner
  names : ∀ (id : Nat) c, s.heap[id]? = some c → T c = true → c.kind.isStruct = true ∨ c.kind = .list →
    '.' ∉ camel c.name ∧ '.' ∉ goName c

/-- The types of some versions can be written and read, and the names of the functions don't have dots. -/
structure GoodJson (s : Session) (K : VersionId → Bool) : Prop where
  lists : ∀ (id : Nat) c, s.heap[id]? = some c → ofVersions K c = true → c.kind = .list →
    ∀ e u, c.element = some e → s.heap[e]? = some u → u.kind ≠ .list ∧ u.kind ≠ .map
  maps : ∀ (id : Nat) c, s.heap[id]? = some c → ofVersions K c = true → c.kind = .map →
    ∀ e u, c.element = some e → s.heap[e]? = some u → u.kind ≠ .map
  links : ∀ (id : Nat) c, s.heap[id]? = some c → ofVersions K c = true → ∀ a ∈ c.attributes, a.link = true →
    ∀ w e u, s.heap[a.typ]? = some w → w.kind = .list → w.element = some e → s.heap[e]? = some u →
      u.kind.isStruct = true
  names : ∀ (id : Nat) c, s.heap[id]? = some c → ofVersions K c = true → c.kind.isStruct = true ∨ c.kind = .list →
    '.' ∉ camel c.name ∧ '.' ∉ goName c

/-- The names of the attributes in JSON documents are different in each type, aren't empty, and in classes aren't those
of the kind, the identifier and the address. -/
structure GoodTags (s : Session) (K : VersionId → Bool) : Prop where
  different : ∀ (id : Nat) c, s.heap[id]? = some c → ofVersions K c = true →
    (c.attributes.map Binding.attributeName).Nodup
  named : ∀ (id : Nat) c, s.heap[id]? = some c → ofVersions K c = true → ∀ a ∈ c.attributes,
    Binding.attributeName a ≠ []
  reserved : ∀ (id : Nat) c, s.heap[id]? = some c → ofVersions K c = true → c.kind = .class → ∀ a ∈ c.attributes,
    Binding.attributeName a ∉ [t!"kind", t!"id", t!"href"]

/-- Everything that the theorems about models that are read need. -/
structure Ready (P : Program) (inputs : List SourceModel) (base : Text) (K : VersionId → Bool) : Prop where
  root : base ≠ []
  defined : Whole.Defined (Session.load inputs)
  versions : GoodVersions (Session.load inputs) K
  names : GoodNames (Session.load inputs) K
  json : GoodJson (Session.load inputs) K
  code : Contains P (Session.load inputs) (ofVersions K) base
  support : JsonContains P (Session.load inputs) (ofVersions K) base

end Verif.ModelRun
