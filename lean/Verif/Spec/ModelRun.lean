import Verif.Spec.BuildersRun
import Verif.Spec.GoRefs
import Verif.Model.Whole

/-!
# The generated program of a model

What the code of the types of a model is, what it means that a Go program contains it, and the zero values of the
Go types.
-/

namespace Verif.ModelRun

open GoJson (Val Schema Shape AttrShape)
open GoProgram
open TypesRun (Legal value)
open BuildersRun (Program Code resolve)

/-! ## The types of a model -/

/-- The predefined scalar type with that name. -/
def scalarShape (n : Name) : Shape :=
  if n = Nom.boolean then .boolean
  else if n = Nom.integer then .integer
  else if n = Nom.long then .long
  else if n = Nom.float then .float
  else if n = Nom.string then .string
  else if n = Nom.date then .date
  else .interface

/-- The Go name of a type. -/
def goName (c : TypeCell) : Text := Go.nameOf c.annotations c.name

/-- The types of a model that satisfy a condition, for example those of a service. -/
def schemaOf (s : Session) (T : TypeCell → Bool) (id : TypeId) : Shape :=
  match s.heap[id]? with
  | none => .other
  | some c =>
    if T c = false then .other
    else
      match c.kind, c.element with
      | .undefined, _ => .other
      | .scalar, _ => scalarShape c.name
      | .interface, _ => .interface
      | .enum, _ => .enum
      | .struct, _ => .struct false (goName c) (c.attributes.mapIdx (GoJson.attrShape c))
      | .class, _ => .struct true (goName c) (c.attributes.mapIdx (GoJson.attrShape c))
      | .list, some e => .list ((s.heap[e]?.map goName).getD [] ++ t!"List") e
      | .map, some e => .map e
      | .list, none => .other
      | .map, none => .other

/-- The name of the package of a type. -/
def packageOf (s : Session) (c : TypeCell) : Text := GoRef.versionSelector (Whole.ownerOf s c.owner)

/-- The code of a struct or class of a model: what the properties C89 and C91 say that its files contain. -/
def cellCode (s : Session) (base : Text) (c : TypeCell) : Code :=
  { pkg := packageOf s c
    entity := TypesCode.entityOf (TypesCode.contextOf s base (c.owner.getD 0)) c
    builder := BuildersCode.builderOf (BuildersCode.contextOf s base (c.owner.getD 0)) c
    list := BuildersCode.listBuilderOf { owner := Whole.ownerOf s c.owner, name := c.name, annotations := c.annotations } }

/-- The code of the structs and classes of a model. -/
def codeOf (s : Session) (base : Text) (id : TypeId) : Code := cellCode s base ((s.heap[id]?).getD { name := [] })

/-- A Go program that compiles contains the code of the structs, classes and enumerated types of a part of a model,
and perhaps other things. -/
structure Contains (P : Program) (s : Session) (T : TypeCell → Bool) (base : Text) : Prop where
  legal : ∀ pkg, Legal (P pkg)
  objects : ∀ (id : Nat) c, s.heap[id]? = some c → T c = true → c.kind.isStruct = true →
    ∀ d ∈ (cellCode s base c).declarations, d ∈ P (packageOf s c)
  enums : ∀ (id : Nat) c, s.heap[id]? = some c → T c = true → c.kind = .enum →
    ∀ i ∈ (TypesCode.enumerationOf c).items, i.decl ∈ P (packageOf s c)

/-- The code of a type: nothing for those that have no code. -/
def declarationsOf (s : Session) (base : Text) (c : TypeCell) : List Declaration :=
  if c.kind.isStruct = true then (cellCode s base c).declarations
  else if c.kind = .enum then (TypesCode.enumerationOf c).items.map (·.decl)
  else []

/-- The program that contains the code of the types of a part of a model, and nothing else. -/
def programOf (s : Session) (T : TypeCell → Bool) (base : Text) : Program := fun pkg =>
  (s.heap.filter fun c => T c && packageOf s c == pkg).flatMap (declarationsOf s base)

/-! ## Zero values -/

/-- The zero values of Go: false, zero, the empty text, and nil for pointers, slices, maps, interfaces and errors. The
zero value of a type declared by the program as a text is the empty text. -/
def goZero (P : Program) (pkg : Text) : Text → Value Val
  | [] => .nil
  | '*' :: _ => .nil
  | '[' :: _ => .nil
  | 'm' :: 'a' :: 'p' :: '[' :: _ => .nil
  | t =>
    if t = t!"bool" then .bool false
    else if t ∈ [t!"int", t!"int64", t!"uint32", t!"uint64"] then .int 0
    else if t = t!"float64" then .other (.float t!"0")
    else if t = t!"string" then .str []
    else if t = t!"time.Time" then .other (.date { text := t!"0001-01-01T00:00:00Z" })
    else if t = t!"error" ∨ t = t!"interface{}" then .nil
    else if (P (resolve pkg t).1).any (fun
        | .scalar x y => x = (resolve pkg t).2 && y = t!"string"
        | _ => false) then .str []
    else .nil

/-! ## Models -/

/-- A name that is exported by a Go package. -/
structure Exported (n : Text) : Prop where
  first : ∃ c cs, n = c :: cs ∧ c.isUpper = true
  dot : '.' ∉ n

/-- The type is that of a pointer, or that of its elements if it is a list or map. -/
def Mentions (s : Session) (id : TypeId) (u : TypeCell) : Prop :=
  ∃ c, s.heap[id]? = some c ∧ (u = c ∨ ((c.kind = .list ∨ c.kind = .map) ∧ ∃ e, c.element = some e ∧ s.heap[e]? = some u))

/-- The types that an attribute of a type uses are where the generated code expects them: objects in the version that
the attribute refers to, or else in the same version, and enumerated types in the same version. -/
structure Placed (s : Session) (c : TypeCell) (a : Attribute) : Prop where
  same : ∀ u, Mentions s a.typ u → u.kind.isStruct = true → a.linkOwner = none → u.owner = c.owner
  other : ∀ u v, Mentions s a.typ u → u.kind.isStruct = true → a.linkOwner = some v → u.owner = some v
  enum : ∀ u, Mentions s a.typ u → u.kind = .enum → u.owner = c.owner

/-- The names of a version and of its service can be used as names of Go packages. -/
structure Packageable (o : GoRef.Owner) : Prop where
  usable : GoRef.UsableOwner o
  bracket : '[' ∉ o.version.lowerJoined []
  star : '*' ∉ o.version.lowerJoined []

/-- A part of a model that has all the types that it uses, where everything has a definition, and where the names of
types and versions can be used in Go. -/
structure Usable (s : Session) (T : TypeCell → Bool) (base : Text) : Prop where
  base : base ≠ []
  defined : ∀ (id : Nat) c, s.heap[id]? = some c → T c = true → c.kind ≠ .undefined
  named : ∀ (id : Nat) c, s.heap[id]? = some c → T c = true → c.kind.isStruct = true ∨ c.kind = .enum →
    Exported (goName c)
  owned : ∀ (id : Nat) c, s.heap[id]? = some c → T c = true → c.owner ≠ none
  versions : ∀ (id : Nat) c, s.heap[id]? = some c → T c = true → Packageable (Whole.ownerOf s c.owner)
  types : ∀ (id : Nat) c, s.heap[id]? = some c → T c = true → ∀ a ∈ c.attributes,
    ∃ u, s.heap[a.typ]? = some u ∧ T u = true
  elements : ∀ (id : Nat) c, s.heap[id]? = some c → T c = true → ∀ e, c.element = some e →
    ∃ u, s.heap[e]? = some u ∧ T u = true
  placed : ∀ (id : Nat) c, s.heap[id]? = some c → T c = true → ∀ a ∈ c.attributes, Placed s c a

/-- The types of some versions. -/
def ofVersions (K : VersionId → Bool) (c : TypeCell) : Bool :=
  match c.owner with
  | some w => K w
  | none => false

/-- Some versions of a model, with names that can be used as names of Go packages. -/
def GoodVersions (s : Session) (K : VersionId → Bool) : Prop :=
  ∀ w, K w = true → ∃ a b l v, s.services.find a = some l ∧ l.versions.find b = some v ∧ v.id = w ∧
    Packageable { service := l.name, version := v.name }

/-- The names of the structs, classes and enumerated types of some versions can be exported by Go packages. -/
def GoodNames (s : Session) (K : VersionId → Bool) : Prop :=
  ∀ (id : Nat) c, s.heap[id]? = some c → ofVersions K c = true → c.kind.isStruct = true ∨ c.kind = .enum →
    Exported (goName c)

end Verif.ModelRun
