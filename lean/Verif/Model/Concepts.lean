import Verif.Model.GoMap
import Verif.Model.Nomenclator

/-!
# Package `concepts`

Types, attributes, versions, errors. Pointers to types are modelled by their position in a heap
of types.
-/

namespace Verif

/-- `TypeKind`, pkg/concepts/type.go:26-38. -/
inductive Kind
  | undefined | class | enum | interface | list | map | scalar | struct
deriving DecidableEq, Repr

/-- A literal: the values that the reader produces for default values and annotation parameters,
pkg/language/reader.go:936-979. -/
inductive Literal
  | bool (value : Bool)
  | int (value : Int)
  | str (value : Text)
deriving DecidableEq, Repr

/-- `Annotation`, pkg/concepts/annotation.go:24-27. -/
structure Annotation where
  name : Text
  parameters : GoMap Literal := []
deriving DecidableEq, Repr

/-- Pointer to a type. -/
abbrev TypeId := Nat

/-- Pointer to a version. -/
abbrev VersionId := Nat

/-- `Attribute`, pkg/concepts/attribute.go:24-33; the owner is the type that contains it. -/
structure Attribute where
  name : Name
  typ : TypeId
  link : Bool := false
  linkOwner : Option VersionId := none
  doc : Text := []
  annotations : List Annotation := []
deriving DecidableEq, Repr

/-- `EnumValue`, pkg/concepts/type.go:279-285. -/
structure EnumValue where
  name : Name
  doc : Text := []
  annotations : List Annotation := []
deriving DecidableEq, Repr

/-- `Type`, pkg/concepts/type.go:70-82. -/
structure TypeCell where
  name : Name
  kind : Kind := .undefined
  owner : Option VersionId := none
  attributes : List Attribute := []
  values : List EnumValue := []
  element : Option TypeId := none
  index : Option TypeId := none
  explicitDeclared : Bool := false
  doc : Text := []
  annotations : List Annotation := []
deriving DecidableEq, Repr

namespace TypeCell

/-- `IsClass`, pkg/concepts/type.go:146-148. -/
def isClass (t : TypeCell) : Bool := t.kind == .class
/-- `IsEnum`, pkg/concepts/type.go:151-153. -/
def isEnum (t : TypeCell) : Bool := t.kind == .enum
/-- `IsInterface`, pkg/concepts/type.go:156-158. -/
def isInterface (t : TypeCell) : Bool := t.kind == .interface
/-- `IsList`, pkg/concepts/type.go:161-163. -/
def isList (t : TypeCell) : Bool := t.kind == .list
/-- `IsMap`, pkg/concepts/type.go:166-168. -/
def isMap (t : TypeCell) : Bool := t.kind == .map

end TypeCell

/-- `IsScalar`, pkg/concepts/type.go:172-177, for types that aren't nil. -/
def Kind.isScalar (k : Kind) : Bool := k == .scalar || k == .enum || k == .interface

/-- `IsStruct`, pkg/concepts/type.go:189-191. -/
def Kind.isStruct (k : Kind) : Bool := k == .class || k == .struct

/-- The memory where types live. -/
abbrev Heap := List TypeCell

/-- `new(Type)`: adds a cell to the heap and returns the pointer. -/
def Heap.alloc (h : Heap) (cell : TypeCell) : Heap × TypeId := (h ++ [cell], h.length)

/-- Assignment through a pointer. -/
def Heap.update (h : Heap) (id : TypeId) (f : TypeCell → TypeCell) : Heap := h.modify id f

/-- The types of a version and the memory where they live: `Version.types`,
pkg/concepts/version.go:36. -/
structure TypeTable where
  version : VersionId
  heap : Heap
  types : GoMap TypeId
deriving DecidableEq, Repr

namespace TypeTable

/-- `FindType`, pkg/concepts/version.go:94-99, for a name that isn't nil. -/
def findType (t : TypeTable) (name : Name) : Option TypeId := t.types.find name.toText

/-- `AddType`, pkg/concepts/version.go:102-107. A pointer outside of the heap can't happen. -/
def addType (t : TypeTable) (id : TypeId) : TypeTable :=
  match t.heap[id]? with
  | none => t
  | some cell =>
    { t with
      types := t.types.insert cell.name.toText id
      heap := t.heap.update id fun c => { c with owner := some t.version } }

/-- Creation of a type followed by `AddType`. -/
def newType (t : TypeTable) (cell : TypeCell) : TypeTable × TypeId :=
  let (heap, id) := t.heap.alloc cell
  (({ t with heap := heap } : TypeTable).addType id, id)

/-- `addScalarType`, pkg/concepts/version.go:268-281, and `addInterfaceType`, lines 283-296, which
only differ in the kind. -/
def addBuiltin (t : TypeTable) (kind : Kind) (name : Name) : TypeTable :=
  let (t, id) := t.newType { name := name, kind := kind }
  let (t, _) := t.newType { name := Name.cat [name, Nom.list], kind := .list, element := some id }
  t

/-- `NewVersion`, pkg/concepts/version.go:46-68. -/
def newVersion (heap : Heap) (version : VersionId) : TypeTable :=
  let t : TypeTable := { version := version, heap := heap, types := [] }
  let t := t.addBuiltin .scalar Nom.boolean
  let t := t.addBuiltin .scalar Nom.integer
  let t := t.addBuiltin .scalar Nom.long
  let t := t.addBuiltin .scalar Nom.float
  let t := t.addBuiltin .scalar Nom.string
  let t := t.addBuiltin .scalar Nom.date
  let t := t.addBuiltin .interface Nom.interface
  t

end TypeTable

/-! ## Errors of a version -/

/-- The result of a computation that can panic. -/
inductive Outcome (α : Type)
  | value (a : α)
  | panic
deriving DecidableEq, Repr

/-- `Error`, pkg/concepts/error.go:24-32. It has two names: the one of the embedded
`namedSupport`, which is the one that `Name` and `SetName` use, and its own `name` field, which
nothing assigns and that hides the other inside the package. -/
structure ErrorConcept where
  supportName : Option Name
  ownName : Option Name := none
  code : Int := 0
  doc : Text := []
  annotations : List Annotation := []
deriving DecidableEq, Repr

/-- `NewError`, pkg/concepts/error.go:35-37. -/
def ErrorConcept.new : ErrorConcept := { supportName := none }

/-- `SetName`, pkg/concepts/named.go:34-36, promoted from `namedSupport`. -/
def ErrorConcept.setName (e : ErrorConcept) (n : Name) : ErrorConcept :=
  { e with supportName := some n }

/-- `names.Compare`, pkg/names/name.go:141-165, for pointers: a nil pointer makes it panic. -/
def comparePointers (a b : Option Name) : Outcome Int :=
  match a, b with
  | some a, some b => .value (Name.compare a b)
  | _, _ => .panic

/-- `ErrorSlice.Less`, pkg/concepts/error.go:66-68. -/
def errorLess (a b : ErrorConcept) : Outcome Bool :=
  match comparePointers a.ownName b.ownName with
  | .value r => .value (r == -1)
  | .panic => .panic

/-- Inner loop of the insertion sort that `sort.Sort` uses for short slices (Go standard library):
the new element moves left while it is less than its neighbour. `done` is the sorted prefix,
reversed. -/
def insertStep {α : Type} (less : α → α → Outcome Bool) (x : α) :
    List α → Outcome (List α)
  | [] => .value [x]
  | y :: done =>
    match less x y with
    | .panic => .panic
    | .value true =>
      match insertStep less x done with
      | .panic => .panic
      | .value r => .value (y :: r)
    | .value false => .value (x :: y :: done)

/-- Outer loop of the insertion sort. -/
def insertLoop {α : Type} (less : α → α → Outcome Bool) (done : List α) :
    List α → Outcome (List α)
  | [] => .value done.reverse
  | x :: xs =>
    match insertStep less x done with
    | .panic => .panic
    | .value done => insertLoop less done xs

/-- `Errors`, pkg/concepts/version.go:193-203. `sort.Sort` uses insertion sort for up to twelve
elements; for more it uses other algorithms that also start comparing elements. -/
def errorsListing (m : GoMap ErrorConcept) : Outcome (List ErrorConcept) :=
  insertLoop errorLess [] m.values

end Verif
