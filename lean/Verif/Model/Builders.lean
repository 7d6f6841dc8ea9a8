import Verif.Model.GoTypes
import Verif.Model.Resources

/-!
# The generated builders

Model of the code emitted by `generateStructBuilderSource` and `generateStructListBuilderSource`,
pkg/generators/golang/builders_generator.go:210-457 and 493-555. Builders refer to other builders, and
to the maps that the user gives, with pointers, so they live in a memory. The slices that the setters
receive are copied, so they are values. Objects are values: nothing changes them after they have been
built.
-/

namespace Verif

namespace GoBuilder

open GoJson

/-- Pointers. -/
abbrev Ref := Nat

/-- The values of the fields of builders: nil, scalars, pointers to builders and to maps, and
slices. -/
inductive BVal
  | nil
  | scalar (v : Val)
  | ref (r : Ref)
  | list (items : List BVal)
deriving Repr

/-- The comparison with `nil`. -/
def BVal.isNil : BVal → Bool
  | .nil => true
  | _ => false

/-- What pointers point to: builders of objects, pkg/generators/golang/builders_generator.go:219-235,
builders of lists, lines 504-506, and maps, with the type of their elements. -/
inductive Cell
  | builder (typ : TypeId) (bitmap : Nat) (id href : Text) (fields : List BVal)
  | listBuilder (typ : TypeId) (items : BVal)
  | map (element : TypeId) (entries : GoMap BVal)
deriving Repr

/-- The memory. -/
abbrev Mem := List Cell

/-- The fields of a new builder. -/
def zeroField (S : Schema) (a : AttrShape) : BVal :=
  if (S a.typ).isScalar then .scalar (zero (S a.typ)) else .nil

/-- The constructor of builders of objects, pkg/generators/golang/builders_generator.go:238-240. -/
def newBuilder (S : Schema) (ty : TypeId) (as : List AttrShape) : Cell :=
  .builder ty 0 [] [] (as.map (zeroField S))

/-- The constructor of builders of lists, pkg/generators/golang/builders_generator.go:509-511. -/
def newListBuilder (ty : TypeId) : Cell := .listBuilder ty .nil

/-! ## Setters -/

/-- `bitmap &^= mask`. -/
def clearBit (bitmap bit : Nat) : Nat := bitmap ^^^ (bitmap &&& 2 ^ bit)

/-- A copy of a slice made with `make` and `copy`. -/
def copySlice : BVal → BVal
  | .list items => .list items
  | _ => .list []

/-- What the setter of an attribute stores, pkg/generators/golang/builders_generator.go:286, 294-295,
302-303 and 314. -/
def stored (S : Schema) (a : AttrShape) (v : BVal) : BVal :=
  match S a.typ with
  | .list _ _ => if a.link then v else copySlice v
  | _ => v

/-- The bitmap after calling the setter of an attribute,
pkg/generators/golang/builders_generator.go:287, 296, 304 and 315-323. -/
def setBitmap (S : Schema) (a : AttrShape) (v : BVal) (bitmap : Nat) : Nat :=
  match S a.typ with
  | .list _ _ => bitmap ||| 2 ^ a.bit
  | shape =>
    if shape.isScalar then bitmap ||| 2 ^ a.bit
    else if !v.isNil then bitmap ||| 2 ^ a.bit
    else clearBit bitmap a.bit

/-! ## Copy -/

/-- Allocates the builder with the bitmap, identifier and address of the object that is copied,
pkg/generators/golang/builders_generator.go:334-338, and the given fields. -/
def allocCopy (ty : TypeId) (isClass : Bool) (bitmap : Nat) (id href : Text)
    (r : Mem × List BVal) : Mem × BVal :=
  (r.1 ++ [.builder ty bitmap (if isClass then id else []) (if isClass then href else []) r.2],
    .ref r.1.length)

mutual
/-- A new builder of objects where the given object is copied: `New().Copy(object)`, where `Copy` is
pkg/generators/golang/builders_generator.go:330-388. The memory of the nested builders is allocated
first; the order doesn't matter. Values that aren't of the type can't happen. -/
def copyNew (S : Schema) (ty : TypeId) (mem : Mem) : Val → Mem × BVal
  | .obj bitmap id href fields =>
    match S ty with
    | .struct isClass _ as =>
      allocCopy ty isClass bitmap id href (copyFields S mem as (as.map (zeroField S)) fields)
    | _ => (mem, .nil)
  | _ =>
    match S ty with
    | .struct _ _ as => (mem ++ [newBuilder S ty as], .ref mem.length)
    | _ => (mem, .nil)
/-- The part of `Copy` for one attribute, pkg/generators/golang/builders_generator.go:339-386, for its
type, its link flag and the previous value of the field. -/
def copyField (S : Schema) (ty : TypeId) (link : Bool) (old : BVal) (mem : Mem) : Val → Mem × BVal
  | .obj bitmap id href fields =>
    match S ty with
    | .struct isClass _ as =>
      allocCopy ty isClass bitmap id href (copyFields S mem as (as.map (zeroField S)) fields)
    | _ => (mem, old)
  | .list items =>
    match S ty with
    | .list _ element =>
      if link then (mem, old)
      else
        match S element with
        | .struct _ _ _ =>
          let (mem, items) := copyItems S element mem items
          (mem, .list items)
        | shape => if shape.isScalar then (mem, .list (items.map .scalar)) else (mem, old)
    | _ => (mem, old)
  | .linkList _ _ (.list items) =>
    match S ty with
    | .list _ element =>
      if link then
        let (mem, items) := copyItems S element mem items
        (mem ++ [.listBuilder ty (.list items)], .ref mem.length)
      else (mem, old)
    | _ => (mem, old)
  | .linkList _ _ _ =>
    match S ty with
    | .list _ _ => if link then (mem ++ [.listBuilder ty .nil], .ref mem.length) else (mem, old)
    | _ => (mem, old)
  | .map [] =>
    match S ty with
    | .map _ => (mem, .nil)
    | _ => (mem, old)
  | .map (e :: es) =>
    match S ty with
    | .map element =>
      match S element with
      | .struct _ _ _ =>
        let (mem, entries) := copyEntries S element mem (e :: es)
        (mem ++ [.map element entries], .ref mem.length)
      | shape =>
        if shape.isScalar then
          (mem ++ [.map element ((e :: es).map fun e => (e.1, .scalar e.2))], .ref mem.length)
        else (mem, old)
    | _ => (mem, old)
  | .nil =>
    match S ty with
    | .struct _ _ _ | .list _ _ | .map _ => (mem, .nil)
    | _ => (mem, old)
  | v => if (S ty).isScalar then (mem, .scalar v) else (mem, old)
/-- The parts for all the attributes. -/
def copyFields (S : Schema) (mem : Mem) :
    List AttrShape → List BVal → List Val → Mem × List BVal
  | a :: as, old :: olds, v :: vs =>
    let (mem, field) := copyField S a.typ a.link old mem v
    let (mem, fields) := copyFields S mem as olds vs
    (mem, field :: fields)
  | _, _, _ => (mem, [])
/-- The loops over the items of lists, pkg/generators/golang/builders_generator.go:361-363 and
531-533. -/
def copyItems (S : Schema) (element : TypeId) (mem : Mem) : List Val → Mem × List BVal
  | [] => (mem, [])
  | v :: vs =>
    let (mem, item) := copyNew S element mem v
    let (mem, items) := copyItems S element mem vs
    (mem, item :: items)
/-- The loop over the entries of maps, pkg/generators/golang/builders_generator.go:378-380. -/
def copyEntries (S : Schema) (element : TypeId) (mem : Mem) :
    List (Text × Val) → Mem × GoMap BVal
  | [] => (mem, [])
  | (k, v) :: es =>
    let (mem, item) := copyNew S element mem v
    let (mem, entries) := copyEntries S element mem es
    (mem, (k, item) :: entries)
end

/-- `Copy` for an existing builder of objects, pkg/generators/golang/builders_generator.go:330-388:
nothing for the panic of a nil builder. -/
def copy (S : Schema) (mem : Mem) (r : Ref) (object : Val) : Option Mem :=
  match object with
  | .obj bitmap id href fields =>
    match mem[r]? with
    | some (.builder ty _ oldId oldHref olds) =>
      match S ty with
      | .struct isClass _ as =>
        let (mem, fields) := copyFields S mem as olds fields
        some (mem.set r (.builder ty bitmap (if isClass then id else oldId)
          (if isClass then href else oldHref) fields))
      | _ => none
    | _ => none
  | _ => some mem

/-- `Copy` for an existing builder of lists, pkg/generators/golang/builders_generator.go:526-536. -/
def copyList (S : Schema) (mem : Mem) (r : Ref) (list : Val) : Option Mem :=
  match mem[r]? with
  | some (.listBuilder ty _) =>
    match S ty with
    | .list _ element =>
      match list with
      | .linkList _ _ (.list items) =>
        let (mem, items) := copyItems S element mem items
        some (mem.set r (.listBuilder ty (.list items)))
      | _ => some (mem.set r (.listBuilder ty .nil))
    | _ => none
  | _ => none

/-! ## Build -/

/-- Runs an action for each element, in order. -/
def mapRun {α β : Type} (f : α → Run β) : List α → Run (List β)
  | [] => .done []
  | x :: xs => (f x).bind fun y => (mapRun f xs).bind fun ys => .done (y :: ys)

/-- The scalar stored in a field or slice; anything else can't happen. -/
def scalarOf : BVal → Run Val
  | .scalar v => .done v
  | _ => .panic

/-- `v.Build()` for a pointer to a builder of objects: nil makes it panic. -/
def buildRef (build : Ref → Run Val) : BVal → Run Val
  | .ref r => build r
  | _ => .panic

/-- `Build` of the builders of lists, pkg/generators/golang/builders_generator.go:540-551, for the
items. -/
def buildItems (build : Ref → Run Val) : BVal → Run Val
  | .list items => (mapRun (buildRef build) items).bind fun items =>
      .done (.linkList false [] (.list items))
  | _ => .done (.linkList false [] (.list []))

/-- The part of `Build` for one attribute, pkg/generators/golang/builders_generator.go:398-449. -/
def buildField (build : Ref → Run Val) (S : Schema) (mem : Mem) (ty : TypeId) (link : Bool)
    (field : BVal) : Run Val :=
  match S ty with
  | .struct _ _ _ => if field.isNil then .done .nil else buildRef build field
  | .list _ element =>
    if field.isNil then .done .nil
    else if link then
      match field with
      | .ref r =>
        match mem[r]? with
        | some (.listBuilder _ items) => buildItems build items
        | _ => .panic
      | _ => .panic
    else
      match field with
      | .list items =>
        match S element with
        | .struct _ _ _ => (mapRun (buildRef build) items).bind fun items => .done (.list items)
        | shape =>
          if shape.isScalar then (mapRun scalarOf items).bind fun items => .done (.list items)
          else .done .nil
      | _ => .panic
  | .map element =>
    match field with
    | .nil => .done .nil
    | .ref r =>
      match mem[r]? with
      | some (.map _ entries) =>
        match S element with
        | .struct _ _ _ =>
          (mapRun (fun e => (buildRef build e.2).bind fun v => .done (e.1, v)) entries).bind
            fun entries => .done (.map entries)
        | shape =>
          if shape.isScalar then
            (mapRun (fun e => (scalarOf e.2).bind fun v => .done (e.1, v)) entries).bind
              fun entries => .done (.map entries)
          else .done .nil
      | _ => .panic
    | _ => .panic
  | shape => if shape.isScalar then scalarOf field else .done .nil

/-- The parts for all the attributes. -/
def buildFields (build : Ref → Run Val) (S : Schema) (mem : Mem) :
    List AttrShape → List BVal → Run (List Val)
  | a :: as, field :: fields =>
    (buildField build S mem a.typ a.link field).bind fun v =>
    (buildFields build S mem as fields).bind fun vs => .done (v :: vs)
  | _, _ => .done []

/-- `Build` of the builders of objects, pkg/generators/golang/builders_generator.go:391-452. The number
bounds the depth of the recursion: builders can contain themselves. -/
def build (S : Schema) (mem : Mem) : Nat → Ref → Run Val
  | 0, _ => .outOfFuel
  | fuel + 1, r =>
    match mem[r]? with
    | some (.builder ty bitmap id href fields) =>
      match S ty with
      | .struct isClass _ as =>
        (buildFields (build S mem fuel) S mem as fields).bind fun fields =>
          .done (.obj bitmap (if isClass then id else []) (if isClass then href else []) fields)
      | _ => .panic
    | _ => .panic

/-- `Build` of the builders of lists. -/
def buildList (S : Schema) (mem : Mem) (fuel : Nat) (r : Ref) : Run Val :=
  match mem[r]? with
  | some (.listBuilder _ items) => buildItems (build S mem fuel) items
  | _ => .panic

/-- `Empty` of the builders of objects, pkg/generators/golang/builders_generator.go:265-271; nothing is
the nil pointer. -/
def empty (isClass : Bool) : Option Cell → Bool
  | some (.builder _ bitmap _ _ _) => if isClass then bitmap / 2 * 2 == 0 else bitmap == 0
  | _ => true

/-- `Empty` of the builders of lists, pkg/generators/golang/builders_generator.go:521-523. -/
def emptyList : Option Cell → Bool
  | some (.listBuilder _ (.list items)) => items.length == 0
  | _ => true

/-! ## Calls -/

/-- The values of the scalar types. -/
def scalarFits : Shape → Val → Bool
  | .boolean, .bool _ => true
  | .integer, .int _ => true
  | .long, .int _ => true
  | .float, .float _ => true
  | .string, .str _ => true
  | .enum, .str _ => true
  | .date, .date _ => true
  | .interface, .iface _ => true
  | _, _ => false

/-- A value can be an item of a list, or the value of a key of a map: scalars and pointers to
builders of objects. -/
def elementFits (S : Schema) (mem : Mem) (ty : TypeId) (v : BVal) : Bool :=
  match S ty, v with
  | .struct _ _ _, .nil => true
  | .struct _ _ _, .ref r =>
    match mem[r]? with
    | some (.builder t _ _ _ _) => t == ty
    | _ => false
  | shape, .scalar v => scalarFits shape v
  | _, _ => false

/-- A value can be given to the setter of an attribute: this is what the Go compiler checks. The types
of setters and fields are those of pkg/generators/golang/builders_generator.go:642-685 and
714-762. -/
def fits (S : Schema) (mem : Mem) (ty : TypeId) (link : Bool) (v : BVal) : Bool :=
  match S ty, v with
  | .list _ _, .nil => true
  | .list _ _, .ref r =>
    match mem[r]? with
    | some (.listBuilder t _) => link && t == ty
    | _ => false
  | .list _ element, .list items => !link && items.all (elementFits S mem element)
  | .map _, .nil => true
  | .map element, .ref r =>
    match mem[r]? with
    | some (.map t _) => t == element
    | _ => false
  | _, v => elementFits S mem ty v

mutual
/-- A value is of a type: this is what the Go compiler checks for the objects given to `Copy`. The
fields of objects are those of pkg/generators/golang/types_generator.go:321-341. Objects of types that
aren't classes have neither identifier nor address. The elements of lists and maps are scalars or
objects, and those of lists that are links are objects. -/
def typed (S : Schema) (ty : TypeId) (link : Bool) : Val → Bool
  | .nil =>
    match S ty with
    | .struct _ _ _ | .list _ _ | .map _ => true
    | _ => false
  | .obj _ id href fields =>
    match S ty with
    | .struct isClass _ as => (isClass || (id.isEmpty && href.isEmpty)) && typedFields S as fields
    | _ => false
  | .list items =>
    match S ty with
    | .list _ element => !link && typedItems S element items
    | _ => false
  | .linkList _ _ (.list items) =>
    match S ty with
    | .list _ element =>
      match S element with
      | .struct _ _ _ => link && typedItems S element items
      | _ => false
    | _ => false
  | .linkList _ _ .nil =>
    match S ty with
    | .list _ element =>
      match S element with
      | .struct _ _ _ => link
      | _ => false
    | _ => false
  | .linkList _ _ _ => false
  | .map entries =>
    match S ty with
    | .map element => typedEntries S element entries
    | _ => false
  | v => scalarFits (S ty) v
/-- The fields of an object. -/
def typedFields (S : Schema) : List AttrShape → List Val → Bool
  | [], [] => true
  | a :: as, v :: vs => typed S a.typ a.link v && typedFields S as vs
  | _, _ => false
/-- The items of a list. -/
def typedItems (S : Schema) (element : TypeId) : List Val → Bool
  | [] => true
  | v :: vs => typed S element false v && typedItems S element vs
/-- The entries of a map. -/
def typedEntries (S : Schema) (element : TypeId) : List (Text × Val) → Bool
  | [] => true
  | (_, v) :: es => typed S element false v && typedEntries S element es
end

/-- What the users of builders can do. -/
inductive Call
  /-- Calls the constructor of the builders of a type of objects. -/
  | new (ty : TypeId)
  /-- Calls the constructor of the builders of a type of lists. -/
  | newList (ty : TypeId)
  /-- Creates a map. -/
  | newMap (element : TypeId)
  /-- Calls `Link`. -/
  | link (r : Ref) (value : Bool)
  /-- Calls `ID`. -/
  | id (r : Ref) (value : Text)
  /-- Calls `HREF`. -/
  | href (r : Ref) (value : Text)
  /-- Calls the setter of an attribute, given by its position. -/
  | set (r : Ref) (i : Nat) (value : BVal)
  /-- Calls `Items` of a builder of lists. -/
  | items (r : Ref) (values : BVal)
  /-- Puts a value in a map. -/
  | put (r : Ref) (key : Text) (value : BVal)
  /-- Calls `Copy` of a builder of objects. -/
  | copy (r : Ref) (object : Val)
  /-- Calls `Copy` of a builder of lists. -/
  | copyList (r : Ref) (list : Val)

/-- The effect of a call: nothing if the code doesn't compile, because the types aren't correct. The
constructors of lists exist for lists of objects only,
pkg/generators/golang/builders_generator.go:487-491. The setters of the link flag, the identifier and
the address are in lines 244-261; `Items` is in lines 514-518. -/
def exec (S : Schema) (mem : Mem) : Call → Option Mem
  | .new ty =>
    match S ty with
    | .struct _ _ as => some (mem ++ [newBuilder S ty as])
    | _ => none
  | .newList ty =>
    match S ty with
    | .list _ element =>
      match S element with
      | .struct _ _ _ => some (mem ++ [newListBuilder ty])
      | _ => none
    | _ => none
  | .newMap element => some (mem ++ [.map element []])
  | .link r _ =>
    match mem[r]? with
    | some (.builder ty bitmap id href fields) =>
      match S ty with
      | .struct true _ _ => some (mem.set r (.builder ty (bitmap ||| 1) id href fields))
      | _ => none
    | _ => none
  | .id r value =>
    match mem[r]? with
    | some (.builder ty bitmap _ href fields) =>
      match S ty with
      | .struct true _ _ => some (mem.set r (.builder ty (bitmap ||| 2) value href fields))
      | _ => none
    | _ => none
  | .href r value =>
    match mem[r]? with
    | some (.builder ty bitmap id _ fields) =>
      match S ty with
      | .struct true _ _ => some (mem.set r (.builder ty (bitmap ||| 4) id value fields))
      | _ => none
    | _ => none
  | .set r i value =>
    match mem[r]? with
    | some (.builder ty bitmap id href fields) =>
      match S ty with
      | .struct _ _ as =>
        match as[i]? with
        | some a =>
          if fits S mem a.typ a.link value then
            some (mem.set r (.builder ty (setBitmap S a value bitmap) id href
              (fields.set i (stored S a value))))
          else none
        | none => none
      | _ => none
    | _ => none
  | .items r values =>
    match mem[r]? with
    | some (.listBuilder ty _) =>
      if fits S mem ty false values then some (mem.set r (.listBuilder ty (copySlice values)))
      else none
    | _ => none
  | .put r key value =>
    match mem[r]? with
    | some (.map element entries) =>
      if elementFits S mem element value then
        some (mem.set r (.map element (entries.insert key value)))
      else none
    | _ => none
  | .copy r object =>
    match mem[r]? with
    | some (.builder ty _ _ _ _) =>
      if typed S ty false object then copy S mem r object else none
    | _ => none
  | .copyList r list =>
    match mem[r]? with
    | some (.listBuilder ty _) =>
      if typed S ty true list then copyList S mem r list else none
    | _ => none

/-- The effect of a sequence of calls. -/
def execAll (S : Schema) (mem : Mem) : List Call → Option Mem
  | [] => some mem
  | c :: cs =>
    match exec S mem c with
    | none => none
    | some mem => execAll S mem cs

end GoBuilder

end Verif
