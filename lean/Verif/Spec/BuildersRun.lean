import Verif.Spec.BuildersCode
import Verif.Spec.TypesRun
import Verif.Model.Builders

/-!
# What it means to run the generated builders

Go programs made of packages, what the code of the types and builders of a package is, and how the builders
and objects of the model are stored in the memory of a Go program.
-/

namespace Verif.BuildersRun

open GoJson (Val Schema Shape AttrShape)
open GoBuilder (BVal Cell Mem)
open GoProgram
open TypesRun (Legal value)

variable {σ : Type}

/-! ## Programs -/

/-- A program: the declarations of each package, given by its name. -/
abbrev Program := Text → List Declaration

/-- What a name means in a package: the name after the first dot, in the package with the name before it; or
a name of the same package if there are no dots. -/
def resolve (pkg t : Text) : Text × Text :=
  match t.dropWhile (· ≠ '.') with
  | [] => (pkg, t)
  | _ :: name => (t.takeWhile (· ≠ '.'), name)

/-- The fields of a structure, with their types. -/
def fieldsOf (p : List Declaration) (typ : Text) : Option (List (Text × Text)) :=
  p.findSome? fun
    | .struct _ x fields => if x = typ then some (fields.map fun f => (f.1, f.2.2)) else none
    | _ => none

/-- How the code of a package is executed, with a limit for the number of calls inside of calls: the functions
and methods are those of the program, and the fields of new structures have the zero values of their
types. -/
def world (P : Program) (zero : Text → Text → Value Val) : Nat → Text → World Val σ
  | 0, pkg =>
    { consts := constant (P pkg), zero := zero pkg, funcs := fun _ => none
      structs := fun t => (fieldsOf (P (resolve pkg t).1) (resolve pkg t).2).map
        (List.map fun f => (f.1, zero (resolve pkg t).1 f.2))
      constructors := fun _ _ => .outOfFuel
      methods := fun _ _ _ _ _ => .outOfFuel }
  | fuel + 1, pkg =>
    { consts := constant (P pkg), zero := zero pkg, funcs := fun _ => none
      structs := fun t => (fieldsOf (P (resolve pkg t).1) (resolve pkg t).2).map
        (List.map fun f => (f.1, zero (resolve pkg t).1 f.2))
      constructors := fun t s =>
        match method (P (resolve pkg t).1) [] (resolve pkg t).2 with
        | some f => f.call (world P zero fuel (resolve pkg t).1) .nil [] s
        | none => .wrong
      methods := fun t name r args s =>
        match method (P (resolve pkg t).1) (resolve pkg t).2 name with
        | some f => f.call (world P zero fuel (resolve pkg t).1) r args s
        | none => .wrong }

/-- Calls a function of a package that isn't a method. -/
def construct (P : Program) (zero : Text → Text → Value Val) (fuel : Nat) (pkg name : Text)
    (s : State Val σ) : Res (List (Value Val) × State Val σ) :=
  (world P zero fuel pkg).constructors name s

/-- Calls a method of a type of a package. -/
def call (P : Program) (zero : Text → Text → Value Val) (fuel : Nat) (pkg typ name : Text)
    (r : Value Val) (args : List (Value Val)) (s : State Val σ) :
    Res (List (Value Val) × State Val σ) :=
  (world P zero fuel pkg).methods typ name r args s

/-! ## The code of the types -/

/-- The code of a struct or class: the name of the package, the types, the builder and the builder of the
lists. -/
structure Code where
  pkg : Text
  entity : TypesCode.Entity
  builder : BuildersCode.Builder
  list : BuildersCode.ListBuilder

/-- The declarations of the files. -/
def Code.declarations (u : Code) : List Declaration :=
  (u.entity.items ++ u.builder.items ++ u.list.items).map (·.decl)

/-- The names used in a package for the builder of a type are those of the code of that type. -/
structure Names (pkg : Text) (t : BuildersCode.Target) (u : Code) : Prop where
  builder : resolve pkg t.builder = (u.pkg, u.builder.builder)
  ctor : resolve pkg t.ctor = (u.pkg, u.builder.ctor)

/-- The names used in a package for the builder of the lists of a type are those of the code of that
type. -/
structure ListNames (pkg : Text) (t : BuildersCode.Target) (u : Code) : Prop where
  builder : resolve pkg t.builder = (u.pkg, u.list.builder)
  ctor : resolve pkg t.ctor = (u.pkg, t!"New" ++ u.list.list)

/-- Whether a type is an object. -/
def isObject : Shape → Bool
  | .struct _ _ _ => true
  | _ => false

/-- The form of an attribute is the one of its type. -/
def Fits (S : Schema) (U : TypeId → Code) (pkg : Text) (a : AttrShape) : BuildersCode.Form → Prop
  | .scalar => (S a.typ).isScalar = true
  | .object t => isObject (S a.typ) = true ∧ Names pkg t (U a.typ)
  | .linkList t => ∃ n e, S a.typ = .list n e ∧ a.link = true ∧
      (isObject (S e) = true → ListNames pkg t (U e))
  | .scalars _ => ∃ n e, S a.typ = .list n e ∧ a.link = false ∧ (S e).isScalar = true
  | .objects t => ∃ n e, S a.typ = .list n e ∧ a.link = false ∧ isObject (S e) = true ∧ Names pkg t (U e)
  | .others _ => ∃ n e, S a.typ = .list n e ∧ a.link = false ∧ (S e).isScalar = false ∧
      isObject (S e) = false
  | .scalarMap => ∃ e, S a.typ = .map e ∧ (S e).isScalar = true
  | .objectMap t => ∃ e, S a.typ = .map e ∧ isObject (S e) = true ∧ Names pkg t (U e)
  | .otherMap => ∃ e, S a.typ = .map e ∧ (S e).isScalar = false ∧ isObject (S e) = false

/-- An attribute of the builder is the one of the type: the bit, the form, the field of the type and the zero
values of the fields. -/
structure Matches (S : Schema) (U : TypeId → Code) (zero : Text → Text → Value Val) (pkg : Text)
    (a : AttrShape) (m : BuildersCode.Member) (f : TypesCode.Member) : Prop where
  bit : m.bit = a.bit
  form : Fits S U pkg a m.form
  field : f.field = m.field
  boolean : f.boolean = m.boolean
  builderZero : zero pkg m.fieldType = value (GoJson.zero (S a.typ))
  objectZero : zero pkg f.fieldType = value (GoJson.zero (S a.typ))

/-- The code of a struct or class with those attributes is part of the program. -/
structure Linked (P : Program) (zero : Text → Text → Value Val) (S : Schema) (U : TypeId → Code)
    (classFlag : Bool) (as : List AttrShape) (u : Code) : Prop where
  legal : Legal (P u.pkg)
  declared : ∀ d ∈ u.declarations, d ∈ P u.pkg
  simple : '.' ∉ u.builder.object
  list : u.list.object = u.builder.object
  entity : u.entity.object = u.builder.object
  isClass : u.builder.isClass = classFlag
  entityClass : u.entity.isClass = classFlag
  members : u.builder.members.length = as.length
  entityMembers : u.entity.members.length = as.length
  attributes : ∀ (i : Nat) (a : AttrShape) (m : BuildersCode.Member) (f : TypesCode.Member),
    as[i]? = some a → u.builder.members[i]? = some m → u.entity.members[i]? = some f → Matches S U zero u.pkg a m f
  bitmap : zero u.pkg u.builder.bitmap = .int 0
  entityBitmap : zero u.pkg u.entity.bitmap = .int 0

/-- The zero values of the types that all the code uses. -/
structure Zeros (zero : Text → Text → Value Val) (pkg : Text) : Prop where
  bool : zero pkg t!"bool" = .bool false
  string : zero pkg t!"string" = .str []
  error : zero pkg t!"error" = .nil
  pointer : ∀ t, zero pkg (t!"*" ++ t) = .nil
  slice : ∀ t, zero pkg (t!"[]" ++ t) = .nil

/-- All the code is part of the program. -/
structure Whole (P : Program) (zero : Text → Text → Value Val) (S : Schema) (U : TypeId → Code) : Prop where
  zeros : ∀ pkg, Zeros zero pkg
  linked : ∀ ty isClass n as, S ty = .struct isClass n as → Linked P zero S U isClass as (U ty)

/-! ## Memory -/

/-- The positions of the memory that are used. -/
def Valid (s : State Val σ) : Value Val → Prop
  | .pointer a => a < s.structs.length
  | .slice a => a < s.arrays.length
  | .map a => a < s.maps.length
  | _ => False

/-- What has happened between two states hasn't changed the positions of the memory in a set. -/
structure Frame (D : Value Val → Prop) (s t : State Val σ) : Prop where
  structs : ∀ a fs, D (.pointer a) → s.structs[a]? = some fs → t.structs[a]? = some fs
  arrays : ∀ a xs, D (.slice a) → s.arrays[a]? = some xs → t.arrays[a]? = some xs
  maps : ∀ a m, D (.map a) → s.maps[a]? = some m → t.maps[a]? = some m
  valid : ∀ l, Valid s l → Valid t l
  vars : t.vars = s.vars
  user : t.user = s.user

/-- The attributes of a type, with the names of their fields. -/
def fieldNames (S : Schema) (U : TypeId → Code) (ty : TypeId) : List (AttrShape × Text) :=
  match S ty with
  | .struct _ _ as => as.zip ((U ty).builder.members.map (·.field))
  | _ => []

/-- The type of the elements of lists and maps. -/
def elementOf (S : Schema) (ty : TypeId) : TypeId :=
  match S ty with
  | .list _ e => e
  | .map e => e
  | _ => ty

mutual
/-- A Go value is a value of a type, using only some positions of the memory: pointers to objects are the
positions of structures with the bitmap, the identifier and the address if it is an object of a class, and
the values of the attributes; lists that are links are pointers to structures with the address, the link
flag and the items; other lists are the positions of arrays, and maps are the positions of maps. -/
def Holds (S : Schema) (U : TypeId → Code) (D : Value Val → Prop) (s : State Val σ) (ty : TypeId) :
    Val → Value Val → Prop
  | .obj bitmap id href fields, x => ∃ a fs, x = .pointer a ∧ D x ∧ s.structs[a]? = some fs ∧
      fs.map Prod.fst = (U ty).entity.fields.map Prod.fst ∧
      fs.lookup t!"bitmap_" = some (.int bitmap) ∧
      ((U ty).builder.isClass = true →
        fs.lookup t!"id" = some (.str id) ∧ fs.lookup t!"href" = some (.str href)) ∧
      HoldsFields S U D s fs (fieldNames S U ty) fields
  | .list items, x => ∃ a xs, x = .slice a ∧ D x ∧ s.arrays[a]? = some xs ∧
      HoldsItems S U D s (elementOf S ty) items xs
  | .linkList link href items, x => ∃ a y, x = .pointer a ∧ D x ∧
      s.structs[a]? = some [(t!"href", .str href), (t!"link", .bool link), (t!"items", y)] ∧
      Holds S U D s ty items y
  | .map entries, x => ∃ a m, x = .map a ∧ D x ∧ s.maps[a]? = some m ∧ (m.map Prod.fst).Nodup ∧
      HoldsEntries S U D s (elementOf S ty) entries m
  | v, x => x = value v
/-- The fields of an object. -/
def HoldsFields (S : Schema) (U : TypeId → Code) (D : Value Val → Prop) (s : State Val σ)
    (fs : List (Text × Value Val)) : List (AttrShape × Text) → List Val → Prop
  | [], [] => True
  | (a, f) :: as, v :: vs => (∃ x, fs.lookup f = some x ∧ Holds S U D s a.typ v x) ∧
      HoldsFields S U D s fs as vs
  | _, _ => False
/-- The items of a list. -/
def HoldsItems (S : Schema) (U : TypeId → Code) (D : Value Val → Prop) (s : State Val σ) (ty : TypeId) :
    List Val → List (Value Val) → Prop
  | [], [] => True
  | v :: vs, x :: xs => Holds S U D s ty v x ∧ HoldsItems S U D s ty vs xs
  | _, _ => False
/-- The entries of a map. -/
def HoldsEntries (S : Schema) (U : TypeId → Code) (D : Value Val → Prop) (s : State Val σ) (ty : TypeId) :
    List (Text × Val) → GoMap (Value Val) → Prop
  | [], [] => True
  | (k, v) :: es, (l, x) :: m => k = l ∧ Holds S U D s ty v x ∧ HoldsEntries S U D s ty es m
  | _, _ => False
end

mutual
/-- A Go value is the value of a field of a builder: `ρ` gives the pointers to the builders and maps of the
model. -/
def Stores (ρ : List (Value Val)) (D : Value Val → Prop) (s : State Val σ) : BVal → Value Val → Prop
  | .nil, x => x = .nil
  | .scalar v, x => x = value v
  | .ref r, x => ρ[r]? = some x
  | .list items, x => ∃ a xs, x = .slice a ∧ D x ∧ s.arrays[a]? = some xs ∧ StoresItems ρ D s items xs
/-- The items of a list. -/
def StoresItems (ρ : List (Value Val)) (D : Value Val → Prop) (s : State Val σ) :
    List BVal → List (Value Val) → Prop
  | [], [] => True
  | v :: vs, x :: xs => Stores ρ D s v x ∧ StoresItems ρ D s vs xs
  | _, _ => False
end

/-- The entries of a map. -/
def StoresEntries (ρ : List (Value Val)) (D : Value Val → Prop) (s : State Val σ) :
    GoMap BVal → GoMap (Value Val) → Prop
  | [], [] => True
  | (k, v) :: es, (l, x) :: m => k = l ∧ Stores ρ D s v x ∧ StoresEntries ρ D s es m
  | _, _ => False

/-- The fields of a builder, with their names. -/
def StoresFields (ρ : List (Value Val)) (D : Value Val → Prop) (s : State Val σ)
    (fs : List (Text × Value Val)) : List Text → List BVal → Prop
  | [], [] => True
  | f :: names, v :: vs => (∃ x, fs.lookup f = some x ∧ Stores ρ D s v x) ∧
      StoresFields ρ D s fs names vs
  | _, _ => False

/-- The structure, or the map, that a pointer points to is a builder, or a map, of the model. -/
def StoresCell (U : TypeId → Code) (ρ : List (Value Val)) (D : Value Val → Prop) (s : State Val σ) :
    Cell → Value Val → Prop
  | .builder ty bitmap id href fields, x => ∃ a fs, x = .pointer a ∧ s.structs[a]? = some fs ∧
      fs.map Prod.fst = (U ty).builder.fields.map Prod.fst ∧
      fs.lookup t!"bitmap_" = some (.int bitmap) ∧
      ((U ty).builder.isClass = true →
        fs.lookup t!"id" = some (.str id) ∧ fs.lookup t!"href" = some (.str href)) ∧
      StoresFields ρ D s fs ((U ty).builder.members.map (·.field)) fields
  | .listBuilder _ items, x => ∃ a y, x = .pointer a ∧ s.structs[a]? = some [(t!"items", y)] ∧
      Stores ρ D s items y
  | .map _ entries, x => ∃ a m, x = .map a ∧ s.maps[a]? = some m ∧ (m.map Prod.fst).Nodup ∧
      StoresEntries ρ D s entries m

/-- The memory contains the builders and maps of the model, at least those that are in some positions. Each of
them has its own position. -/
structure Memory (U : TypeId → Code) (ρ : List (Value Val)) (D : Value Val → Prop) (s : State Val σ)
    (mem : Mem) : Prop where
  length : ρ.length = mem.length
  nodup : ρ.Nodup
  valid : ∀ x ∈ ρ, Valid s x
  cells : ∀ (r : Nat) cell x, mem[r]? = some cell → ρ[r]? = some x → D x → StoresCell U ρ D s cell x

/-- What a call of a method of a builder does: it returns the builder, it doesn't change anything that was in
other positions of the memory, and then the memory contains the builders and maps of the model. -/
def Does (U : TypeId → Code) (ρ : List (Value Val)) (x : Value Val) (s : State Val σ)
    (r : Res (List (Value Val) × State Val σ)) (mem : Mem) : Prop :=
  ∃ ρ' s', r = .ok ([x], s') ∧ Frame (· ≠ x) s s' ∧ ρ <+: ρ' ∧ Memory U ρ' (fun _ => True) s' mem

/-- What a call that creates a builder does: it returns a builder that is in a new position of the memory, it
doesn't change anything, and then the memory contains the builders and maps of the model. The new builder
is the last one. -/
def Creates (U : TypeId → Code) (ρ : List (Value Val)) (s : State Val σ)
    (r : Res (List (Value Val) × State Val σ)) (mem : Mem) : Prop :=
  ∃ x s', r = .ok ([x], s') ∧ ¬ Valid s x ∧ Frame (fun _ => True) s s' ∧
    Memory U (ρ ++ [x]) (fun _ => True) s' mem

/-- What a call of `Build` does, given what the model says: it returns an object, and no error, that uses only
new positions of the memory, and it doesn't change anything that was in the memory; or it panics. If the
model runs out of calls inside of calls then nothing is said. -/
def BuildsTo (S : Schema) (U : TypeId → Code) (res : Res (List (Value Val) × State Val σ)) (t : State Val σ)
    (ty : TypeId) : Run Val → Prop
  | .done v => ∃ p t', res = .ok ([p, .nil], t') ∧ Frame (Valid t) t t' ∧
      Holds S U (fun l => ¬ Valid t l) t' ty v p
  | .panic => res = .panic
  | .outOfFuel => True

end Verif.BuildersRun
