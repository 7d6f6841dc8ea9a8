import Verif.Spec.BuildersRun
import Verif.Spec.JsonCode
import Verif.Model.Json

/-!
# What it means to run the generated JSON support

What the functions of the libraries do, what the code of the JSON support of the types is, and what the memory of a Go
program is after running it.
-/

namespace Verif.JsonRun

open GoJson (Val Schema Shape AttrShape DateParser)
open GoProgram
open TypesRun (Legal value)
open BuildersRun (Program Code resolve fieldsOf isObject)
open JsonCode (Form Entity Listing Functions)

/-! ## The libraries -/

/-- The state of the libraries: what has been written to the stream, what the writer has received, whether the writer
fails, what hasn't been read from the iterator, whether the iterator has an error, and the document that a source
has, if it is one of those that iterators can be created for. -/
structure Library where
  out : List Tok := []
  sent : List Tok := []
  broken : Bool := false
  input : List Tok := []
  failed : Bool := false
  source : Option (List Tok) := none

/-- The value of the constant `time.RFC3339`. -/
def layout : Text := t!"2006-01-02T15:04:05Z07:00"

/-- A function of the stream. -/
def writing (f : List (Value Val) → List Tok) (vs : List (Value Val)) (l : Library) : Value Val × Library :=
  (.nil, { l with out := l.out ++ f vs })

/-- A function of the iterator. After an error nothing else is read: this is a simplification, because the library
goes on reading and gives other values, but the error is kept. -/
def reading {α : Type} (f : List Tok → Option (α × List Tok)) (zero : α) (g : α → Value Val) (_ : List (Value Val))
    (l : Library) : Value Val × Library :=
  if l.failed then (g zero, l)
  else
    match f l.input with
    | some (a, r) => (g a, { l with input := r })
    | none => (g zero, { l with failed := true })

/-- The error of something that may fail. -/
def errorOf (b : Bool) : Value Val := if b then .error [] else .nil

/-- The functions that return one value. -/
def table : List (Text × (List (Value Val) → Library → Value Val × Library)) := [
  (t!"helpers.NewStream", fun _ l => (.other .nil, { l with out := [] })),
  (t!"stream.WriteBool", writing fun | [.bool b] => [.bool b] | _ => []),
  (t!"stream.WriteInt", writing fun | [.int i] => [.num (intText i)] | _ => []),
  (t!"stream.WriteInt64", writing fun | [.int i] => [.num (intText i)] | _ => []),
  (t!"stream.WriteFloat64", writing fun | [.other (.float t)] => [.num t] | _ => []),
  (t!"stream.WriteString", writing fun | [.str t] => [.str t] | _ => []),
  (t!"stream.WriteVal", writing fun | [.other (.iface j)] => j.tokens | [.nil] => [.null] | _ => []),
  (t!"stream.WriteNil", writing fun _ => [.null]),
  (t!"stream.WriteMore", writing fun _ => [.comma]),
  (t!"stream.WriteObjectStart", writing fun _ => [.objectStart]),
  (t!"stream.WriteObjectField", writing fun | [.str k] => [.str k, .colon] | _ => []),
  (t!"stream.WriteObjectEnd", writing fun _ => [.objectEnd]),
  (t!"stream.WriteArrayStart", writing fun _ => [.arrayStart]),
  (t!"stream.WriteArrayEnd", writing fun _ => [.arrayEnd]),
  (t!"stream.Flush", fun _ l =>
    (errorOf l.broken, { l with out := [], sent := if l.broken then l.sent else l.sent ++ l.out })),
  (t!"stream.Error", fun _ l => (errorOf l.broken, l)),
  (t!"time.Time.Format", fun vs l =>
    (match vs with | [.other (.date d), .str t] => .str (if t = layout then d.text else []) | _ => .nil, l)),
  (t!"iterator.ReadBool", reading GoJson.readBool false .bool),
  (t!"iterator.ReadInt", reading GoJson.readInt 0 .int),
  (t!"iterator.ReadInt64", reading GoJson.readInt 0 .int),
  (t!"iterator.ReadFloat64", reading GoJson.readFloat t!"0" fun t => value (.float t)),
  (t!"iterator.ReadString", reading GoJson.readString [] .str),
  (t!"iterator.ReadVal", reading (fun r => GoJson.parseVal (r.length + 1) r) .null fun j => value (.iface j)),
  (t!"iterator.ReadAny", reading (fun r => GoJson.parseVal (r.length + 1) r) .null fun _ => .nil),
  (t!"iterator.ReadObject", reading GoJson.readObject [] .str),
  (t!"iterator.ReadArray", reading GoJson.readArray false .bool),
  (t!"iterator.ReportError", fun _ l => (.nil, { l with failed := true })),
  (t!"iterator.Error", fun _ l => (errorOf l.failed, l)),
  (t!"err.Error", fun _ l => (.str [], l))]

/-- The functions that return two values. -/
def pairTable (D : DateParser) :
    List (Text × (List (Value Val) → Library → (Value Val × Value Val) × Library)) := [
  (t!"helpers.NewIterator", fun _ l =>
    match l.source with
    | some r => ((.other .nil, .nil), { l with input := r, failed := false })
    | none => ((.nil, .error []), l)),
  (t!"time.Parse", fun vs l =>
    (match vs with
      | [.str t, .str text] =>
        match if t = layout then D text else none with
        | some d => (value (.date d), .nil)
        | none => (value (GoJson.zero .date), .error [])
      | _ => (.nil, .nil), l))]

/-! ## Programs -/

/-- The constants that the code of a package uses. -/
def constants (P : Program) (pkg x : Text) : Option Text :=
  if x = t!"time.RFC3339" then some layout else constant (P (resolve pkg x).1) (resolve pkg x).2

/-- How the code of a package is executed, with limits for the number of calls inside of calls and for the number of
steps of loops: the functions and methods are those of the program and the libraries, and the fields of new
structures have the zero values of their types. -/
def world (P : Program) (zero : Text → Text → Value Val) (D : DateParser) (limit : Nat) :
    Nat → Text → World Val Library
  | 0, pkg =>
    { consts := constants P pkg, zero := zero pkg
      funcs := fun f => table.lookup f, pairs := fun f => (pairTable D).lookup f, limit := limit
      structs := fun t => (fieldsOf (P (resolve pkg t).1) (resolve pkg t).2).map
        (List.map fun f => (f.1, zero (resolve pkg t).1 f.2))
      apply := fun _ _ _ => .outOfFuel
      methods := fun _ _ _ _ _ => .outOfFuel }
  | fuel + 1, pkg =>
    { consts := constants P pkg, zero := zero pkg
      funcs := fun f => table.lookup f, pairs := fun f => (pairTable D).lookup f, limit := limit
      structs := fun t => (fieldsOf (P (resolve pkg t).1) (resolve pkg t).2).map
        (List.map fun f => (f.1, zero (resolve pkg t).1 f.2))
      apply := fun t args s =>
        match method (P (resolve pkg t).1) [] (resolve pkg t).2 with
        | some f => f.call (world P zero D limit fuel (resolve pkg t).1) .nil args s
        | none => .wrong
      methods := fun t name r args s =>
        match method (P (resolve pkg t).1) (resolve pkg t).2 name with
        | some f => f.call (world P zero D limit fuel (resolve pkg t).1) r args s
        | none => .wrong }

/-- Calls a function of a package. -/
def call (P : Program) (zero : Text → Text → Value Val) (D : DateParser) (limit fuel : Nat) (pkg name : Text)
    (args : List (Value Val)) (s : State Val Library) : Res (List (Value Val) × State Val Library) :=
  (world P zero D limit fuel pkg).apply name args s

/-! ## The code of the JSON support -/

/-- The code of the JSON support of a list, and its package. -/
structure ListCode where
  pkg : Text
  listing : Listing

/-- How the values of a type are written and read is what the type requires: for objects and lists, the names used in
the package are those of the functions of the code of the type, and for lists that are links the type is that of the
lists of the code of the objects. -/
def Fits (S : Schema) (U : TypeId → Code) (J : TypeId → Entity) (L : TypeId → ListCode) (pkg : Text) :
    TypeId → Bool → Form → Prop
  | ty, _, .boolean => S ty = .boolean
  | ty, _, .integer => S ty = .integer
  | ty, _, .long => S ty = .long
  | ty, _, .float => S ty = .float
  | ty, _, .string => S ty = .string
  | ty, _, .date => S ty = .date
  | ty, _, .interface => S ty = .interface
  | ty, _, .enum _ => S ty = .enum
  | ty, _, .object w r => isObject (S ty) = true ∧
      resolve pkg w = ((U ty).pkg, (J ty).functions.write) ∧ resolve pkg r = ((U ty).pkg, (J ty).functions.read)
  | ty, link, .list w r => ∃ n e, S ty = .list n e ∧ link = false ∧
      resolve pkg w = ((L ty).pkg, (L ty).listing.functions.write) ∧
      resolve pkg r = ((L ty).pkg, (L ty).listing.functions.read)
  | ty, link, .linkList typ w r => ∃ n e, S ty = .list n e ∧ link = true ∧ isObject (S e) = true ∧
      n = (U e).entity.list ∧ resolve pkg typ = ((U e).pkg, (U e).entity.list) ∧
      resolve pkg w = ((L ty).pkg, (L ty).listing.functions.write) ∧
      resolve pkg r = ((L ty).pkg, (L ty).listing.functions.read)
  | ty, _, .map _ _ form => ∃ e, S ty = .map e ∧ Fits S U J L pkg e false form

/-- An attribute of the JSON support is the one of the type: the name of the field of the JSON object, the bit, the
field of the structure, whether it is scalar, and how its values are written and read. -/
structure Matches (S : Schema) (U : TypeId → Code) (J : TypeId → Entity) (L : TypeId → ListCode) (pkg : Text)
    (a : AttrShape) (m : JsonCode.Member) (f : BuildersCode.Member) : Prop where
  tag : m.tag = a.tag
  bit : m.bit = a.bit
  field : m.field = f.field
  scalar : m.scalar = (S a.typ).isScalar
  form : Fits S U J L pkg a.typ a.link m.form

/-- The names of the functions aren't names of other packages. -/
def Simple (fs : Functions) : Prop := ∀ n ∈ [fs.marshal, fs.write, fs.unmarshal, fs.read], '.' ∉ n

/-- The code of the JSON support of a struct or class with those attributes is part of the program. -/
structure Linked (P : Program) (S : Schema) (U : TypeId → Code) (J : TypeId → Entity) (L : TypeId → ListCode)
    (ty : TypeId) (classFlag : Bool) (name : Text) (as : List AttrShape) : Prop where
  declared : ∀ i ∈ (J ty).items, i.decl ∈ P (U ty).pkg
  simple : Simple (J ty).functions
  object : (J ty).object = (U ty).entity.object
  name : (J ty).object = name
  isClass : (J ty).isClass = classFlag
  members : (J ty).members.length = as.length
  attributes : ∀ (i : Nat) (a : AttrShape) (m : JsonCode.Member) (f : BuildersCode.Member),
    as[i]? = some a → (J ty).members[i]? = some m → (U ty).builder.members[i]? = some f →
      Matches S U J L (U ty).pkg a m f

/-- The code of the JSON support of a list is part of the program. -/
structure ListLinked (P : Program) (S : Schema) (U : TypeId → Code) (J : TypeId → Entity) (L : TypeId → ListCode)
    (ty element : TypeId) : Prop where
  legal : Legal (P (L ty).pkg)
  declared : ∀ i ∈ (L ty).listing.items, i.decl ∈ P (L ty).pkg
  simple : Simple (L ty).listing.functions
  form : Fits S U J L (L ty).pkg element false (L ty).listing.form

/-- All the code is part of the program. -/
structure Whole (P : Program) (zero : Text → Text → Value Val) (S : Schema) (U : TypeId → Code)
    (J : TypeId → Entity) (L : TypeId → ListCode) : Prop where
  base : BuildersRun.Whole P zero S U
  objects : ∀ ty isClass name as, S ty = .struct isClass name as → Linked P S U J L ty isClass name as
  lists : ∀ ty name element, S ty = .list name element → ListLinked P S U J L ty element

/-! ## Results -/

/-- The state after writing: there may be new slices, which contain the keys of maps, and the stream has what has
been written. -/
def wrote (s : State Val Library) (arrays : List (List (Value Val))) (ts : List Tok) : State Val Library :=
  { s with arrays := s.arrays ++ arrays, user := { s.user with out := s.user.out ++ ts } }

/-- What a call of a function that writes does: it writes those tokens to the stream, or it panics. -/
def Writes (s : State Val Library) (r : Res (List (Value Val) × State Val Library)) : Option (List Tok) → Prop
  | some ts => ∃ arrays, r = .ok ([], wrote s arrays ts)
  | none => r = .panic

/-- What a call of a function that creates a stream and writes does: the writer receives those tokens and no error is
returned, unless the writer fails; or it panics. -/
def Sends (s : State Val Library) (r : Res (List (Value Val) × State Val Library)) : Option (List Tok) → Prop
  | some ts => ∃ arrays, r = .ok ([errorOf s.user.broken],
      { s with
        arrays := s.arrays ++ arrays
        user := { s.user with out := [], sent := if s.user.broken then s.user.sent else s.user.sent ++ ts } })
  | none => r = .panic

end Verif.JsonRun
