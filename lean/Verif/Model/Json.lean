import Verif.Model.Reader
import Verif.Model.GoBuffer
import Verif.Model.GoNames

/-!
# The JSON support code that is generated

Model of the code emitted by `pkg/generators/golang/json_generator.go`: the functions that write
and read objects, lists and maps. Templates are modelled by functions that take as an argument
the description of the types that the templates are evaluated for.

JSON documents are sequences of tokens: the text of tokens, white space and indentation belong to
the jsoniter library and aren't modelled. The calls to the library are modelled by what they do
to the sequence of tokens.
-/

namespace Verif

/-- Tokens of JSON documents. -/
inductive Tok
  | objectStart | objectEnd | arrayStart | arrayEnd | comma | colon
  | str (s : Text)
  | num (t : Text)
  | bool (b : Bool)
  | null
deriving DecidableEq, Repr

/-- JSON documents. The values of the interface type (`interface{}`) are represented by the
document that the library reads and writes for them. -/
inductive Json
  | null
  | bool (b : Bool)
  | num (t : Text)
  | str (s : Text)
  | arr (items : List Json)
  | obj (members : List (Text × Json))
deriving Repr

mutual
/-- The tokens of a document: what `stream.WriteVal` (jsoniter) writes. -/
def Json.tokens : Json → List Tok
  | .null => [.null]
  | .bool b => [.bool b]
  | .num t => [.num t]
  | .str s => [.str s]
  | .arr [] => [.arrayStart, .arrayEnd]
  | .arr (j :: js) => .arrayStart :: (j.tokens ++ (Json.itemsTail js ++ [.arrayEnd]))
  | .obj [] => [.objectStart, .objectEnd]
  | .obj ((k, j) :: ms) =>
    .objectStart :: .str k :: .colon :: (j.tokens ++ (Json.membersTail ms ++ [.objectEnd]))
/-- The items after the first one. -/
def Json.itemsTail : List Json → List Tok
  | [] => []
  | j :: js => .comma :: (j.tokens ++ Json.itemsTail js)
/-- The members after the first one. -/
def Json.membersTail : List (Text × Json) → List Tok
  | [] => []
  | (k, j) :: ms => .comma :: .str k :: .colon :: (j.tokens ++ Json.membersTail ms)
end

open Reader (digitsValue maxInt)

namespace GoJson

/-! ## Types -/

/-- What the templates use of an attribute: the JSON name (`fieldTag`), the type, the link flag
and the position of the bit of its mask (`bitMask`). -/
structure AttrShape where
  tag : Text
  typ : TypeId
  link : Bool := false
  bit : Nat
deriving DecidableEq, Repr

/-- What the templates use of a type. The name is the one that `structName` calculates. -/
inductive Shape
  | boolean | integer | long | float | string | interface | date | enum
  | struct (isClass : Bool) (name : Text) (attributes : List AttrShape)
  | list (name : Text) (element : TypeId)
  | map (element : TypeId)
  | other
deriving DecidableEq, Repr

/-- The `IsScalar` condition of the templates, pkg/concepts/type.go:172-177. -/
def Shape.isScalar : Shape → Bool
  | .boolean | .integer | .long | .float | .string | .interface | .date | .enum => true
  | _ => false

/-- The types of a model. -/
abbrev Schema := TypeId → Shape

/-- What the template of pkg/generators/golang/json_generator.go:636-639 and 676-678 uses of the
attribute in a position of a type. -/
def attrShape (cell : TypeCell) (position : Nat) (a : Attribute) : AttrShape :=
  { tag := Binding.attributeName a
    typ := a.typ
    link := a.link
    bit := Bitmap.bitIndex cell position }

/-- The chain of conditions of the template of `generateReadValue`,
pkg/generators/golang/json_generator.go:1326-1389, and of `generateWriteValue`, lines 1442-1491,
for a type that belongs to a version; `IsBoolean`... `IsDate`, pkg/concepts/type.go:116-143,
compare the type with the result of `FindType` for the version. The names are calculated as
`StructReference` does, pkg/generators/golang/types_calculator.go:134-155. -/
def shapeOf (t : TypeTable) (id : TypeId) : Shape :=
  match t.heap[id]? with
  | none => .other
  | some cell =>
    if t.findType Nom.boolean = some id then .boolean
    else if t.findType Nom.integer = some id then .integer
    else if t.findType Nom.long = some id then .long
    else if t.findType Nom.float = some id then .float
    else if t.findType Nom.string = some id then .string
    else if cell.isInterface then .interface
    else if t.findType Nom.date = some id then .date
    else if cell.isEnum then .enum
    else if cell.kind.isStruct then
      .struct cell.isClass (Go.nameOf cell.annotations cell.name)
        (cell.attributes.mapIdx (attrShape cell))
    else if cell.isList then
      match cell.element with
      | none => .other
      | some element =>
        match t.heap[element]? with
        | none => .other
        | some e => .list (Go.nameOf e.annotations e.name ++ t!"List") element
    else if cell.isMap then
      match cell.element with
      | none => .other
      | some element => .map element
    else .other

/-! ## Values -/

/-- An instant: what `Format(time.RFC3339)` (Go standard library) gives for it, and the fraction of
second that isn't part of that text. -/
structure Instant where
  text : Text
  nanos : Nat := 0
deriving DecidableEq, Repr

/-- The values of the generated types, pkg/generators/golang/types_generator.go:300-320 and
460-470. Objects have the bitmap, the identifier and the address (only for classes) and the fields
in the order of attributes. The nil pointer, slice or map is `nil`. Lists that are links are
structures with a slice of items. Floating point numbers are represented by their decimal text. -/
inductive Val
  | nil
  | bool (b : Bool)
  | int (i : Int)
  | float (t : Text)
  | str (s : Text)
  | date (d : Instant)
  | iface (j : Json)
  | obj (bitmap : Nat) (id href : Text) (fields : List Val)
  | list (items : List Val)
  | linkList (link : Bool) (href : Text) (items : Val)
  | map (entries : List (Text × Val))
deriving Repr

/-- The comparison with `nil`. -/
def Val.isNil : Val → Bool
  | .nil => true
  | _ => false

/-! ## Writing -/

/-- `if count > 0 { stream.WriteMore() }`. -/
def more (count : Nat) : List Tok := if count > 0 then [.comma] else []

/-- The variable `present_`, pkg/generators/golang/json_generator.go:640-644. -/
def present (S : Schema) (bitmap : Nat) (a : AttrShape) (v : Val) : Bool :=
  if (S a.typ).isScalar then bitmap.testBit a.bit
  else bitmap.testBit a.bit && !v.isNil

/-- Insertion of an entry in a list sorted by key. -/
def insertKey {α : Type} (e : Text × α) : List (Text × α) → List (Text × α)
  | [] => [e]
  | f :: fs => if compareText e.1 f.1 < 0 then e :: f :: fs else f :: insertKey e fs

/-- `sort.Strings(keys)` (Go standard library), applied to the keys of a map together with what
they are associated to. -/
def sortKeys {α : Type} (l : List (Text × α)) : List (Text × α) :=
  l.foldl (fun acc e => insertKey e acc) []

/-- The loop of pkg/generators/golang/json_generator.go:1475-1482, for keys that are sorted; the
values are already written. -/
def writeEntries (i : Nat) : List (Text × List Tok) → List Tok
  | [] => []
  | (k, ts) :: rest => more i ++ (.str k :: .colon :: (ts ++ writeEntries (i + 1) rest))

/-- The part of the template that writes the kind, the identifier and the address of objects of
classes, pkg/generators/golang/json_generator.go:606-631: the tokens and the value of `count`. -/
def writeHeader (name : Text) (hasAttributes : Bool) (bitmap : Nat) (id href : Text) :
    List Tok × Nat :=
  let kind := if bitmap.testBit 0 then name ++ t!"Link" else name
  let out : List Tok := [.str t!"kind", .colon, .str kind]
  let count := 1
  let (out, count) :=
    if bitmap.testBit 1 then
      (out ++ (more count ++ [.str t!"id", .colon, .str id]), count + 1)
    else (out, count)
  if bitmap.testBit 2 then
    (out ++ (more count ++ [.str t!"href", .colon, .str href]),
      if hasAttributes then count + 1 else count)
  else (out, count)

mutual
/-- `generateWriteValue`, pkg/generators/golang/json_generator.go:1437-1505, and the functions
that it calls: the one for objects, lines 602-659, and the one for lists, lines 789-798. The
result is `none` if there is a panic (a nil pointer) or if the value isn't of the type. -/
def writeVal (S : Schema) (ty : TypeId) (link : Bool) : Val → Option (List Tok)
  | .bool b => if S ty = .boolean then some [.bool b] else none
  | .int i => if S ty = .integer ∨ S ty = .long then some [.num (intText i)] else none
  | .float t => if S ty = .float then some [.num t] else none
  | .str s => if S ty = .string ∨ S ty = .enum then some [.str s] else none
  | .date d => if S ty = .date then some [.str d.text] else none
  | .iface j => if S ty = .interface then some j.tokens else none
  | .obj bitmap id href fields =>
    match S ty with
    | .struct isClass name attributes =>
      let (header, count) :=
        if isClass then writeHeader name (!attributes.isEmpty) bitmap id href else ([], 0)
      match writeFields S bitmap count attributes fields with
      | none => none
      | some ts => some (.objectStart :: (header ++ (ts ++ [.objectEnd])))
    | _ => none
  | .list items =>
    match S ty with
    | .list _ element =>
      if link then none
      else
        match writeItems S element 0 items with
        | none => none
        | some ts => some (.arrayStart :: (ts ++ [.arrayEnd]))
    | _ => none
  | .linkList _ _ items =>
    match S ty with
    | .list _ _ =>
      if link then
        match writeVal S ty false items with
        | none => none
        | some ts => some (.objectStart :: .str t!"items" :: .colon :: (ts ++ [.objectEnd]))
      else none
    | _ => none
  | .map entries =>
    match S ty with
    | .map element =>
      match writeAll S element entries with
      | none => none
      | some es => some (.objectStart :: (writeEntries 0 (sortKeys es) ++ [.objectEnd]))
    | _ => none
  | .nil =>
    match S ty with
    | .list _ _ => if link then none else some [.arrayStart, .arrayEnd]
    | .map _ => some [.null]
    | .struct false _ [] => some [.objectStart, .objectEnd]
    | _ => none
/-- The loop over the attributes, pkg/generators/golang/json_generator.go:636-655; the list of
attributes and the list of fields have the same length. -/
def writeFields (S : Schema) (bitmap : Nat) (count : Nat) :
    List AttrShape → List Val → Option (List Tok)
  | [], [] => some []
  | a :: as, v :: vs =>
    if present S bitmap a v then
      match writeVal S a.typ a.link v with
      | none => none
      | some ts =>
        match writeFields S bitmap (if as.isEmpty then count else count + 1) as vs with
        | none => none
        | some rest => some (more count ++ (.str a.tag :: .colon :: (ts ++ rest)))
    else writeFields S bitmap count as vs
  | _, _ => none
/-- The loop over the items of a list, pkg/generators/golang/json_generator.go:791-796. -/
def writeItems (S : Schema) (element : TypeId) (i : Nat) : List Val → Option (List Tok)
  | [] => some []
  | v :: vs =>
    match writeVal S element false v with
    | none => none
    | some ts =>
      match writeItems S element (i + 1) vs with
      | none => none
      | some rest => some (more i ++ (ts ++ rest))
/-- The values of the entries of a map. The template writes them in the loop over the sorted
keys, line 1481; here they are written first and then sorted. -/
def writeAll (S : Schema) (element : TypeId) :
    List (Text × Val) → Option (List (Text × List Tok))
  | [] => some []
  | (k, v) :: es =>
    match writeVal S element false v with
    | none => none
    | some ts =>
      match writeAll S element es with
      | none => none
      | some rest => some ((k, ts) :: rest)
end

/-! ## The iterator of the jsoniter library

The functions return `none` if they report an error: the generated functions return the error of
the iterator, and once there is an error it stays. -/

/-- `ReadObject` (jsoniter): the next key, or the empty text at the end. -/
def readObject : List Tok → Option (Text × List Tok)
  | .null :: r => some ([], r)
  | .objectStart :: .objectEnd :: r => some ([], r)
  | .objectStart :: .str k :: .colon :: r => some (k, r)
  | .comma :: .str k :: .colon :: r => some (k, r)
  | .comma :: .null :: .colon :: r => some ([], r)
  | .objectEnd :: r => some ([], r)
  | _ => none

/-- `ReadArray` (jsoniter): true if there is another item. -/
def readArray : List Tok → Option (Bool × List Tok)
  | .null :: r => some (false, r)
  | .arrayStart :: .arrayEnd :: r => some (false, r)
  | .arrayStart :: r => some (true, r)
  | .comma :: r => some (true, r)
  | .arrayEnd :: r => some (false, r)
  | _ => none

/-- `ReadString` (jsoniter): null is the empty text. -/
def readString : List Tok → Option (Text × List Tok)
  | .str s :: r => some (s, r)
  | .null :: r => some ([], r)
  | _ => none

/-- `ReadBool` (jsoniter). -/
def readBool : List Tok → Option (Bool × List Tok)
  | .bool b :: r => some (b, r)
  | _ => none

/-- The integer that a number of JSON represents, if it is in the range of `int64`. -/
def parseInt64 : Text → Option Int
  | '-' :: ds =>
    if ds ≠ [] ∧ ds.all Char.isDigit ∧ digitsValue ds ≤ maxInt + 1 then some (-(digitsValue ds : Int))
    else none
  | ds =>
    if ds ≠ [] ∧ ds.all Char.isDigit ∧ digitsValue ds ≤ maxInt then some (digitsValue ds : Int)
    else none

/-- `ReadInt` and `ReadInt64` (jsoniter), where `int` has 64 bits. -/
def readInt : List Tok → Option (Int × List Tok)
  | .num t :: r => (parseInt64 t).map fun i => (i, r)
  | _ => none

/-- `ReadFloat64` (jsoniter); the number is represented by its text. -/
def readFloat : List Tok → Option (Text × List Tok)
  | .num t :: r => some (t, r)
  | _ => none

mutual
/-- `ReadVal` for `interface{}` (jsoniter): reads any value. `ReadAny` reads the same and the
generated code discards the result. -/
def parseVal : Nat → List Tok → Option (Json × List Tok)
  | 0, _ => none
  | _ + 1, .null :: r => some (.null, r)
  | _ + 1, .bool b :: r => some (.bool b, r)
  | _ + 1, .num t :: r => some (.num t, r)
  | _ + 1, .str s :: r => some (.str s, r)
  | _ + 1, .arrayStart :: .arrayEnd :: r => some (.arr [], r)
  | fuel + 1, .arrayStart :: r =>
    match parseVal fuel r with
    | none => none
    | some (j, r) => (parseItems fuel r).map fun p => (.arr (j :: p.1), p.2)
  | _ + 1, .objectStart :: .objectEnd :: r => some (.obj [], r)
  | fuel + 1, .objectStart :: .str k :: .colon :: r =>
    match parseVal fuel r with
    | none => none
    | some (j, r) => (parseMembers fuel r).map fun p => (.obj ((k, j) :: p.1), p.2)
  | _ + 1, _ => none
/-- The items after the first one. -/
def parseItems : Nat → List Tok → Option (List Json × List Tok)
  | 0, _ => none
  | _ + 1, .arrayEnd :: r => some ([], r)
  | fuel + 1, .comma :: r =>
    match parseVal fuel r with
    | none => none
    | some (j, r) => (parseItems fuel r).map fun p => (j :: p.1, p.2)
  | _ + 1, _ => none
/-- The members after the first one. -/
def parseMembers : Nat → List Tok → Option (List (Text × Json) × List Tok)
  | 0, _ => none
  | _ + 1, .objectEnd :: r => some ([], r)
  | fuel + 1, .comma :: .str k :: .colon :: r =>
    match parseVal fuel r with
    | none => none
    | some (j, r) => (parseMembers fuel r).map fun p => ((k, j) :: p.1, p.2)
  | _ + 1, _ => none
end

/-! ## Reading -/

/-- The parsing of dates, `time.Parse(time.RFC3339, text)` (Go standard library). -/
abbrev DateParser := Text → Option Instant

/-- The value of a Go variable of the type before anything is assigned to it. The zero instant
and the nil interface are representatives. -/
def zero : Shape → Val
  | .boolean => .bool false
  | .integer | .long => .int 0
  | .float => .float t!"0"
  | .string | .enum => .str []
  | .date => .date { text := t!"0001-01-01T00:00:00Z" }
  | .interface => .iface .null
  | _ => .nil

/-- An object that is being read: the variable `object` of the template. -/
structure Obj where
  bitmap : Nat := 0
  id : Text := []
  href : Text := []
  fields : List Val

/-- The pointer to the object. -/
def Obj.val (o : Obj) : Val := .obj o.bitmap o.id o.href o.fields

/-- `object := &Struct{}`, pkg/generators/golang/json_generator.go:676. -/
def newObj (S : Schema) (attributes : List AttrShape) : Obj :=
  { fields := attributes.map fun a => zero (S a.typ) }

/-- The case of the `switch` for an attribute, with its position,
pkg/generators/golang/json_generator.go:698-706. -/
def findCase (field : Text) (position : Nat) : List AttrShape → Option (Nat × AttrShape)
  | [] => none
  | a :: as => if a.tag = field then some (position, a) else findCase field (position + 1) as

/-- A list that is a link while it is being read: the variable of the template of
pkg/generators/golang/json_generator.go:1353-1371. -/
structure Link where
  link : Bool := false
  href : Text := []
  items : Val := .nil

/-- The pointer to the list. -/
def Link.val (l : Link) : Val := .linkList l.link l.href l.items

mutual
/-- `generateReadValue`, pkg/generators/golang/json_generator.go:1321-1397. The first argument
bounds the number of steps: the properties are about any number that is big enough. -/
def readVal (D : DateParser) (S : Schema) :
    Nat → TypeId → Bool → List Tok → Option (Val × List Tok)
  | 0, _, _, _ => none
  | fuel + 1, ty, link, r =>
    match S ty with
    | .boolean => (readBool r).map fun p => (.bool p.1, p.2)
    | .integer => (readInt r).map fun p => (.int p.1, p.2)
    | .long => (readInt r).map fun p => (.int p.1, p.2)
    | .float => (readFloat r).map fun p => (.float p.1, p.2)
    | .string => (readString r).map fun p => (.str p.1, p.2)
    | .interface => (parseVal fuel r).map fun p => (.iface p.1, p.2)
    | .date =>
      match readString r with
      | none => none
      | some (text, r) => (D text).map fun d => (.date d, r)
    | .enum => (readString r).map fun p => (.str p.1, p.2)
    | .struct isClass name attributes =>
      (readFields D S fuel isClass name attributes (newObj S attributes) r).map fun p =>
        (p.1.val, p.2)
    | .list name element =>
      if link then (readLink D S fuel ty name {} r).map fun p => (p.1.val, p.2)
      else (readItems D S fuel element [] r).map fun p => (.list p.1, p.2)
    | .map element => (readEntries D S fuel element [] r).map fun p => (.map p.1, p.2)
    | .other => none
termination_by structural fuel => fuel
/-- The function that reads objects, pkg/generators/golang/json_generator.go:675-712: the loop. -/
def readFields (D : DateParser) (S : Schema) : Nat → Bool → Text → List AttrShape →
    Obj → List Tok → Option (Obj × List Tok)
  | 0, _, _, _, _, _ => none
  | fuel + 1, isClass, name, attributes, o, r =>
    match readObject r with
    | none => none
    | some (field, r) =>
      if field = [] then some (o, r)
      else if isClass && field == t!"kind" then
        match readString r with
        | none => none
        | some (value, r) =>
          readFields D S fuel isClass name attributes
            (if value = name ++ t!"Link" then { o with bitmap := o.bitmap ||| 1 } else o) r
      else if isClass && field == t!"id" then
        match readString r with
        | none => none
        | some (value, r) =>
          readFields D S fuel isClass name attributes
            { o with id := value, bitmap := o.bitmap ||| 2 } r
      else if isClass && field == t!"href" then
        match readString r with
        | none => none
        | some (value, r) =>
          readFields D S fuel isClass name attributes
            { o with href := value, bitmap := o.bitmap ||| 4 } r
      else
        match findCase field 0 attributes with
        | some (i, a) =>
          match readVal D S fuel a.typ a.link r with
          | none => none
          | some (v, r) =>
            readFields D S fuel isClass name attributes
              { o with fields := o.fields.set i v, bitmap := o.bitmap ||| 2 ^ a.bit } r
        | none =>
          match parseVal fuel r with
          | none => none
          | some (_, r) => readFields D S fuel isClass name attributes o r
termination_by structural fuel => fuel
/-- The function that reads lists, pkg/generators/golang/json_generator.go:814-821: the loop. -/
def readItems (D : DateParser) (S : Schema) : Nat → TypeId → List Val → List Tok →
    Option (List Val × List Tok)
  | 0, _, _, _ => none
  | fuel + 1, element, acc, r =>
    match readArray r with
    | none => none
    | some (false, r) => some (acc, r)
    | some (true, r) =>
      match readVal D S fuel element false r with
      | none => none
      | some (v, r) => readItems D S fuel element (acc ++ [v]) r
termination_by structural fuel => fuel
/-- The loop that reads lists that are links, pkg/generators/golang/json_generator.go:1354-1371.
-/
def readLink (D : DateParser) (S : Schema) : Nat → TypeId → Text → Link → List Tok →
    Option (Link × List Tok)
  | 0, _, _, _, _ => none
  | fuel + 1, ty, name, l, r =>
    match readObject r with
    | none => none
    | some (field, r) =>
      if field = [] then some (l, r)
      else if field = t!"kind" then
        match readString r with
        | none => none
        | some (text, r) =>
          readLink D S fuel ty name { l with link := text == name ++ t!"Link" } r
      else if field = t!"href" then
        match readString r with
        | none => none
        | some (text, r) => readLink D S fuel ty name { l with href := text } r
      else if field = t!"items" then
        match readVal D S fuel ty false r with
        | none => none
        | some (items, r) => readLink D S fuel ty name { l with items := items } r
      else
        match parseVal fuel r with
        | none => none
        | some (_, r) => readLink D S fuel ty name l r
termination_by structural fuel => fuel
/-- The loop that reads maps, pkg/generators/golang/json_generator.go:1377-1384. -/
def readEntries (D : DateParser) (S : Schema) : Nat → TypeId → GoMap Val → List Tok →
    Option (GoMap Val × List Tok)
  | 0, _, _, _ => none
  | fuel + 1, element, acc, r =>
    match readObject r with
    | none => none
    | some (key, r) =>
      if key = [] then some (acc, r)
      else
        match readVal D S fuel element false r with
        | none => none
        | some (v, r) => readEntries D S fuel element (acc.insert key v) r
termination_by structural fuel => fuel
end

/-- The marshal functions, pkg/generators/golang/json_generator.go:591-600 and 777-786: `none` if
there is a panic. -/
def marshal (S : Schema) (ty : TypeId) (v : Val) : Option (List Tok) := writeVal S ty false v

/-- The unmarshal functions, pkg/generators/golang/json_generator.go:663-672 and 802-811: `none` if
they return an error. What follows the value is ignored. -/
def unmarshal (D : DateParser) (S : Schema) (fuel : Nat) (ty : TypeId) (source : List Tok) :
    Option Val :=
  (readVal D S fuel ty false source).map Prod.fst

end GoJson

end Verif
