import Verif.Spec.TypesCode
import Verif.Model.JsonCode

/-!
# What the files of the generated JSON support contain

The declarations that the files of the generated JSON support of types should contain, with their comments.
-/

namespace Verif.JsonCode

open GoProgram
open TypesCode (Item dot notNil bitSet)

/-- How values are written and read: those of the types that every version has; those of enumerated types, with the
name of the type; objects and lists, with the names of the functions that write and read them; lists that are
links, with the name of the type of the list and the names of the functions that write and read the items; and
maps, with the type of the map and of the elements. -/
inductive Form where
  | boolean | integer | long | float | string | date | interface
  | enum (typ : Text)
  | object (write read : Text)
  | list (write read : Text)
  | linkList (typ write read : Text)
  | map (typ element : Text) (form : Form)

/-! ## Values -/

/-- The code that writes a value. -/
def Form.write : Form → Expr → List Stmt
  | .boolean, v => [.perform t!"stream.WriteBool" [v]]
  | .integer, v => [.perform t!"stream.WriteInt" [v]]
  | .long, v => [.perform t!"stream.WriteInt64" [v]]
  | .float, v => [.perform t!"stream.WriteFloat64" [v]]
  | .string, v => [.perform t!"stream.WriteString" [v]]
  | .date, v => [.perform t!"stream.WriteString" [.format v (.var t!"time.RFC3339")]]
  | .enum _, v => [.perform t!"stream.WriteString" [.convert t!"string" v]]
  | .interface, v => [.perform t!"stream.WriteVal" [v]]
  | .object w _, v => [.apply w [v, .var t!"stream"]]
  | .list w _, v => [.apply w [v, .var t!"stream"]]
  | .linkList typ w _, v => [
    .perform t!"stream.WriteObjectStart" [],
    .perform t!"stream.WriteObjectField" [.str t!"items"],
    .apply w [.method typ v t!"Items" [], .var t!"stream"],
    .perform t!"stream.WriteObjectEnd" []]
  | .map _ element form, v => [
    .branch (.ne v .nil) [
        .perform t!"stream.WriteObjectStart" [],
        .define t!"keys" (.make t!"[]string" (.len v)),
        .defineEnd t!"i" (.int 0),
        .rangeKeys t!"key" v [
          .assign (.index (.var t!"keys") (.var t!"i")) (.var t!"key"),
          .increment t!"i"],
        .sort (.var t!"keys"),
        .range t!"i" t!"key" (.var t!"keys") (
          .branch (.gt (.var t!"i") (.int 0)) [.perform t!"stream.WriteMore" []] [] ::
          .define t!"item" (.lookup element v (.var t!"key")) ::
          .perform t!"stream.WriteObjectField" [.var t!"key"] ::
          form.write (.var t!"item")),
        .perform t!"stream.WriteObjectEnd" []]
      [.perform t!"stream.WriteNil" []]]

/-- `iterator.ReadString()` -/
def readString : Expr := .call t!"iterator.ReadString" []

/-- Reads the name of the next field of an object, and finishes the loop if there is none. -/
def nextField (x : Text) : List Stmt := [
  .define x (.call t!"iterator.ReadObject" []),
  .branch (.eq (.var x) (.str [])) [.stop] []]

/-- The code that reads a value and puts it in a new variable. -/
def Form.read : Form → Text → List Stmt
  | .boolean, x => [.define x (.call t!"iterator.ReadBool" [])]
  | .integer, x => [.define x (.call t!"iterator.ReadInt" [])]
  | .long, x => [.define x (.call t!"iterator.ReadInt64" [])]
  | .float, x => [.define x (.call t!"iterator.ReadFloat64" [])]
  | .string, x => [.define x readString]
  | .interface, x => [.var x t!"interface{}", .fill t!"iterator.ReadVal" x]
  | .date, x => [
    .define t!"text" readString,
    .defineBoth x t!"err" t!"time.Parse" [.var t!"time.RFC3339", .var t!"text"],
    .branch (notNil t!"err") [.perform t!"iterator.ReportError" [.str [], .call t!"err.Error" []]] []]
  | .enum typ, x => [.define t!"text" readString, .define x (.convert typ (.var t!"text"))]
  | .object _ r, x => [.define x (.apply r [.var t!"iterator"])]
  | .list _ r, x => [.define x (.apply r [.var t!"iterator"])]
  | .linkList typ _ r, x => [
    .define x (.address typ),
    .forever (nextField t!"field" ++ [
      .switch (.var t!"field") [
        .case t!"kind" [
          .define t!"text" readString,
          .invoke typ (.var x) t!"SetLink" [.eq (.var t!"text") (.var (typ ++ t!"LinkKind"))]],
        .case t!"href" [.invoke typ (.var x) t!"SetHREF" [readString]],
        .case t!"items" [.invoke typ (.var x) t!"SetItems" [.apply r [.var t!"iterator"]]],
        .default [.perform t!"iterator.ReadAny" []]]])]
  | .map typ _ form, x => [
    .define x (.emptyMap typ),
    .forever (nextField t!"key" ++ form.read t!"item" ++
      [.assign (.index (.var x) (.var t!"key")) (.var t!"item")])]

/-! ## Objects -/

/-- An attribute: the name of the field, the name of the field of the JSON object, the bit that says if it has a
value, whether it is scalar, and how its values are written and read. -/
structure Member where
  field : Text
  tag : Text
  bit : Nat
  scalar : Bool
  form : Form

/-- The names of the functions of a type. -/
structure Functions where
  marshal : Text
  write : Text
  unmarshal : Text
  read : Text

/-- A struct or class: its name in the model, the name of the Go type, the names of its functions and its
attributes. -/
structure Entity where
  name : Text
  object : Text
  isClass : Bool
  functions : Functions
  members : List Member

/-- The code that writes a comma if this isn't the first field. -/
def comma : Stmt := .branch (.gt (.var t!"count") (.int 0)) [.perform t!"stream.WriteMore" []] []

/-- A function that writes a value: it creates a stream and uses the other function to write to it. -/
def marshalFunc (fs : Functions) (x typ : Text) : Declaration :=
  .func {
    name := fs.marshal, params := [(x, typ), (t!"writer", t!"io.Writer")], results := [([], t!"error")]
    body := [
      .define t!"stream" (.call t!"helpers.NewStream" [.var t!"writer"]),
      .apply fs.write [.var x, .var t!"stream"],
      .define t!"err" (.call t!"stream.Flush" []),
      .branch (notNil t!"err") [.ret [.var t!"err"]] [],
      .ret [.read t!"stream.Error"]] }

/-- A function that reads a value: it creates an iterator and uses the other function to read from it. -/
def unmarshalFunc (fs : Functions) (x typ : Text) : Declaration :=
  .func {
    name := fs.unmarshal, params := [(t!"source", t!"interface{}")], results := [(x, typ), (t!"err", t!"error")]
    body := [
      .defineBoth t!"iterator" t!"err" t!"helpers.NewIterator" [.var t!"source"],
      .branch (notNil t!"err") [.ret []] [],
      .assign (.var x) (.apply fs.read [.var t!"iterator"]),
      .assign (.var t!"err") (.read t!"iterator.Error"),
      .ret []] }

/-- The code that writes the kind, the identifier and the link of an object. The counter isn't increased at the end
if there are no attributes. -/
def Entity.writeIdentity (e : Entity) : List Stmt := [
  .perform t!"stream.WriteObjectField" [.str t!"kind"],
  .branch (bitSet t!"object" 0)
    [.perform t!"stream.WriteString" [.var (e.object ++ t!"LinkKind")]]
    [.perform t!"stream.WriteString" [.var (e.object ++ t!"Kind")]],
  .increment t!"count",
  .branch (bitSet t!"object" 1) [
    comma,
    .perform t!"stream.WriteObjectField" [.str t!"id"],
    .perform t!"stream.WriteString" [dot t!"object" t!"id"],
    .increment t!"count"] [],
  .branch (bitSet t!"object" 2) ([
    comma,
    .perform t!"stream.WriteObjectField" [.str t!"href"],
    .perform t!"stream.WriteString" [dot t!"object" t!"href"]] ++
    if e.members.isEmpty then [] else [.increment t!"count"]) []]

/-- The code that writes an attribute. The counter isn't increased at the end if it is the last one. -/
def Member.write (m : Member) (last : Bool) : List Stmt := [
  .assign (.var t!"present_")
    (if m.scalar then bitSet t!"object" m.bit
      else .and (bitSet t!"object" m.bit) (.ne (dot t!"object" m.field) .nil)),
  .branch (.var t!"present_") (
    comma ::
    .perform t!"stream.WriteObjectField" [.str m.tag] ::
    (m.form.write (dot t!"object" m.field) ++ if last then [] else [.increment t!"count"])) []]

/-- The code that writes some attributes. -/
def writeMembers : List Member → List Stmt
  | [] => []
  | m :: ms => m.write ms.isEmpty ++ writeMembers ms

/-- The function that writes an object to a stream. -/
def Entity.writeFunc (e : Entity) : Declaration :=
  .func {
    name := e.functions.write
    params := [(t!"object", t!"*" ++ e.object), (t!"stream", t!"*jsoniter.Stream")], results := []
    body :=
      .define t!"count" (.int 0) :: .perform t!"stream.WriteObjectStart" [] ::
      ((if e.isClass then e.writeIdentity else []) ++
      (if e.members.isEmpty then [] else .var t!"present_" t!"bool" :: writeMembers e.members) ++
      [.perform t!"stream.WriteObjectEnd" []]) }

/-- `object.bitmap_ |= mask` -/
def setBit (bit : Nat) : Stmt := .orAssign (dot t!"object" t!"bitmap_") (.int (2 ^ bit : Nat))

/-- The cases for the kind, the identifier and the link of an object. -/
def Entity.readIdentity (e : Entity) : List Stmt := [
  .case t!"kind" [
    .define t!"value" readString,
    .branch (.eq (.var t!"value") (.var (e.object ++ t!"LinkKind"))) [setBit 0] []],
  .case t!"id" [.assign (dot t!"object" t!"id") readString, setBit 1],
  .case t!"href" [.assign (dot t!"object" t!"href") readString, setBit 2]]

/-- The case for an attribute. -/
def Member.read (m : Member) : Stmt :=
  .case m.tag (m.form.read t!"value" ++ [.assign (dot t!"object" m.field) (.var t!"value"), setBit m.bit])

/-- The function that reads an object from an iterator. -/
def Entity.readFunc (e : Entity) : Declaration :=
  .func {
    name := e.functions.read, params := [(t!"iterator", t!"*jsoniter.Iterator")], results := [([], t!"*" ++ e.object)]
    body := [
      .define t!"object" (.address e.object),
      .forever (nextField t!"field" ++ [
        .switch (.var t!"field") ((if e.isClass then e.readIdentity else []) ++ e.members.map Member.read ++
          [.default [.perform t!"iterator.ReadAny" []]])]),
      .ret [.var t!"object"]] }

/-- The file of the JSON support of a struct or class. -/
def Entity.items (e : Entity) : List Item := [
  { comment := [t!"// " ++ e.functions.marshal ++ t!" writes a value of the '" ++ e.name ++
      t!"' type to the given writer."]
    decl := marshalFunc e.functions t!"object" (t!"*" ++ e.object) },
  { comment := [t!"// " ++ e.functions.write ++ t!" writes a value of the '" ++ e.name ++
      t!"' type to the given stream."]
    decl := e.writeFunc },
  { comment := [
      t!"// " ++ e.functions.unmarshal ++ t!" reads a value of the '" ++ e.name ++ t!"' type from the given",
      t!"// source, which can be an slice of bytes, a string or a reader."]
    decl := unmarshalFunc e.functions t!"object" (t!"*" ++ e.object) },
  { comment := [t!"// " ++ e.functions.read ++ t!" reads a value of the '" ++ e.name ++
      t!"' type from the given iterator."]
    decl := e.readFunc }]

/-! ## Lists -/

/-- A list: the name in the model of the type of the elements, the Go type, the names of its functions and how the
elements are written and read. -/
structure Listing where
  element : Text
  typ : Text
  functions : Functions
  form : Form

/-- The function that writes a list to a stream. -/
def Listing.writeFunc (l : Listing) : Declaration :=
  .func {
    name := l.functions.write, params := [(t!"list", l.typ), (t!"stream", t!"*jsoniter.Stream")], results := []
    body := [
      .perform t!"stream.WriteArrayStart" [],
      .range t!"i" t!"value" (.var t!"list")
        (.branch (.gt (.var t!"i") (.int 0)) [.perform t!"stream.WriteMore" []] [] :: l.form.write (.var t!"value")),
      .perform t!"stream.WriteArrayEnd" []] }

/-- The function that reads a list from an iterator. -/
def Listing.readFunc (l : Listing) : Declaration :=
  .func {
    name := l.functions.read, params := [(t!"iterator", t!"*jsoniter.Iterator")], results := [([], l.typ)]
    body := [
      .define t!"list" (.emptySlice l.typ),
      .while (.call t!"iterator.ReadArray" [])
        (l.form.read t!"item" ++ [.assign (.var t!"list") (.append (.var t!"list") (.var t!"item"))]),
      .ret [.var t!"list"]] }

/-- The file of the JSON support of a list. -/
def Listing.items (l : Listing) : List Item := [
  { comment := [
      t!"// " ++ l.functions.marshal ++ t!" writes a list of values of the '" ++ l.element ++ t!"' type to",
      t!"// the given writer."]
    decl := marshalFunc l.functions t!"list" l.typ },
  { comment := [
      t!"// " ++ l.functions.write ++ t!" writes a list of value of the '" ++ l.element ++ t!"' type to",
      t!"// the given stream."]
    decl := l.writeFunc },
  { comment := [
      t!"// " ++ l.functions.unmarshal ++ t!" reads a list of values of the '" ++ l.element ++ t!"' type",
      t!"// from the given source, which can be a slice of bytes, a string or a reader."]
    decl := unmarshalFunc l.functions t!"items" l.typ },
  { comment := [
      t!"// " ++ l.functions.read ++ t!" reads list of values of the ''" ++ l.element ++ t!"' type from",
      t!"// the given iterator."]
    decl := l.readFunc }]

/-! ## What they are for a type of the model -/

/-- A name, as it is written in the names of functions. -/
def camel (n : Name) : Text := n.flatMap Word.capitalize

/-- The names of the functions of a type. Only the name given in the annotations is used by those that create
streams and iterators. -/
def functionsOf (t : GoRef.Typ) : Functions :=
  { marshal := t!"Marshal" ++ t.decl, write := t!"Write" ++ camel (TypesCode.nameOf t),
    unmarshal := t!"Unmarshal" ++ t.decl, read := t!"Read" ++ camel (TypesCode.nameOf t) }

/-- The selector of the version of a link. -/
def selectorOf : Option GoRef.Owner → Text
  | none => []
  | some o => GoRef.versionSelector o ++ t!"."

/-- How values of a type are written and read. The functions of the lists that aren't links are those of the package
of the file, even if the attribute refers to another version. -/
def formOf (x : Context) (link : Bool) (o : Option GoRef.Owner) : GoRef.Typ → Form
  | .basic .boolean => .boolean
  | .basic .integer => .integer
  | .basic .long => .long
  | .basic .float => .float
  | .basic .string => .string
  | .basic .date => .date
  | .basic .interface => .interface
  | .enum d => .enum (GoRef.goTypeName d)
  | .struct d =>
    .object (selectorOf o ++ t!"Write" ++ camel d.name) (selectorOf o ++ t!"Read" ++ camel d.name)
  | .list d element =>
    if link then
      .linkList (selectorOf o ++ GoRef.emit x.pkg (GoRef.structReference x.base (.list d element)))
        (selectorOf o ++ t!"Write" ++ camel d.name) (selectorOf o ++ t!"Read" ++ camel d.name)
    else .list (t!"Write" ++ camel d.name) (t!"Read" ++ camel d.name)
  | .map d element =>
    .map (GoRef.emit x.pkg (GoRef.valueReference x.base (.map d element)))
      (GoRef.emit x.pkg (GoRef.valueReference x.base element)) (formOf x false o element)

/-- The attribute in the given position. -/
def memberOf (x : Context) (c : TypeCell) (i : Nat) (a : Attribute) : Member :=
  { field := Go.privateName a.name, tag := Binding.attributeName a, bit := (if c.kind = .class then 3 else 0) + i,
    scalar := (x.typeOf a.typ).isScalar,
    form := formOf x a.link (a.linkOwner.map x.ownerOf) (x.typeOf a.typ) }

/-- A struct or class. The name of the Go type is the one of the model or the annotations, unless it contains the
name of the package. -/
def entityOf (x : Context) (c : TypeCell) : Entity :=
  { name := c.name.toText, object := GoRef.emit x.pkg (GoRef.structReference x.base (x.typ c)),
    isClass := c.kind = .class,
    functions := functionsOf (x.typ c), members := c.attributes.mapIdx (memberOf x c) }

/-- A list. -/
def listingOf (x : Context) (d : GoRef.Decl) (element : GoRef.Typ) : Listing :=
  { element := (TypesCode.nameOf element).toText, typ := GoRef.emit x.pkg (GoRef.valueReference x.base (.list d element)),
    functions := functionsOf (.list d element), form := formOf x false none element }

/-! ## References and imports -/

/-- A reference to a type that the code that reads a value has: the type of the list, for the links to lists, and
the types of the maps. -/
inductive ValueUses (x : Context) : Bool → GoRef.Typ → GoRef.Ref → Prop where
  | link (d : GoRef.Decl) (e : GoRef.Typ) :
    ValueUses x true (.list d e) (GoRef.structReference x.base (.list d e))
  | map (link : Bool) (d : GoRef.Decl) (e : GoRef.Typ) :
    ValueUses x link (.map d e) (GoRef.valueReference x.base (.map d e))
  | element (link : Bool) (d : GoRef.Decl) (e : GoRef.Typ) (ref : GoRef.Ref) (h : ValueUses x false e ref) :
    ValueUses x link (.map d e) ref

/-- A reference that the file of a struct or class has. -/
def Uses (x : Context) (c : TypeCell) (ref : GoRef.Ref) : Prop :=
  ref = GoRef.structReference x.base (x.typ c) ∨ ∃ a ∈ c.attributes, ValueUses x a.link (x.typeOf a.typ) ref

/-- A reference that the file of a list has. -/
def ListUses (x : Context) (d : GoRef.Decl) (e : GoRef.Typ) (ref : GoRef.Ref) : Prop :=
  ref = GoRef.structReference x.base (.list d e) ∨ ref = GoRef.valueReference x.base (.list d e) ∨
    ValueUses x false e ref

/-- An import that the file of a struct or class needs: those of the versions of the links, those of all the files,
the one used to sort the keys of maps, if there are attributes, and those of the references. -/
def Needs (x : Context) (c : TypeCell) (links : List (Text × Text)) (path selector : Text) : Prop :=
  (path, selector) ∈ links ∨
  (path, selector) ∈ [(t!"fmt", []), (t!"io", []), (t!"time", []), (t!"github.com/json-iterator/go", t!"jsoniter"),
    (Go.helpersImport x.base, [])] ∨
  (c.attributes ≠ [] ∧ path = t!"sort" ∧ selector = []) ∨
  ∃ ref, Uses x c ref ∧ ref.imprt = path ∧ ref.selector = selector

/-- An import that the file of a list needs. -/
def ListNeeds (x : Context) (d : GoRef.Decl) (e : GoRef.Typ) (links : List (Text × Text)) (path selector : Text) :
    Prop :=
  (path, selector) ∈ links ∨
  (path, selector) ∈ [(t!"fmt", []), (Go.helpersImport x.base, []), (t!"github.com/json-iterator/go", t!"jsoniter"),
    (t!"sort", []), (t!"time", [])] ∨
  ∃ ref, ListUses x d e ref ∧ ref.imprt = path ∧ ref.selector = selector

end Verif.JsonCode
