import Verif.Spec.GoProgram
import Verif.Model.TypesCode

/-!
# What the files of the generated types contain

The declarations that the files of the generated types should contain, with their comments.
-/

namespace Verif.TypesCode

open GoProgram

/-- A declaration with its comment. -/
structure Item where
  comment : List Text
  decl : Declaration

/-- The lines of some declarations. -/
def itemsLines (items : List Item) : List Text := items.flatMap fun i => i.comment ++ i.decl.lines

/-- An attribute: its name in the model and its documentation, the name and type of the field, the name
and type of the getter, the bit that says if it has a value, the expression that is the zero value of its
type, and whether it is boolean. -/
structure Member where
  name : Text
  doc : Text
  field : Text
  fieldType : Text
  getter : Text
  getterType : Text
  bit : Nat
  zero : Expr
  boolean : Bool

/-- A struct or class: its name in the model and its documentation, the name of the Go type, the type of
the bitmap, and its attributes. -/
structure Entity where
  name : Text
  doc : Text
  isClass : Bool
  object : Text
  bitmap : Text
  members : List Member

/-- The name of the type of the lists. -/
def Entity.list (e : Entity) : Text := e.object ++ t!"List"

/-- A text as a sequence of line comments. -/
def commentOf (doc : Text) : Text :=
  joinText t!"\n" ((splitOn '\n' doc).map fun line => t!"// " ++ line)

/-- `x.f` -/
def dot (x f : Text) : Expr := .field (.var x) f

/-- `x == nil` -/
def isNil (x : Text) : Expr := .eq (.var x) .nil

/-- `x != nil` -/
def notNil (x : Text) : Expr := .ne (.var x) .nil

/-- `x.bitmap_&mask != 0` -/
def bitSet (x : Text) (bit : Nat) : Expr := .ne (.bitAnd (dot x t!"bitmap_") (.int (2 ^ bit : Nat))) (.int 0)

/-- `x != nil && x.bitmap_&mask != 0` -/
def present (x : Text) (bit : Nat) : Expr := .and (notNil x) (bitSet x bit)

/-- A method that returns a field if the condition holds, or else something else. -/
def getter (x typ name result : Text) (condition : Expr) (field : Text) (zero : Expr) : Declaration :=
  .func {
    receiver := x, typ := typ, name := name, results := [([], result)]
    body := [.branch condition [.ret [dot x field]] [], .ret [zero]] }

/-- A method that returns a field and true if the condition holds. -/
def getterOk (x typ name result : Text) (condition : Expr) (field : Text) : Declaration :=
  .func {
    receiver := x, typ := typ, name := name, results := [(t!"value", result), (t!"ok", t!"bool")]
    body := [
      .assign (.var t!"ok") condition,
      .branch (.var t!"ok") [.assign (.var t!"value") (dot x field)] [],
      .ret []] }

/-- A method without parameters that returns one value. -/
def simple (x typ name result : Text) (body : List Stmt) : Declaration :=
  .func { receiver := x, typ := typ, name := name, results := [([], result)], body := body }

/-! ## Metadata -/

/-- The metadata of versions. -/
def metadataItems : List Item := [
  { comment := [t!"// Metadata contains the version metadata."]
    decl := .struct 1 t!"Metadata" [(t!"bitmap_", 7, t!"uint32"), (t!"serverVersion", 1, t!"string")] },
  { comment := [t!"// ServerVersion returns the version of the server."]
    decl := getter t!"m" t!"Metadata" t!"ServerVersion" t!"string" (present t!"m" 0) t!"serverVersion"
      (.str []) },
  { comment := [
      t!"// GetServerVersion returns the value of the server version and a flag indicating if",
      t!"// the attribute has a value."]
    decl := getterOk t!"m" t!"Metadata" t!"GetServerVersion" t!"string" (present t!"m" 0)
      t!"serverVersion" }]

/-! ## Enumerated types -/

/-- An enumerated type: its name in the model, the name of the Go type, and the documentation, names and
texts of the values. -/
structure Enumeration where
  name : Text
  typ : Text
  values : List (Text × Text × Text)

/-- An enumerated type. -/
def Enumeration.items (e : Enumeration) : List Item := [
  { comment := [t!"// " ++ e.typ ++ t!" represents the values of the '" ++ e.name ++
      t!"' enumerated type."]
    decl := .scalar e.typ t!"string" },
  { comment := []
    decl := .consts e.typ (e.values.map fun v => (commentOf v.1, v.2)) }]

/-! ## Structs and classes -/

/-- The names of the kinds of objects. -/
def Entity.kinds (e : Entity) : List Item := [
  { comment := [
      t!"// " ++ e.object ++ t!"Kind is the name of the type used to represent objects",
      t!"// of type '" ++ e.name ++ t!"'."]
    decl := .const (e.object ++ t!"Kind") e.object },
  { comment := [
      t!"// " ++ e.object ++ t!"LinkKind is the name of the type used to represent links",
      t!"// to objects of type '" ++ e.name ++ t!"'."]
    decl := .const (e.object ++ t!"LinkKind") (e.object ++ t!"Link") },
  { comment := [
      t!"// " ++ e.object ++ t!"NilKind is the name of the type used to nil references",
      t!"// to objects of type '" ++ e.name ++ t!"'."]
    decl := .const (e.object ++ t!"NilKind") (e.object ++ t!"Nil") }]

/-- The fields of the structure: first those of the attributes that aren't boolean. -/
def Entity.fields (e : Entity) : List (Text × Nat × Text) :=
  (t!"bitmap_", 1, e.bitmap) ::
    ((if e.isClass then [(t!"id", 3, t!"string"), (t!"href", 1, t!"string")] else []) ++
      ((e.members.filter (!·.boolean)).map fun m => (m.field, 1, m.fieldType)) ++
      ((e.members.filter (·.boolean)).map fun m => (m.field, 1, m.fieldType)))

/-- The structure. -/
def Entity.struct (e : Entity) : Item :=
  { comment := [
      t!"// " ++ e.object ++ t!" represents the values of the '" ++ e.name ++ t!"' type.",
      t!"//",
      commentOf e.doc]
    decl := .struct 2 e.object e.fields }

/-- The methods of all the objects of classes. -/
def Entity.identity (e : Entity) : List Item := [
  { comment := [t!"// Kind returns the name of the type of the object."]
    decl := simple t!"o" e.object t!"Kind" t!"string" [
      .branch (isNil t!"o") [.ret [.var (e.object ++ t!"NilKind")]] [],
      .branch (bitSet t!"o" 0) [.ret [.var (e.object ++ t!"LinkKind")]] [],
      .ret [.var (e.object ++ t!"Kind")]] },
  { comment := [t!"// Link returns true if this is a link."]
    decl := simple t!"o" e.object t!"Link" t!"bool" [.ret [present t!"o" 0]] },
  { comment := [t!"// ID returns the identifier of the object."]
    decl := getter t!"o" e.object t!"ID" t!"string" (present t!"o" 1) t!"id" (.str []) },
  { comment := [
      t!"// GetID returns the identifier of the object and a flag indicating if the",
      t!"// identifier has a value."]
    decl := getterOk t!"o" e.object t!"GetID" t!"string" (present t!"o" 1) t!"id" },
  { comment := [t!"// HREF returns the link to the object."]
    decl := getter t!"o" e.object t!"HREF" t!"string" (present t!"o" 2) t!"href" (.str []) },
  { comment := [
      t!"// GetHREF returns the link of the object and a flag indicating if the",
      t!"// link has a value."]
    decl := getterOk t!"o" e.object t!"GetHREF" t!"string" (present t!"o" 2) t!"href" }]

/-- The method that tells if an object is empty: for classes the bit of the links isn't taken into
account. -/
def Entity.empty (e : Entity) : Item :=
  { comment := [t!"// Empty returns true if the object is empty, i.e. no attribute has a value."]
    decl := simple t!"o" e.object t!"Empty" t!"bool" [
      .ret [.or (isNil t!"o")
        (if e.isClass then .eq (.bitClear (dot t!"o" t!"bitmap_") (.int 1)) (.int 0)
          else .eq (dot t!"o" t!"bitmap_") (.int 0))]] }

/-- The getters of an attribute. -/
def Entity.getters (e : Entity) (m : Member) : List Item := [
  { comment := [
      t!"// " ++ m.getter ++ t!" returns the value of the '" ++ m.name ++ t!"' attribute, or",
      t!"// the zero value of the type if the attribute doesn't have a value.",
      t!"//",
      commentOf m.doc]
    decl := getter t!"o" e.object m.getter m.getterType (present t!"o" m.bit) m.field m.zero },
  { comment := [
      t!"// Get" ++ m.getter ++ t!" returns the value of the '" ++ m.name ++ t!"' attribute and",
      t!"// a flag indicating if the attribute has a value.",
      t!"//",
      commentOf m.doc]
    decl := getterOk t!"o" e.object (t!"Get" ++ m.getter) m.getterType (present t!"o" m.bit) m.field }]

/-- The names of the kinds of lists, and the structure. -/
def Entity.listKinds (e : Entity) : List Item := [
  { comment := [
      t!"// " ++ e.list ++ t!"Kind is the name of the type used to represent list of objects of",
      t!"// type '" ++ e.name ++ t!"'."]
    decl := .const (e.list ++ t!"Kind") e.list },
  { comment := [
      t!"// " ++ e.list ++ t!"LinkKind is the name of the type used to represent links to list",
      t!"// of objects of type '" ++ e.name ++ t!"'."]
    decl := .const (e.list ++ t!"LinkKind") (e.list ++ t!"Link") },
  { comment := [
      t!"// " ++ e.object ++ t!"NilKind is the name of the type used to nil lists of objects of",
      t!"// type '" ++ e.name ++ t!"'."]
    decl := .const (e.list ++ t!"NilKind") (e.list ++ t!"Nil") },
  { comment := [t!"// " ++ e.list ++ t!" is a list of values of the '" ++ e.name ++ t!"' type."]
    decl := .struct 1 e.list [(t!"href", 2, t!"string"), (t!"link", 2, t!"bool"),
      (t!"items", 1, t!"[]*" ++ e.object)] }]

/-- The methods of the lists of objects of classes. -/
def Entity.listIdentity (e : Entity) : List Item := [
  { comment := [t!"// Kind returns the name of the type of the object."]
    decl := simple t!"l" e.list t!"Kind" t!"string" [
      .branch (isNil t!"l") [.ret [.var (e.list ++ t!"NilKind")]] [],
      .branch (dot t!"l" t!"link") [.ret [.var (e.list ++ t!"LinkKind")]] [],
      .ret [.var (e.list ++ t!"Kind")]] },
  { comment := [t!"// Link returns true iif this is a link."]
    decl := simple t!"l" e.list t!"Link" t!"bool" [.ret [.and (notNil t!"l") (dot t!"l" t!"link")]] },
  { comment := [t!"// HREF returns the link to the list."]
    decl := getter t!"l" e.list t!"HREF" t!"string" (notNil t!"l") t!"href" (.str []) },
  { comment := [
      t!"// GetHREF returns the link of the list and a flag indicating if the",
      t!"// link has a value."]
    decl := getterOk t!"l" e.list t!"GetHREF" t!"string"
      (.and (notNil t!"l") (.ne (dot t!"l" t!"href") (.str []))) t!"href" }]

/-- A method that changes a field. -/
def setter (typ name field result : Text) : Declaration :=
  .func {
    receiver := t!"l", typ := typ, name := name, params := [(field, result)], results := []
    body := [.assign (dot t!"l" field) (.var field)] }

/-- The methods of the lists. -/
def Entity.listMethods (e : Entity) : List Item := [
  { comment := [t!"// Len returns the length of the list."]
    decl := simple t!"l" e.list t!"Len" t!"int" [
      .branch (isNil t!"l") [.ret [.int 0]] [],
      .ret [.len (dot t!"l" t!"items")]] },
  { comment := [t!"// Items sets the items of the list."]
    decl := setter e.list t!"SetLink" t!"link" t!"bool" },
  { comment := [t!"// Items sets the items of the list."]
    decl := setter e.list t!"SetHREF" t!"href" t!"string" },
  { comment := [t!"// Items sets the items of the list."]
    decl := setter e.list t!"SetItems" t!"items" (t!"[]*" ++ e.object) },
  { comment := [t!"// Items returns the items of the list."]
    decl := simple t!"l" e.list t!"Items" (t!"[]*" ++ e.object) [
      .branch (isNil t!"l") [.ret [.nil]] [],
      .ret [dot t!"l" t!"items"]] },
  { comment := [t!"// Empty returns true if the list is empty."]
    decl := simple t!"l" e.list t!"Empty" t!"bool" [
      .ret [.or (isNil t!"l") (.eq (.len (dot t!"l" t!"items")) (.int 0))]] },
  { comment := [
      t!"// Get returns the item of the list with the given index. If there is no item with",
      t!"// that index it returns nil."]
    decl := .func {
      receiver := t!"l", typ := e.list, name := t!"Get", params := [(t!"i", t!"int")]
      results := [([], t!"*" ++ e.object)]
      body := [
        .branch (.or (.or (isNil t!"l") (.lt (.var t!"i") (.int 0)))
            (.ge (.var t!"i") (.len (dot t!"l" t!"items"))))
          [.ret [.nil]] [],
        .ret [.index (dot t!"l" t!"items") (.var t!"i")]] } },
  { comment := [
      t!"// Slice returns an slice containing the items of the list. The returned slice is a",
      t!"// copy of the one used internally, so it can be modified without affecting the",
      t!"// internal representation.",
      t!"//",
      t!"// If you don't need to modify the returned slice consider using the Each or Range",
      t!"// functions, as they don't need to allocate a new slice."]
    decl := simple t!"l" e.list t!"Slice" (t!"[]*" ++ e.object) [
      .var t!"slice" (t!"[]*" ++ e.object),
      .branch (isNil t!"l")
        [.assign (.var t!"slice") (.make (t!"[]*" ++ e.object) (.int 0))]
        [.assign (.var t!"slice") (.make (t!"[]*" ++ e.object) (.len (dot t!"l" t!"items"))),
          .copy (.var t!"slice") (dot t!"l" t!"items")],
      .ret [.var t!"slice"]] },
  { comment := [
      t!"// Each runs the given function for each item of the list, in order. If the function",
      t!"// returns false the iteration stops, otherwise it continues till all the elements",
      t!"// of the list have been processed."]
    decl := .func {
      receiver := t!"l", typ := e.list, name := t!"Each"
      params := [(t!"f", t!"func(item *" ++ e.object ++ t!") bool")], results := []
      body := [
        .branch (isNil t!"l") [.ret []] [],
        .range t!"_" t!"item" (dot t!"l" t!"items") [
          .branch (.not (.call t!"f" [.var t!"item"])) [.stop] []]] } },
  { comment := [
      t!"// Range runs the given function for each index and item of the list, in order. If",
      t!"// the function returns false the iteration stops, otherwise it continues till all",
      t!"// the elements of the list have been processed."]
    decl := .func {
      receiver := t!"l", typ := e.list, name := t!"Range"
      params := [(t!"f", t!"func(index int, item *" ++ e.object ++ t!") bool")], results := []
      body := [
        .branch (isNil t!"l") [.ret []] [],
        .range t!"index" t!"item" (dot t!"l" t!"items") [
          .branch (.not (.call t!"f" [.var t!"index", .var t!"item"])) [.stop] []]] } }]

/-- A struct or class. -/
def Entity.items (e : Entity) : List Item :=
  (if e.isClass then e.kinds else []) ++ [e.struct] ++ (if e.isClass then e.identity else []) ++
    [e.empty] ++ e.members.flatMap e.getters ++ e.listKinds ++
    (if e.isClass then e.listIdentity else []) ++ e.listMethods

/-! ## The types of the model -/

/-- The expression that is the zero value of a type. -/
def zeroOf : GoRef.Typ → Expr
  | .basic .boolean => .false
  | .basic .integer => .int 0
  | .basic .long => .int 0
  | .basic .float => .float
  | .basic .string => .str []
  | .basic .date => .composite t!"time.Time"
  | .basic .interface => .nil
  | .enum d => .convert (Go.nameOf d.annotations d.name) (.str [])
  | .struct _ => .nil
  | .list _ _ => .nil
  | .map _ _ => .nil

/-- The attribute of a type in a position. The first three bits of classes aren't for attributes. The Go
types of fields and getters are those of the properties C78 and C88. -/
def memberOf (x : Context) (c : TypeCell) (i : Nat) (a : Attribute) : Member :=
  { name := a.name.toText
    doc := a.doc
    field := Go.privateName a.name
    fieldType := GoRef.emit x.pkg (GoRef.fieldType x.base (x.attr a))
    getter := Go.nameOf a.annotations a.name
    getterType := GoRef.emit x.pkg (GoRef.getterType x.base (x.attr a))
    bit := (if c.kind = .class then 3 else 0) + i
    zero := zeroOf (x.typeOf a.typ)
    boolean := match x.typeOf a.typ with
      | .basic .boolean => true
      | _ => false }

/-- A struct or class. -/
def entityOf (x : Context) (c : TypeCell) : Entity :=
  { name := c.name.toText
    doc := c.doc
    isClass := c.kind == .class
    object := Go.nameOf c.annotations c.name
    bitmap := if (if c.kind = .class then 3 else 0) + c.attributes.length ≤ 32 then t!"uint32" else t!"uint64"
    members := c.attributes.mapIdx (memberOf x c) }

/-- An enumerated type. -/
def enumerationOf (c : TypeCell) : Enumeration :=
  { name := c.name.toText
    typ := Go.nameOf c.annotations c.name
    values := c.values.map fun v =>
      (v.doc, Go.nameOf c.annotations c.name ++ Go.nameOf v.annotations v.name, Binding.enumValueName v) }

/-- A reference that a type has in its fields or getters. -/
def Uses (x : Context) (c : TypeCell) (ref : GoRef.Ref) : Prop :=
  ∃ a ∈ c.attributes, ref = GoRef.fieldType x.base (x.attr a) ∨ ref = GoRef.getterType x.base (x.attr a)

end Verif.TypesCode
