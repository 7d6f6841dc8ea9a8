import Verif.Spec.TypesCode
import Verif.Model.BuildersCode

/-!
# What the files of the generated builders contain

The declarations that the files of the generated builders should contain, with their comments.
-/

namespace Verif.BuildersCode

open GoProgram
open TypesCode (Item commentOf dot isNil simple)

/-- The names of a builder of another type, its constructor and what it builds, as they are written in the
file. -/
structure Target where
  builder : Text
  ctor : Text
  object : Text

/-- How an attribute is set, copied and built: scalars; objects; lists that are links; lists of scalars, with
the type of the elements; lists of objects; lists of something else, with the name of the builder of the
elements; maps of scalars; maps of objects; and maps of something else. -/
inductive Form where
  | scalar
  | object (t : Target)
  | linkList (t : Target)
  | scalars (element : Text)
  | objects (t : Target)
  | others (builder : Text)
  | scalarMap
  | objectMap (t : Target)
  | otherMap

/-- An attribute: its name in the model, the documentation of its type, the name and type of the field, the
name of the setter and the type of its parameter, the bit that says if it has a value, whether it is
boolean, and how it is set, copied and built. -/
structure Member where
  name : Text
  typeDoc : Text
  field : Text
  fieldType : Text
  setter : Text
  setterType : Text
  bit : Nat
  boolean : Bool
  form : Form

/-- The builder of a struct or class: the name in the model and the documentation of the type, the name of
the Go type, the type of the bitmap, and the attributes. -/
structure Builder where
  name : Text
  doc : Text
  isClass : Bool
  object : Text
  bitmap : Text
  members : List Member

/-- The name of the Go type of the builder. -/
def Builder.builder (e : Builder) : Text := e.object ++ t!"Builder"

/-- The name of the constructor of the builder. -/
def Builder.ctor (e : Builder) : Text := t!"New" ++ e.object

/-- `b.bitmap_ |= mask` -/
def setBit (bit : Nat) : Stmt := .orAssign (dot t!"b" t!"bitmap_") (.int (2 ^ bit : Nat))

/-- `b.bitmap_ &^= mask` -/
def clearBit (bit : Nat) : Stmt := .clearAssign (dot t!"b" t!"bitmap_") (.int (2 ^ bit : Nat))

/-- A method of a builder that returns the builder. -/
def fluent (typ name : Text) (params : List (Text × Text)) (body : List Stmt) : Declaration :=
  .func {
    receiver := t!"b", typ := typ, name := name, params := params, results := [([], t!"*" ++ typ)]
    body := body ++ [.ret [.var t!"b"]] }

/-! ## Builders of objects -/

/-- The fields of the structure: first those of the attributes that aren't boolean. -/
def Builder.fields (e : Builder) : List (Text × Nat × Text) :=
  (t!"bitmap_", 1, e.bitmap) ::
    ((if e.isClass then [(t!"id", 3, t!"string"), (t!"href", 1, t!"string")] else []) ++
      ((e.members.filter (!·.boolean)).map fun m => (m.field, 1, m.fieldType)) ++
      ((e.members.filter (·.boolean)).map fun m => (m.field, 1, m.fieldType)))

/-- The structure. -/
def Builder.struct (e : Builder) : Item :=
  { comment := [
      t!"// " ++ e.builder ++ t!" contains the data and logic needed to build '" ++ e.name ++ t!"' objects.",
      t!"//",
      commentOf e.doc]
    decl := .struct 2 e.builder e.fields }

/-- The constructor. -/
def Builder.new (e : Builder) : Item :=
  { comment := [t!"// " ++ e.ctor ++ t!" creates a new builder of '" ++ e.name ++ t!"' objects."]
    decl := .func {
      name := e.ctor, results := [([], t!"*" ++ e.builder)]
      body := [.ret [.address e.builder]] } }

/-- The setters of all the builders of objects of classes. -/
def Builder.identity (e : Builder) : List Item := [
  { comment := [t!"// Link sets the flag that indicates if this is a link."]
    decl := fluent e.builder t!"Link" [(t!"value", t!"bool")] [setBit 0] },
  { comment := [t!"// ID sets the identifier of the object."]
    decl := fluent e.builder t!"ID" [(t!"value", t!"string")]
      [.assign (dot t!"b" t!"id") (.var t!"value"), setBit 1] },
  { comment := [t!"// HREF sets the link to the object."]
    decl := fluent e.builder t!"HREF" [(t!"value", t!"string")]
      [.assign (dot t!"b" t!"href") (.var t!"value"), setBit 2] }]

/-- The method that tells if a builder is empty: for classes the bit of the links isn't taken into
account. -/
def Builder.empty (e : Builder) : Item :=
  { comment := [t!"// Empty returns true if the builder is empty, i.e. no attribute has a value."]
    decl := simple t!"b" e.builder t!"Empty" t!"bool" [
      .ret [.or (isNil t!"b")
        (if e.isClass then .eq (.bitClear (dot t!"b" t!"bitmap_") (.int 1)) (.int 0)
          else .eq (dot t!"b" t!"bitmap_") (.int 0))]] }

/-- The setter of an attribute that copies a slice. -/
def copySetter (e : Builder) (m : Member) (element : Text) : Declaration :=
  fluent e.builder m.setter [(t!"values", t!"..." ++ element)] [
    .assign (dot t!"b" m.field) (.make (t!"[]" ++ element) (.len (.var t!"values"))),
    .copy (dot t!"b" m.field) (.var t!"values"),
    setBit m.bit]

/-- The setter of an attribute that can be nil. -/
def nullableSetter (e : Builder) (m : Member) : Declaration :=
  fluent e.builder m.setter [(t!"value", m.setterType)] [
    .assign (dot t!"b" m.field) (.var t!"value"),
    .branch (.ne (.var t!"value") .nil) [setBit m.bit] [clearBit m.bit]]

/-- The setter of an attribute that is always present after calling it. -/
def plainSetter (e : Builder) (m : Member) : Declaration :=
  fluent e.builder m.setter [(t!"value", m.setterType)]
    [.assign (dot t!"b" m.field) (.var t!"value"), setBit m.bit]

/-- The setter of an attribute. -/
def Builder.setterDecl (e : Builder) (m : Member) : Declaration :=
  match m.form with
  | .scalar => plainSetter e m
  | .linkList _ => plainSetter e m
  | .object _ => nullableSetter e m
  | .scalarMap => nullableSetter e m
  | .objectMap _ => nullableSetter e m
  | .otherMap => nullableSetter e m
  | .scalars element => copySetter e m element
  | .objects t => copySetter e m (t!"*" ++ t.builder)
  | .others builder => copySetter e m (t!"*" ++ builder)

/-- Whether the attribute is a list. -/
def Form.isList : Form → Bool
  | .linkList _ => true
  | .scalars _ => true
  | .objects _ => true
  | .others _ => true
  | _ => false

/-- The setter of an attribute, with its comment. -/
def Builder.setter (e : Builder) (m : Member) : Item :=
  { comment := [
      t!"// " ++ m.setter ++ t!" sets the value of the '" ++ m.name ++ t!"' attribute to the given " ++
        (if m.form.isList then t!"values." else t!"value."),
      t!"//",
      commentOf m.typeDoc]
    decl := e.setterDecl m }

/-- `ctor().Copy(e)` -/
def copyOf (t : Target) (e : Expr) : Expr := .method t.builder (.construct t.ctor) t!"Copy" [e]

/-- Copies a field of the object: something if the condition holds, and otherwise nil. -/
def copyIf (field : Text) (condition : Expr) (body : List Stmt) : List Stmt :=
  [.branch condition body [.assign (dot t!"b" field) .nil]]

/-- `object.f != nil` -/
def fieldNotNil (x field : Text) : Expr := .ne (dot x field) .nil

/-- How an attribute is copied. -/
def Member.copy (m : Member) : List Stmt :=
  let target := dot t!"b" m.field
  let source := dot t!"object" m.field
  match m.form with
  | .scalar => [.assign target source]
  | .object t => copyIf m.field (fieldNotNil t!"object" m.field) [.assign target (copyOf t source)]
  | .linkList t => copyIf m.field (fieldNotNil t!"object" m.field) [.assign target (copyOf t source)]
  | .scalars _ => copyIf m.field (fieldNotNil t!"object" m.field) [
      .assign target (.make m.fieldType (.len source)),
      .copy target source]
  | .objects t => copyIf m.field (fieldNotNil t!"object" m.field) [
      .assign target (.make (t!"[]*" ++ t.builder) (.len source)),
      .range t!"i" t!"v" source [.assign (.index target (.var t!"i")) (copyOf t (.var t!"v"))]]
  | .others _ => copyIf m.field (fieldNotNil t!"object" m.field) []
  | .scalarMap => copyIf m.field (.gt (.len source) (.int 0)) [
      .assign target (.emptyMap m.fieldType),
      .rangeMap t!"k" t!"v" source [.assign (.index target (.var t!"k")) (.var t!"v")]]
  | .objectMap t => copyIf m.field (.gt (.len source) (.int 0)) [
      .assign target (.emptyMap (t!"map[string]*" ++ t.builder)),
      .rangeMap t!"k" t!"v" source [.assign (.index target (.var t!"k")) (copyOf t (.var t!"v"))]]
  | .otherMap => copyIf m.field (.gt (.len source) (.int 0)) []

/-- The statements that a method has only for classes. -/
def Builder.ifClass (e : Builder) (body : List Stmt) : List Stmt := if e.isClass then body else []

/-- The method that copies an object. -/
def Builder.copy (e : Builder) : Item :=
  { comment := [t!"// Copy copies the attributes of the given object into this builder, discarding any previous values."]
    decl := fluent e.builder t!"Copy" [(t!"object", t!"*" ++ e.object)]
      (.branch (isNil t!"object") [.ret [.var t!"b"]] [] ::
        .assign (dot t!"b" t!"bitmap_") (dot t!"object" t!"bitmap_") ::
        (e.ifClass [
            .assign (dot t!"b" t!"id") (dot t!"object" t!"id"),
            .assign (dot t!"b" t!"href") (dot t!"object" t!"href")] ++
          e.members.flatMap Member.copy)) }

/-- Builds something and returns if there is an error. -/
def buildInto (target : Expr) (builder : Text) (e : Expr) : List Stmt := [
  .assignBoth target (.var t!"err") builder e t!"Build",
  .branch (.ne (.var t!"err") .nil) [.ret []] []]

/-- How an attribute is built. -/
def Member.build (m : Member) : List Stmt :=
  let target := dot t!"object" m.field
  let source := dot t!"b" m.field
  let present := fun body : List Stmt => [Stmt.branch (fieldNotNil t!"b" m.field) body []]
  match m.form with
  | .scalar => [.assign target source]
  | .object t => present (buildInto target t.builder source)
  | .linkList t => present (buildInto target t.builder source)
  | .scalars _ => present [
      .assign target (.make m.fieldType (.len source)),
      .copy target source]
  | .objects t => present [
      .assign target (.make (t!"[]*" ++ t.object) (.len source)),
      .range t!"i" t!"v" source (buildInto (.index target (.var t!"i")) t.builder (.var t!"v"))]
  | .others _ => present []
  | .scalarMap => present [
      .assign target (.makeMap m.fieldType),
      .rangeMap t!"k" t!"v" source [.assign (.index target (.var t!"k")) (.var t!"v")]]
  | .objectMap t => present [
      .assignWide target (.makeMap (t!"map[string]*" ++ t.object)),
      .rangeMap t!"k" t!"v" source (buildInto (.index target (.var t!"k")) t.builder (.var t!"v"))]
  | .otherMap => present []

/-- The method that builds an object. -/
def Builder.build (e : Builder) : Item :=
  { comment := [t!"// Build creates a '" ++ e.name ++
      t!"' object using the configuration stored in the builder."]
    decl := .func {
      receiver := t!"b", typ := e.builder, name := t!"Build"
      results := [(t!"object", t!"*" ++ e.object), (t!"err", t!"error")]
      body := .assign (.var t!"object") (.new e.object) ::
        (e.ifClass [
            .assign (dot t!"object" t!"id") (dot t!"b" t!"id"),
            .assign (dot t!"object" t!"href") (dot t!"b" t!"href")] ++
          (.assign (dot t!"object" t!"bitmap_") (dot t!"b" t!"bitmap_") ::
            (e.members.flatMap Member.build ++ [.ret []]))) } }

/-- The builder of a struct or class. -/
def Builder.items (e : Builder) : List Item :=
  [e.struct, e.new] ++ (if e.isClass then e.identity else []) ++ [e.empty] ++ e.members.map e.setter ++
    [e.copy, e.build]

/-! ## Builders of lists -/

/-- The builder of the lists of a struct or class: the name in the model of the type of the elements, and
the name of its Go type. -/
structure ListBuilder where
  name : Text
  object : Text

/-- The name of the Go type of the builder. -/
def ListBuilder.builder (e : ListBuilder) : Text := e.object ++ t!"ListBuilder"

/-- The name of the Go type of the list. -/
def ListBuilder.list (e : ListBuilder) : Text := e.object ++ t!"List"

/-- The builder of the elements. -/
def ListBuilder.element (e : ListBuilder) : Target :=
  { builder := e.object ++ t!"Builder", ctor := t!"New" ++ e.object, object := e.object }

/-- The slices of builders of elements. -/
def ListBuilder.slice (e : ListBuilder) : Text := t!"[]*" ++ e.element.builder

/-- The builder of the lists of a struct or class. -/
def ListBuilder.items (e : ListBuilder) : List Item := [
  { comment := [
      t!"// " ++ e.builder ++ t!" contains the data and logic needed to build",
      t!"// '" ++ e.name ++ t!"' objects."]
    decl := .struct 2 e.builder [(t!"items", 1, e.slice)] },
  { comment := [t!"// New" ++ e.list ++ t!" creates a new builder of '" ++ e.name ++ t!"' objects."]
    decl := .func {
      name := t!"New" ++ e.list, results := [([], t!"*" ++ e.builder)]
      body := [.ret [.new e.builder]] } },
  { comment := [t!"// Items sets the items of the list."]
    decl := fluent e.builder t!"Items" [(t!"values", t!"...*" ++ e.element.builder)] [
      .assign (dot t!"b" t!"items") (.make e.slice (.len (.var t!"values"))),
      .copy (dot t!"b" t!"items") (.var t!"values")] },
  { comment := [t!"// Empty returns true if the list is empty."]
    decl := simple t!"b" e.builder t!"Empty" t!"bool" [
      .ret [.or (isNil t!"b") (.eq (.len (dot t!"b" t!"items")) (.int 0))]] },
  { comment := [t!"// Copy copies the items of the given list into this builder, discarding any previous items."]
    decl := fluent e.builder t!"Copy" [(t!"list", t!"*" ++ e.list)] [
      .branch (.or (isNil t!"list") (.eq (dot t!"list" t!"items") .nil))
        [.assign (dot t!"b" t!"items") .nil]
        [ .assign (dot t!"b" t!"items") (.make e.slice (.len (dot t!"list" t!"items"))),
          .range t!"i" t!"v" (dot t!"list" t!"items") [
            .assign (.index (dot t!"b" t!"items") (.var t!"i")) (copyOf e.element (.var t!"v"))]]] },
  { comment := [
      t!"// Build creates a list of '" ++ e.name ++ t!"' objects using the",
      t!"// configuration stored in the builder."]
    decl := .func {
      receiver := t!"b", typ := e.builder, name := t!"Build"
      results := [(t!"list", t!"*" ++ e.list), (t!"err", t!"error")]
      body := [
        .define t!"items" (.make (t!"[]*" ++ e.object) (.len (dot t!"b" t!"items"))),
        .range t!"i" t!"item" (dot t!"b" t!"items")
          (buildInto (.index (.var t!"items") (.var t!"i")) e.element.builder (.var t!"item")),
        .assign (.var t!"list") (.new e.list),
        .assign (dot t!"list" t!"items") (.var t!"items"),
        .ret []] } }]

/-! ## The types of the model -/

/-- The names of the builder of a type with that Go name. -/
def targetOf (selector name : Text) : Target :=
  { builder := selector ++ name ++ t!"Builder", ctor := selector ++ t!"New" ++ name
    object := selector ++ name }

/-- The Go name of a type: that of the annotation, or that of the model. -/
def typeName : GoRef.Typ → Text
  | .basic .boolean => Go.publicName Nom.boolean
  | .basic .integer => Go.publicName Nom.integer
  | .basic .long => Go.publicName Nom.long
  | .basic .float => Go.publicName Nom.float
  | .basic .string => Go.publicName Nom.string
  | .basic .date => Go.publicName Nom.date
  | .basic .interface => Go.publicName Nom.interface
  | .enum d => Go.nameOf d.annotations d.name
  | .struct d => Go.nameOf d.annotations d.name
  | .list d _ => Go.nameOf d.annotations d.name
  | .map d _ => Go.nameOf d.annotations d.name

/-- The form of the elements of lists. -/
def elementForm (selector : Text) (value : GoRef.Typ → Text) : GoRef.Typ → Form
  | .basic b => .scalars (value (.basic b))
  | .enum d => .scalars (value (.enum d))
  | .struct d => .objects (targetOf selector (typeName (.struct d)))
  | .list _ e => .others (selector ++ typeName e ++ t!"ListBuilder")
  | .map _ _ => .others selector

/-- The form of an attribute with that type and that link flag. The selector is that of the version where the
type is, if it isn't the same, and `value` gives the Go types of the elements of lists. -/
def formOf (selector : Text) (value : GoRef.Typ → Text) (link : Bool) : GoRef.Typ → Form
  | .basic _ => .scalar
  | .enum _ => .scalar
  | .struct d => .object (targetOf selector (typeName (.struct d)))
  | .list _ e =>
    if link then .linkList (targetOf selector (typeName e ++ t!"List")) else elementForm selector value e
  | .map _ (.basic _) => .scalarMap
  | .map _ (.enum _) => .scalarMap
  | .map _ (.struct d) => .objectMap (targetOf selector (typeName (.struct d)))
  | .map _ (.list _ _) => .otherMap
  | .map _ (.map _ _) => .otherMap

/-- The selector of the version where the type of an attribute is, if it isn't the same. -/
def selectorOf (x : Context) (a : Attribute) : Text :=
  match a.linkOwner with
  | none => []
  | some v => GoRef.versionSelector (x.ownerOf v) ++ t!"."

/-- The attribute of a type in a position. The first three bits of classes aren't for attributes. The Go
types of fields and setters are those of the property C78. -/
def memberOf (x : Context) (c : TypeCell) (i : Nat) (a : Attribute) : Member :=
  { name := a.name.toText
    typeDoc := x.docOf a.typ
    field := Go.privateName a.name
    fieldType := GoRef.emit x.pkg (GoRef.builderFieldType x.base (x.attr a))
    setter := Go.nameOf a.annotations a.name
    setterType := GoRef.emit x.pkg (GoRef.builderSetterType x.base (x.attr a))
    bit := (if c.kind = .class then 3 else 0) + i
    boolean := match x.typeOf a.typ with
      | .basic .boolean => true
      | _ => false
    form := formOf (selectorOf x a) (fun t => GoRef.emit x.pkg (GoRef.valueReference x.base t)) a.link
      (x.typeOf a.typ) }

/-- The builder of a struct or class. -/
def builderOf (x : Context) (c : TypeCell) : Builder :=
  { name := c.name.toText
    doc := c.doc
    isClass := c.kind == .class
    object := Go.nameOf c.annotations c.name
    bitmap := if (if c.kind = .class then 3 else 0) + c.attributes.length ≤ 32 then t!"uint32" else t!"uint64"
    members := c.attributes.mapIdx (memberOf x c) }

/-- The builder of the lists of a struct or class. -/
def listBuilderOf (d : GoRef.Decl) : ListBuilder :=
  { name := d.name.toText, object := Go.nameOf d.annotations d.name }

/-- A reference that the builder of a type has: those of the fields, those of the setters and those of the
elements of the lists that aren't links. -/
def Uses (x : Context) (c : TypeCell) (ref : GoRef.Ref) : Prop :=
  ∃ a ∈ c.attributes, ref = GoRef.builderFieldType x.base (x.attr a) ∨
    ref = GoRef.builderSetterType x.base (x.attr a) ∨
    ∃ d e, x.typeOf a.typ = .list d e ∧ a.link = false ∧ ref = GoRef.valueReference x.base e

end Verif.BuildersCode
