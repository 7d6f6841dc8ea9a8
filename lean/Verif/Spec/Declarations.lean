import Verif.Model.Declarations
import Verif.Props.GoNames

/-!
# What the package of a version declares

A table: each row says what is declared, as a text before and a text after a name.
-/

namespace Verif.Decls

/-- The enumerated types. -/
def enums (v : VersionView) : List (Label × List EnumValue) :=
  v.types.filterMap fun t => match t.shape with | .enum l vs => some (l, vs) | _ => none

/-- The structs and classes. -/
def structs (v : VersionView) : List Label :=
  v.types.filterMap fun t => match t.shape with | .struct l _ => some l | _ => none

/-- The classes. -/
def classes (v : VersionView) : List Label :=
  v.types.filterMap fun t => match t.shape with | .struct l true => some l | _ => none

/-- The structs and classes that have a list type. -/
def listed (v : VersionView) : List Label :=
  v.types.filterMap fun t => match t.shape with | .list _ (.struct e _) => some e | _ => none

/-- The types that are written and read with functions of their own: structs, and lists of scalars
or structs. -/
def coded (v : VersionView) : List Label :=
  v.types.filterMap fun t =>
    match t.shape with
    | .struct l _ => some l
    | .list l (.builtin _) => some l
    | .list l (.enum _ _) => some l
    | .list l (.struct _ _) => some l
    | _ => none

/-- The constants of the enumerated types. -/
def constants (v : VersionView) : List Text :=
  (enums v).flatMap fun e => e.2.map fun x =>
    Go.nameOf e.1.annotations e.1.name ++ Go.nameOf x.annotations x.name

/-- The name of a resource, which the root doesn't have. -/
def clientBase (r : Resource) : Text :=
  if r.name.toText = t!"root" then [] else Go.nameOf r.annotations r.name

/-- The messages of the methods: the name of the resource followed by the name of the method. -/
def methodMessages (v : VersionView) : List Text :=
  v.resources.flatMap fun r => r.methods.map fun m => clientBase r ++ Go.nameOf m.annotations m.name

/-- The messages of polling, for the resources that have a method `Get`. -/
def pollMessages (v : VersionView) : List Text :=
  (v.resources.filter fun r => decide (∃ m ∈ r.methods, m.name = Nom.get)).map fun r =>
    Go.nameOf r.annotations r.name ++ t!"Poll"

/-- The names used for the functions of the methods, which ignore the annotations. -/
def methodFunctions (v : VersionView) : List Text :=
  v.resources.flatMap fun r => r.methods.map fun m =>
    (if r.name.toText = t!"root" then [] else upperCamel r.name) ++ upperCamel m.name

/-- A row of the table: for each of the names, the identifier made with what goes before and
after it. -/
structure Row where
  before : Text
  names : List Text
  after : Text

/-- The identifiers of a row. -/
def Row.identifiers (r : Row) : List Text := r.names.map fun n => r.before ++ n ++ r.after

/-- The table. -/
def table (v : VersionView) : List Row :=
  let name (l : Label) : Text := Go.nameOf l.annotations l.name
  let camel (l : Label) : Text := upperCamel l.name
  [⟨[], [t!"Metadata", t!"OpenAPI"] ++ (enums v).map (fun e => name e.1) ++ constants v ++
      (structs v).map name, []⟩,
   ⟨[], (classes v).map name, t!"Kind"⟩,
   ⟨[], (classes v).map name, t!"LinkKind"⟩,
   ⟨[], (classes v).map name, t!"NilKind"⟩,
   ⟨[], (structs v).map name, t!"List"⟩,
   ⟨[], (structs v).map name, t!"ListKind"⟩,
   ⟨[], (structs v).map name, t!"ListLinkKind"⟩,
   ⟨[], (structs v).map name, t!"ListNilKind"⟩,
   ⟨[], (structs v).map name, t!"Builder"⟩,
   ⟨[], (listed v).map name, t!"ListBuilder"⟩,
   ⟨[], v.resources.map clientBase, t!"Client"⟩,
   ⟨[], t!"Metadata" :: (methodMessages v ++ pollMessages v), t!"Request"⟩,
   ⟨[], t!"Metadata" :: (methodMessages v ++ pollMessages v), t!"Response"⟩,
   ⟨[], v.errors.map upperCamel, t!"Error"⟩,
   ⟨t!"New", (structs v).map name, []⟩,
   ⟨t!"New", (listed v).map name, t!"List"⟩,
   ⟨t!"New", v.resources.map clientBase, t!"Client"⟩,
   ⟨t!"Marshal", t!"Metadata" :: (coded v).map name, []⟩,
   ⟨t!"Unmarshal", t!"Metadata" :: (coded v).map name, []⟩,
   ⟨t!"Write", (coded v).map camel, []⟩,
   ⟨t!"Read", (coded v).map camel, []⟩,
   ⟨t!"write", [t!"Metadata"], []⟩,
   ⟨t!"read", [t!"Metadata"], []⟩,
   ⟨t!"write", methodFunctions v, t!"Request"⟩,
   ⟨t!"read", methodFunctions v, t!"Response"⟩]

/-- The texts that can go before a name. -/
def befores : List Text :=
  [t!"New", t!"Marshal", t!"Unmarshal", t!"Write", t!"Read", t!"write", t!"read"]

/-- The texts that can go after a name. -/
def afters : List Text :=
  [t!"Kind", t!"LinkKind", t!"NilKind", t!"List", t!"ListKind", t!"ListLinkKind", t!"ListNilKind",
   t!"Builder", t!"ListBuilder", t!"Client", t!"Request", t!"Response", t!"Error"]

/-- The text is an exported identifier: its first letter is in upper case. -/
def Exported (b : Text) : Prop := ∃ c x, b = c :: x ∧ c.isUpper = true

/-- The first word isn't one of those that go before names. `Newsletter` and `Ready` are fine. -/
def FreshStart (b : Text) : Prop :=
  ∀ q ∈ befores, b ≠ q ∧ ∀ x, b = q ++ x → ¬ Exported x

/-- The names of the types and of the constants. -/
def objects (v : VersionView) : List Text :=
  (enums v).map (fun e => Go.nameOf e.1.annotations e.1.name) ++ constants v ++
  (structs v).map (fun l => Go.nameOf l.annotations l.name)

/-- The names that have other names derived from them. -/
def bases (v : VersionView) : List Text :=
  t!"Metadata" :: (structs v).map (fun l => Go.nameOf l.annotations l.name) ++
  (listed v).map (fun l => Go.nameOf l.annotations l.name) ++ v.resources.map clientBase ++
  methodMessages v ++ pollMessages v ++ v.errors.map upperCamel

/-- The name doesn't look like one derived from a name of the version: it isn't one of those names
followed by one of the texts that go after names, or by the beginning of one that has another as its
end. `FooList` is fine if there isn't a `Foo`. -/
def FreshEnd (v : VersionView) (n : Text) : Prop :=
  ∀ b ∈ bases v, ∀ s ∈ afters ++ [t!"Link", t!"Nil", t!"ListLink", t!"ListNil"], n ≠ b ++ s

/-- The names of the version don't look like derived names, and all of them are exported. -/
structure Tidy (v : VersionView) : Prop where
  objects : ∀ n ∈ objects v ++ (listed v).map (fun l => Go.nameOf l.annotations l.name),
    Exported n ∧ FreshStart n ∧ FreshEnd v n
  predeclared : FreshEnd v t!"Metadata" ∧ FreshEnd v t!"OpenAPI"
  resources : ∀ r ∈ v.resources, clientBase r = [] ∨ Exported (clientBase r) ∧ FreshStart (clientBase r)
  messages : ∀ n ∈ methodMessages v ++ pollMessages v ++ v.errors.map upperCamel,
    Exported n ∧ FreshStart n
  coded : ∀ l ∈ coded v, Exported (Go.nameOf l.annotations l.name) ∧ Exported (upperCamel l.name)
  functions : ∀ n ∈ methodFunctions v, Exported n

/-- Things of the same kind have different names. -/
structure Distinct (v : VersionView) : Prop where
  objects : (t!"Metadata" :: t!"OpenAPI" :: objects v).Nodup
  listed : ((listed v).map fun l => Go.nameOf l.annotations l.name).Nodup
  resources : (v.resources.map clientBase).Nodup
  messages : (t!"Metadata" :: (methodMessages v ++ pollMessages v)).Nodup
  errors : (v.errors.map upperCamel).Nodup
  coded : (t!"Metadata" :: (coded v).map fun l => Go.nameOf l.annotations l.name).Nodup
  coders : ((Decls.coded v).map fun l => upperCamel l.name).Nodup
  functions : (methodFunctions v).Nodup

/-- The version has the type, and the types of its elements, and the lists are of scalars or of
structs; those that are links are of structs. -/
inductive Complete (v : VersionView) : Bool → TypeShape → Prop
  | builtin {link l} : Complete v link (.builtin l)
  | enum {link l vs} (h : ∃ t ∈ v.types, t.shape = .enum l vs) : Complete v link (.enum l vs)
  | struct {link l c} (h : ∃ t ∈ v.types, t.shape = .struct l c) : Complete v link (.struct l c)
  | scalars {l e} (h : ∃ t ∈ v.types, t.shape = .list l e)
      (he : (∃ b, e = .builtin b) ∨ ∃ b vs, e = .enum b vs) : Complete v false (.list l e)
  | list {link l b c} (h : ∃ t ∈ v.types, t.shape = .list l (.struct b c))
      (he : ∃ t ∈ v.types, t.shape = .struct b c) : Complete v link (.list l (.struct b c))
  | map {link l e} (h : Complete v false e) : Complete v link (.map l e)

end Verif.Decls
