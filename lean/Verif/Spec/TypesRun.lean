import Verif.Spec.TypesCode
import Verif.Model.GoTypes

/-!
# What it means to run the generated types

How the objects, lists and metadata of the model of the generated types are stored in the memory of a Go
program, and what the Go compiler requires of a program.
-/

namespace Verif.TypesRun

open GoJson (Val)
open GoProgram TypesCode

variable {σ : Type}

/-! ## Programs -/

/-- The names that a declaration introduces: those of the package, or those of the methods of a type. -/
def introduced : Declaration → List (Text × Text)
  | .const x _ => [([], x)]
  | .consts _ values => values.map fun v => ([], v.2.1)
  | .scalar x _ => [([], x)]
  | .struct _ x fields => ([], x) :: fields.map fun f => (x, f.1)
  | .func f => [(f.typ, f.name)]

/-- The Go compiler doesn't accept programs that declare something twice: the names of a package, and the
fields and methods of a type, have to be different. -/
def Legal (p : List Declaration) : Prop := (p.flatMap introduced).Nodup

/-- The program of a type. -/
def programOf (e : Entity) : List Declaration := e.items.map (·.decl)

/-- The program of the metadata. -/
def metadataProgram : List Declaration := metadataItems.map (·.decl)

/-! ## Memory -/

/-- The values of attributes: those that aren't booleans, integers or texts are things that the methods
don't look into. The nil interface is nil. -/
def value : Val → Value Val
  | .nil => .nil
  | .bool b => .bool b
  | .int i => .int i
  | .str t => .str t
  | .iface .null => .nil
  | v => .other v

/-- A pointer to an object: nil, or the position of a structure that has the bitmap, the identifier and the
address if it is an object of a class, and the values of the attributes. -/
inductive IsObject (e : Entity) (s : State Val σ) : Value Val → Val → Prop
  | nil : IsObject e s .nil .nil
  | obj {a bitmap : Nat} {id href : Text} {values : List Val} {fields : List (Text × Value Val)} :
    s.structs[a]? = some fields →
    fields.map Prod.fst = e.fields.map Prod.fst →
    fields.lookup t!"bitmap_" = some (.int bitmap) →
    (e.isClass = true → fields.lookup t!"id" = some (.str id) ∧ fields.lookup t!"href" = some (.str href)) →
    values.length = e.members.length →
    (∀ (i : Nat) (m : Member) (v : Val), e.members[i]? = some m → values[i]? = some v → fields.lookup m.field = some (value v)) →
    IsObject e s (.pointer a) (.obj bitmap id href values)

/-- A slice of pointers: nil, or the position of an array. -/
inductive IsSlice (s : State Val σ) : Value Val → Option (List Val) → Prop
  | nil : IsSlice s .nil none
  | slice {a : Nat} {items : List Val} :
    s.arrays[a]? = some (items.map value) → IsSlice s (.slice a) (some items)

/-- A pointer to a list: nil, or the position of a structure with the address, the flag that tells if it is
a link, and the slice. -/
inductive IsList (s : State Val σ) : Value Val → Option GoTypes.ObjectList → Prop
  | nil : IsList s .nil none
  | list {a : Nat} {l : GoTypes.ObjectList} {items : Value Val} :
    s.structs[a]? = some [(t!"href", .str l.href), (t!"link", .bool l.link), (t!"items", items)] →
    IsSlice s items l.items → IsList s (.pointer a) (some l)

/-- A pointer to the metadata. -/
inductive IsMetadata (s : State Val σ) : Value Val → Option GoTypes.Metadata → Prop
  | nil : IsMetadata s .nil none
  | metadata {a : Nat} {m : GoTypes.Metadata} :
    s.structs[a]? = some [(t!"bitmap_", .int m.bitmap), (t!"serverVersion", .str m.serverVersion)] →
    IsMetadata s (.pointer a) (some m)

/-- The memory after changing only the structure that a pointer points to. -/
def Changed (s t : State Val σ) (r : Value Val) : Prop :=
  t.arrays = s.arrays ∧ t.vars = s.vars ∧ t.user = s.user ∧ t.structs.length = s.structs.length ∧
    ∀ a, r ≠ .pointer a → t.structs[a]? = s.structs[a]?

/-! ## Zero values -/

/-- The types of the model and those of the generated code, for what matters to the zero values. -/
inductive SameKind : GoRef.Typ → GoJson.Shape → Prop
  | boolean : SameKind (.basic .boolean) .boolean
  | integer : SameKind (.basic .integer) .integer
  | long : SameKind (.basic .long) .long
  | float : SameKind (.basic .float) .float
  | string : SameKind (.basic .string) .string
  | date : SameKind (.basic .date) .date
  | interface : SameKind (.basic .interface) .interface
  | enum {d} : SameKind (.enum d) .enum
  | struct {d isClass name attributes} : SameKind (.struct d) (.struct isClass name attributes)
  | list {d t name element} : SameKind (.list d t) (.list name element)
  | map {d t element} : SameKind (.map d t) (.map element)

/-- The zero values of the Go types: `zero` gives those of the texts of the types. -/
structure Zeros (zero : Text → Value Val) (x : Context) (c : TypeCell) (S : GoJson.Schema) : Prop where
  bool : zero t!"bool" = .bool false
  string : zero t!"string" = .str []
  float : zero t!"float64" = value (GoJson.zero .float)
  date : zero t!"time.Time" = value (GoJson.zero .date)
  getters : ∀ a ∈ c.attributes,
    zero (GoRef.emit x.pkg (GoRef.getterType x.base (x.attr a))) = value (GoJson.zero (S a.typ))

end Verif.TypesRun
