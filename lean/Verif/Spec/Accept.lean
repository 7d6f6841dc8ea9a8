import Verif.Spec.Whole
import Verif.Spec.Checks

/-!
# Specification of the declarations that the checks of the reader accept

The rules are stated on what is written in the files: `ds` are the declarations of a version.
-/

namespace Verif.Accept

open Whole

/-- The kind of the type that a reference denotes. -/
inductive KindOf (ds : List Decl) : TypeExpr → Kind → Prop
  | scalar {name : Text} : keyOf name ∈ [t!"boolean", t!"integer", t!"long", t!"float", t!"string", t!"date"] →
      KindOf ds (.plain name) .scalar
  | interface {name : Text} : keyOf name = t!"interface" → KindOf ds (.plain name) .interface
  | predefined {name : Text} : keyOf name ∈ predefinedLists → KindOf ds (.plain name) .list
  | declared {name : Text} {kind : Kind} {d : Decl} : d ∈ ds → d.declaredType = some (keyOf name, kind) →
      KindOf ds (.plain name) kind
  | list {element : Text} : KindOf ds (.list element) .list
  | map {index element : Text} : KindOf ds (.map index element) .map

/-- Predefined types that aren't lists, and enumerated types. -/
def Scalar (ds : List Decl) (p : ParameterDecl) : Prop :=
  KindOf ds p.ref .scalar ∨ KindOf ds p.ref .enum ∨ KindOf ds p.ref .interface

/-- Structures and classes. -/
def Struct (ds : List Decl) (p : ParameterDecl) : Prop :=
  KindOf ds p.ref .struct ∨ KindOf ds p.ref .class

/-- Lists. -/
def IsList (ds : List Decl) (p : ParameterDecl) : Prop := KindOf ds p.ref .list

/-- The type of the parameter is the predefined type with that name. -/
def Predefined (name : Text) (p : ParameterDecl) : Prop := ∃ n, p.ref = .plain n ∧ keyOf n = name

/-- The direction `in` is written. -/
def In (p : ParameterDecl) : Prop := .input ∈ p.directions
/-- The direction `out` is written, or no direction is. -/
def Out (p : ParameterDecl) : Prop := .output ∈ p.directions ∨ p.directions = []

/-- Direction is `in`. -/
def OnlyIn (p : ParameterDecl) : Prop := In p ∧ ¬ Out p
/-- Direction is `out`, maybe because there is none. -/
def OnlyOut (p : ParameterDecl) : Prop := Out p ∧ ¬ In p
/-- Direction is `in out`. -/
def InOut (p : ParameterDecl) : Prop := In p ∧ Out p

/-- The parameter is called like that. -/
def Called (name : Text) (p : ParameterDecl) : Prop := SameName p.name name

/-- The default value, if any, is of the type of the parameter. -/
def DefaultFits (p : ParameterDecl) : Prop :=
  (∀ v, p.dflt = some (.bool v) → Predefined t!"boolean" p) ∧
  (∀ v, p.dflt = some (.int v) → Predefined t!"integer" p) ∧
  (∀ v, p.dflt = some (.str v) → Predefined t!"string" p)

/-- Rules for `Add`. -/
structure Add (ds : List Decl) (m : MethodDecl) : Prop where
  types : ∀ p ∈ m.parameters, Scalar ds p ∨ Struct ds p
  one : ExactlyOne (Struct ds) m.parameters
  body : ∀ p ∈ m.parameters, Struct ds p → InOut p ∧ Called t!"Body" p

/-- Rules for `Delete` and `AsyncDelete`. -/
structure Delete (ds : List Decl) (m : MethodDecl) : Prop where
  types : ∀ p ∈ m.parameters, Scalar ds p
  directions : ∀ p ∈ m.parameters, OnlyIn p

/-- Rules for `Get`. -/
structure Get (ds : List Decl) (m : MethodDecl) : Prop where
  types : ∀ p ∈ m.parameters, Scalar ds p ∨ Struct ds p
  one : ExactlyOne (Struct ds) m.parameters
  scalars : ∀ p ∈ m.parameters, Scalar ds p → OnlyIn p
  body : ∀ p ∈ m.parameters, Struct ds p → OnlyOut p ∧ Called t!"Body" p

/-- Rules for the parameters used for paging. -/
structure Paging (m : MethodDecl) : Prop where
  page : ∀ p ∈ m.parameters, Called t!"Page" p → Predefined t!"integer" p ∧ InOut p ∧ p.dflt = some (.int 1)
  size : ∀ p ∈ m.parameters, Called t!"Size" p → Predefined t!"integer" p ∧ InOut p ∧ p.dflt = some (.int 100)
  total : ∀ p ∈ m.parameters, Called t!"Total" p → Predefined t!"integer" p ∧ OnlyOut p

/-- Rules for `List`. -/
structure List (ds : _root_.List Decl) (m : MethodDecl) : Prop where
  types : ∀ p ∈ m.parameters, Scalar ds p ∨ IsList ds p
  one : ExactlyOne (IsList ds) m.parameters
  items : ∀ p ∈ m.parameters, IsList ds p → OnlyOut p ∧ Called t!"Items" p
  paging : Paging m

/-- Rules for `Search`. -/
structure Search (ds : _root_.List Decl) (m : MethodDecl) : Prop where
  outs : ∀ p ∈ m.parameters, Out p → Scalar ds p ∨ IsList ds p
  ins : ∀ p ∈ m.parameters, In p → Scalar ds p ∨ Struct ds p
  oneItems : ExactlyOne (IsList ds) m.parameters
  items : ∀ p ∈ m.parameters, IsList ds p → OnlyOut p ∧ Called t!"Items" p
  oneBody : ExactlyOne (fun p => Struct ds p ∧ In p) m.parameters
  body : ∀ p ∈ m.parameters, Struct ds p → In p → OnlyIn p ∧ Called t!"Body" p
  paging : Paging m

/-- Rules for `Post`. -/
structure Post (ds : _root_.List Decl) (m : MethodDecl) : Prop where
  oneIn : AtMostOne In m.parameters
  oneOut : ExactlyOne Out m.parameters
  types : ∀ p ∈ m.parameters, Struct ds p

/-- Rules for `Update` and `AsyncUpdate`. -/
structure Update (ds : _root_.List Decl) (m : MethodDecl) : Prop where
  types : ∀ p ∈ m.parameters, Scalar ds p ∨ Struct ds p ∨ IsList ds p
  one : ExactlyOne (fun p => Struct ds p ∨ IsList ds p) m.parameters
  scalars : ∀ p ∈ m.parameters, Scalar ds p → OnlyIn p
  body : ∀ p ∈ m.parameters, Struct ds p ∨ IsList ds p → InOut p ∧ Called t!"Body" p

/-- A method follows the rules: there are none for other methods, except for the default values. -/
structure MethodFine (ds : _root_.List Decl) (m : MethodDecl) : Prop where
  add : SameName m.name t!"Add" → Add ds m
  delete : SameName m.name t!"Delete" ∨ SameName m.name t!"AsyncDelete" → Delete ds m
  get : SameName m.name t!"Get" → Get ds m
  list : SameName m.name t!"List" → List ds m
  post : SameName m.name t!"Post" → Post ds m
  search : SameName m.name t!"Search" → Search ds m
  update : SameName m.name t!"Update" ∨ SameName m.name t!"AsyncUpdate" → Update ds m
  defaults : ∀ p ∈ m.parameters, DefaultFits p

/-- The resource `k` has a locator whose target is the resource `k'`. -/
def LocatesTo (ds : _root_.List Decl) (k k' : Text) : Prop :=
  ∃ name doc as members, Decl.resource name doc as members ∈ ds ∧ keyOf name = k ∧
    ∃ l, .locator l ∈ members ∧ l.targets.getLast? = some k'

/-- One or more locators go from one resource to other. -/
inductive Leads (ds : _root_.List Decl) : Text → Text → Prop
  | one {a b : Text} : LocatesTo ds a b → Leads ds a b
  | more {a b c : Text} : LocatesTo ds a b → Leads ds b c → Leads ds a c

/-- The declarations of a version are accepted by the checks. -/
structure Fine (ds : _root_.List Decl) : Prop where
  methods : ∀ name doc as members, Decl.resource name doc as members ∈ ds →
    ∀ m, .method m ∈ members → MethodFine ds m
  loops : ∀ k, k = t!"root" ∨ Leads ds t!"root" k → ¬ Leads ds k k

/-- The version has a resource called `Root`. -/
def Rooted (ds : _root_.List Decl) : Prop := t!"root" ∈ declaredResources ds

/-- The parameters used for paging aren't declared twice. When they are only the first of them is
checked, see property C14. -/
def PagingOnce (ds : _root_.List Decl) : Prop :=
  ∀ name doc as members, Decl.resource name doc as members ∈ ds → ∀ m, .method m ∈ members →
    SameName m.name t!"List" ∨ SameName m.name t!"Search" →
      ∀ n ∈ [t!"Page", t!"Size", t!"Total"], AtMostOne (Called n) m.parameters

end Verif.Accept
