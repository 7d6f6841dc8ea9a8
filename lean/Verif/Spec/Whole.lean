import Verif.Model.Whole
import Verif.Spec.Outcome
import Verif.Spec.Content

/-!
# Specification of what is generated from the files of a model
-/

namespace Verif.Whole

/-- All the types of all the versions are defined. A name that is used in one version and only declared
in other one isn't reported by the reader, see property C18. -/
def Defined (s : Session) : Prop :=
  ∀ a b v, s.version a b = some v → ∀ k x, s.typeView v k = some x → x.kind ≠ .undefined

/-! ## Declarations for which Go code can be generated

The names of the predefined lists, like `StringList`, can be used in the files, so lists of lists can be
written, although there is no syntax for them. -/

/-- The keys of the lists of the predefined types. -/
def predefinedLists : List Text :=
  [t!"boolean_list", t!"integer_list", t!"long_list", t!"float_list", t!"string_list", t!"date_list",
   t!"interface_list"]

/-- A list or map whose elements aren't predefined lists, or the name of a type. -/
def OneLevel : TypeExpr → Prop
  | .plain _ => True
  | .list element => keyOf element ∉ predefinedLists
  | .map _ element => keyOf element ∉ predefinedLists

/-- A list, written with brackets or with the name of a predefined list. -/
def IsListRef : TypeExpr → Prop
  | .plain name => keyOf name ∈ predefinedLists
  | .list _ => True
  | .map _ _ => False

/-- The type of an attribute can be expressed: links to lists always, the rest if they are lists or maps
of things that aren't lists. -/
def MemberFine (m : MemberDecl) : Prop := (m.link = true ∧ ∃ element, m.ref = .list element) ∨ OneLevel m.ref

/-- The texts are the same name. -/
def SameName (a b : Text) : Prop := parseUsingCase a = parseUsingCase b

/-- The parameter is the list of items of a `List` or `Search` method. -/
def IsItemsDecl (m : MethodDecl) (p : ParameterDecl) : Prop :=
  (SameName m.name t!"List" ∨ SameName m.name t!"Search") ∧ SameName p.name t!"Items"

/-- The type of a parameter can be expressed: the items of a `List` or `Search` method are a list, and
the rest are like attributes. -/
def ParameterFine (m : MethodDecl) (p : ParameterDecl) : Prop :=
  (IsItemsDecl m p → IsListRef p.ref) ∧ (¬ IsItemsDecl m p → OneLevel p.ref)

/-- Go code can be generated for a declaration. -/
def DeclFine : Decl → Prop
  | .class _ _ _ members => members.length ≤ 61 ∧ ∀ m ∈ members, MemberFine m
  | .struct _ _ _ members => members.length ≤ 64 ∧ ∀ m ∈ members, MemberFine m
  | .resource _ _ _ members => ∀ m, .method m ∈ members → ∀ p ∈ m.parameters, ParameterFine m p
  | .enum _ _ _ _ => True
  | .error _ _ _ _ => True

/-! ## Names that can be used in the names of files -/

/-- The name of the directory of a service or of a version has something besides underscores, and no
slashes. -/
def DirNameFine (name : Text) : Prop := (∃ c ∈ name, c ≠ '_') ∧ '/' ∉ name

/-- The names of the directories are fine, and the names of types and resources aren't empty and don't
have slashes. -/
structure NamesFine (inputs : List SourceModel) : Prop where
  services : ∀ m ∈ inputs, ∀ d ∈ m.services, d.isDir = true → DirNameFine d.name
  versions : ∀ a b ds, (a, b, ds) ∈ versionDirs inputs → DirNameFine b
  types : ∀ a b ds, (a, b, ds) ∈ versionDirs inputs → ∀ k ∈ declaredTypes ds, '/' ∉ k
  resources : ∀ a b ds, (a, b, ds) ∈ versionDirs inputs → ∀ k ∈ declaredResources ds, k ≠ [] ∧ '/' ∉ k

end Verif.Whole
