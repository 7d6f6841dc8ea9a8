import Verif.Spec.Lexer
import Verif.Spec.Parser

/-!
# Specification: the trees that can be written

The names of a tree are words that aren't keywords, its integers are sequences of digits and its
strings are quoted.
-/

namespace Verif.Language

/-- A word that isn't a keyword. -/
def GoodName (name : Text) : Prop := Word name ∧ ∀ k, spelling (.keyword k) ≠ some name

def GoodInteger (text : Text) : Prop := text ≠ [] ∧ ∀ c ∈ text, Digit c

def GoodLiteral : LiteralTree → Prop
  | .bool _ => True
  | .integer text => GoodInteger text
  | .string text => Quoted '"' text ∨ Quoted '`' text

def GoodAnnotations (as : List AnnotationTree) : Prop :=
  ∀ a ∈ as, GoodName a.name ∧ ∀ p ∈ a.parameters, GoodName p.1 ∧ GoodLiteral p.2

def GoodRef : TypeExpr → Prop
  | .plain name => GoodName name
  | .list element => GoodName element
  | .map index element => GoodName index ∧ GoodName element

def GoodParameter (x : ParameterTree) : Prop :=
  GoodAnnotations x.annotations ∧ GoodName x.name ∧ GoodRef x.ref ∧
    ∀ value, x.dflt = some value → GoodLiteral value

def GoodLocatorMember : LocatorMember → Prop
  | .target name => GoodName name
  | .variableName name => GoodName name

def GoodMember (x : MemberTree) : Prop :=
  GoodAnnotations x.annotations ∧ GoodName x.name ∧ GoodRef x.ref

def GoodResourceMember : ResourceMemberTree → Prop
  | .method _ annotations name parameters =>
    GoodAnnotations annotations ∧ GoodName name ∧ ∀ x ∈ parameters, GoodParameter x
  | .locator _ annotations name members =>
    GoodAnnotations annotations ∧ GoodName name ∧ ∀ x ∈ members, GoodLocatorMember x

def GoodBody : BodyTree → Prop
  | .enum values => ∀ x ∈ values, GoodAnnotations x.annotations ∧ GoodName x.name
  | .class members => ∀ x ∈ members, GoodMember x
  | .struct members => ∀ x ∈ members, GoodMember x
  | .error codes => ∀ x ∈ codes, GoodInteger x
  | .resource members => ∀ x ∈ members, GoodResourceMember x

/-- All the names and literals of the tree can be written. -/
def GoodDecl (x : DeclTree) : Prop :=
  GoodAnnotations x.annotations ∧ GoodName x.name ∧ GoodBody x.body

/-! ## Trees without the numbers of the lines -/

def ResourceMemberTree.unplaced : ResourceMemberTree → ResourceMemberTree
  | .method _ annotations name parameters =>
    .method 0 annotations name (parameters.map fun x => { x with line := 0 })
  | .locator _ annotations name members => .locator 0 annotations name members

def BodyTree.unplaced : BodyTree → BodyTree
  | .enum values => .enum (values.map fun x => { x with line := 0 })
  | .class members => .class (members.map fun x => { x with line := 0 })
  | .struct members => .struct (members.map fun x => { x with line := 0 })
  | .error codes => .error codes
  | .resource members => .resource (members.map ResourceMemberTree.unplaced)

/-- The declaration without the numbers of the lines. -/
def DeclTree.unplaced (x : DeclTree) : DeclTree := { x with line := 0, body := x.body.unplaced }

end Verif.Language
