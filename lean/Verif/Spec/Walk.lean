import Verif.Spec.Literals
import Verif.Spec.Comments

/-!
# Specification: the declarations that correspond to the trees

The function `doc` gives the documentation of the node that starts in each line.
-/

namespace Verif.Language

/-- The two lists have the same length and the elements in the same position are related. -/
inductive Pairs {α β : Type} (R : α → β → Prop) : List α → List β → Prop
  | nil : Pairs R [] []
  | cons (x : α) (y : β) (xs : List α) (ys : List β) : R x y → Pairs R xs ys →
      Pairs R (x :: xs) (y :: ys)

/-- If there are several parameters with the same name the value is that of the last one. -/
def AnnotationIs (x : AnnotationTree) (y : Annotation) : Prop :=
  y.name = x.name ∧ ∀ name v, y.parameters.find name = some v ↔
    ∃ before p after, x.parameters = before ++ p :: after ∧ p.1 = name ∧
      (∀ q ∈ after, q.1 ≠ name) ∧ LiteralIs p.2 v

def AnnotationsAre (xs : List AnnotationTree) (ys : List Annotation) : Prop :=
  Pairs AnnotationIs xs ys

def ValueIs (doc : Nat → Text) (x : ValueTree) (y : ValueDecl) : Prop :=
  y.name = x.name ∧ y.doc = doc x.line ∧ AnnotationsAre x.annotations y.annotations

def MemberIs (doc : Nat → Text) (x : MemberTree) (y : MemberDecl) : Prop :=
  y.name = x.name ∧ y.ref = x.ref ∧ y.link = x.link ∧ y.doc = doc x.line ∧
    AnnotationsAre x.annotations y.annotations

def DefaultIs : Option LiteralTree → Option Literal → Prop
  | none, y => y = none
  | some x, y => ∃ v, y = some v ∧ LiteralIs x v

def ParameterIs (doc : Nat → Text) (x : ParameterTree) (y : ParameterDecl) : Prop :=
  y.name = x.name ∧ y.ref = x.ref ∧ y.directions = x.directions ∧ DefaultIs x.dflt y.dflt ∧
    y.doc = doc x.line ∧ AnnotationsAre x.annotations y.annotations

def ResourceMemberIs (doc : Nat → Text) : ResourceMemberTree → ResourceMember → Prop
  | .method line annotations name parameters, y =>
    ∃ m : MethodDecl, y = .method m ∧ m.name = name ∧ m.doc = doc line ∧
      AnnotationsAre annotations m.annotations ∧ Pairs (ParameterIs doc) parameters m.parameters
  | .locator line annotations name members, y =>
    ∃ l : LocatorDecl, y = .locator l ∧ l.name = name ∧ l.doc = doc line ∧
      AnnotationsAre annotations l.annotations ∧ l.members = members

/-- The declaration that corresponds to a tree. -/
def DeclIs (doc : Nat → Text) (x : DeclTree) (y : Decl) : Prop :=
  ∃ annotations, AnnotationsAre x.annotations annotations ∧
    match x.body with
    | .enum values => ∃ ys, y = .enum x.name (doc x.line) annotations ys ∧ Pairs (ValueIs doc) values ys
    | .class members =>
      ∃ ys, y = .class x.name (doc x.line) annotations ys ∧ Pairs (MemberIs doc) members ys
    | .struct members =>
      ∃ ys, y = .struct x.name (doc x.line) annotations ys ∧ Pairs (MemberIs doc) members ys
    | .error codes => y = .error x.name (doc x.line) annotations codes
    | .resource members =>
      ∃ ys, y = .resource x.name (doc x.line) annotations ys ∧ Pairs (ResourceMemberIs doc) members ys

/-! ## Lines and literals of a tree -/

def resourceMemberLines : ResourceMemberTree → List Nat
  | .method line _ _ parameters => parameters.map (·.line) ++ [line]
  | .locator line _ _ _ => [line]

def bodyLines : BodyTree → List Nat
  | .enum values => values.map (·.line)
  | .class members => members.map (·.line)
  | .struct members => members.map (·.line)
  | .error _ => []
  | .resource members => members.flatMap resourceMemberLines

/-- The lines where the declaration, its members and their parameters start. -/
def declLines (x : DeclTree) : List Nat := bodyLines x.body ++ [x.line]

def annotationLiterals (as : List AnnotationTree) : List LiteralTree :=
  as.flatMap fun a => a.parameters.map (·.2)

def parameterLiterals (x : ParameterTree) : List LiteralTree :=
  annotationLiterals x.annotations ++ x.dflt.toList

def resourceMemberLiterals : ResourceMemberTree → List LiteralTree
  | .method _ annotations _ parameters =>
    parameters.flatMap parameterLiterals ++ annotationLiterals annotations
  | .locator _ annotations _ _ => annotationLiterals annotations

def bodyLiterals : BodyTree → List LiteralTree
  | .enum values => values.flatMap fun x => annotationLiterals x.annotations
  | .class members => members.flatMap fun x => annotationLiterals x.annotations
  | .struct members => members.flatMap fun x => annotationLiterals x.annotations
  | .error _ => []
  | .resource members => members.flatMap resourceMemberLiterals

/-- The literals of a declaration, other than the codes of errors. -/
def declLiterals (x : DeclTree) : List LiteralTree :=
  bodyLiterals x.body ++ annotationLiterals x.annotations

/-- The comment of each line is the last one that the lexer finds in that line. -/
def CommentAt (cs : List (Nat × Text)) (line : Nat) (comment : Text) : Prop :=
  ∃ before after, cs = before ++ (line, comment) :: after ∧ ∀ c ∈ after, c.1 ≠ line

end Verif.Language
