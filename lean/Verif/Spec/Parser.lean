import Verif.Model.Parser

/-!
# Specification of the parser

The rules of the grammar `pkg/language/ModelParser.g4`: for each kind of node of the tree, the
sequences of tokens that are derived from it. Only the types of the model are used here, not its
functions.
-/

namespace Verif.Language

open Keyword

/-- One token. -/
def Tok (t : Token) (ls : List Lexeme) : Prop := ∃ line, ls = [⟨t, line⟩]

/-- An optional token. -/
def OptTok (t : Token) (ls : List Lexeme) : Prop := ls = [] ∨ Tok t ls

/-- A sequence of nodes. -/
inductive Many {α : Type} (R : α → List Lexeme → Prop) : List α → List Lexeme → Prop
  | nil : Many R [] []
  | cons (x : α) (xs : List α) (a b : List Lexeme) : R x a → Many R xs b → Many R (x :: xs) (a ++ b)

/-- The line of the first token. -/
def FirstLine (line : Nat) (ls : List Lexeme) : Prop := ∃ t rest, ls = ⟨t, line⟩ :: rest

/-- `literal`, `booleanLiteral`, `integerLiteral` and `stringLiteral`. -/
def IsLiteral : LiteralTree → List Lexeme → Prop
  | .bool true, ls => Tok (.keyword kwTrue) ls
  | .bool false, ls => Tok (.keyword kwFalse) ls
  | .integer text, ls => Tok (.integer text) ls
  | .string text, ls => Tok (.string text) ls

/-- `annotationParameter`. -/
def IsAnnotationParameter (p : Text × LiteralTree) (ls : List Lexeme) : Prop :=
  ∃ a b c, ls = a ++ b ++ c ∧ Tok (.identifier p.1) a ∧ Tok .equalsSign b ∧ IsLiteral p.2 c

/-- `annotationParameters`. -/
def IsAnnotationParameters (ps : List (Text × LiteralTree)) (ls : List Lexeme) : Prop :=
  ∃ a b c, ls = a ++ b ++ c ∧ Tok .leftParen a ∧ Many IsAnnotationParameter ps b ∧
    Tok .rightParen c

/-- `annotation`. -/
def IsAnnotation (x : AnnotationTree) (ls : List Lexeme) : Prop :=
  ∃ a b c, ls = a ++ b ++ c ∧ Tok .atSign a ∧ Tok (.identifier x.name) b ∧
    ((c = [] ∧ x.parameters = []) ∨ IsAnnotationParameters x.parameters c)

/-- `typeReference`, `plainTypeReference`, `listTypeReference` and `mapTypeReference`. -/
def IsTypeReference : TypeExpr → List Lexeme → Prop
  | .plain name, ls => Tok (.identifier name) ls
  | .list element, ls =>
    ∃ a b c, ls = a ++ b ++ c ∧ Tok .leftSquare a ∧ Tok .rightSquare b ∧ Tok (.identifier element) c
  | .map index element, ls =>
    ∃ a b c d, ls = a ++ b ++ c ++ d ∧ Tok .leftSquare a ∧ Tok (.identifier index) b ∧
      Tok .rightSquare c ∧ Tok (.identifier element) d

/-- `enumMemberDecl`. -/
def IsEnumMember (x : ValueTree) (ls : List Lexeme) : Prop :=
  FirstLine x.line ls ∧
  ∃ a b c, ls = a ++ b ++ c ∧ Many IsAnnotation x.annotations a ∧ OptTok (.keyword kwValue) b ∧
    Tok (.identifier x.name) c

/-- `attributeKind?`: members are attributes unless they are explicitly links. -/
def IsAttributeKind (link : Bool) (ls : List Lexeme) : Prop :=
  (link = true ∧ Tok (.keyword kwLink) ls) ∨
  (link = false ∧ (ls = [] ∨ Tok (.keyword kwAttribute) ls))

/-- `structMemberDecl`. -/
def IsStructMember (x : MemberTree) (ls : List Lexeme) : Prop :=
  FirstLine x.line ls ∧
  ∃ a b c d, ls = a ++ b ++ c ++ d ∧ Many IsAnnotation x.annotations a ∧
    IsAttributeKind x.link b ∧ Tok (.identifier x.name) c ∧ IsTypeReference x.ref d

/-- `parameterDirection`. -/
def IsDirection : Direction → List Lexeme → Prop
  | .input, ls => Tok (.keyword kwIn) ls
  | .output, ls => Tok (.keyword kwOut) ls

/-- `( '=' dflt = literal )?`. -/
def IsDefault : Option LiteralTree → List Lexeme → Prop
  | none, ls => ls = []
  | some value, ls => ∃ a b, ls = a ++ b ∧ Tok .equalsSign a ∧ IsLiteral value b

/-- `methodParameterDecl`. -/
def IsMethodParameter (x : ParameterTree) (ls : List Lexeme) : Prop :=
  FirstLine x.line ls ∧
  ∃ a b c d e f, ls = a ++ b ++ c ++ d ++ e ++ f ∧ Many IsAnnotation x.annotations a ∧
    OptTok (.keyword kwParameter) b ∧ Many IsDirection x.directions c ∧ Tok (.identifier x.name) d ∧
    IsTypeReference x.ref e ∧ IsDefault x.dflt f

/-- `locatorMemberDecl`, `locatorTargetDecl`, `locatorVariableDecl` and `resourceReference`. -/
def IsLocatorMember : LocatorMember → List Lexeme → Prop
  | .target name, ls => ∃ a b, ls = a ++ b ∧ Tok (.keyword kwTarget) a ∧ Tok (.identifier name) b
  | .variableName name, ls =>
    ∃ a b, ls = a ++ b ∧ Tok (.keyword kwVariable) a ∧ Tok (.identifier name) b

/-- A name and members between curly brackets. -/
def IsBlock' {α : Type} (R : α → List Lexeme → Prop) (name : Text) (members : List α)
    (ls : List Lexeme) : Prop :=
  ∃ a b c d, ls = a ++ b ++ c ++ d ∧ Tok (.identifier name) a ∧ Tok .leftCurly b ∧
    Many R members c ∧ Tok .rightCurly d

/-- `resourceMemberDecl`, `methodDecl` and `locatorDecl`. -/
def IsResourceMember : ResourceMemberTree → List Lexeme → Prop
  | .method line annotations name parameters, ls =>
    FirstLine line ls ∧
    ∃ a b c, ls = a ++ b ++ c ∧ Many IsAnnotation annotations a ∧ OptTok (.keyword kwMethod) b ∧
      IsBlock' IsMethodParameter name parameters c
  | .locator line annotations name members, ls =>
    FirstLine line ls ∧
    ∃ a b c, ls = a ++ b ++ c ∧ Many IsAnnotation annotations a ∧ Tok (.keyword kwLocator) b ∧
      IsBlock' IsLocatorMember name members c

/-- `errorMemberDecl` and `errorCodeDecl`. -/
def IsErrorMember (code : Text) (ls : List Lexeme) : Prop :=
  ∃ a b, ls = a ++ b ∧ Tok (.keyword kwCode) a ∧ Tok (.integer code) b

/-- `enumDecl`, `classDecl`, `structDecl`, `errorDecl` and `resourceDecl`, after the annotations. -/
def IsBody (name : Text) : BodyTree → List Lexeme → Prop
  | .enum values, ls =>
    ∃ a b, ls = a ++ b ∧ Tok (.keyword kwEnum) a ∧ IsBlock' IsEnumMember name values b
  | .class members, ls =>
    ∃ a b, ls = a ++ b ∧ Tok (.keyword kwClass) a ∧ IsBlock' IsStructMember name members b
  | .struct members, ls =>
    ∃ a b, ls = a ++ b ∧ Tok (.keyword kwStruct) a ∧ IsBlock' IsStructMember name members b
  | .error codes, ls =>
    ∃ a b, ls = a ++ b ∧ Tok (.keyword kwError) a ∧ IsBlock' IsErrorMember name codes b
  | .resource members, ls =>
    ∃ a b, ls = a ++ b ∧ Tok (.keyword kwResource) a ∧ IsBlock' IsResourceMember name members b

/-- `declaration` and `typeDecl`. -/
def IsDeclaration (x : DeclTree) (ls : List Lexeme) : Prop :=
  FirstLine x.line ls ∧
  ∃ a b, ls = a ++ b ∧ Many IsAnnotation x.annotations a ∧ IsBody x.name x.body b

/-- `file`. -/
def IsFile (xs : List DeclTree) (ls : List Lexeme) : Prop := Many IsDeclaration xs ls

/-- The tokens that can be the first of a declaration: the start of an annotation and the keywords of
the kinds of declarations. -/
def StartsDeclaration (t : Token) : Prop :=
  t = .atSign ∨ t = .keyword kwEnum ∨ t = .keyword kwClass ∨ t = .keyword kwStruct ∨
    t = .keyword kwError ∨ t = .keyword kwResource

end Verif.Language
