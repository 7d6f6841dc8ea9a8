import Verif.Model.Lexer
import Verif.Model.Reader

/-!
# The parser of the model language: `pkg/language/model_parser.go`

The parser is generated by ANTLR from the grammar `pkg/language/ModelParser.g4`: there is a method for
each rule. The loops and the optional parts look at the next token. Where the alternatives of a rule
start in the same way (`declaration`, `typeDecl`, `typeReference` and `resourceMemberDecl`) the
generated code looks ahead as much as needed to choose one of them. For the first two and the last
one this means looking at the token that follows the annotations, so the functions of this file
parse the annotations first.

When the text doesn't follow the grammar the parser reports an error, tries to recover and goes on.
Simplification: here there is no result in that case. No model is returned when there are errors, so
the tree that the parser builds after an error doesn't matter.
-/

namespace Verif.Language

/-! ## Syntax tree -/

/-- `literal`, pkg/language/ModelParser.g4:203-220: integers and strings have the text of the
source. -/
inductive LiteralTree
  | bool (value : Bool)
  | integer (text : Text)
  | string (text : Text)
deriving DecidableEq, Repr

/-- `annotation` and `annotationParameter`, pkg/language/ModelParser.g4:191-201. -/
structure AnnotationTree where
  name : Text
  parameters : List (Text × LiteralTree) := []
deriving DecidableEq, Repr

/-- `enumMemberDecl`, pkg/language/ModelParser.g4:54-57. The `line` of a node is that of its first
token. -/
structure ValueTree where
  line : Nat
  annotations : List AnnotationTree
  name : Text
deriving DecidableEq, Repr

/-- `structMemberDecl`, pkg/language/ModelParser.g4:73-76. -/
structure MemberTree where
  line : Nat
  annotations : List AnnotationTree
  link : Bool
  name : Text
  ref : TypeExpr
deriving DecidableEq, Repr

/-- `methodParameterDecl`, pkg/language/ModelParser.g4:124-131. -/
structure ParameterTree where
  line : Nat
  annotations : List AnnotationTree
  directions : List Direction
  name : Text
  ref : TypeExpr
  dflt : Option LiteralTree
deriving DecidableEq, Repr

/-- `resourceMemberDecl`, pkg/language/ModelParser.g4:108-143. -/
inductive ResourceMemberTree
  | method (line : Nat) (annotations : List AnnotationTree) (name : Text)
      (parameters : List ParameterTree)
  | locator (line : Nat) (annotations : List AnnotationTree) (name : Text)
      (members : List LocatorMember)
deriving DecidableEq, Repr

/-- The part of a `declaration` that is after the annotations, pkg/language/ModelParser.g4:35-52. -/
inductive BodyTree
  | enum (values : List ValueTree)
  | class (members : List MemberTree)
  | struct (members : List MemberTree)
  | error (codes : List Text)
  | resource (members : List ResourceMemberTree)
deriving DecidableEq, Repr

/-- `declaration`, pkg/language/ModelParser.g4:35-45. -/
structure DeclTree where
  line : Nat
  annotations : List AnnotationTree
  name : Text
  body : BodyTree
deriving DecidableEq, Repr

/-! ## Parser -/

/-- What a method of the parser does: it returns the node and the tokens that it hasn't consumed, or
nothing if it reports an error. -/
abbrev Parser (α : Type) := List Lexeme → Option (α × List Lexeme)

/-- The line of the next token, `ctx.GetStart().GetLine()`. -/
def startLine : List Lexeme → Nat
  | [] => 0
  | l :: _ => l.line

/-- `Match` of the ANTLR runtime. -/
def expect (t : Token) : List Lexeme → Option (List Lexeme)
  | [] => none
  | l :: rest => if l.token = t then some rest else none

/-- The token is the next one. -/
def nextIs (t : Token) : List Lexeme → Bool
  | [] => false
  | l :: _ => l.token = t

/-- An optional keyword, like `'value'?`. -/
def optional (t : Token) (ls : List Lexeme) : List Lexeme :=
  match expect t ls with
  | some rest => rest
  | none => ls

/-- A loop of the parser, which goes on while the next token is one of those that can start an
element. The `fuel` is the maximum number of iterations. -/
def many {α : Type} (starts : Token → Bool) (p : Parser α) : Nat → Parser (List α)
  | _, [] => some ([], [])
  | 0, _ :: _ => none
  | fuel + 1, l :: ls =>
    if starts l.token then
      match p (l :: ls) with
      | none => none
      | some (x, rest) =>
        match many starts p fuel rest with
        | none => none
        | some (xs, rest) => some (x :: xs, rest)
    else some ([], l :: ls)

/-- A loop over the tokens that are left: each iteration consumes at least one. -/
def loop {α : Type} (starts : Token → Bool) (p : Parser α) : Parser (List α) :=
  fun ls => many starts p ls.length ls

/-- `Identifier`, pkg/language/model_parser.go:6440-6473. -/
def identifier : Parser Text
  | { token := .identifier text, .. } :: rest => some (text, rest)
  | _ => none

/-- The token is an identifier. -/
def isIdentifier : Token → Bool
  | .identifier _ => true
  | _ => false

/-- `Literal`, pkg/language/model_parser.go:5963-6016, and the rules of the three kinds of
literals, 6095-6343. -/
def literal : Parser LiteralTree
  | { token := .keyword .kwTrue, .. } :: rest => some (.bool true, rest)
  | { token := .keyword .kwFalse, .. } :: rest => some (.bool false, rest)
  | { token := .integer text, .. } :: rest => some (.integer text, rest)
  | { token := .string text, .. } :: rest => some (.string text, rest)
  | _ => none

/-- `AnnotationParameter`, pkg/language/model_parser.go:5824-5862. -/
def annotationParameter : Parser (Text × LiteralTree) := fun ls =>
  match identifier ls with
  | none => none
  | some (name, ls) =>
    match expect .equalsSign ls with
    | none => none
    | some ls =>
      match literal ls with
      | none => none
      | some (value, ls) => some ((name, value), ls)

/-- `AnnotationParameters`, pkg/language/model_parser.go:5665-5718. -/
def annotationParameters : Parser (List (Text × LiteralTree)) := fun ls =>
  match expect .leftParen ls with
  | none => none
  | some ls =>
    match loop isIdentifier annotationParameter ls with
    | none => none
    | some (parameters, ls) =>
      match expect .rightParen ls with
      | none => none
      | some ls => some (parameters, ls)

/-- `Annotation`, pkg/language/model_parser.go:5481-5533. -/
def annotation : Parser AnnotationTree := fun ls =>
  match expect .atSign ls with
  | none => none
  | some ls =>
    match identifier ls with
    | none => none
    | some (name, ls) =>
      if nextIs .leftParen ls then
        match annotationParameters ls with
        | none => none
        | some (parameters, ls) => some ({ name := name, parameters := parameters }, ls)
      else some ({ name := name }, ls)

/-- The loops of the annotations, for example pkg/language/model_parser.go:928-946. -/
def annotations : Parser (List AnnotationTree) := loop (fun t => t = .atSign) annotation

/-- `TypeReference`, pkg/language/model_parser.go:2249-2308, and the rules of the three kinds of
references, 2400-2746. -/
def typeReference : Parser TypeExpr := fun ls =>
  match ls with
  | { token := .leftSquare, .. } :: { token := .rightSquare, .. } :: ls =>
    match identifier ls with
    | none => none
    | some (element, ls) => some (.list element, ls)
  | { token := .leftSquare, .. } :: ls =>
    match identifier ls with
    | none => none
    | some (index, ls) =>
      match expect .rightSquare ls with
      | none => none
      | some ls =>
        match identifier ls with
        | none => none
        | some (element, ls) => some (.map index element, ls)
  | ls =>
    match identifier ls with
    | none => none
    | some (name, ls) => some (.plain name, ls)

/-- `EnumMemberDecl`, pkg/language/model_parser.go:1127-1190. -/
def enumMember : Parser ValueTree := fun ls =>
  let line := startLine ls
  match annotations ls with
  | none => none
  | some (as, ls) =>
    match identifier (optional (.keyword .kwValue) ls) with
    | none => none
    | some (name, ls) => some ({ line := line, annotations := as, name := name }, ls)

/-- The tokens that start an enum member, pkg/language/model_parser.go:966. -/
def startsEnumMember (t : Token) : Bool :=
  t = .keyword .kwValue || t = .atSign || isIdentifier t

/-- `StructMemberDecl` and `AttributeKind`, pkg/language/model_parser.go:1925-1998 and
2077-2115. -/
def structMember : Parser MemberTree := fun ls =>
  let line := startLine ls
  match annotations ls with
  | none => none
  | some (as, ls) =>
    let link := nextIs (.keyword .kwLink) ls
    let ls := if link then optional (.keyword .kwLink) ls else optional (.keyword .kwAttribute) ls
    match identifier ls with
    | none => none
    | some (name, ls) =>
      match typeReference ls with
      | none => none
      | some (ref, ls) =>
        some ({ line := line, annotations := as, link := link, name := name, ref := ref }, ls)

/-- The tokens that start a member of a class or struct, pkg/language/model_parser.go:1448 and
1726. -/
def startsStructMember (t : Token) : Bool :=
  t = .keyword .kwAttribute || t = .keyword .kwLink || t = .atSign || isIdentifier t

/-- `ParameterDirection`, pkg/language/model_parser.go:3990-4042. -/
def direction : Parser Direction
  | { token := .keyword .kwIn, .. } :: rest => some (.input, rest)
  | { token := .keyword .kwOut, .. } :: rest => some (.output, rest)
  | _ => none

/-- `MethodParameterDecl`, pkg/language/model_parser.go:3794-3900. -/
def methodParameter : Parser ParameterTree := fun ls =>
  let line := startLine ls
  match annotations ls with
  | none => none
  | some (as, ls) =>
    match loop (fun t => t = .keyword .kwIn || t = .keyword .kwOut) direction
        (optional (.keyword .kwParameter) ls) with
    | none => none
    | some (directions, ls) =>
      match identifier ls with
      | none => none
      | some (name, ls) =>
        match typeReference ls with
        | none => none
        | some (ref, ls) =>
          match expect .equalsSign ls with
          | none =>
            some ({ line := line, annotations := as, directions := directions, name := name,
                    ref := ref, dflt := none }, ls)
          | some ls =>
            match literal ls with
            | none => none
            | some (dflt, ls) =>
              some ({ line := line, annotations := as, directions := directions, name := name,
                      ref := ref, dflt := some dflt }, ls)

/-- The tokens that start a parameter of a method, pkg/language/model_parser.go:3425. -/
def startsMethodParameter (t : Token) : Bool :=
  t = .keyword .kwIn || t = .keyword .kwOut || t = .keyword .kwParameter || t = .atSign ||
    isIdentifier t

/-- `LocatorMemberDecl`, `LocatorTargetDecl`, `LocatorVariableDecl` and `ResourceReference`,
pkg/language/model_parser.go:4413-4459, 4555-4592, 4688-4725 and 4817-4850. -/
def locatorMember : Parser LocatorMember
  | { token := .keyword .kwTarget, .. } :: rest =>
    match identifier rest with
    | none => none
    | some (name, rest) => some (.target name, rest)
  | { token := .keyword .kwVariable, .. } :: rest =>
    match identifier rest with
    | none => none
    | some (name, rest) => some (.variableName name, rest)
  | _ => none

/-- The tokens that start a member of a locator, pkg/language/model_parser.go:4302. -/
def startsLocatorMember (t : Token) : Bool := t = .keyword .kwTarget || t = .keyword .kwVariable

/-- The part that all the declarations share: a name and a list of members between curly
brackets. -/
def block {α : Type} (starts : Token → Bool) (p : Parser α) : Parser (Text × List α) := fun ls =>
  match identifier ls with
  | none => none
  | some (name, ls) =>
    match expect .leftCurly ls with
    | none => none
    | some ls =>
      match loop starts p ls with
      | none => none
      | some (members, ls) =>
        match expect .rightCurly ls with
        | none => none
        | some ls => some ((name, members), ls)

/-- `ResourceMemberDecl`, `MethodDecl` and `LocatorDecl`, pkg/language/model_parser.go:3117-3160,
3356-3445 and 4240-4322. -/
def resourceMember : Parser ResourceMemberTree := fun ls =>
  let line := startLine ls
  match annotations ls with
  | none => none
  | some (as, ls) =>
    match expect (.keyword .kwLocator) ls with
    | some ls =>
      match block startsLocatorMember locatorMember ls with
      | none => none
      | some ((name, members), ls) => some (.locator line as name members, ls)
    | none =>
      match block startsMethodParameter methodParameter (optional (.keyword .kwMethod) ls) with
      | none => none
      | some ((name, parameters), ls) => some (.method line as name parameters, ls)

/-- The tokens that start a member of a resource, pkg/language/model_parser.go:3006. -/
def startsResourceMember (t : Token) : Bool :=
  t = .keyword .kwLocator || t = .keyword .kwMethod || t = .atSign || isIdentifier t

/-- `ErrorMemberDecl` and `ErrorCodeDecl`, pkg/language/model_parser.go:5207-5237 and
5327-5364. -/
def errorMember : Parser Text
  | { token := .keyword .kwCode, .. } :: { token := .integer text, .. } :: rest =>
    some (text, rest)
  | _ => none

/-- The rules of the declarations after the annotations: `EnumDecl`, `ClassDecl`, `StructDecl`,
`ErrorDecl` and `ResourceDecl`, pkg/language/model_parser.go:904-986, 1386-1468, 1664-1746,
5044-5126 and 2944-3026. -/
def body : Parser (Text × BodyTree)
  | { token := .keyword .kwEnum, .. } :: ls =>
    match block startsEnumMember enumMember ls with
    | none => none
    | some ((name, values), ls) => some ((name, .enum values), ls)
  | { token := .keyword .kwClass, .. } :: ls =>
    match block startsStructMember structMember ls with
    | none => none
    | some ((name, members), ls) => some ((name, .class members), ls)
  | { token := .keyword .kwStruct, .. } :: ls =>
    match block startsStructMember structMember ls with
    | none => none
    | some ((name, members), ls) => some ((name, .struct members), ls)
  | { token := .keyword .kwError, .. } :: ls =>
    match block (fun t => t = .keyword .kwCode) errorMember ls with
    | none => none
    | some ((name, codes), ls) => some ((name, .error codes), ls)
  | { token := .keyword .kwResource, .. } :: ls =>
    match block startsResourceMember resourceMember ls with
    | none => none
    | some ((name, members), ls) => some ((name, .resource members), ls)
  | _ => none

/-- `Declaration` and `TypeDecl`, pkg/language/model_parser.go:499-542 and 653-710. -/
def declaration : Parser DeclTree := fun ls =>
  let line := startLine ls
  match annotations ls with
  | none => none
  | some (as, ls) =>
    match body ls with
    | none => none
    | some ((name, body), ls) =>
      some ({ line := line, annotations := as, name := name, body := body }, ls)

/-- The tokens that start a declaration, pkg/language/model_parser.go:407. -/
def startsDeclaration (t : Token) : Bool :=
  t = .keyword .kwClass || t = .keyword .kwEnum || t = .keyword .kwError ||
    t = .keyword .kwResource || t = .keyword .kwStruct || t = .atSign

/-- `File`, pkg/language/model_parser.go:378-419. The rule doesn't require the end of the file: it
returns when the next token can't start a declaration. -/
def file : Parser (List DeclTree) := loop startsDeclaration declaration

/-- The lexer and the parser together, pkg/language/reader.go:327-336: the tree of the file, if no
error is reported. The parser gets the tokens from the lexer when it needs them, so the errors of
the part of the text that is after the last token that the parser looks at aren't reported. -/
def parseText (text : Text) : Option (List DeclTree) :=
  match file (scan text).tokens with
  | none => none
  | some (decls, []) => if (scan text).complete then some decls else none
  | some (decls, _ :: _) => some decls

end Verif.Language
