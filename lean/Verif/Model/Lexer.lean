import Verif.Model.Comments

/-!
# The lexer of the model language: `pkg/language/ModelLexer.g4`

The lexer is generated by ANTLR from the grammar (pkg/language/model_lexer.go). At each position the
generated code takes the longest text that matches some rule, and if there are several rules that
match that text then it takes the first one. The loops `.*?` of the grammar stop as soon as what
follows them matches. If no rule matches an error is reported.

The functions of this file do that directly, looking at the first characters of the text: the rules
that start with the same character are only those of words (keywords and identifiers) and those of
comments.
-/

namespace Verif.Language

/-- The keywords, pkg/language/ModelLexer.g4:30-47. -/
inductive Keyword
  | kwAttribute | kwClass | kwCode | kwEnum | kwError | kwFalse | kwIn | kwLink | kwLocator
  | kwMethod | kwOut | kwParameter | kwResource | kwStruct | kwTarget | kwTrue | kwValue
  | kwVariable
deriving DecidableEq, Repr

open Keyword

/-- The tokens that the parser receives, pkg/language/ModelLexer.g4:29-83. Integers and strings have
the text of the source. -/
inductive Token
  | keyword (k : Keyword)
  | atSign | leftCurly | rightCurly | leftSquare | rightSquare | leftParen | rightParen
  | equalsSign
  | integer (text : Text)
  | string (text : Text)
  | identifier (text : Text)
deriving DecidableEq, Repr

/-- The keyword with the given text, pkg/language/ModelLexer.g4:30-47. -/
def keywordOf (word : Text) : Option Keyword :=
  if word = t!"attribute" then some kwAttribute
  else if word = t!"class" then some kwClass
  else if word = t!"code" then some kwCode
  else if word = t!"enum" then some kwEnum
  else if word = t!"error" then some kwError
  else if word = t!"false" then some kwFalse
  else if word = t!"in" then some kwIn
  else if word = t!"link" then some kwLink
  else if word = t!"locator" then some kwLocator
  else if word = t!"method" then some kwMethod
  else if word = t!"out" then some kwOut
  else if word = t!"parameter" then some kwParameter
  else if word = t!"resource" then some kwResource
  else if word = t!"struct" then some kwStruct
  else if word = t!"target" then some kwTarget
  else if word = t!"true" then some kwTrue
  else if word = t!"value" then some kwValue
  else if word = t!"variable" then some kwVariable
  else none

/-- The characters that can start an identifier, pkg/language/ModelLexer.g4:82. -/
def isWordStart (c : Char) : Bool :=
  ('a' ≤ c && c ≤ 'z') || ('A' ≤ c && c ≤ 'Z') || c = '_'

/-- The characters that can continue an identifier, pkg/language/ModelLexer.g4:82. -/
def isWordChar (c : Char) : Bool := isWordStart c || ('0' ≤ c && c ≤ '9')

/-- The digits of integers, pkg/language/ModelLexer.g4:63. -/
def isDigitChar (c : Char) : Bool := '0' ≤ c && c ≤ '9'

/-- The characters of the rule `WS`, pkg/language/ModelLexer.g4:95. -/
def isBlankChar (c : Char) : Bool := c = ' ' || c = '\t' || c = '\r' || c = '\n'

/-- The characters that don't end a line comment, pkg/language/ModelLexer.g4:87. -/
def inLineComment (c : Char) : Bool := !(c = '\r' || c = '\n')

/-- `.*?` followed by the given character, in the rules of strings, pkg/language/ModelLexer.g4:72-78:
the text that matches and the rest. -/
def upTo (close : Char) : Text → Option (Text × Text)
  | [] => none
  | c :: cs =>
    if c = close then some ([c], cs)
    else (upTo close cs).map fun r => (c :: r.1, r.2)

/-- `.*?` followed by the end of a block comment, pkg/language/ModelLexer.g4:91. -/
def upToCommentEnd : Text → Option (Text × Text)
  | [] => none
  | [_] => none
  | c :: d :: cs =>
    if c = '*' ∧ d = '/' then some (['*', '/'], cs)
    else (upToCommentEnd (d :: cs)).map fun r => (c :: r.1, r.2)

/-- What a rule of the lexer does with the text that it matches. -/
inductive Action
  | token (t : Token)
  | comment
  | skip
deriving DecidableEq, Repr

/-- The longest prefix with characters of the given class, and the rest. -/
def spanChars (p : Char → Bool) (text : Text) : Text × Text := (text.takeWhile p, text.dropWhile p)

/-- `NextToken` of the lexer: the action of the rule that matches, the text that matches and the
rest of the text. There is no result if no rule matches, or if the text is empty. -/
def next : Text → Option (Action × Text × Text)
  | [] => none
  | c :: cs =>
    if c = '@' then some (.token .atSign, [c], cs)
    else if c = '{' then some (.token .leftCurly, [c], cs)
    else if c = '}' then some (.token .rightCurly, [c], cs)
    else if c = '[' then some (.token .leftSquare, [c], cs)
    else if c = ']' then some (.token .rightSquare, [c], cs)
    else if c = '(' then some (.token .leftParen, [c], cs)
    else if c = ')' then some (.token .rightParen, [c], cs)
    else if c = '=' then some (.token .equalsSign, [c], cs)
    else if c = '"' || c = '`' then
      (upTo c cs).map fun r => (.token (.string (c :: r.1)), c :: r.1, r.2)
    else if c = '/' then
      match cs with
      | [] => none
      | d :: ds =>
        if d = '/' then
          let (body, rest) := spanChars inLineComment ds
          some (.comment, c :: d :: body, rest)
        else if d = '*' then (upToCommentEnd ds).map fun r => (.skip, c :: d :: r.1, r.2)
        else none
    else if isDigitChar c then
      let (body, rest) := spanChars isDigitChar cs
      some (.token (.integer (c :: body)), c :: body, rest)
    else if isWordStart c then
      let (body, rest) := spanChars isWordChar cs
      match keywordOf (c :: body) with
      | some k => some (.token (.keyword k), c :: body, rest)
      | none => some (.token (.identifier (c :: body)), c :: body, rest)
    else if isBlankChar c then
      let (body, rest) := spanChars isBlankChar cs
      some (.skip, c :: body, rest)
    else none

/-- A token and the line where it starts, `Token.GetLine` of the ANTLR runtime. -/
structure Lexeme where
  token : Token
  line : Nat
deriving DecidableEq, Repr

/-- The result of the lexer: the tokens before the first error, the line comments in the order in
which they are found, with their lines, and whether the end of the text has been reached without
errors. -/
structure Scan where
  tokens : List Lexeme
  comments : List (Nat × Text)
  complete : Bool
deriving DecidableEq, Repr

/-- The number of line breaks: the ANTLR runtime counts the characters `\n` that it consumes. -/
def lineBreaks (text : Text) : Nat := text.count '\n'

/-- The loop that gets the tokens. Simplification: it stops at the first error. The tokens that the
lexer produces after an error don't matter because no model is returned if there is any error. The
`fuel` is the maximum number of steps. -/
def scanFrom : Nat → Nat → Text → Scan
  | 0, _, _ => { tokens := [], comments := [], complete := false }
  | _ + 1, _, [] => { tokens := [], comments := [], complete := true }
  | fuel + 1, line, c :: cs =>
    match next (c :: cs) with
    | none => { tokens := [], comments := [], complete := false }
    | some (action, text, rest) =>
      let scan := scanFrom fuel (line + lineBreaks text) rest
      match action with
      | .token t => { scan with tokens := { token := t, line := line } :: scan.tokens }
      | .comment => { scan with comments := (line, text) :: scan.comments }
      | .skip => scan

/-- The lexer for a file, which starts in line 1. Each step consumes at least one character. -/
def scan (text : Text) : Scan := scanFrom (text.length + 1) 1 text

/-- The global map of comments after the lexer has processed a file, pkg/language/ModelLexer.g4:24-26
and pkg/language/reader.go:308. Simplification: the parser requests tokens while it needs them, so
comments that are after the last token that it looks at aren't stored; `getDoc` never looks for
them. -/
def commentsOf (s : Scan) : CommentMap :=
  s.comments.foldl (fun m c => CommentMap.add m c.1 c.2) []

end Verif.Language
