import Verif.Model.Lexer

/-!
# Specification of the lexer

The rules of `pkg/language/ModelLexer.g4`, each one with the texts that match it, and how ANTLR
chooses between them. Only the types of tokens of the model are used here, not its functions.
-/

namespace Verif.Language

open Keyword

/-- The rules of the lexer. Some rules are for one fixed text, and the rest have an infinite number
of texts. -/
inductive Rule
  | fixed (t : Token)
  | integer
  | string
  | identifier
  | lineComment
  | blockComment
  | white
deriving DecidableEq

/-- The texts of the keywords, punctuation and operators. -/
def spelling : Token → Option Text
  | .keyword kwAttribute => some t!"attribute"
  | .keyword kwClass => some t!"class"
  | .keyword kwCode => some t!"code"
  | .keyword kwEnum => some t!"enum"
  | .keyword kwError => some t!"error"
  | .keyword kwFalse => some t!"false"
  | .keyword kwIn => some t!"in"
  | .keyword kwLink => some t!"link"
  | .keyword kwLocator => some t!"locator"
  | .keyword kwMethod => some t!"method"
  | .keyword kwOut => some t!"out"
  | .keyword kwParameter => some t!"parameter"
  | .keyword kwResource => some t!"resource"
  | .keyword kwStruct => some t!"struct"
  | .keyword kwTarget => some t!"target"
  | .keyword kwTrue => some t!"true"
  | .keyword kwValue => some t!"value"
  | .keyword kwVariable => some t!"variable"
  | .atSign => some t!"@"
  | .leftCurly => some t!"{"
  | .rightCurly => some t!"}"
  | .leftSquare => some t!"["
  | .rightSquare => some t!"]"
  | .leftParen => some t!"("
  | .rightParen => some t!")"
  | .equalsSign => some t!"="
  | .integer _ | .string _ | .identifier _ => none

/-- A digit. -/
def Digit (c : Char) : Prop := c ∈ t!"0123456789"

/-- A character that can be the first one of a name. -/
def NameStart (c : Char) : Prop :=
  c ∈ t!"abcdefghijklmnopqrstuvwxyzABCDEFGHIJKLMNOPQRSTUVWXYZ_"

/-- A character of a name. -/
def NameChar (c : Char) : Prop := NameStart c ∨ Digit c

/-- A character that separates tokens. -/
def White (c : Char) : Prop := c = ' ' ∨ c = '\t' ∨ c = '\r' ∨ c = '\n'

/-- A sequence of letters, digits and underscores that doesn't start with a digit. -/
def Word (text : Text) : Prop := ∃ c cs, text = c :: cs ∧ NameStart c ∧ ∀ d ∈ cs, NameChar d

/-- A quoted string: quotes can't be inside of it. -/
def Quoted (quote : Char) (text : Text) : Prop := ∃ content, text = quote :: (content ++ [quote]) ∧ quote ∉ content

/-- The text contains the end of a block comment. -/
def ClosesComment (text : Text) : Prop := ∃ a b, text = a ++ t!"*/" ++ b

/-- The texts of each rule. The rules that use `.*?` take the shortest text. -/
def Matches : Rule → Text → Prop
  | .fixed t, text => spelling t = some text
  | .integer, text => text ≠ [] ∧ ∀ c ∈ text, Digit c
  | .string, text => Quoted '"' text ∨ Quoted '`' text
  | .identifier, text => Word text
  | .lineComment, text => ∃ content, text = t!"//" ++ content ∧ '\r' ∉ content ∧ '\n' ∉ content
  | .blockComment, text =>
    ∃ content, text = t!"/*" ++ content ++ t!"*/" ∧ ¬ ClosesComment (content ++ t!"*")
  | .white, text => text ≠ [] ∧ ∀ c ∈ text, White c

/-- The position of each rule in the grammar. The rules for fixed texts are the first ones, and two of
them never match the same text. -/
def position : Rule → Nat
  | .fixed _ => 0
  | .integer => 1
  | .string => 2
  | .identifier => 3
  | .lineComment => 4
  | .blockComment => 5
  | .white => 6

/-- What ANTLR takes at the start of the text: the longest text that matches some rule, and the first
of the rules that match it. -/
structure IsNext (text : Text) (rule : Rule) (taken rest : Text) : Prop where
  split : text = taken ++ rest
  nonempty : taken ≠ []
  hit : Matches rule taken
  longest : ∀ other taken' rest', text = taken' ++ rest' → Matches other taken' →
    taken'.length ≤ taken.length
  first : ∀ other, Matches other taken → position rule ≤ position other

/-- What each rule does with its text. -/
def actionOf : Rule → Text → Action
  | .fixed t, _ => .token t
  | .integer, text => .token (.integer text)
  | .string, text => .token (.string text)
  | .identifier, text => .token (.identifier text)
  | .lineComment, _ => .comment
  | .blockComment, _ => .skip
  | .white, _ => .skip

/-- The number of line breaks of a text. -/
def breaks (text : Text) : Nat := (text.filter fun c => c = '\n').length

/-- The result of dividing a text that starts in the given line: the tokens, with their lines, the
comments, with their lines, and whether the end of the text is reached. If at some point no rule
matches then it isn't. -/
inductive Scans : Nat → Text → List Lexeme → List (Nat × Text) → Bool → Prop
  | done (line : Nat) : Scans line [] [] [] true
  | stuck (line : Nat) (text : Text) : text ≠ [] → (∀ rule taken rest, ¬ IsNext text rule taken rest) →
      Scans line text [] [] false
  | token (line : Nat) (text taken rest : Text) (rule : Rule) (t : Token)
      (ts : List Lexeme) (cs : List (Nat × Text)) (complete : Bool) :
      IsNext text rule taken rest → actionOf rule taken = .token t →
      Scans (line + breaks taken) rest ts cs complete →
      Scans line text (⟨t, line⟩ :: ts) cs complete
  | comment (line : Nat) (text taken rest : Text) (rule : Rule)
      (ts : List Lexeme) (cs : List (Nat × Text)) (complete : Bool) :
      IsNext text rule taken rest → actionOf rule taken = .comment →
      Scans (line + breaks taken) rest ts cs complete →
      Scans line text ts ((line, taken) :: cs) complete
  | skip (line : Nat) (text taken rest : Text) (rule : Rule)
      (ts : List Lexeme) (cs : List (Nat × Text)) (complete : Bool) :
      IsNext text rule taken rest → actionOf rule taken = .skip →
      Scans (line + breaks taken) rest ts cs complete →
      Scans line text ts cs complete

/-! ## Texts written with separators -/

/-- Blanks and comments. -/
inductive Layout : Text → Prop
  | nil : Layout []
  | white (c : Char) (rest : Text) : White c → Layout rest → Layout (c :: rest)
  | line (content rest : Text) (c : Char) : '\r' ∉ content → '\n' ∉ content → c = '\r' ∨ c = '\n' →
      Layout rest → Layout (t!"//" ++ content ++ c :: rest)
  | block (content rest : Text) : ¬ ClosesComment (content ++ t!"*") → Layout rest →
      Layout (t!"/*" ++ content ++ t!"*/" ++ rest)

/-- The text of a token. -/
def WrittenAs (t : Token) (text : Text) : Prop :=
  match t with
  | .integer digits => text = digits ∧ digits ≠ [] ∧ ∀ c ∈ digits, Digit c
  | .string quoted => text = quoted ∧ (Quoted '"' quoted ∨ Quoted '`' quoted)
  | .identifier word => text = word ∧ Word word ∧ ∀ k, spelling (.keyword k) ≠ some word
  | t => spelling t = some text

/-- The characters that can't be right after a token, because they would be part of it. -/
def Continues : Token → Char → Prop
  | .integer _, c => Digit c
  | .identifier _, c => NameChar c
  | .keyword _, c => NameChar c
  | _, _ => False

/-- The text has the given tokens in the given lines, with any layout before, between and after
them. If the text ends with a line comment then that comment doesn't need a line break. -/
inductive Written : Nat → List Lexeme → Text → Prop
  | done (line : Nat) (layout : Text) : Layout (layout ++ t!"\n") → Written line [] layout
  | token (line : Nat) (layout text rest : Text) (t : Token) (ts : List Lexeme) :
      Layout layout → WrittenAs t text → (∀ c cs, rest = c :: cs → ¬ Continues t c) →
      Written (line + breaks layout + breaks text) ts rest →
      Written line (⟨t, line + breaks layout⟩ :: ts) (layout ++ text ++ rest)

end Verif.Language
