import Verif.Model.Names

/-! Specifications about names, independent of the parser. -/

namespace Verif

/-- All the characters are ASCII letters or digits. -/
def Alphanumeric (t : Text) : Prop := ∀ c ∈ t, c.isAlphanum = true

/-- The identifiers that the lexer accepts: pkg/language/ModelLexer.g4, `IDENTIFIER`. -/
def isIdentifier : Text → Bool
  | [] => false
  | c :: cs => (c.isAlpha || c == '_') && cs.all fun c => c.isAlphanum || c == '_'

/-- The first character exists and isn't a lower case letter. -/
def StartsNotLower : Text → Prop
  | [] => False
  | c :: _ => c.isLower = false

/-- The words of the name, joined, spell the text, ignoring case. -/
def Spells (n : Name) (t : Text) : Prop :=
  (n.map fun w => toLower w.text).flatten = toLower t

/-- An ordinary word: a lower case letter or digit followed by lower case letters. -/
def Word.Plain (w : Word) : Prop :=
  w.initialism = false ∧ ∃ c cs, w.text = c :: cs ∧
    (c.isLower = true ∨ c.isDigit = true) ∧ ∀ x ∈ cs, x.isLower = true

/-- An initialism made only of upper case letters and digits, like `CPU`. -/
def Word.Acronym (w : Word) : Prop :=
  w.initialism = true ∧ w.text ≠ [] ∧ ∀ x ∈ w.text, (x.isUpper || x.isDigit) = true

/-- The plural of an initialism of two or more characters, like `CPUs`. -/
def Word.Plural (w : Word) : Prop :=
  w.initialism = true ∧ ∃ u, w.text = u ++ ['s'] ∧ 2 ≤ u.length ∧
    ∀ x ∈ u, (x.isUpper || x.isDigit) = true

/-- Canonical names: those that camel case can represent. Words of one character are
possible only at the end; an initialism must be followed by an ordinary word (of two or more
characters, and not one like `as` that would look like a plural). -/
def Canonical : Name → Prop
  | [] => False
  | [w] => w.Plain ∨ (w.Acronym ∧ 2 ≤ w.text.length) ∨ w.Plural
  | w :: v :: rest =>
    Canonical (v :: rest) ∧
      ((w.Plain ∧ 2 ≤ w.text.length) ∨ w.Plural ∨
        (w.Acronym ∧ v.Plain ∧ 2 ≤ v.text.length ∧ v.text.tail ≠ ['s']))

end Verif
