/-!
# Texts

Go strings are modelled as lists of characters. The functions of this file model the
functions of the Go standard library (`strings`, `unicode`) that the code uses, for ASCII
text: identifiers of the model language are ASCII (`pkg/language/ModelLexer.g4`,
`IDENTIFIER: [a-zA-Z_][a-zA-Z0-9_]*`). `strings.Compare` compares bytes; for UTF-8 this is
the order of code points, so that one is exact for every text.
-/

namespace Verif

/-- A Go string. -/
abbrev Text := List Char

/-- `t!"abc"` is the text with those characters, as an explicit list. -/
syntax:max "t!" str : term

macro_rules
  | `(t! $s:str) => do
    let cs := s.getString.toList.toArray.map fun c => Lean.Syntax.mkCharLit c
    `(([$cs,*] : List Char))

/-- `strings.ToLower` (Go standard library), ASCII. -/
def toLower (t : Text) : Text := t.map Char.toLower

/-- `strings.ToUpper` (Go standard library), ASCII. -/
def toUpper (t : Text) : Text := t.map Char.toUpper

/-- The ASCII part of `isSeparator` in Go's `strings` package, used by `strings.Title`:
letters, digits and underscore are not separators, any other ASCII character is. -/
def isTitleSeparator (c : Char) : Bool := !(c.isAlphanum || c == '_')

/-- The loop of `strings.Title`: characters that follow a separator are converted to
title case, starting with a blank as previous character. -/
def titleFrom (prev : Char) : Text → Text
  | [] => []
  | c :: cs => (if isTitleSeparator prev then c.toUpper else c) :: titleFrom c cs

/-- `strings.Title` (Go standard library), ASCII. -/
def title (t : Text) : Text := titleFrom ' ' t

/-- `strings.Join` (Go standard library). -/
def joinText (sep : Text) : List Text → Text
  | [] => []
  | [t] => t
  | t :: ts => t ++ sep ++ joinText sep ts

/-- `strings.Compare` (Go standard library): lexicographical three way comparison. -/
def compareText : Text → Text → Int
  | [], [] => 0
  | [], _ :: _ => -1
  | _ :: _, [] => 1
  | a :: as, b :: bs =>
    if a.toNat < b.toNat then -1 else if b.toNat < a.toNat then 1 else compareText as bs

/-- `strings.Split` (Go standard library) for a separator of one character, which is how the
code uses it (`"_"` for names, `"/"` for paths, `"\n"` for lines). -/
def splitOn (sep : Char) : Text → List Text
  | [] => [[]]
  | c :: cs =>
    if c = sep then [] :: splitOn sep cs
    else match splitOn sep cs with
      | [] => [[c]]
      | w :: ws => (c :: w) :: ws

end Verif
