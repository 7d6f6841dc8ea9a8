import Verif.Model.Text

/-!
# Package `names`

Model of `pkg/names`: words, names, rendering, comparison and parsing.
-/

namespace Verif

/-- `names.Word`, pkg/names/words.go:24-27. -/
structure Word where
  text : Text
  initialism : Bool
deriving DecidableEq, Repr

/-- `NewWord`, pkg/names/words.go:30-35. -/
def newWord (text : Text) : Word := { text := text, initialism := false }

/-- `NewInitialism`, pkg/names/words.go:38-43. -/
def newInitialism (text : Text) : Word := { text := text, initialism := true }

/-- `Word.Capitalize`, pkg/names/words.go:58-63. -/
def Word.capitalize (w : Word) : Text := if w.initialism then w.text else title w.text

/-- `Word.Equals`, pkg/names/words.go:66-74, for words that are not nil (the code never
stores nil words). -/
def Word.equals (w v : Word) : Bool := w.text == v.text && w.initialism == v.initialism

/-- `names.Name`, pkg/names/name.go:27-30: the words. The `text` field holds the source text,
is only used for messages and isn't modelled. -/
abbrev Name := List Word

namespace Name

/-- The loop of `Name.Equals`, pkg/names/name.go:82-87 together with the length check of
lines 79-81: all the words must be pairwise equal. -/
def equalsWords : Name → Name → Bool
  | [], [] => true
  | [], _ :: _ => false
  | _ :: _, [] => false
  | w :: ws, v :: vs => if !w.equals v then false else equalsWords ws vs

/-- `Name.Equals`, pkg/names/name.go:72-88; `none` is the nil pointer. -/
def equals (a b : Option Name) : Bool :=
  match a, b with
  | none, none => true
  | none, some _ => false
  | some _, none => false
  | some a, some b => equalsWords a b

/-- `Name.LowerJoined`, pkg/names/name.go:92-98. -/
def lowerJoined (sep : Text) (n : Name) : Text := joinText sep (n.map fun w => toLower w.text)

/-- `Name.UpperJoined`, pkg/names/name.go:102-108. -/
def upperJoined (sep : Text) (n : Name) : Text := joinText sep (n.map fun w => toUpper w.text)

/-- `Name.CapitalizedJoined`, pkg/names/name.go:112-118. -/
def capitalizedJoined (sep : Text) (n : Name) : Text := joinText sep (n.map Word.capitalize)

/-- `Name.String`, pkg/names/name.go:122-128. -/
def toText (n : Name) : Text := joinText t!"_" (n.map Word.text)

/-- `Name.Snake`, pkg/names/name.go:131-133. -/
def snake (n : Name) : Text := n.lowerJoined t!"_"

/-- `Name.Camel`, pkg/names/name.go:136-138. -/
def camel (n : Name) : Text := n.capitalizedJoined []

/-- `Compare`, pkg/names/name.go:141-165. The loop over the common length followed by the
comparison of lengths, written as one recursion. -/
def compare : Name → Name → Int
  | [], [] => 0
  | [], _ :: _ => -1
  | _ :: _, [] => 1
  | w :: ws, v :: vs =>
    if compareText w.text v.text != 0 then compareText w.text v.text else compare ws vs

/-- `Names.Less`, pkg/names/name.go:199-201. -/
def less (a b : Name) : Bool := compare a b == -1

/-- `Cat`, pkg/names/name.go:168-183. -/
def cat (ns : List Name) : Name := ns.flatten

end Name

/-- `isLower`, pkg/names/case.go:26-33. -/
def isLowerText (t : Text) : Bool := t.all Char.isLower

/-- `isUpper`, pkg/names/case.go:36-43. -/
def isUpperText (t : Text) : Bool := t.all fun c => c.isUpper || c.isDigit

/-- `ParseUsingSeparator`, pkg/names/parser.go:30-39, for separators of one character. -/
def parseUsingSeparator (text : Text) (sep : Char) : Name := (splitOn sep text).map newWord

/-- The first loop of `ParseUsingCase`, pkg/names/parser.go:55-68: `buf` is the content of the
buffer and the argument is the rest of the runes. -/
def splitCase (buf : Text) : Text → List Text
  | [] => [buf]
  | [r] => [buf ++ [r]]
  | current :: next :: rest =>
    if current.isLower != next.isLower then
      (buf ++ [current]) :: splitCase [] (next :: rest)
    else
      splitCase (buf ++ [current]) (next :: rest)

/-- Split of the text at case transitions, pkg/names/parser.go:51-71. -/
def caseChunks (text : Text) : List Text :=
  if text.length > 1 then splitCase [] text else [text]

/-- `parseWord`, pkg/names/parser.go:135-140. -/
def parseWord (text : Text) : Word :=
  if text.length ≥ 2 && isUpperText text then newInitialism text else newWord (toLower text)

/-- The loop that processes the chunks, pkg/names/parser.go:77-122. The list argument is
`chunks[i:]`. The second `text` argument is the complete text: the default case of line 113
passes it, instead of the current chunk, to `parseWord`. -/
def parseChunks (text : Text) : List Text → List Word
  | [] => []
  | [chunk] => [parseWord chunk]
  | current :: next :: rest =>
    if current.length == 1 && isUpperText current && isLowerText next then
      newWord (toLower current ++ next) :: parseChunks text rest
    else if current.length ≥ 2 && isUpperText current && next == t!"s" then
      newInitialism (current ++ t!"s") :: parseChunks text rest
    else if isUpperText current && isLowerText next then
      newInitialism current.dropLast ::
        newWord (toLower (current.drop (current.length - 1)) ++ next) :: parseChunks text rest
    else
      parseWord text :: parseChunks text (next :: rest)

/-- `ParseUsingCase`, pkg/names/parser.go:43-132. -/
def parseUsingCase (text : Text) : Name :=
  let chunks := caseChunks text
  if chunks.length > 1 then parseChunks text chunks else [parseWord text]

end Verif
