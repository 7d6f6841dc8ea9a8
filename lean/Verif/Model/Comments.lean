import Verif.Model.Text
import Verif.Model.Resources

/-!
# Documentation comments: `getDoc` of `pkg/language/reader.go`

The lexer stores the text of each line comment in a map, by line number, and the reader extracts
from that map the comments that are right before the first token of a declaration. This happens
when the walker leaves the node of the declaration, so the comments of the members of a declaration
are extracted before those of the declaration itself.
-/

namespace Verif

/-- The global variable `comments`, pkg/language/reader.go:1061, a Go `map[int]string`. It is filled
by the lexer, pkg/language/ModelLexer.g4:24-26 and 86-88, and emptied when a file starts to be
loaded, pkg/language/reader.go:308. -/
abbrev CommentMap := List (Nat × Text)

namespace CommentMap

/-- `comments[index]`. -/
def find (m : CommentMap) (index : Nat) : Option Text :=
  match m with
  | [] => none
  | (i, text) :: rest => if i = index then some text else find rest index

/-- `delete(comments, index)`. -/
def delete (m : CommentMap) (index : Nat) : CommentMap := m.filter fun e => e.1 ≠ index

/-- `comments[line] = text`, pkg/language/ModelLexer.g4:25. -/
def add (m : CommentMap) (line : Nat) (text : Text) : CommentMap := (line, text) :: m.delete line

end CommentMap

/-- `unicode.IsSpace` (Go standard library). -/
def isUnicodeSpace (c : Char) : Bool :=
  c = '\t' || c = '\n' || c.toNat = 0x0B || c.toNat = 0x0C || c = '\r' || c = ' ' ||
  c.toNat = 0x85 || c.toNat = 0xA0 || c.toNat = 0x1680 ||
  (0x2000 ≤ c.toNat && c.toNat ≤ 0x200A) || c.toNat = 0x2028 || c.toNat = 0x2029 ||
  c.toNat = 0x202F || c.toNat = 0x205F || c.toNat = 0x3000

/-- The first loop of `getDoc`, pkg/language/reader.go:1066-1075: the argument is one more than the
`index` of the loop. -/
def takeComments (m : CommentMap) (lines : List Text) : Nat → CommentMap × List Text
  | 0 => (m, lines)
  | index + 1 =>
    match m.find index with
    | none => (m, lines)
    | some line => takeComments (m.delete index) (line :: lines) index

/-- The second loop of `getDoc`, pkg/language/reader.go:1077-1089: nothing if some line doesn't
start with the comment mark. -/
def removeMarks : List Text → Option (List Text)
  | [] => some []
  | line :: lines =>
    match line with
    | '/' :: '/' :: rest => (removeMarks lines).map fun lines => rest :: lines
    | _ => none

/-- `strings.HasPrefix` and `strings.TrimPrefix` (Go standard library): the text without the prefix,
or nothing if it doesn't have it. -/
def cutPrefix : Text → Text → Option Text
  | text, [] => some text
  | [], _ :: _ => none
  | c :: text, p :: prefix' => if c = p then cutPrefix text prefix' else none

/-- The third loop of `getDoc`, pkg/language/reader.go:1098-1112: nothing if some line that isn't
empty doesn't start with the prefix of the first line. -/
def removePrefix (indent : Text) : List Text → Option (List Text)
  | [] => some []
  | line :: lines =>
    if line ≠ [] then
      match cutPrefix line indent with
      | none => none
      | some rest => (removePrefix indent lines).map fun lines => rest :: lines
    else (removePrefix indent lines).map fun lines => line :: lines

/-- The result of `getDoc`: the text, or an empty text after the given number of errors have been
reported. -/
inductive DocResult
  | text (doc : Text)
  | errors (n : Nat)
deriving DecidableEq, Repr

/-- The second part of `getDoc`, pkg/language/reader.go:1077-1116. The slice expression of line 1097
panics if the index is -1, which happens when all the characters of the first line are white
space. -/
def formatDoc (lines : List Text) : Run DocResult :=
  match removeMarks lines with
  | none => .done (.errors 2)
  | some [] => .done (.text [])
  | some (first :: rest) =>
    if first.all isUnicodeSpace then .panic
    else
      match removePrefix (first.takeWhile isUnicodeSpace) (first :: rest) with
      | none => .done (.errors 3)
      | some lines => .done (.text (joinText t!"\n" lines))

/-- `getDoc`, pkg/language/reader.go:1064-1117, for a token in the given line. -/
def getDoc (m : CommentMap) (line : Nat) : CommentMap × Run DocResult :=
  let (m, lines) := takeComments m [] line
  (m, formatDoc lines)

end Verif
