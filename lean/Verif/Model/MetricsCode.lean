import Verif.Model.TypesCode
import Verif.Model.Resources

/-!
# The text of the metrics support

The tree of paths is written as a JSON document inside a Go string. The encoder of the standard library, `encoding/json`,
is modelled for the values that are used: `nil` and maps of texts to values.
-/

namespace Verif.MetricsCode

open GoTemplate GoFile

/-- A hexadecimal digit. -/
def hexDigit (n : Nat) : Char := if n < 10 then Char.ofNat (48 + n) else Char.ofNat (87 + n)

/-- An escape sequence with four hexadecimal digits. -/
def escape4 (n : Nat) : Text :=
  [ '\\', 'u', hexDigit (n / 4096 % 16), hexDigit (n / 256 % 16), hexDigit (n / 16 % 16), hexDigit (n % 16)]

/-- How a character is written inside a text (Go standard library, `encoding/json`): the characters that are special
in HTML are escaped too. Newer versions of Go use shorter sequences for two of the control characters. -/
def escapeChar (c : Char) : Text :=
  if c = '"' then ['\\', '"']
  else if c = '\\' then ['\\', '\\']
  else if c = '\n' then ['\\', 'n']
  else if c = '\r' then ['\\', 'r']
  else if c = '\t' then ['\\', 't']
  else if c.toNat < 32 ∨ c = '<' ∨ c = '>' ∨ c = '&' ∨ c.toNat = 0x2028 ∨ c.toNat = 0x2029 then escape4 c.toNat
  else [c]

/-- A text (Go standard library, `encoding/json`). -/
def encodeText (t : Text) : Text := '"' :: (t.flatMap escapeChar ++ ['"'])

/-- Adds an entry to a list of entries that is sorted. -/
def insertSorted (e : Text × PathTree) : List (Text × PathTree) → List (Text × PathTree)
  | [] => [e]
  | x :: xs => if x.1 < e.1 then x :: insertSorted e xs else e :: x :: xs

mutual
/-- The tree with the entries of all the maps sorted: the encoder of maps sorts the keys (Go standard library,
`encoding/json`). -/
def sortTree : PathTree → PathTree
  | .none => .none
  | .branch children => .branch (sortEntries children)
/-- The same for the entries of a map. -/
def sortEntries : List (Text × PathTree) → List (Text × PathTree)
  | [] => []
  | (label, t) :: rest => insertSorted (label, sortTree t) (sortEntries rest)
end

/-- The indentation of a line: two spaces for each level. -/
def indent (depth : Nat) : Text := List.replicate (2 * depth) ' '

mutual
/-- A value, without the newline at the end (Go standard library, `Encoder.Encode` with `SetIndent("", "  ")`). -/
def encodeTree (depth : Nat) : PathTree → Text
  | .none => t!"null"
  | .branch [] => t!"{}"
  | .branch (e :: rest) =>
    t!"{\n" ++ encodeEntries (depth + 1) (e :: rest) ++ t!"\n" ++ indent depth ++ t!"}"
/-- The entries of a map. -/
def encodeEntries (depth : Nat) : List (Text × PathTree) → Text
  | [] => []
  | (label, t) :: rest =>
    indent depth ++ encodeText label ++ t!": " ++ encodeTree depth t ++
      (if rest.isEmpty then [] else t!",\n" ++ encodeEntries depth rest)
end

/-- The JSON document, pkg/generators/golang/metrics_generator.go:168-178. -/
def document (t : PathTree) : Text := encodeTree 0 (sortTree t) ++ t!"\n"

/-- The template, pkg/generators/golang/metrics_generator.go:181-185. -/
def metricsTemplate : Text :=
  List.flatten [
    t!"\n",
    t!"\t\t// pathTreeData is the JSON representation of the tree of URL paths.\n",
    t!"\t\tvar pathTreeData = {{ backtick }}{{ .Data }}{{ backtick }}\n",
    t!"\t\t"]

/-- What the template can use: the arguments are texts, and the only function used is `backtick`,
pkg/generators/golang/buffer.go:481-483. -/
def metricsEnv : Env Text :=
  { member := fun _ _ => none
    shown := fun _ => none
    functions := fun name =>
      if name = t!"backtick" then
        some fun
          | [] => some (.text t!"`", [])
          | _ => none
      else none
    inject := .text }

/-- The file written by `Run`, pkg/generators/golang/metrics_generator.go:135-190, given the import path of the package,
the tree, and the errors reported before. There are no imports. -/
def metricsFile (pkg : Text) (tree : PathTree) (errors : Nat) : Option Text × Bool :=
  (Buffer.emit metricsEnv { pkg := pkg, errors := errors } metricsTemplate [(t!"Data", document tree)]).write []

end Verif.MetricsCode
