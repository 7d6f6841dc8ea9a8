import Verif.Model.Resources

/-!
# Reading the file of the metrics support

What a JSON document says, character by character, and what the value of a Go raw string is.
-/

namespace Verif.MetricsCode

/-! ## JSON documents -/

/-- The value of a hexadecimal digit. -/
def digitValue (c : Char) : Option Nat :=
  if '0' ≤ c ∧ c ≤ '9' then some (c.toNat - 48)
  else if 'a' ≤ c ∧ c ≤ 'f' then some (c.toNat - 87)
  else if 'A' ≤ c ∧ c ≤ 'F' then some (c.toNat - 55)
  else none

/-- The character with that code: none for the halves of surrogate pairs. -/
def charOf (n : Nat) : Option Char := if h : n.isValidChar then some (Char.ofNatAux n h) else none

/-- A text, after the quotes: its content and what follows the quotes that close it. -/
def readText : Text → Option (Text × Text)
  | [] => none
  | '"' :: rest => some ([], rest)
  | '\\' :: 'u' :: a :: b :: c :: d :: rest =>
    match digitValue a, digitValue b, digitValue c, digitValue d with
    | some a, some b, some c, some d =>
      match charOf (a * 4096 + b * 256 + c * 16 + d) with
      | some x => (readText rest).map fun r => (x :: r.1, r.2)
      | none => none
    | _, _, _, _ => none
  | '\\' :: c :: rest =>
    match [('"', '"'), ('\\', '\\'), ('/', '/'), ('b', '\x08'), ('f', '\x0c'), ('n', '\n'), ('r', '\r'),
        ('t', '\t')].lookup c with
    | some x => (readText rest).map fun r => (x :: r.1, r.2)
    | none => none
  | ['\\'] => none
  | c :: rest => if c.toNat < 32 then none else (readText rest).map fun r => (c :: r.1, r.2)

/-- The document without the blanks that it starts with. -/
def skipBlanks : Text → Text
  | [] => []
  | c :: rest => if c = ' ' ∨ c = '\n' ∨ c = '\t' ∨ c = '\r' then skipBlanks rest else c :: rest

mutual
/-- A value: `null` or an object. The first argument limits the depth. -/
def readTree : Nat → Text → Option (PathTree × Text)
  | 0, _ => none
  | fuel + 1, text =>
    match skipBlanks text with
    | 'n' :: 'u' :: 'l' :: 'l' :: rest => some (.none, rest)
    | '{' :: rest =>
      match skipBlanks rest with
      | '}' :: rest => some (.branch [], rest)
      | rest => (readEntries fuel rest).map fun r => (.branch r.1, r.2)
    | _ => none
/-- The entries of an object. -/
def readEntries : Nat → Text → Option (List (Text × PathTree) × Text)
  | 0, _ => none
  | fuel + 1, text =>
    match skipBlanks text with
    | '"' :: rest =>
      match readText rest with
      | none => none
      | some (label, rest) =>
        match skipBlanks rest with
        | ':' :: rest =>
          match readTree fuel rest with
          | none => none
          | some (tree, rest) =>
            match skipBlanks rest with
            | ',' :: rest => (readEntries fuel rest).map fun r => ((label, tree) :: r.1, r.2)
            | '}' :: rest => some ([(label, tree)], rest)
            | _ => none
        | _ => none
    | _ => none
end

/-- The value of a document: nothing can follow it other than blanks. -/
def Document (text : Text) (tree : PathTree) : Prop :=
  ∃ fuel rest, readTree fuel text = some (tree, rest) ∧ skipBlanks rest = []

/-! ## Go -/

/-- The value of a Go raw string, and what follows it: carriage returns are discarded. -/
def rawString : Text → Option (Text × Text)
  | [] => none
  | '`' :: rest => some ([], rest)
  | c :: rest => (rawString rest).map fun r => (if c = '\r' then r.1 else c :: r.1, r.2)

/-- The value of the variable that a file declares: the file ends with the declaration. -/
def Declares (file name value : Text) : Prop :=
  ∃ before text, file = before ++ t!"var " ++ name ++ t!" = `" ++ text ∧ '`' ∉ before ∧ rawString text = some (value, t!"\n")

/-! ## Labels -/

mutual
/-- The character is part of a label of the tree. -/
def InTree (c : Char) : PathTree → Prop
  | .none => False
  | .branch children => InEntries c children
/-- The character is part of a label of the entries, or of their trees. -/
def InEntries (c : Char) : List (Text × PathTree) → Prop
  | [] => False
  | (label, t) :: rest => c ∈ label ∨ InTree c t ∨ InEntries c rest
end

/-! ## Order -/

mutual
/-- The labels of all the objects are in order, so that the text only depends on what the objects contain. -/
def SortedTree : PathTree → Prop
  | .none => True
  | .branch children => SortedEntries children
/-- No label goes before those that precede it. -/
def SortedEntries : List (Text × PathTree) → Prop
  | [] => True
  | (label, t) :: rest => SortedTree t ∧ (∀ e ∈ rest, ¬ e.1 < label) ∧ SortedEntries rest
end

end Verif.MetricsCode
