import Verif.Model.ClientPaths

/-! Specification of the paths of requests. -/

namespace Verif

/-- A text that is one part of a path: it isn't empty, it doesn't contain slashes, and it isn't one
of the two parts with a special meaning. -/
def PlainSegment (s : Text) : Prop := s ≠ [] ∧ '/' ∉ s ∧ s ≠ t!"." ∧ s ≠ t!".."

/-- The absolute path with the given parts: each one is preceded by a slash. -/
def absolute (parts : List Text) : Text := parts.flatMap fun s => '/' :: s

/-- The parts of a text separated by slashes, ignoring the empty ones. -/
def partsOf (t : Text) : List Text := (splitOn '/' t).filter fun s => s ≠ []

/-- Neither `.` nor `..` are parts of the text. -/
def NoDots (t : Text) : Prop := t!"." ∉ splitOn '/' t ∧ t!".." ∉ splitOn '/' t

/-- What the user asks for in one step: an identifier, or the segment of the locator. -/
def hopPart (h : GoClient.Hop) : Text :=
  if h.locator.isVariable then h.id else Binding.locatorSegment h.locator

/-- The identifiers given in the steps, in order. -/
def hopIds (hops : List GoClient.Hop) : List Text :=
  (hops.filter fun h => h.locator.isVariable).map fun h => h.id

/-- The part that a method adds to the path. -/
def methodParts (m : Method) : List Text :=
  if Binding.methodSegment m = [] then [] else [Binding.methodSegment m]

/-- The parts of a template that are variables: those enclosed in curly brackets. -/
def isTemplateVariable (s : Text) : Bool := s.head? == some '{' && s.getLast? == some '}'

/-- Replacement of the variables of a template, given as the list of its parts, with values, in
order. There is no result if there are too many or too few values. -/
def fillTemplate : List Text → List Text → Option (List Text)
  | [], [] => some []
  | [], _ :: _ => none
  | p :: ps, values =>
    if isTemplateVariable p then
      match values with
      | [] => none
      | v :: vs => (fillTemplate ps vs).map (v :: ·)
    else (fillTemplate ps values).map (p :: ·)

end Verif
