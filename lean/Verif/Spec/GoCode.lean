import Verif.Spec.Template

/-!
# When two texts are the same Go code

Blank lines and the blanks at the start and at the end of the lines don't matter: the files are formatted
with `goimports` after they are generated.
-/

namespace Verif.GoCode

open Docs (Space dropEnd)

/-- Removes the white space at the start of a line. -/
def dropStart : Text → Text
  | [] => []
  | c :: rest => if Space c then dropStart rest else c :: rest

/-- A line without the white space at the start and at the end. -/
def bare (line : Text) : Text := dropStart (dropEnd line)

/-- The lines of a text that aren't blank, without the white space at the start and at the end. -/
def significant (t : Text) : List Text := ((splitOn '\n' t).map bare).filter (· ≠ [])

/-- The lines of some lines of code, which can themselves have several lines, that aren't blank. -/
def code (lines : List Text) : List Text := lines.flatMap significant

end Verif.GoCode
