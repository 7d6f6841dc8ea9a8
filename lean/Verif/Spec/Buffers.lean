import Verif.Model.Buffers
import Verif.Spec.ClientPaths

/-!
# Where the files of the buffers are
-/

namespace Verif.Buffers

/-- The path of something that is inside a directory, given the shortest path of the directory: nothing is added for the
current directory, and the slash of the root directory isn't repeated. -/
def under (dir inside : Text) : Text :=
  if dir = t!"." then inside else if dir = t!"/" then '/' :: inside else dir ++ '/' :: inside

/-- The function given in the last of the calls that has a name. -/
def lastAdded {φ : Type} (calls : List (Text × φ)) (name : Text) : Option φ :=
  (calls.reverse.find? fun c => c.1 = name).map (·.2)

/-- The relative path with the given parts. -/
def relative (parts : List Text) : Text := (absolute parts).tail

end Verif.Buffers
