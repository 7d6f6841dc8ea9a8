import Verif.Spec.TypesCode
import Verif.Props.GoNames

/-!
# What the file of the errors of a version contains
-/

namespace Verif.ErrorsCode

/-- The lines of the file for the errors of a version, given the documentation, name and code of each of them. The name of
the constant is that of the error followed by `Error`. -/
def errorLines : List (Text × Name × Int) → List Text
  | [] => []
  | errors => [t!"const ("] ++ errors.flatMap (fun e =>
      [TypesCode.commentOf e.1, upperCamel e.2.1 ++ t!"Error = " ++ intText e.2.2]) ++ [t!")"]

end Verif.ErrorsCode
