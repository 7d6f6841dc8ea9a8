import Verif.Model.Writer

/-!
# What the writer of models announces
-/

namespace Verif.ModelWriter

open Report Files

/-- The line that announces something. -/
def announcement (what : Text) (name : Name) : Text :=
  List.flatten [infoPrefix, t!"Writing ", what, t!" '", name.camel, t!"'\n"]

/-- What is announced: first the types and then the resources of each version of each service. -/
def announcements (m : List ServiceView) : List Text :=
  m.flatMap fun s => s.versions.flatMap fun v =>
    v.types.map (fun t => announcement t!"type" t.name) ++ v.resources.map (announcement t!"resource")

end Verif.ModelWriter
