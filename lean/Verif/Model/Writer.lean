import Verif.Model.Files
import Verif.Model.Reporter
import Verif.Model.Session

/-!
# The writer of models: `pkg/language/writer.go`

The files are part of the state, although the writer never touches them.
-/

namespace Verif.ModelWriter

open Report Files

/-- A writer, pkg/language/writer.go:31-40. -/
structure Writer where
  reporter : Option Reporter := none
  model : Option (List ServiceView) := none
  output : Text := []

/-- The state after writing: the reporter, and the files. -/
structure After where
  reporter : Option Reporter
  disk : Text → Option Text

/-- `writeType`, pkg/language/writer.go:113-115. -/
def writeType (r : Reporter) (typ : TypeView) : Reporter :=
  infof r t!"Writing type '%s'" [.name typ.name]

/-- `writeResource`, pkg/language/writer.go:117-119. -/
def writeResource (r : Reporter) (resource : Name) : Reporter :=
  infof r t!"Writing resource '%s'" [.name resource]

/-- The loop over types and resources of a version, pkg/language/writer.go:101-106. -/
def writeVersion (r : Reporter) (v : VersionView) : Reporter :=
  v.resources.foldl writeResource (v.types.foldl writeType r)

/-- The loop over services and versions, pkg/language/writer.go:99-108. -/
def writeModel (r : Reporter) (m : List ServiceView) : Reporter :=
  m.foldl (fun r s => s.versions.foldl writeVersion r) r

/-- `Write`, pkg/language/writer.go:76-111. -/
def write (w : Writer) (disk : Text → Option Text) : Option Text × After :=
  match w.reporter with
  | none => (some t!"parameter 'reporter' is mandatory", { reporter := none, disk := disk })
  | some r =>
    match w.model with
    | none => (some t!"parameter 'model' is mandatory", { reporter := some r, disk := disk })
    | some m =>
      if w.output = [] then (some t!"parameter 'output' is mandatory", { reporter := some r, disk := disk })
      else if r.errors > 0 then
        if r.errors > 1 then
          (some (t!"there were " ++ natText r.errors ++ t!" errors"), { reporter := some r, disk := disk })
        else (some t!"there was 1 error", { reporter := some r, disk := disk })
      else (none, { reporter := some (writeModel r m), disk := disk })

end Verif.ModelWriter
