import Verif.Model.Session
import Verif.Spec.Reader
import Verif.Spec.Checks
import Verif.Spec.Digits

/-! Specification for the properties of `Read` and of the writers. -/

namespace Verif

/-- The directory of the version, if it is one, and all its regular files can be read, and they
don't have syntax errors. -/
def SourceVersion.Readable (d : SourceVersion) : Prop :=
  d.isDir = true → d.status = .good ∧
    ∀ f ∈ d.files, f.regular = true → f.readable = true ∧ f.syntaxErrors = 0

/-- The same for the directory of a service. -/
def SourceService.Readable (d : SourceService) : Prop :=
  d.isDir = true → d.status = .good ∧ ∀ v ∈ d.versions, v.Readable

/-- The same for an input. -/
def SourceModel.Readable (d : SourceModel) : Prop :=
  d.status = .good ∧ ∀ s ∈ d.services, s.Readable

/-- The declarations of the files of a version. -/
def SourceVersion.decls (d : SourceVersion) : List Decl :=
  (d.files.filter (·.regular)).flatMap (·.decls)

/-- The version that a loaded model has for the given keys of service and version. -/
def Session.version (s : Session) (service version : Text) : Option LoadedVersion :=
  (s.services.find service).bind fun l => l.versions.find version

/-- The text tells the number of errors, in plural only if there are several. -/
def TellsErrors (n : Nat) (text : Text) : Prop :=
  (n = 1 ∧ text = t!"there was 1 error") ∨
  (1 < n ∧ ∃ digits, numeral 10 digits = some n ∧ text = t!"there were " ++ digits ++ t!" errors")

end Verif
