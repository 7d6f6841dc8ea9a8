import Verif.Model.Tree
import Verif.Model.Session

/-!
# Reading a model from the texts of its files

The file system as in `Verif.Model.Session`, but with the texts of the files.
-/

namespace Verif.Language

/-- A file of a version: whether it is a regular file, whether it can be opened, and its text. -/
structure TextFile where
  regular : Bool := true
  readable : Bool := true
  text : Text := []
deriving DecidableEq, Repr

/-- An entry of the directory of a service. -/
structure TextVersion where
  name : Text
  isDir : Bool := true
  status : DirStatus := .good
  files : List TextFile := []
deriving DecidableEq, Repr

/-- An entry of the directory of a model. -/
structure TextService where
  name : Text
  isDir : Bool := true
  status : DirStatus := .good
  versions : List TextVersion := []
deriving DecidableEq, Repr

/-- One of the inputs of the reader. -/
structure TextModel where
  status : DirStatus := .good
  services : List TextService := []
deriving DecidableEq, Repr

/-- The results for all the elements, unless there is a panic. -/
def readAll {α β : Type} (f : α → Run β) : List α → Run (List β)
  | [] => .done []
  | x :: xs => (f x).bind fun y => (readAll f xs).bind fun ys => .done (y :: ys)

/-- What the callbacks see of a file, pkg/language/reader.go:289-338. The text is used only if it is a
regular file that can be opened. -/
def TextFile.source (f : TextFile) : Run SourceFile :=
  if f.regular && f.readable then
    (sourceFile f.text).bind fun g => .done { g with regular := true, readable := true }
  else .done { regular := f.regular, readable := f.readable }

/-- The same for the directory of a version, pkg/language/reader.go:256-301. The files are used only
if it is a directory that can be listed. -/
def TextVersion.source (v : TextVersion) : Run SourceVersion :=
  if v.isDir && v.status = .good then
    (readAll TextFile.source v.files).bind fun files =>
      .done { name := v.name, isDir := v.isDir, status := v.status, files := files }
  else .done { name := v.name, isDir := v.isDir, status := v.status }

/-- The same for the directory of a service, pkg/language/reader.go:209-254. -/
def TextService.source (s : TextService) : Run SourceService :=
  if s.isDir && s.status = .good then
    (readAll TextVersion.source s.versions).bind fun versions =>
      .done { name := s.name, isDir := s.isDir, status := s.status, versions := versions }
  else .done { name := s.name, isDir := s.isDir, status := s.status }

/-- The same for an input, pkg/language/reader.go:171-207. -/
def TextModel.source (m : TextModel) : Run SourceModel :=
  if m.status = .good then
    (readAll TextService.source m.services).bind fun services =>
      .done { status := m.status, services := services }
  else .done { status := m.status }

/-- `Read`, pkg/language/reader.go:99-169, from the texts of the files. Simplifications: all the files
are parsed before the callbacks of `Verif.Model.Reader`; that makes no difference because the parser
uses nothing of the model. Files with syntax errors are as in `sourceFile`. -/
def read (prior : Option Nat) (inputs : List TextModel) (fuel : Nat) : Run Session.ReadOutcome :=
  match prior with
  | none => Session.read none [] fuel
  | some prior =>
    (readAll TextModel.source inputs).bind fun models => Session.read (some prior) models fuel

end Verif.Language
