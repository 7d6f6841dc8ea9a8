import Verif.Model.Source
import Verif.Spec.Walk
import Verif.Spec.Content

/-!
# Specification: the declarations in the texts of the files of a model
-/

namespace Verif.Language

/-- The text of a file can be read: the syntax is right, all the literals have values, declarations,
members and parameters start in different lines without comments, and the comments right before them
are well formed. The trees and the documentation are given. -/
structure FileMeans (text : Text) (xs : List DeclTree) (doc : Nat → Text) : Prop where
  trees : parseText text = some xs
  literals : ∀ x ∈ xs, ∀ l ∈ declLiterals x, ∃ v, LiteralIs l v
  lines : (xs.flatMap declLines).Nodup
  docs : ∃ comment : Nat → Option Text,
    (∀ line c, comment line = some c ↔ CommentAt (scan text).comments line c) ∧
    (∀ line ∈ xs.flatMap declLines, comment line = none) ∧
    ∀ line ∈ xs.flatMap declLines, ∃ block, IsBlock comment line block ∧
      Documents block (doc line)

/-- The declarations are those of the text. -/
def FileIs (text : Text) (ds : List Decl) : Prop :=
  ∃ xs doc, FileMeans text xs doc ∧ Pairs (DeclIs doc) xs ds

/-- The declarations are those of the texts, in order. -/
def TextsAre (texts : List Text) (ds : List Decl) : Prop :=
  ∃ dss, Pairs FileIs texts dss ∧ ds = dss.flatten

/-- All the directories can be listed and all the regular files can be opened. -/
def TextVersion.Readable (d : TextVersion) : Prop :=
  d.isDir = true → d.status = .good ∧ ∀ f ∈ d.files, f.regular = true → f.readable = true

def TextService.Readable (d : TextService) : Prop :=
  d.isDir = true → d.status = .good ∧ ∀ v ∈ d.versions, v.Readable

def TextModel.Readable (d : TextModel) : Prop :=
  d.status = .good ∧ ∀ s ∈ d.services, s.Readable

/-- The directories of versions of the inputs: the key of the service, the key of the version and the
texts of the regular files. -/
def textDirs (inputs : List TextModel) : List (Text × Text × List Text) :=
  inputs.flatMap fun m => (m.services.filter (·.isDir)).flatMap fun s =>
    (s.versions.filter (·.isDir)).map fun v =>
      (dirKey s.name, dirKey v.name, (v.files.filter (·.regular)).map (·.text))

/-- The texts of all the files of a version. -/
def versionTexts (dirs : List (Text × Text × List Text)) (service version : Text) : List Text :=
  (dirs.filter fun x => x.1 = service ∧ x.2.1 = version).flatMap (·.2.2)

/-! ## Declarations without documentation, annotations and default values -/

def ResourceMemberTree.bare : ResourceMemberTree → ResourceMember
  | .method _ _ name parameters => .method
      { name := name
        parameters := parameters.map fun p =>
          { name := p.name, ref := p.ref, directions := p.directions } }
  | .locator _ _ name members => .locator { name := name, members := members }

def DeclTree.bare (x : DeclTree) : Decl :=
  match x.body with
  | .enum values => .enum x.name [] [] (values.map fun y => { name := y.name })
  | .class members =>
    .class x.name [] [] (members.map fun y => { name := y.name, ref := y.ref, link := y.link })
  | .struct members =>
    .struct x.name [] [] (members.map fun y => { name := y.name, ref := y.ref, link := y.link })
  | .error codes => .error x.name [] [] codes
  | .resource members => .resource x.name [] [] (members.map ResourceMemberTree.bare)

/-- The declarations of some texts, without documentation, annotations and default values. -/
def bareDecls (texts : List Text) : List Decl :=
  texts.flatMap fun text => ((parseText text).getD []).map DeclTree.bare

end Verif.Language
