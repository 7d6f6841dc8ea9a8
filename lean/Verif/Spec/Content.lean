import Verif.Spec.Session

/-!
# Specification: the content of a model that has several services and versions

A model should have one version for each directory of a version, and that version should have what
the declarations of its files describe, whatever the other directories contain.
-/

namespace Verif

/-- The key of the service or version for a directory with the given name. -/
def dirKey (name : Text) : Text := (parseUsingSeparator name '_').toText

/-- The directories of versions of the inputs: the key of the service, the key of the version and the
declarations of the files. -/
def versionDirs (inputs : List SourceModel) : List (Text × Text × List Decl) :=
  inputs.flatMap fun m => (m.services.filter (·.isDir)).flatMap fun s =>
    (s.versions.filter (·.isDir)).map fun v => (dirKey s.name, dirKey v.name, v.decls)

/-- The declarations of the version with the given keys: those of all its directories, in order. -/
def versionDecls (dirs : List (Text × Text × List Decl)) (service version : Text) : List Decl :=
  (dirs.filter fun x => x.1 = service ∧ x.2.1 = version).flatMap (·.2.2)

/-- The type of a version with the given key, without pointers. -/
def Session.typeView (s : Session) (v : LoadedVersion) (key : Text) : Option TypeView :=
  (v.types.find key).bind fun id => s.heap[id]?.map (View.ofCell s.heap)

/-- The resource of a version with the given key, without pointers. -/
def Session.resourceView (s : Session) (v : LoadedVersion) (key : Text) : Option ResourceView :=
  (v.resources.find key).bind fun id => s.graph[id]?.map (View.ofResource s.heap s.graph)

/-- The keys of the types that a version has before the missing lists are added. -/
def givenTypes (ds : List Decl) : List Text := builtinKeys ++ declaredTypes ds ++ derivedTypes ds

/-- The list of the type with the given key. -/
def listView (owner : VersionId) (key : Text) : TypeView :=
  { TypeView.unknown owner with kind := .list, element := some key }

/-- The types of a version are those that the declarations describe, and the lists of those. -/
structure TypesAre (owner : VersionId) (ds : List Decl) (typ : Text → Option TypeView) : Prop where
  builtin : ∀ k ∈ builtinKeys, ∃ x, typ k = some x ∧ BuiltinView owner k x
  declared : ∀ d ∈ ds, ∀ k kind, d.declaredType = some (k, kind) →
    ∃ x, typ k = some x ∧ d.Describes owner k x
  derived : ∀ e ∈ refsOf ds, e.isDerived = true → typ e.key = e.derivedView owner
  lists : ∀ k ∈ givenTypes ds, ∀ x, typ k = some x → x.kind ≠ .list →
    k ++ t!"_list" ∉ givenTypes ds → typ (k ++ t!"_list") = some (listView owner k)
  nothingElse : ∀ k x, typ k = some x → k ∈ givenTypes ds ∨
    ∃ k0 ∈ givenTypes ds, ∃ x0, typ k0 = some x0 ∧ x0.kind ≠ .list ∧ k = k0 ++ t!"_list"

/-- The resources of a version are those that the declarations describe. -/
structure ResourcesAre (ds : List Decl) (res : Text → Option ResourceView) : Prop where
  declared : ∀ d ∈ ds, ∀ k, d.declaredResource = some k →
    ∃ x, res k = some x ∧ d.DescribesResource k x
  nothingElse : ∀ k x, res k = some x → k ∈ declaredResources ds

/-- The errors of a version are those that the declarations describe. The code is the last one that is
given. -/
structure ErrorsAre (ds : List Decl) (err : Text → Option ErrorConcept) : Prop where
  declared : ∀ name doc as codes, Decl.error name doc as codes ∈ ds →
    ∃ e, err (keyOf name) = some e ∧ e.supportName = some (parseUsingCase name) ∧ e.doc = doc ∧
      e.annotations = as ∧
      (codes = [] → e.code = 0) ∧
      ∀ c, codes.getLast? = some c → e.code = (c.foldl (fun n c => 10 * n + (c.toNat - 48)) 0 : Nat)
  nothingElse : ∀ k e, err k = some e → k ∈ declaredErrors ds

/-- The names that are declared aren't empty. -/
def DeclaredNamed (ds : List Decl) : Prop :=
  ∀ k ∈ declaredTypes ds, k ≠ []

/-- The declarations of a version can be read: names aren't empty, the names of lists and maps don't
clash with others, and the declarations are acceptable. -/
structure GoodDecls (ds : List Decl) : Prop where
  named : WellNamed ds
  declaredNamed : DeclaredNamed ds
  noClash : NoNameClash ds
  acceptable : Acceptable ds

end Verif
