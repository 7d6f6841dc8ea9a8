import Verif.Model.Reader
import Verif.Model.Binding

/-!
# Reading a model: `Read` and the functions that load directories and files

The file system is modelled by what the reader sees of it: the entries of each directory, in the
order of `os.ReadDir`, and the result of the system calls that can fail. For
each file there are the number of syntax errors and the declarations; `Verif.Model.Tree` gives them
from the text of the file.

Versions are identified by numbers, in order of creation. All the versions share the memory of
types, the memory of resources and the indexes of undefined names.
-/

namespace Verif

/-- What the reader sees of a file of a version: whether it is a regular file, whether it can be
opened, the number of syntax errors that the parser reports and the declarations of the tree. If
there are syntax errors the tree may be incomplete; only complete declarations are modelled. -/
structure SourceFile where
  regular : Bool := true
  readable : Bool := true
  syntaxErrors : Nat := 0
  decls : List Decl := []
deriving DecidableEq, Repr

/-- The result of `os.Stat` and `os.ReadDir` for a directory. -/
inductive DirStatus
  | good | missing | unknown | notDirectory | unlistable
deriving DecidableEq, Repr

/-- An entry of the directory of a service. -/
structure SourceVersion where
  name : Text
  isDir : Bool := true
  status : DirStatus := .good
  files : List SourceFile := []
deriving DecidableEq, Repr

/-- An entry of the directory of a model. -/
structure SourceService where
  name : Text
  isDir : Bool := true
  status : DirStatus := .good
  versions : List SourceVersion := []
deriving DecidableEq, Repr

/-- One of the inputs of the reader. -/
structure SourceModel where
  status : DirStatus := .good
  services : List SourceService := []
deriving DecidableEq, Repr

/-- `Version`, pkg/concepts/version.go:29-39. -/
structure LoadedVersion where
  name : Name
  id : VersionId
  types : GoMap TypeId
  resources : GoMap ResId := []
  errors : GoMap ErrorConcept := []
deriving DecidableEq, Repr

/-- `Service`, pkg/concepts/service.go:26-33. -/
structure LoadedService where
  name : Name
  versions : GoMap LoadedVersion := []
deriving DecidableEq, Repr

/-- The state of `Read`: the model (`Model`, pkg/concepts/model.go:26-28), the memory, the indexes
of undefined names and the errors sent to the reporter. -/
structure Session where
  services : GoMap LoadedService := []
  created : Nat := 0
  heap : Heap := []
  graph : Graph := []
  undefinedTypes : GoMap TypeId := []
  undefinedResources : GoMap ResId := []
  problems : List ReadProblem := []
deriving DecidableEq, Repr

namespace Session

/-- `r.reporter.Errorf`. -/
def report (s : Session) (p : ReadProblem) : Session := { s with problems := s.problems ++ [p] }

/-- The state that the callbacks use while a version is being loaded. -/
def enter (s : Session) (v : LoadedVersion) : Reader :=
  { table := { version := v.id, heap := s.heap, types := v.types }
    graph := s.graph
    resources := v.resources
    errors := v.errors
    undefinedTypes := s.undefinedTypes
    undefinedResources := s.undefinedResources
    problems := s.problems }

/-- Stores a version in the service with the given key. -/
def store (s : Session) (service : Text) (v : LoadedVersion) : Session :=
  match s.services.find service with
  | none => s
  | some loaded =>
    { s with
      services := s.services.insert service
        { loaded with versions := loaded.versions.insert v.name.toText v } }

/-- The effect of the callbacks on the state of `Read`. -/
def leave (s : Session) (service : Text) (v : LoadedVersion) (r : Reader) : Session :=
  let s :=
    { s with
      heap := r.table.heap
      graph := r.graph
      undefinedTypes := r.undefinedTypes
      undefinedResources := r.undefinedResources
      problems := r.problems }
  s.store service
    { v with types := r.table.types, resources := r.resources, errors := r.errors }

/-- `loadFile`, pkg/language/reader.go:303-338, and the condition of the loop that calls it, lines
289-291. Syntax errors are reported by pkg/language/errors.go:72-77. -/
def loadFile (r : Reader) (f : SourceFile) : Reader :=
  if !f.regular then r
  else if !f.readable then r.report .badFile
  else ((List.replicate f.syntaxErrors ReadProblem.syntaxError).foldl Reader.report r).decls f.decls

/-- The version with the given name, created if needed, pkg/language/reader.go:272-279. -/
def findOrCreateVersion (s : Session) (service : Text) (name : Name) : Session × LoadedVersion :=
  match (s.services.find service).bind fun loaded => loaded.versions.find name.toText with
  | some v => (s, v)
  | none =>
    let table := TypeTable.newVersion s.heap s.created
    let v : LoadedVersion := { name := name, id := s.created, types := table.types }
    (({ s with heap := table.heap, created := s.created + 1 } : Session).store service v, v)

/-- `loadVersion`, pkg/language/reader.go:256-301, and the condition of the loop that calls it,
lines 242-244. -/
def loadVersion (service : Text) (s : Session) (d : SourceVersion) : Session :=
  if !d.isDir then s
  else
    match d.status with
    | .missing => s.report .noDirectory
    | .unknown => s.report .noDirectory
    | .notDirectory => s.report .noDirectory
    | .unlistable => (s.findOrCreateVersion service (parseUsingSeparator d.name '_')).1.report
        .noDirectory
    | .good =>
      let (s, v) := s.findOrCreateVersion service (parseUsingSeparator d.name '_')
      s.leave service v (d.files.foldl loadFile (s.enter v))

/-- The service with the given name, created if needed, pkg/language/reader.go:226-232. -/
def findOrCreateService (s : Session) (name : Name) : Session :=
  match s.services.find name.toText with
  | some _ => s
  | none => { s with services := s.services.insert name.toText { name := name } }

/-- `loadService`, pkg/language/reader.go:209-254, and the condition of the loop that calls it,
lines 195-197. -/
def loadService (s : Session) (d : SourceService) : Session :=
  if !d.isDir then s
  else
    match d.status with
    | .missing => s.report .noDirectory
    | .unknown => s.report .noDirectory
    | .notDirectory => s.report .noDirectory
    | .unlistable => (s.findOrCreateService (parseUsingSeparator d.name '_')).report .noDirectory
    | .good =>
      let name := parseUsingSeparator d.name '_'
      d.versions.foldl (loadVersion name.toText) (s.findOrCreateService name)

/-- `loadModel`, pkg/language/reader.go:171-207. -/
def loadModel (s : Session) (d : SourceModel) : Session :=
  match d.status with
  | .good => d.services.foldl loadService s
  | _ => s.report .noDirectory

/-- The errors for names that are still undefined, pkg/language/reader.go:121-130. -/
def reportUndefined (s : Session) : Session :=
  { s with
    problems := s.problems ++ (s.undefinedTypes.values.map ReadProblem.undefinedType) ++
      (s.undefinedResources.values.map ReadProblem.undefinedResource) }

/-- Creation of the list types of a version, pkg/language/reader.go:135-147. -/
def completeVersion (service : Text) (s : Session) (v : LoadedVersion) : Session :=
  let table := Reader.addListTypes { version := v.id, heap := s.heap, types := v.types }
  ({ s with heap := table.heap } : Session).store service { v with types := table.types }

/-- Creation of the list types of a service, pkg/language/reader.go:134-148. -/
def completeService (s : Session) (service : LoadedService) : Session :=
  (listing LoadedVersion.name service.versions).foldl
    (completeVersion service.name.toText) s

/-- Creation of the list types of a model, pkg/language/reader.go:132-149. -/
def complete (s : Session) : Session :=
  (listing LoadedService.name s.services).foldl completeService s

/-- The name of the resource that a pointer points to. -/
def resourceName (g : Graph) (id : ResId) : Name :=
  match g[id]? with
  | none => []
  | some res => res.name

/-- What the checks use of a version: `Resources`, `Root` (pkg/concepts/version.go:152-190). -/
def versionView (s : Session) (v : LoadedVersion) : Check.VersionView :=
  { builtins := TypeTable.builtins { version := v.id, heap := s.heap, types := v.types }
    root := v.resources.find Nom.root.toText
    resources := listing (resourceName s.graph) v.resources }

/-- The versions of the model, in the order of `checkModel`, pkg/language/checks.go:26-37. -/
def versions (s : Session) : List LoadedVersion :=
  (listing LoadedService.name s.services).flatMap fun service =>
    listing LoadedVersion.name service.versions

/-- What `Read` returns: a model, or the text of an error. -/
inductive ReadResult
  | model (s : Session)
  | error (text : Text)
deriving DecidableEq, Repr

/-- The result of `Read`, and the number of errors that the reporter has after it. -/
structure ReadOutcome where
  result : ReadResult
  errors : Nat
deriving DecidableEq, Repr

/-- The error for a number of errors greater than zero, pkg/language/reader.go:157-161; the same
text appears in pkg/generators/golang/buffer.go:311-315, pkg/generators/openapi/buffer.go:180-184
and pkg/markdown/buffer.go:210-214. -/
def errorText (n : Nat) : Text :=
  if n > 1 then t!"there were " ++ natText n ++ t!" errors" else t!"there was 1 error"

/-- The model before the checks, pkg/language/reader.go:106-149. -/
def load (inputs : List SourceModel) : Session :=
  let s := (inputs.foldl loadModel {}).reportUndefined.complete
  { s with graph := Reader.resolveKinds s.heap s.graph }

/-- `Read`, pkg/language/reader.go:99-169. The argument `prior` is the number of errors that the
reporter already has, or nothing if there is no reporter. Classes with references to other services
aren't part of this model. -/
def read (prior : Option Nat) (inputs : List SourceModel) (fuel : Nat) : Run ReadOutcome :=
  match prior with
  | none => .done { result := .error t!"parameter 'reporter' is mandatory", errors := 0 }
  | some prior =>
    let s := load inputs
    (Check.checkModel s.graph fuel (s.versions.map s.versionView)).bind fun messages =>
      let errors := prior + s.problems.length + (messages.filter Message.isError).length
      if errors > 0 then .done { result := .error (errorText errors), errors := errors }
      else .done { result := .model s, errors := errors }

end Session

/-! ## Writing files -/

/-- The three kinds of buffers. -/
inductive BufferKind
  | golang | openapi | markdown
deriving DecidableEq, Repr

/-- What can happen to the shared reporter and to the file system. -/
inductive Action
  | info
  | warning
  | error
  | write (kind : BufferKind) (file content : Text)
deriving DecidableEq, Repr

/-- Messages sent to the reporter, number of errors, and files written, in order. -/
structure Output where
  messages : Nat := 0
  errors : Nat := 0
  files : List (Text × Text) := []
  results : List (Option Text) := []
deriving DecidableEq, Repr

namespace Output

/-- `Infof`, `Warnf` and `Errorf`, pkg/reporter/reporter.go:83-103. -/
def message (o : Output) (isError : Bool) : Output :=
  { o with messages := o.messages + 1, errors := if isError then o.errors + 1 else o.errors }

/-- `Write`, pkg/generators/golang/buffer.go:302-374, pkg/generators/openapi/buffer.go:174-204 and
pkg/markdown/buffer.go:201-249, when the system calls succeed. -/
def write (o : Output) (kind : BufferKind) (file content : Text) : Output :=
  let o := if kind = .openapi then o else o.message false
  if o.errors > 0 then { o with results := o.results ++ [some (Session.errorText o.errors)] }
  else
    let o := if kind = .openapi then o.message false else o
    { o with files := o.files ++ [(file, content)], results := o.results ++ [none] }

/-- One step. -/
def step (o : Output) : Action → Output
  | .info => o.message false
  | .warning => o.message false
  | .error => o.message true
  | .write kind file content => o.write kind file content

/-- A history. -/
def run (o : Output) (actions : List Action) : Output := actions.foldl step o

end Output

end Verif
