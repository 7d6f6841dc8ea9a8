import Verif.Model.GoNames

/-!
# The files written by the generators of Go code

Model of the `Run` methods of the generators of `pkg/generators/golang`, of the method `Write` of the
buffers, of the generator of OpenAPI specifications in `pkg/generators/openapi` and of the commands of
`cmd/metamodel`, seen as writers of files. What the templates put inside of each file is modelled
elsewhere: here the content of a file is what it was generated from.
-/

namespace Verif.Files

/-- The kinds of types told apart by the generators, pkg/concepts/type.go:150-191. A list is
classified according to the kind of its elements. -/
inductive Kind where
  | scalar | interface | enum | struct | map
  | listOfScalar | listOfEnum | listOfStruct | listOfOther
deriving DecidableEq, Repr

/-- A type of a version: its name and its kind. -/
structure TypeView where
  name : Name
  kind : Kind
deriving DecidableEq, Repr

/-- A version of a service: its name, its types and the names of its resources, in the order in which
`Types` and `Resources` return them. -/
structure VersionView where
  name : Name
  types : List TypeView
  resources : List Name
deriving DecidableEq, Repr

/-- A service: its name and its versions, in the order in which `Versions` returns them. -/
structure ServiceView where
  name : Name
  versions : List VersionView
deriving DecidableEq, Repr

/-- What a file of the generated Go code is for. -/
inductive Slot where
  /-- The errors shared by all the services. -/
  | commonErrors
  /-- The errors of a version. -/
  | errors (service version : Name)
  /-- The helpers. -/
  | helpers
  /-- The type of the metadata of a version. -/
  | metadataType (service version : Name)
  /-- A struct or an enumerated type. -/
  | type (service version type : Name)
  /-- The builder of a struct or of a list. -/
  | builder (service version type : Name)
  /-- The client of a service. -/
  | serviceClient (service : Name)
  /-- The client of the metadata of a version. -/
  | metadataClient (service version : Name)
  /-- The client of a resource. -/
  | client (service version resource : Name)
  /-- The helpers of the readers and writers of JSON. -/
  | jsonHelpers
  /-- The reader of the metadata of a version. -/
  | metadataReader (service version : Name)
  /-- The readers and writers of a struct or of a list. -/
  | typeJson (service version type : Name)
  /-- The readers and writers of the bodies of a resource. -/
  | resourceJson (service version resource : Name)
  /-- The tree of paths used by the metrics. -/
  | pathTree
  /-- The OpenAPI specification of a version. -/
  | openapi (service version : Name)
deriving DecidableEq, Repr

/-- What has been put in a file: the code generated for a slot, or the bytes of the specification of
a version. -/
inductive Content where
  | code (slot : Slot)
  | spec (service version : Name)
deriving DecidableEq, Repr

/-- The state that outlives the writing of a file: the files and the number of errors sent to the
reporter. -/
structure State (α : Type) where
  disk : Text → Option α
  errors : Nat

/-- One buffer: the file where it will be written, its content, and the number of errors sent to the
reporter while that content was generated. -/
structure Job (α : Type) where
  path : Text
  content : α
  reported : Nat

/-- What happens outside: the errors reported while the content of each file is generated, and the
files that can be opened for writing. -/
structure Env where
  reports : Slot → Nat
  specReports : Name → Name → Nat
  writable : Text → Bool
  specWritable : Text → Bool

/-- `Write`, pkg/generators/golang/buffer.go:301-345 and pkg/generators/openapi/buffer.go:175-204,
after the generation of the content. The creation of the directory and of the file are one step, and
errors writing to an open file, which the Go buffer ignores, aren't modelled. -/
def write {α : Type} (writable : Text → Bool) (j : Job α) (st : State α) : State α × Bool :=
  let st := { st with errors := st.errors + j.reported }
  if st.errors > 0 then (st, false)
  else if writable j.path then
    ({ st with disk := fun p => if p = j.path then some j.content else st.disk p }, true)
  else (st, false)

/-- The loops of the `Run` methods: they stop at the first error. -/
def runJobs {α : Type} (writable : Text → Bool) : List (Job α) → State α → State α × Bool
  | [], st => (st, true)
  | j :: js, st =>
    match write writable j st with
    | (st', true) => runJobs writable js st'
    | (st', false) => (st', false)

/-- `filepath.Join` of a package and the name of a file, as in the constructor of the buffer,
pkg/generators/golang/buffer.go:125. Paths are relative to the output directory, and the parts are
assumed to be clean. -/
def pathOf (package file : Text) : Text :=
  if package = [] then file ++ t!".go" else package ++ t!"/" ++ file ++ t!".go"

/-- Buffer for the given slot. -/
def job (env : Env) (slot : Slot) (package file : Text) : Job Content :=
  { path := pathOf package file, content := .code slot, reported := env.reports slot }

/-- The services and versions, in the order of the nested loops of the generators. -/
def versionsOf (m : List ServiceView) : List (Name × VersionView) :=
  m.flatMap fun s => s.versions.map fun v => (s.name, v)

/-- `Run` of the errors generator, pkg/generators/golang/errors_generator.go:123-153 and 155-178,
727-750, 773-775. -/
def errorsJobs (env : Env) (m : List ServiceView) : List (Job Content) :=
  job env .commonErrors Go.errorsPackage (Go.fileName Nom.errors) ::
    (versionsOf m).map fun (s, v) =>
      job env (.errors s v.name) (Go.versionPackage s v.name) (Go.fileName Nom.errors)

/-- `Run` of the helpers generator, pkg/generators/golang/helpers_generator.go:100-140 and
311-313. -/
def helpersJobs (env : Env) : List (Job Content) :=
  [job env .helpers Go.helpersPackage (Go.fileName Nom.helpers)]

/-- `Run` of the types generator, pkg/generators/golang/types_generator.go:150-188, with the files of
lines 190-203, 245-258 and 594-600. -/
def typesJobs (env : Env) (m : List ServiceView) : List (Job Content) :=
  (versionsOf m).flatMap fun (s, v) =>
    job env (.metadataType s v.name) (Go.versionPackage s v.name)
        (Go.fileName (Name.cat [Nom.metadata, Nom.typ])) ::
      v.types.filterMap fun t =>
        match t.kind with
        | .enum | .struct =>
          some (job env (.type s v.name t.name) (Go.versionPackage s v.name)
            (Go.fileName (Name.cat [t.name, Nom.typ])))
        | _ => none

/-- `Run` of the builders generator, pkg/generators/golang/builders_generator.go:139-170, with the
files of lines 172-185, 458-471 and 557-559. -/
def buildersJobs (env : Env) (m : List ServiceView) : List (Job Content) :=
  (versionsOf m).flatMap fun (s, v) =>
    v.types.filterMap fun t =>
      match t.kind with
      | .struct | .listOfStruct =>
        some (job env (.builder s v.name t.name) (Go.versionPackage s v.name)
          (Go.fileName (Name.cat [t.name, Nom.builder])))
      | _ => none

/-- `Run` of the clients generator, pkg/generators/golang/clients_generator.go:151-226, 264-297,
430-443 and 1023-1029. -/
def clientsJobs (env : Env) (m : List ServiceView) : List (Job Content) :=
  m.flatMap fun s =>
    job env (.serviceClient s.name) (Go.servicePackage s.name) (Go.fileName Nom.client) ::
      s.versions.flatMap fun v =>
        job env (.metadataClient s.name v.name) (Go.versionPackage s.name v.name)
            (Go.fileName (Name.cat [Nom.metadata, Nom.client])) ::
          v.resources.map fun r =>
            job env (.client s.name v.name r) (Go.versionPackage s.name v.name)
              (Go.fileName (Name.cat [r, Nom.client]))

/-- `Run` of the JSON generator, pkg/generators/golang/json_generator.go:148-221, with the files of
lines 223-239, 436-450, 537-551, 722-736, 831-845 and 1503-1517. -/
def jsonJobs (env : Env) (m : List ServiceView) : List (Job Content) :=
  job env .jsonHelpers Go.helpersPackage (Go.fileName (Name.cat [Nom.json, Nom.helpers])) ::
    (versionsOf m).flatMap fun (s, v) =>
      job env (.metadataReader s v.name) (Go.versionPackage s v.name)
          (Go.fileName (Name.cat [Nom.metadata, Nom.reader])) ::
        (v.types.filterMap fun t =>
          match t.kind with
          | .struct | .listOfScalar | .listOfEnum | .listOfStruct =>
            some (job env (.typeJson s v.name t.name) (Go.versionPackage s v.name)
              (Go.fileName (Name.cat [t.name, Nom.typ, Nom.json])))
          | _ => none) ++
        v.resources.map fun r =>
          job env (.resourceJson s v.name r) (Go.versionPackage s v.name)
            (Go.fileName (Name.cat [r, Nom.resource, Nom.json]))

/-- `Run` of the metrics generator, pkg/generators/golang/metrics_generator.go:111-155. -/
def metricsJobs (env : Env) : List (Job Content) :=
  [job env .pathTree Go.metricsPackage (Go.fileName (Name.cat [Nom.path, Nom.tree, Nom.data]))]

/-- `FileName`, pkg/generators/openapi/names_calculator.go:72-75, for clean names. -/
def specFile (service version : Name) : Text :=
  service.lowerJoined t!"_" ++ t!"/" ++ version.lowerJoined t!"_" ++ t!"/openapi.json"

/-- `Run` of the generator of OpenAPI specifications,
pkg/generators/openapi/openapi_generator.go:124-171. -/
def specJobs (env : Env) (m : List ServiceView) : List (Job (Name × Name)) :=
  (versionsOf m).map fun (s, v) =>
    { path := specFile s v.name, content := (s, v.name), reported := env.specReports s v.name }

/-- `generateSpec` of the generator that embeds the specifications in Go code for all the versions,
pkg/generators/golang/openapi_generator.go:171-180 and 195-237: reads the file with the
specification, and writes the Go file that contains it. -/
def embedSpecs (env : Env) (specs : Text → Option (Name × Name)) :
    List (Name × VersionView) → State Content → State Content × Bool
  | [], st => (st, true)
  | (s, v) :: rest, st =>
    match specs (specFile s v.name) with
    | none => ({ st with errors := st.errors + 1 }, false)
    | some spec =>
      match write env.writable
          { path := pathOf (Go.versionPackage s v.name) t!"openapi",
            content := .spec spec.1 spec.2, reported := env.reports (.openapi s v.name) } st with
      | (st', true) => embedSpecs env specs rest st'
      | (st', false) => (st', false)

/-- `Run` of the generator that embeds the specifications in Go code,
pkg/generators/golang/openapi_generator.go:141-193. The specifications are first written to a new
temporary directory. -/
def runEmbed (env : Env) (m : List ServiceView) (st : State Content) : State Content × Bool :=
  match runJobs env.specWritable (specJobs env m) { disk := fun _ => none, errors := st.errors } with
  | (specs, true) => embedSpecs env specs.disk (versionsOf m) { st with errors := specs.errors }
  | (specs, false) => ({ st with errors := specs.errors + 1 }, false)

/-- The loop that runs the generators one after the other,
cmd/metamodel/generate/golang/cmd.go:276-282: it stops at the first error. -/
def runGenerators {σ : Type} : List (σ → σ × Bool) → σ → σ × Bool
  | [], st => (st, true)
  | g :: gs, st =>
    match g st with
    | (st', true) => runGenerators gs st'
    | (st', false) => (st', false)

/-- The generators of Go code, in the order of cmd/metamodel/generate/golang/cmd.go:140-274. -/
def goGenerators (env : Env) (m : List ServiceView) :
    List (State Content → State Content × Bool) :=
  [ runJobs env.writable (errorsJobs env m),
    runJobs env.writable (helpersJobs env),
    runJobs env.writable (typesJobs env m),
    runJobs env.writable (buildersJobs env m),
    runJobs env.writable (clientsJobs env m),
    runJobs env.writable (jsonJobs env m),
    runJobs env.writable (metricsJobs env),
    runEmbed env m ]

/-- All the Go code generators. -/
def generateGo (env : Env) (m : List ServiceView) (st : State Content) : State Content × Bool :=
  runGenerators (goGenerators env m) st

/-! ## The commands -/

/-- The options of the commands. -/
structure Options where
  model : List Text
  base : Text
  output : Text

/-- `run` of the command that generates Go code, cmd/metamodel/generate/golang/cmd.go:76-318, for a
reader of models that returns the model and the number of errors reported, and a formatter that may
fail. The result is the files and the exit code. -/
def goCommand (env : Env) (read : List Text → Option (List ServiceView))
    (format : (Text → Option Content) → Bool) (o : Options) (disk : Text → Option Content) :
    (Text → Option Content) × Nat :=
  if o.model = [] ∨ o.base = [] ∨ o.output = [] then (disk, 1)
  else
    match read o.model with
    | none => (disk, 1)
    | some m =>
      match generateGo env m { disk := disk, errors := 0 } with
      | (st, false) => (st.disk, 1)
      | (st, true) => if format st.disk then (st.disk, 0) else (st.disk, 1)

/-- `run` of the command that generates OpenAPI specifications,
cmd/metamodel/generate/openapi/cmd.go:66-142. -/
def openapiCommand (env : Env) (read : List Text → Option (List ServiceView)) (o : Options)
    (disk : Text → Option (Name × Name)) : (Text → Option (Name × Name)) × Nat :=
  if o.model = [] ∨ o.output = [] then (disk, 1)
  else
    match read o.model with
    | none => (disk, 1)
    | some m =>
      match runJobs env.specWritable (specJobs env m) { disk := disk, errors := 0 } with
      | (st, false) => (st.disk, 1)
      | (st, true) => (st.disk, 0)

/-- `run` of the command that checks a model, cmd/metamodel/check/cmd.go:53-87. -/
def checkCommand (read : List Text → Option (List ServiceView)) (o : Options) : Nat :=
  if o.model = [] then 1
  else
    match read o.model with
    | none => 1
    | some _ => 0

end Verif.Files
