import Verif.Model.Binding

/-!
# How the components are created

Model of the builders of the generators and calculators, and of the part of the commands that checks the options and
creates them. The parts given to a builder that are nil pointers or empty strings are `none`.
-/

namespace Verif.Wiring

variable {α : Type}

/-- What has been given to a builder, and what an object contains: the fields of the builders of pkg/generators,
pkg/http, pkg/language and pkg/markdown, like pkg/generators/golang/clients_generator.go:32-40. -/
structure Given (α : Type) where
  reporter : Option α := none
  model : Option α := none
  output : Option α := none
  packages : Option α := none
  names : Option α := none
  types : Option α := none
  binding : Option α := none
  base : Option α := none

/-- `Build` of the generator of the errors, pkg/generators/golang/errors_generator.go:87-120. -/
def errorsGenerator (b : Given α) : Except Text (Given α) :=
  if b.reporter.isNone then .error t!"reporter is mandatory"
  else if b.model.isNone then .error t!"model is mandatory"
  else if b.output.isNone then .error t!"path is mandatory"
  else if b.packages.isNone then .error t!"packages calculator is mandatory"
  else if b.names.isNone then .error t!"names calculator is mandatory"
  else .ok { reporter := b.reporter, model := b.model, output := b.output, packages := b.packages, names := b.names }

/-- `Build` of the generator of the helpers, pkg/generators/golang/helpers_generator.go:87-120. -/
def helpersGenerator (b : Given α) : Except Text (Given α) :=
  if b.reporter.isNone then .error t!"reporter is mandatory"
  else if b.model.isNone then .error t!"model is mandatory"
  else if b.output.isNone then .error t!"path is mandatory"
  else if b.packages.isNone then .error t!"packages calculator is mandatory"
  else if b.names.isNone then .error t!"names calculator is mandatory"
  else .ok { reporter := b.reporter, model := b.model, output := b.output, packages := b.packages, names := b.names }

/-- `Build` of the generator of the types, pkg/generators/golang/types_generator.go:106-149. -/
def typesGenerator (b : Given α) : Except Text (Given α) :=
  if b.reporter.isNone then .error t!"reporter is mandatory"
  else if b.model.isNone then .error t!"model is mandatory"
  else if b.output.isNone then .error t!"output is mandatory"
  else if b.packages.isNone then .error t!"packages calculator is mandatory"
  else if b.names.isNone then .error t!"names calculator is mandatory"
  else if b.types.isNone then .error t!"types calculator is mandatory"
  else if b.binding.isNone then .error t!"binding calculator is mandatory"
  else .ok
    { reporter := b.reporter, model := b.model, output := b.output, packages := b.packages,
      names := b.names, types := b.types, binding := b.binding }

/-- `Build` of the generator of the builders, pkg/generators/golang/builders_generator.go:98-136. -/
def buildersGenerator (b : Given α) : Except Text (Given α) :=
  if b.reporter.isNone then .error t!"reporter is mandatory"
  else if b.model.isNone then .error t!"model is mandatory"
  else if b.output.isNone then .error t!"output is mandatory"
  else if b.packages.isNone then .error t!"packages calculator is mandatory"
  else if b.names.isNone then .error t!"names calculator is mandatory"
  else if b.types.isNone then .error t!"types is mandatory"
  else .ok
    { reporter := b.reporter, model := b.model, output := b.output, packages := b.packages,
      names := b.names, types := b.types }

/-- `Build` of the generator of the clients, pkg/generators/golang/clients_generator.go:106-149. -/
def clientsGenerator (b : Given α) : Except Text (Given α) :=
  if b.reporter.isNone then .error t!"reporter is mandatory"
  else if b.model.isNone then .error t!"model is mandatory"
  else if b.output.isNone then .error t!"path is mandatory"
  else if b.packages.isNone then .error t!"packages calculator is mandatory"
  else if b.names.isNone then .error t!"names calculator is mandatory"
  else if b.types.isNone then .error t!"types calculator is mandatory"
  else if b.binding.isNone then .error t!"binding calculator is mandatory"
  else .ok
    { reporter := b.reporter, model := b.model, output := b.output, packages := b.packages,
      names := b.names, types := b.types, binding := b.binding }

/-- `Build` of the generator of the JSON support, pkg/generators/golang/json_generator.go:110-148. -/
def jsonGenerator (b : Given α) : Except Text (Given α) :=
  if b.reporter.isNone then .error t!"reporter is mandatory"
  else if b.model.isNone then .error t!"model is mandatory"
  else if b.output.isNone then .error t!"output is mandatory"
  else if b.packages.isNone then .error t!"packages calculator is mandatory"
  else if b.names.isNone then .error t!"names calculator is mandatory"
  else if b.types.isNone then .error t!"types calculator is mandatory"
  else .ok
    { reporter := b.reporter, model := b.model, output := b.output, packages := b.packages,
      names := b.names, types := b.types }

/-- `Build` of the generator of the metrics support, pkg/generators/golang/metrics_generator.go:101-134. -/
def metricsGenerator (b : Given α) : Except Text (Given α) :=
  if b.reporter.isNone then .error t!"reporter is mandatory"
  else if b.model.isNone then .error t!"model is mandatory"
  else if b.output.isNone then .error t!"output is mandatory"
  else if b.packages.isNone then .error t!"packages calculator is mandatory"
  else if b.names.isNone then .error t!"names calculator is mandatory"
  else .ok { reporter := b.reporter, model := b.model, output := b.output, packages := b.packages, names := b.names }

/-- `Build` of the generator of Go code of the specifications, pkg/generators/golang/openapi_generator.go:101-139. -/
def goSpecGenerator (b : Given α) : Except Text (Given α) :=
  if b.reporter.isNone then .error t!"reporter is mandatory"
  else if b.model.isNone then .error t!"model is mandatory"
  else if b.output.isNone then .error t!"output path is mandatory"
  else if b.packages.isNone then .error t!"packages calculator is mandatory"
  else if b.binding.isNone then .error t!"HTTP binding calculator is mandatory"
  else if b.names.isNone then .error t!"names calculator is mandatory"
  else .ok
    { reporter := b.reporter, model := b.model, output := b.output, packages := b.packages,
      binding := b.binding, names := b.names }

/-- `Build` of the generator of the OpenAPI specifications, pkg/generators/openapi/openapi_generator.go:89-122. -/
def specGenerator (b : Given α) : Except Text (Given α) :=
  if b.reporter.isNone then .error t!"reporter is mandatory"
  else if b.model.isNone then .error t!"model is mandatory"
  else if b.output.isNone then .error t!"output directory is mandatory"
  else if b.names.isNone then .error t!"names calculator is mandatory"
  else if b.binding.isNone then .error t!"binding calculator is mandatory"
  else .ok { reporter := b.reporter, model := b.model, output := b.output, names := b.names, binding := b.binding }

/-- `Build` of the generator of the documentation, pkg/generators/docs/docs_generator.go:82-105. -/
def docsGenerator (b : Given α) : Except Text (Given α) :=
  if b.reporter.isNone then .error t!"parameter 'reporter' is mandatory"
  else if b.model.isNone then .error t!"parameter 'model' is mandatory"
  else if b.output.isNone then .error t!"parameter 'output' is mandatory"
  else .ok { reporter := b.reporter, model := b.model, output := b.output, names := b.names }

/-- `Build` of the calculator of Go packages, pkg/generators/golang/packages_calculator.go:62-80. -/
def goPackages (b : Given α) : Except Text (Given α) :=
  if b.reporter.isNone then .error t!"reporter is mandatory"
  else if b.base.isNone then .error t!"base package is mandatory"
  else .ok { reporter := b.reporter, base := b.base }

/-- `Build` of the calculator of Go names, pkg/generators/golang/names_calculator.go:53-66. -/
def goNames (b : Given α) : Except Text (Given α) :=
  if b.reporter.isNone then .error t!"reporter is mandatory"
  else .ok { reporter := b.reporter }

/-- `Build` of the calculator of Go types, pkg/generators/golang/types_calculator.go:72-95. -/
def goTypes (b : Given α) : Except Text (Given α) :=
  if b.reporter.isNone then .error t!"reporter is mandatory"
  else if b.packages.isNone then .error t!"packages calculator is mandatory"
  else if b.names.isNone then .error t!"names is mandatory"
  else .ok { reporter := b.reporter, packages := b.packages, names := b.names }

/-- `Build` of the calculator of OpenAPI names, pkg/generators/openapi/names_calculator.go:54-67. -/
def specNames (b : Given α) : Except Text (Given α) :=
  if b.reporter.isNone then .error t!"reporter is mandatory"
  else .ok { reporter := b.reporter }

/-- `Build` of the calculator of names of the documentation, pkg/markdown/names_calculator.go:54-66. -/
def docsNames (b : Given α) : Except Text (Given α) :=
  if b.reporter.isNone then .error t!"parameter 'reporter' is mandatory"
  else .ok { reporter := b.reporter }

/-- `Build` of the calculator of the HTTP binding, pkg/http/binding_calculator.go:60-73. -/
def bindingCalculator (b : Given α) : Except Text (Given α) :=
  if b.reporter.isNone then .error t!"reporter is mandatory"
  else .ok { reporter := b.reporter }

/-- `Build` of the listener of syntax errors, pkg/language/errors.go:52-64. -/
def errorListener (b : Given α) : Except Text (Given α) :=
  if b.reporter.isNone then .error t!"reporter is mandatory"
  else .ok { reporter := b.reporter }

/-- The objects of the commands. -/
inductive Component where
  | errorsGenerator
  | helpersGenerator
  | typesGenerator
  | buildersGenerator
  | clientsGenerator
  | jsonGenerator
  | metricsGenerator
  | goSpecGenerator
  | specGenerator
  | docsGenerator
  | goPackages
  | goNames
  | goTypes
  | specNames
  | docsNames
  | bindingCalculator
  | errorListener
  deriving DecidableEq

/-- What the commands give to the builders: the reporter, the model, the text of an option or an object
created before. -/
inductive Thing where
  | reporter
  | model
  | text (t : Text)
  | built (c : Component)
  deriving DecidableEq

/-- The text of an option. The builders consider that empty strings haven't been given, for example in
pkg/generators/golang/clients_generator.go:116-119. -/
def option (t : Text) : Option Thing := if t = [] then none else some (.text t)

/-- Creates an object, and fails with a message if it isn't possible, like
cmd/metamodel/generate/golang/cmd.go:112-119. -/
def create (what : Text) (c : Component) (r : Except Text (Given Thing)) : Except Text (Component × Given Thing) :=
  match r with
  | .error e => .error (t!"Can't create " ++ what ++ t!": " ++ e)
  | .ok g => .ok (c, g)

/-- The objects that the command that generates Go code creates, in order,
cmd/metamodel/generate/golang/cmd.go:112-275. -/
def goObjects (base output : Text) : Except Text (List (Component × Given Thing)) := do
  let packages ← create t!"Go packages calculator" .goPackages
    (goPackages { reporter := some .reporter, base := option base })
  let names ← create t!"Go names calculator" .goNames (goNames { reporter := some .reporter })
  let types ← create t!"Go types calculator" .goTypes
    (goTypes { reporter := some .reporter, packages := some (.built packages.1), names := some (.built names.1) })
  let binding ← create t!"HTTP binding calculator" .bindingCalculator
    (bindingCalculator { reporter := some .reporter })
  let specs ← create t!"OpenAPI names calculator" .specNames (specNames { reporter := some .reporter })
  let errors ← create t!"errors generator" .errorsGenerator
    (errorsGenerator
      { reporter := some .reporter, model := some .model, output := option output,
        packages := some (.built packages.1), names := some (.built names.1) })
  let helpers ← create t!"helpers generator" .helpersGenerator
    (helpersGenerator
      { reporter := some .reporter, model := some .model, output := option output,
        packages := some (.built packages.1), names := some (.built names.1) })
  let typesGen ← create t!"types generator" .typesGenerator
    (typesGenerator
      { reporter := some .reporter, model := some .model, output := option output,
        packages := some (.built packages.1), names := some (.built names.1), types := some (.built types.1),
        binding := some (.built binding.1) })
  let builders ← create t!"builders generator" .buildersGenerator
    (buildersGenerator
      { reporter := some .reporter, model := some .model, output := option output,
        packages := some (.built packages.1), names := some (.built names.1), types := some (.built types.1) })
  let clients ← create t!"clients generator" .clientsGenerator
    (clientsGenerator
      { reporter := some .reporter, model := some .model, output := option output,
        packages := some (.built packages.1), names := some (.built names.1), types := some (.built types.1),
        binding := some (.built binding.1) })
  let json ← create t!"JSON support generator" .jsonGenerator
    (jsonGenerator
      { reporter := some .reporter, model := some .model, output := option output,
        packages := some (.built packages.1), names := some (.built names.1), types := some (.built types.1),
        binding := some (.built binding.1) })
  let metrics ← create t!"metrics support generator" .metricsGenerator
    (metricsGenerator
      { reporter := some .reporter, model := some .model, output := option output,
        packages := some (.built packages.1), names := some (.built names.1),
        binding := some (.built binding.1) })
  let specGen ← create t!"OpenAPI specifications generator" .goSpecGenerator
    (goSpecGenerator
      { reporter := some .reporter, model := some .model, output := option output,
        packages := some (.built packages.1), names := some (.built specs.1),
        binding := some (.built binding.1) })
  return [packages, names, types, binding, specs, errors, helpers, typesGen, builders, clients, json, metrics, specGen]

/-- The objects that the command that generates OpenAPI specifications creates, in order,
cmd/metamodel/generate/openapi/cmd.go:97-129. -/
def specObjects (output : Text) : Except Text (List (Component × Given Thing)) := do
  let binding ← create t!"HTTP binding calculator" .bindingCalculator
    (bindingCalculator { reporter := some .reporter })
  let names ← create t!"OpenAPI names calculator" .specNames (specNames { reporter := some .reporter })
  let specs ← create t!"OpenAPI generator" .specGenerator
    (specGenerator
      { reporter := some .reporter, model := some .model, output := option output,
        names := some (.built names.1), binding := some (.built binding.1) })
  return [binding, names, specs]

/-- The object that the command that generates documentation creates, cmd/metamodel/generate/docs/cmd.go:100-110. -/
def docsObjects (output : Text) : Except Text (List (Component × Given Thing)) := do
  let docs ← create t!"documentation generator" .docsGenerator
    (docsGenerator { reporter := some .reporter, model := some .model, output := option output })
  return [docs]

/-! ## The options -/

/-- The options of the commands, cmd/metamodel/generate/golang/cmd.go:45-49. -/
structure Options where
  paths : List Text
  base : Text
  output : Text

/-- The messages about the options of the command that generates Go code,
cmd/metamodel/generate/golang/cmd.go:84-100. -/
def goProblems (o : Options) : List Text :=
  (if o.paths.length = 0 then [t!"Option '--model' is mandatory"] else []) ++
  (if o.base = [] then [t!"Option '--base' is mandatory"] else []) ++
  (if o.output = [] then [t!"Option '--output' is mandatory"] else [])

/-- The messages about the options of the commands that generate OpenAPI specifications and documentation,
cmd/metamodel/generate/openapi/cmd.go:73-85 and cmd/metamodel/generate/docs/cmd.go:72-84. -/
def outputProblems (o : Options) : List Text :=
  (if o.paths.length = 0 then [t!"Option '--model' is mandatory"] else []) ++
  (if o.output = [] then [t!"Option '--output' is mandatory"] else [])

/-- The messages about the options of the command that checks a model, cmd/metamodel/check/cmd.go:61-69. -/
def checkProblems (o : Options) : List Text :=
  if o.paths.length = 0 then [t!"Option '--model' is mandatory"] else []

end Verif.Wiring
