import Verif.Model.Wiring

/-!
# What the builders and the commands need
-/

namespace Verif.Wiring

/-- The parts of the objects. -/
inductive Piece where
  | reporter
  | model
  | output
  | packages
  | names
  | types
  | binding
  | base
  deriving DecidableEq

/-- A part of an object, or what has been given to a builder. -/
def Given.get {α : Type} (b : Given α) : Piece → Option α
  | .reporter => b.reporter
  | .model => b.model
  | .output => b.output
  | .packages => b.packages
  | .names => b.names
  | .types => b.types
  | .binding => b.binding
  | .base => b.base

/-- The parts that the builders can be given. -/
def settable : Component → List Piece
  | .errorsGenerator => [.reporter, .model, .output, .packages, .names]
  | .helpersGenerator => [.reporter, .model, .output, .packages, .names]
  | .typesGenerator => [.reporter, .model, .output, .packages, .names, .types, .binding]
  | .buildersGenerator => [.reporter, .model, .output, .packages, .names, .types]
  | .clientsGenerator => [.reporter, .model, .output, .packages, .names, .types, .binding]
  | .jsonGenerator => [.reporter, .model, .output, .packages, .names, .types, .binding]
  | .metricsGenerator => [.reporter, .model, .output, .packages, .names, .binding]
  | .goSpecGenerator => [.reporter, .model, .output, .packages, .names, .binding]
  | .specGenerator => [.reporter, .model, .output, .names, .binding]
  | .docsGenerator => [.reporter, .model, .output, .names]
  | .goPackages => [.reporter, .base]
  | .goNames => [.reporter]
  | .goTypes => [.reporter, .packages, .names]
  | .specNames => [.reporter]
  | .docsNames => [.reporter]
  | .bindingCalculator => [.reporter]
  | .errorListener => [.reporter]

/-- The parts that the builders need, in the order that they are checked. -/
def mandatory : Component → List Piece
  | .errorsGenerator => [.reporter, .model, .output, .packages, .names]
  | .helpersGenerator => [.reporter, .model, .output, .packages, .names]
  | .typesGenerator => [.reporter, .model, .output, .packages, .names, .types, .binding]
  | .buildersGenerator => [.reporter, .model, .output, .packages, .names, .types]
  | .clientsGenerator => [.reporter, .model, .output, .packages, .names, .types, .binding]
  | .jsonGenerator => [.reporter, .model, .output, .packages, .names, .types]
  | .metricsGenerator => [.reporter, .model, .output, .packages, .names]
  | .goSpecGenerator => [.reporter, .model, .output, .packages, .binding, .names]
  | .specGenerator => [.reporter, .model, .output, .names, .binding]
  | .docsGenerator => [.reporter, .model, .output]
  | .goPackages => [.reporter, .base]
  | .goNames => [.reporter]
  | .goTypes => [.reporter, .packages, .names]
  | .specNames => [.reporter]
  | .docsNames => [.reporter]
  | .bindingCalculator => [.reporter]
  | .errorListener => [.reporter]

/-- What the messages call the parts that are mandatory. -/
def called : Component → Piece → Text
  | .errorsGenerator, .reporter => t!"reporter"
  | .errorsGenerator, .model => t!"model"
  | .errorsGenerator, .output => t!"path"
  | .errorsGenerator, .packages => t!"packages calculator"
  | .errorsGenerator, .names => t!"names calculator"
  | .helpersGenerator, .reporter => t!"reporter"
  | .helpersGenerator, .model => t!"model"
  | .helpersGenerator, .output => t!"path"
  | .helpersGenerator, .packages => t!"packages calculator"
  | .helpersGenerator, .names => t!"names calculator"
  | .typesGenerator, .reporter => t!"reporter"
  | .typesGenerator, .model => t!"model"
  | .typesGenerator, .output => t!"output"
  | .typesGenerator, .packages => t!"packages calculator"
  | .typesGenerator, .names => t!"names calculator"
  | .typesGenerator, .types => t!"types calculator"
  | .typesGenerator, .binding => t!"binding calculator"
  | .buildersGenerator, .reporter => t!"reporter"
  | .buildersGenerator, .model => t!"model"
  | .buildersGenerator, .output => t!"output"
  | .buildersGenerator, .packages => t!"packages calculator"
  | .buildersGenerator, .names => t!"names calculator"
  | .buildersGenerator, .types => t!"types"
  | .clientsGenerator, .reporter => t!"reporter"
  | .clientsGenerator, .model => t!"model"
  | .clientsGenerator, .output => t!"path"
  | .clientsGenerator, .packages => t!"packages calculator"
  | .clientsGenerator, .names => t!"names calculator"
  | .clientsGenerator, .types => t!"types calculator"
  | .clientsGenerator, .binding => t!"binding calculator"
  | .jsonGenerator, .reporter => t!"reporter"
  | .jsonGenerator, .model => t!"model"
  | .jsonGenerator, .output => t!"output"
  | .jsonGenerator, .packages => t!"packages calculator"
  | .jsonGenerator, .names => t!"names calculator"
  | .jsonGenerator, .types => t!"types calculator"
  | .metricsGenerator, .reporter => t!"reporter"
  | .metricsGenerator, .model => t!"model"
  | .metricsGenerator, .output => t!"output"
  | .metricsGenerator, .packages => t!"packages calculator"
  | .metricsGenerator, .names => t!"names calculator"
  | .goSpecGenerator, .reporter => t!"reporter"
  | .goSpecGenerator, .model => t!"model"
  | .goSpecGenerator, .output => t!"output path"
  | .goSpecGenerator, .packages => t!"packages calculator"
  | .goSpecGenerator, .binding => t!"HTTP binding calculator"
  | .goSpecGenerator, .names => t!"names calculator"
  | .specGenerator, .reporter => t!"reporter"
  | .specGenerator, .model => t!"model"
  | .specGenerator, .output => t!"output directory"
  | .specGenerator, .names => t!"names calculator"
  | .specGenerator, .binding => t!"binding calculator"
  | .docsGenerator, .reporter => t!"parameter 'reporter'"
  | .docsGenerator, .model => t!"parameter 'model'"
  | .docsGenerator, .output => t!"parameter 'output'"
  | .goPackages, .reporter => t!"reporter"
  | .goPackages, .base => t!"base package"
  | .goNames, .reporter => t!"reporter"
  | .goTypes, .reporter => t!"reporter"
  | .goTypes, .packages => t!"packages calculator"
  | .goTypes, .names => t!"names"
  | .specNames, .reporter => t!"reporter"
  | .docsNames, .reporter => t!"parameter 'reporter'"
  | .bindingCalculator, .reporter => t!"reporter"
  | .errorListener, .reporter => t!"reporter"
  | _, _ => []

/-- The builders. -/
def build {α : Type} : Component → Given α → Except Text (Given α)
  | .errorsGenerator => errorsGenerator
  | .helpersGenerator => helpersGenerator
  | .typesGenerator => typesGenerator
  | .buildersGenerator => buildersGenerator
  | .clientsGenerator => clientsGenerator
  | .jsonGenerator => jsonGenerator
  | .metricsGenerator => metricsGenerator
  | .goSpecGenerator => goSpecGenerator
  | .specGenerator => specGenerator
  | .docsGenerator => docsGenerator
  | .goPackages => goPackages
  | .goNames => goNames
  | .goTypes => goTypes
  | .specNames => specNames
  | .docsNames => docsNames
  | .bindingCalculator => bindingCalculator
  | .errorListener => errorListener

/-- The part that the builder of an object forgets. -/
def Forgets (c : Component) (p : Piece) : Prop := (c = .jsonGenerator ∨ c = .metricsGenerator) ∧ p = .binding

/-- What each part of the objects of the commands should be. -/
def expected (base output : Text) (c : Component) : Piece → Thing
  | .reporter => .reporter
  | .model => .model
  | .output => .text output
  | .base => .text base
  | .packages => .built .goPackages
  | .types => .built .goTypes
  | .binding => .built .bindingCalculator
  | .names => if c = .goSpecGenerator ∨ c = .specGenerator then .built .specNames else .built .goNames

end Verif.Wiring
