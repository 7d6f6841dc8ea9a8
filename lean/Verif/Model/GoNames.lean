import Verif.Model.Binding

/-!
# Names used in the generated Go code

Model of `pkg/generators/golang/names_calculator.go`, `reserved_words.go`,
`packages_calculator.go` and of the name functions of the generators.
-/

namespace Verif

namespace Go

/-- `reservedWords`, pkg/generators/golang/reserved_words.go:32-58. -/
def reservedWords : List Text :=
  [t!"break", t!"case", t!"chan", t!"const", t!"continue", t!"default", t!"defer", t!"else",
   t!"fallthrough", t!"for", t!"func", t!"go", t!"goto", t!"if", t!"import", t!"interface",
   t!"map", t!"package", t!"range", t!"return", t!"select", t!"struct", t!"switch", t!"type",
   t!"var"]

/-- `AvoidReservedWord`, pkg/generators/golang/reserved_words.go:21-27. -/
def avoidReservedWord (word : Text) : Text :=
  if reservedWords.contains word then word ++ t!"_" else word

/-- `Public`, pkg/generators/golang/names_calculator.go:69-78. -/
def publicName (n : Name) : Text := avoidReservedWord (joinText [] (n.map Word.capitalize))

/-- `Private`, pkg/generators/golang/names_calculator.go:81-94. -/
def privateName (n : Name) : Text :=
  let chunks :=
    match n with
    | [] => []
    | w :: ws => toLower w.text :: ws.map Word.capitalize
  avoidReservedWord (joinText [] chunks)

/-- `File`, pkg/generators/golang/names_calculator.go:97-99. -/
def fileName (n : Name) : Text := n.lowerJoined t!"_"

/-- The name given with the `@go` annotation or the public name: the common code of `objectName`,
`getterName`, `setterName`, `locatorName`, `methodName`... of the generators, for example
pkg/generators/golang/types_generator.go:637-643. -/
def nameOf (as : List Annotation) (n : Name) : Text :=
  let name := goName as
  if name = [] then publicName n else name

/-- `avoidBuiltin`, pkg/generators/golang/clients_generator.go:1243-1249. -/
def avoidBuiltin (name : Text) (builtins : List Text) : Text :=
  if builtins.contains name then name ++ t!"_" else name

/-- `builtinFields`, pkg/generators/golang/clients_generator.go:1251-1254. -/
def builtinFields : List Text := [t!"err", t!"status"]

/-- `builtinGetters`, pkg/generators/golang/clients_generator.go:1256-1259. -/
def builtinGetters : List Text := [t!"Error", t!"Status"]

/-- `builtinSetters`, pkg/generators/golang/clients_generator.go:1261. -/
def builtinSetters : List Text := []

/-- `fieldName` of the clients generator, pkg/generators/golang/clients_generator.go:1039-1043. -/
def parameterField (p : Parameter) : Text := avoidBuiltin (privateName p.name) builtinFields

/-- `getterName` of the clients generator, pkg/generators/golang/clients_generator.go:1063-1070. -/
def parameterGetter (p : Parameter) : Text := avoidBuiltin (nameOf p.annotations p.name) builtinGetters

/-- `setterName` of the clients generator, pkg/generators/golang/clients_generator.go:1076-1083. -/
def parameterSetter (p : Parameter) : Text := avoidBuiltin (nameOf p.annotations p.name) builtinSetters

/-- `requestName` and `responseName`, pkg/generators/golang/clients_generator.go:1139-1184, for the
suffixes `Request` and `Response`. -/
def messageName (suffix : Text) (isRoot : Bool) (r : Resource) (m : Method) : Text :=
  (if isRoot then nameOf m.annotations m.name
   else nameOf r.annotations r.name ++ nameOf m.annotations m.name) ++ suffix

/-- The fields of the struct generated for requests,
pkg/generators/golang/clients_generator.go:784-792. -/
def requestFields (m : Method) : List Text :=
  [t!"transport", t!"path", t!"query", t!"header"] ++
    (Binding.requestParameters m).map parameterField

/-- The methods of the struct generated for requests,
pkg/generators/golang/clients_generator.go:794-844. -/
def requestMethods (m : Method) : List Text :=
  [t!"Parameter", t!"Header", t!"Impersonate"] ++
    (Binding.requestParameters m).map parameterSetter ++ [t!"Send", t!"SendContext"]

/-- The fields of the struct generated for responses,
pkg/generators/golang/clients_generator.go:933-945. -/
def responseFields (m : Method) : List Text :=
  [t!"status", t!"header", t!"err"] ++ (Binding.responseParameters m).map parameterField

/-- The methods of the struct generated for responses,
pkg/generators/golang/clients_generator.go:947-1003. -/
def responseMethods (m : Method) : List Text :=
  [t!"Status", t!"Header", t!"Error"] ++
    (Binding.responseParameters m).flatMap fun p =>
      [parameterGetter p, t!"Get" ++ parameterGetter p]

/-- The name of an enumerated value, `valueName`,
pkg/generators/golang/types_generator.go:645-655. -/
def enumConstant (typeAnnotations : List Annotation) (typeName : Name) (v : EnumValue) : Text :=
  nameOf typeAnnotations typeName ++ nameOf v.annotations v.name

/-- `VersionPackage`, pkg/generators/golang/packages_calculator.go:98-103. `path.Join` of two clean
elements puts a slash between them and drops empty elements. -/
def versionPackage (service version : Name) : Text :=
  let s := service.lowerJoined []
  let v := version.lowerJoined []
  if s = [] then v else if v = [] then s else s ++ t!"/" ++ v

/-- `ServicePackage`, pkg/generators/golang/packages_calculator.go:83-85. -/
def servicePackage (service : Name) : Text := service.lowerJoined []

/-- `HelpersPackage`, pkg/generators/golang/packages_calculator.go:116-118. -/
def helpersPackage : Text := Nom.helpers.lowerJoined []
/-- `MetricsPackage`, pkg/generators/golang/packages_calculator.go:126-128. -/
def metricsPackage : Text := Nom.metrics.lowerJoined []
/-- `ErrorsPackage`, pkg/generators/golang/packages_calculator.go:136-138. -/
def errorsPackage : Text := Nom.errors.lowerJoined []

/-- `HelpersImport`, pkg/generators/golang/packages_calculator.go:121-123, for a clean base. -/
def helpersImport (base : Text) : Text := base ++ t!"/" ++ helpersPackage
/-- `MetricsImport`, pkg/generators/golang/packages_calculator.go:131-133: it uses the helpers
package. -/
def metricsImport (base : Text) : Text := base ++ t!"/" ++ helpersPackage
/-- `ErrorsImport`, pkg/generators/golang/packages_calculator.go:141-143. -/
def errorsImport (base : Text) : Text := base ++ t!"/" ++ errorsPackage

end Go

end Verif
