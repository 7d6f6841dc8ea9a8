import Verif.Model.Methods

/-! # Annotations and HTTP bindings: `pkg/annotations` and `pkg/http` -/

namespace Verif

/-- Decimal representation of a natural number. -/
def natText (n : Nat) : Text := (Nat.toDigits 10 n)

/-- Decimal representation of an integer. -/
def intText : Int → Text
  | .ofNat n => natText n
  | .negSucc n => '-' :: natText (n + 1)

/-- `fmt.Sprintf("%s", value)` (Go standard library) for the values that annotations can have. -/
def formatString : Literal → Text
  | .str t => t
  | .int i => t!"%!s(int=" ++ intText i ++ t!")"
  | .bool b => t!"%!s(bool=" ++ (if b then t!"true" else t!"false") ++ t!")"

/-- `Annotation.GetString`, pkg/concepts/annotation.go:59-65. -/
def Annotation.getString (a : Annotation) (name : Text) : Text :=
  match a.parameters.find name with
  | none => []
  | some value => formatString value

/-- `GetAnnotation`, pkg/concepts/annotated.go:49-56. -/
def getAnnotation (as : List Annotation) (name : Text) : Option Annotation :=
  as.find? fun a => a.name == name

/-- The common body of the functions of pkg/annotations/annotations.go: the value of a parameter
of the annotation with the given name, or the empty string. -/
def annotationText (as : List Annotation) (name parameter : Text) : Text :=
  match getAnnotation as name with
  | none => []
  | some a =>
    match a.parameters.find parameter with
    | none => []
    | some value => formatString value

/-- `HTTPName`, pkg/annotations/annotations.go:27-37. -/
def httpName (as : List Annotation) : Text := annotationText as t!"http" t!"name"
/-- `JSONName`, pkg/annotations/annotations.go:41-51. -/
def jsonName (as : List Annotation) : Text := annotationText as t!"json" t!"name"
/-- `GoName`, pkg/annotations/annotations.go:55-65. -/
def goName (as : List Annotation) : Text := annotationText as t!"go" t!"name"
/-- `ReferencePath`, pkg/annotations/annotations.go:69-79. -/
def referencePath (as : List Annotation) : Text := annotationText as t!"ref" t!"path"

namespace Binding

/-- `RequestParameters`, pkg/http/binding_calculator.go:77-85. -/
def requestParameters (m : Method) : List Parameter := m.parameters.filter fun p => p.isIn

/-- `RequestQueryParameters`, pkg/http/binding_calculator.go:89-99. -/
def requestQueryParameters (m : Method) : List Parameter :=
  if !m.isAction then m.parameters.filter fun p => p.isIn && p.typ.isScalar else []

/-- `RequestBodyParameters`, pkg/http/binding_calculator.go:103-119. -/
def requestBodyParameters (m : Method) : List Parameter :=
  if m.isAction then m.parameters.filter fun p => p.isIn
  else m.parameters.filter fun p => p.isIn && !p.typ.isScalar

/-- `ResponseParameters`, pkg/http/binding_calculator.go:123-131. -/
def responseParameters (m : Method) : List Parameter := m.parameters.filter fun p => p.isOut

/-- `ResponseBodyParameters`, pkg/http/binding_calculator.go:135-143. -/
def responseBodyParameters (m : Method) : List Parameter := m.parameters.filter fun p => p.isOut

/-- `Method`, pkg/http/binding_calculator.go:146-164. -/
def method (m : Method) : Text :=
  if m.named Nom.add then t!"POST"
  else if m.named Nom.delete || m.named Nom.asyncDelete then t!"DELETE"
  else if m.named Nom.get then t!"GET"
  else if m.named Nom.list then t!"GET"
  else if m.named Nom.post then t!"POST"
  else if m.named Nom.update || m.named Nom.asyncUpdate then t!"PATCH"
  else t!"POST"

/-- `DefaultStatus`, pkg/http/binding_calculator.go:168-186, before the conversion to text. -/
def defaultStatus (m : Method) : Nat :=
  if m.named Nom.post then 201
  else if m.named Nom.add then 201
  else if m.named Nom.asyncUpdate then 202
  else if m.named Nom.update then 200
  else if m.named Nom.delete then 204
  else if m.named Nom.asyncDelete then 202
  else 200

/-- `AttributeName`, pkg/http/binding_calculator.go:189-195. -/
def attributeName (a : Attribute) : Text :=
  let name := jsonName a.annotations
  if name = [] then a.name.snake else name

/-- `QueryParameterName`, pkg/http/binding_calculator.go:199-213. -/
def queryParameterName (p : Parameter) : Text :=
  let name := httpName p.annotations
  if name = [] then
    let name := jsonName p.annotations
    if name = [] then p.name.snake else name
  else name

/-- `BodyParameterName`, pkg/http/binding_calculator.go:217-223. -/
def bodyParameterName (p : Parameter) : Text :=
  let name := jsonName p.annotations
  if name = [] then p.name.snake else name

/-- `ServiceSegment` and `VersionSegment`, pkg/http/binding_calculator.go:226-241, for the name and
annotations of the service or version. -/
def segment (name : Name) (annotations : List Annotation) : Text :=
  let text := httpName annotations
  if text = [] then name.snake else text

/-- `MethodSegment`, pkg/http/binding_calculator.go:244-253. -/
def methodSegment (m : Method) : Text :=
  if m.isAction then
    let name := httpName m.annotations
    if name = [] then m.name.snake else name
  else []

/-- `LocatorSegment`, pkg/http/binding_calculator.go:256-262. -/
def locatorSegment (l : Locator) : Text :=
  let name := httpName l.annotations
  if name = [] then l.name.snake else name

/-- `EnumValueName`, pkg/http/binding_calculator.go:265-271. -/
def enumValueName (v : EnumValue) : Text :=
  let name := jsonName v.annotations
  if name = [] then v.name.snake else name

end Binding

end Verif
