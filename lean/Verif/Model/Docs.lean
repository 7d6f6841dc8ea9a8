import Verif.Model.Binding

/-!
# Documentation generator

Model of `pkg/markdown/names_calculator.go` and of the decisions of
`pkg/generators/docs/docs_generator.go`: verbs, names of files, links and summaries. The texts of
the templates aren't modelled.
-/

namespace Verif

namespace Markdown

/-- `Display`, pkg/markdown/names_calculator.go:68-75. -/
def display (n : Name) : Text := joinText [] (n.map Word.capitalize)

/-- `File`, pkg/markdown/names_calculator.go:78-85. -/
def file (n : Name) : Text := joinText t!"_" (n.map fun w => toLower w.text)

/-- `Tag`, pkg/markdown/names_calculator.go:88-95. -/
def tag (n : Name) : Text := t!"`" ++ joinText t!"_" (n.map fun w => toLower w.text) ++ t!"`"

end Markdown

namespace Docs

/-- `httpMethod`, pkg/generators/docs/docs_generator.go:380-395. -/
def httpMethod (m : Method) : Text :=
  if m.named Nom.get || m.named Nom.list then t!"GET"
  else if m.named Nom.add then t!"POST"
  else if m.named Nom.update || m.named Nom.asyncUpdate then t!"PATCH"
  else if m.named Nom.delete || m.named Nom.asyncDelete then t!"DELETE"
  else t!"POST"

/-- `fileName`, pkg/generators/docs/docs_generator.go:369-378, for types. -/
def typeFile (n : Name) : Text := Markdown.file (Name.cat [n, Nom.typ])

/-- `fileName`, pkg/generators/docs/docs_generator.go:369-378, for resources. -/
def resourceFile (n : Name) : Text := Markdown.file (Name.cat [n, Nom.resource])

/-- `strings.IndexRune(doc, '.')` (Go standard library). -/
def indexOfDot : Text → Option Nat
  | [] => none
  | c :: cs => if c = '.' then some 0 else (indexOfDot cs).map (· + 1)

/-- `docSummary`, pkg/generators/docs/docs_generator.go:401-417. -/
def summary (doc : Text) : Text :=
  if doc = [] then []
  else
    match indexOfDot doc with
    | none => doc
    | some index => (doc.take (index + 1)).filter (· ≠ '\n')

/-- A type as seen by the generator: its name and kind. -/
structure DocType where
  name : Name
  kind : Kind
deriving DecidableEq, Repr

/-- A version as seen by the generator: its resources and types. -/
structure DocVersion where
  resources : List Name
  types : List DocType
deriving DecidableEq, Repr

/-- The files that the index links, pkg/generators/docs/docs_generator.go:178-204, without
extension: all the resources and all the types of all the versions. -/
def links (vs : List DocVersion) : List Text :=
  (vs.flatMap fun v => v.resources.map resourceFile) ++
  (vs.flatMap fun v => v.types.map fun t => typeFile t.name)

/-- The files written by `Run`, pkg/generators/docs/docs_generator.go:108-137, in order and without
extension: the index, and for each version the resources and the enumerated and struct types. -/
def pages (vs : List DocVersion) : List Text :=
  Markdown.file Nom.index ::
  vs.flatMap fun v =>
    v.resources.map resourceFile ++
    (v.types.filter fun t => t.kind == .enum || t.kind.isStruct).map fun t => typeFile t.name

end Docs

end Verif
