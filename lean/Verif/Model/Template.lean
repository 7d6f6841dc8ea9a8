import Verif.Model.GoBuffer
import Verif.Model.Docs
import Verif.Model.Files

/-!
# Templates and pages of the documentation

Model of the part of `text/template` (Go standard library) that the templates of
`pkg/generators/docs/docs_generator.go` use, of the Markdown buffer in `pkg/markdown/buffer.go`, and of
those templates. The templates are the same texts that are in the Go code.
-/

namespace Verif.Template

/-! ## The language of templates -/

/-- The text and the actions of a template, that alternate: the delimiters `{{` and `}}` are removed.
The flag tells if the text is that of an action. Strings that contain `}}` aren't supported. -/
def split : Bool → Text → Text → Option (List Text)
  | false, acc, [] => some [acc.reverse]
  | true, _, [] => none
  | false, acc, '{' :: '{' :: rest => (split true [] rest).map (acc.reverse :: ·)
  | true, acc, '}' :: '}' :: rest => (split false [] rest).map (acc.reverse :: ·)
  | inside, acc, c :: rest => split inside (c :: acc) rest

/-- The characters removed by trim markers: `spaceChars` of `text/template/parse/lex.go`. -/
def isBlank (c : Char) : Bool := c == ' ' || c == '\t' || c == '\r' || c == '\n'

/-- Removes the blanks at the end of a text. -/
def trimEnd (t : Text) : Text := (t.reverse.dropWhile isBlank).reverse

/-- The trim marker at the start of an action. -/
def trimsBefore (action : Text) : Bool := t!"- ".isPrefixOf action

/-- The trim marker at the end of an action. -/
def trimsAfter (action : Text) : Bool := t!"- ".isPrefixOf action.reverse

/-- The words of an action, without trim markers. -/
def wordsOf (action : Text) : List Text :=
  (splitOn ' ' action).filter fun w => w ≠ [] && w ≠ t!"-"

/-- Pieces of a template. -/
inductive Piece where
  | text (t : Text)
  | action (words : List Text)
deriving DecidableEq

/-- The pieces of a template, with the texts trimmed as the markers ask for. -/
def pieces : Bool → List Text → List Piece
  | trim, t :: action :: rest =>
    let t := if trim then t.dropWhile isBlank else t
    .text (if trimsBefore action then trimEnd t else t) :: .action (wordsOf action) ::
      pieces (trimsAfter action) rest
  | trim, [t] => [.text (if trim then t.dropWhile isBlank else t)]
  | _, [] => []

/-- Nodes of the tree of a template. -/
inductive Node where
  | text (t : Text)
  | call (function argument : Text)
  | branch (condition : Text) (body : List Node)
  | range (list : Text) (body : List Node)

/-- Builds the tree. The stack has the actions that have been opened and not yet closed, with the
nodes that precede them. -/
def tree : List Piece → List Node → List ((List Node → Node) × List Node) → Option (List Node)
  | [], nodes, [] => some nodes.reverse
  | [], _, _ :: _ => none
  | .text t :: rest, nodes, stack => tree rest (.text t :: nodes) stack
  | .action words :: rest, nodes, stack =>
    match words with
    | [word] =>
      if word = t!"end" then
        match stack with
        | [] => none
        | (node, before) :: stack => tree rest (node nodes.reverse :: before) stack
      else none
    | [word, argument] =>
      if word = t!"if" then tree rest [] ((.branch argument, nodes) :: stack)
      else if word = t!"range" then tree rest [] ((.range argument, nodes) :: stack)
      else tree rest (.call word argument :: nodes) stack
    | _ => none

/-- `Parse` (Go standard library). -/
def parse (template : Text) : Option (List Node) :=
  (split false [] template).bind fun ts => tree (pieces false ts) [] []

/-- Kinds of elements of the model that are used in the templates. -/
inductive Category where
  | model | service | version | resource | method | parameter | type | attribute | value
deriving DecidableEq, Repr

/-- An element of the model as seen by the templates: its name, its documentation, whether it is a
class, and the results of the methods that return lists of elements. -/
inductive Item where
  | mk (sort : Category) (name : Name) (doc : Text) (isClass : Bool) (lists : List (Text × List Item))

/-- The kind of an element. -/
def Item.sort : Item → Category
  | .mk s _ _ _ _ => s
/-- The name of an element. -/
def Item.name : Item → Name
  | .mk _ n _ _ _ => n
/-- The documentation of an element. -/
def Item.doc : Item → Text
  | .mk _ _ d _ _ => d
/-- `IsClass`, pkg/concepts/type.go:175-178. -/
def Item.isClass : Item → Bool
  | .mk _ _ _ c _ => c
/-- The lists of elements of an element. -/
def Item.lists : Item → List (Text × List Item)
  | .mk _ _ _ _ l => l

/-- The values used in the templates. -/
inductive Value where
  /-- The map that contains the arguments of `Emit`. -/
  | args (fields : List (Text × Item))
  | item (i : Item)
  | list (is : List Item)
  | flag (b : Bool)
  | text (t : Text)

/-- The value of a field or method of a value. -/
def Value.field (v : Value) (name : Text) : Option Value :=
  match v with
  | .args fields => (fields.lookup name).map .item
  | .item i => if name = t!"IsClass" then some (.flag i.isClass) else (i.lists.lookup name).map .list
  | _ => none

/-- The value of a chain of fields. -/
def Value.path (v : Value) : List Text → Option Value
  | [] => some v
  | name :: names => (v.field name).bind fun w => w.path names

/-- The value of an argument of an action: the dot, a chain of fields of the dot, or a string. -/
def Value.argument (dot : Value) (a : Text) : Option Value :=
  match a with
  | '"' :: rest => some (.text rest.dropLast)
  | '.' :: rest => if rest = [] then some dot else dot.path (splitOn '.' rest)
  | _ => none

/-- The functions that can be used in a template. -/
abbrev Functions := List (Text × (Value → Option Text))

/-- The condition of an `if` action: lists that aren't empty, and flags that are true. -/
def Value.isTrue : Value → Option Bool
  | .list is => some !is.isEmpty
  | .flag b => some b
  | _ => none

mutual
/-- `Execute` (Go standard library) for a node: the text produced, if there are no errors. -/
def Node.run (fs : Functions) (dot : Value) : Node → Option Text
  | .text t => some t
  | .call function argument =>
    (fs.lookup function).bind fun f => (dot.argument argument).bind f
  | .branch condition body =>
    (dot.argument condition).bind fun v => v.isTrue.bind fun b =>
      if b then runNodes fs dot body else some []
  | .range list body =>
    (dot.argument list).bind fun v =>
      match v with
      | .list is => (is.mapM fun i => runNodes fs (.item i) body).map List.flatten
      | _ => none
/-- `Execute` (Go standard library) for a list of nodes. -/
def runNodes (fs : Functions) (dot : Value) : List Node → Option Text
  | [] => some []
  | n :: ns => (n.run fs dot).bind fun t => (runNodes fs dot ns).map (t ++ ·)
end

end Verif.Template

namespace Verif.Markdown

open Template

/-! ## The buffer -/

/-- `backTicks`, pkg/markdown/buffer.go:284-286. -/
def backTicks : Value → Option Text
  | .text t => some (t!"`" ++ t ++ t!"`")
  | _ => none

/-- What `Emit` adds to the buffer, pkg/markdown/buffer.go:136-198, or nothing if there is an
error. -/
def emit (fs : Functions) (template : Text) (args : List (Text × Item)) : Option Text :=
  (Template.parse template).bind fun nodes =>
    (runNodes ((t!"backTicks", backTicks) :: fs) (.args args) nodes).map (· ++ t!"\n")

/-- The maximum size of the lines that `bufio.Scanner` (Go standard library) accepts. -/
def maxLine : Nat := 65536

/-- The lines returned by `bufio.Scanner` (Go standard library), and the part of the text that it
hasn't read: when a line is too long it stops, and has read `maxLine` characters of that line. The
accumulator has the current line, reversed. Simplification: counts characters instead of bytes. The
carriage return at the end of a line isn't removed here, because it is a blank that is removed
later. -/
def scan : Text → Text → List Text × Option Text
  | [], acc => (if acc = [] then [] else [acc.reverse], none)
  | c :: rest, acc =>
    if c = '\n' then
      let r := scan rest []
      (acc.reverse :: r.1, r.2)
    else if acc.length + 1 = maxLine then ([], some rest)
    else scan rest (c :: acc)

/-- The changes that `removeTabs` does to each line, pkg/markdown/buffer.go:257-260 and 266-271:
removes the blanks at the end and the tabs at the start. -/
def clean (line : Text) : Text :=
  ((line.reverse.dropWhile isSpaceChar).reverse).dropWhile (· == '\t')

/-- `removeTabs`, pkg/markdown/buffer.go:253-280. If a line is too long the error is ignored by
`Write`, line 232, and the buffer has what hasn't been read. -/
def removeTabs (code : Text) : Text :=
  match scan code [] with
  | (lines, none) => lines.flatMap fun line => clean line ++ t!"\n"
  | (_, some rest) => rest

end Verif.Markdown

namespace Verif.Docs

open Template

/-! ## The generator -/

/-- `displayName`, pkg/generators/docs/docs_generator.go:361-363. -/
def displayName : Value → Option Text
  | .item i => some (Markdown.display i.name)
  | _ => none

/-- `tagName`, pkg/generators/docs/docs_generator.go:365-367. -/
def tagName : Value → Option Text
  | .item i => some (Markdown.tag i.name)
  | _ => none

/-- `fileName`, pkg/generators/docs/docs_generator.go:369-378. -/
def fileName : Value → Option Text
  | .item i =>
    match i.sort with
    | .type => some (typeFile i.name)
    | .resource => some (resourceFile i.name)
    | _ => some (Markdown.file i.name)
  | _ => none

/-- `httpMethod`, pkg/generators/docs/docs_generator.go:380-395. -/
def httpMethodOf : Value → Option Text
  | .item i => some (httpMethod { name := i.name, parameters := [] })
  | _ => none

/-- `docDetail`, pkg/generators/docs/docs_generator.go:397-399. -/
def docDetail : Value → Option Text
  | .item i => some i.doc
  | _ => none

/-- `docSummary`, pkg/generators/docs/docs_generator.go:401-417. -/
def docSummary : Value → Option Text
  | .item i => some (summary i.doc)
  | _ => none

/-- The functions of the template of the index, pkg/generators/docs/docs_generator.go:164-165. -/
def indexFunctions : Functions :=
  [(t!"displayName", displayName), (t!"resourceFile", fileName)]

/-- The functions of the template of resources, pkg/generators/docs/docs_generator.go:217-221. -/
def resourceFunctions : Functions :=
  [(t!"displayName", displayName), (t!"docDetail", docDetail), (t!"docSummary", docSummary),
    (t!"httpMethod", httpMethodOf), (t!"tagName", tagName)]

/-- The functions of the templates of types, pkg/generators/docs/docs_generator.go:283-286. -/
def typeFunctions : Functions :=
  [(t!"displayName", displayName), (t!"docDetail", docDetail), (t!"docSummary", docSummary),
    (t!"tagName", tagName)]

/-- The template of the index, pkg/generators/docs/docs_generator.go:179-201. -/
def indexTemplate : Text :=
  t!"\n" ++
  t!"\t\t# Model\n" ++
  t!"\n" ++
  t!"\t\t## Resources\n" ++
  t!"\n" ++
  t!"\t\t{{ range .Model.Services }}\n" ++
  t!"\t\t\t{{ range .Versions }}\n" ++
  t!"\t\t\t\t{{ range .Resources }}\n" ++
  t!"\t\t\t\t\t[{{ displayName . }}]({{ resourceFile . }}.md)\n" ++
  t!"\t\t\t\t{{ end }}\n" ++
  t!"\t\t\t{{ end }}\n" ++
  t!"\t\t{{ end }}\n" ++
  t!"\n" ++
  t!"\t\t## Types\n" ++
  t!"\n" ++
  t!"\t\t{{ range .Model.Services }}\n" ++
  t!"\t\t\t{{ range .Versions }}\n" ++
  t!"\t\t\t\t{{ range .Types }}\n" ++
  t!"\t\t\t\t\t[{{ displayName . }}]({{ resourceFile . }}.md)\n" ++
  t!"\t\t\t\t{{ end }}\n" ++
  t!"\t\t\t{{ end }}\n" ++
  t!"\t\t{{ end }}\n" ++
  t!"\t\t"

/-- The template of the pages of resources, pkg/generators/docs/docs_generator.go:235-267. -/
def resourceTemplate : Text :=
  t!"\n" ++
  t!"\t\t# {{ displayName .Resource }}\n" ++
  t!"\n" ++
  t!"\t\t{{ docDetail .Resource }}\n" ++
  t!"\n" ++
  t!"\t\t{{ if .Resource.Methods }}\n" ++
  t!"\t\t\t| Name | Summary |\n" ++
  t!"\t\t\t| ---- | ------- |\n" ++
  t!"\t\t\t{{ range .Resource.Methods -}}\n" ++
  t!"\t\t\t\t| {{ displayName . }} | {{ docSummary . }} |\n" ++
  t!"\t\t\t{{ end -}}\n" ++
  t!"\t\t{{ end }}\n" ++
  t!"\n" ++
  t!"\t\t{{ range .Resource.Methods }}\n" ++
  t!"\t\t\t## {{ displayName . }} - {{ httpMethod . }}\n" ++
  t!"\n" ++
  t!"\t\t\t{{ docDetail . }}\n" ++
  t!"\n" ++
  t!"\t\t\t{{ if .Parameters }}\n" ++
  t!"\t\t\t\t| Name | Type | Direction | Summary |\n" ++
  t!"\t\t\t\t| ---- | ---- | --------- | ------- |\n" ++
  t!"\t\t\t\t{{ range .Parameters -}}\n" ++
  t!"\t\t\t\t\t| {{ tagName . }} | - | - | {{ docSummary . }} |\n" ++
  t!"\t\t\t\t{{ end -}}\n" ++
  t!"\t\t\t{{ end }}\n" ++
  t!"\n" ++
  t!"\t\t\t{{ range .Parameters }}\n" ++
  t!"\t\t\t\t### {{ displayName . }}\n" ++
  t!"\n" ++
  t!"\t\t\t\t{{ docDetail . }}\n" ++
  t!"\t\t\t{{ end }}\n" ++
  t!"\t\t{{ end }}\n" ++
  t!"\t\t"

/-- The template of the pages of enumerated types, pkg/generators/docs/docs_generator.go:309-327. -/
def enumTemplate : Text :=
  t!"\n" ++
  t!"\t\t# {{ displayName .Type }}\n" ++
  t!"\n" ++
  t!"\t\t{{ docDetail .Type }}\n" ++
  t!"\n" ++
  t!"\t\t{{ if .Type.Values }}\n" ++
  t!"\t\t\t| Name | Summary |\n" ++
  t!"\t\t\t| ---- | ------- |\n" ++
  t!"\t\t\t{{ range .Type.Values -}}\n" ++
  t!"\t\t\t\t| {{ tagName . }} | {{ docSummary . }} |\n" ++
  t!"\t\t\t{{ end -}}\n" ++
  t!"\t\t{{ end }}\n" ++
  t!"\n" ++
  t!"\t\t{{ range .Type.Values }}\n" ++
  t!"\t\t\t### {{ tagName . }}\n" ++
  t!"\n" ++
  t!"\t\t\t{{ docDetail . }}\n" ++
  t!"\t\t{{ end }}\n" ++
  t!"\t\t"

/-- The template of the pages of structs and classes, pkg/generators/docs/docs_generator.go:333-356. -/
def structTemplate : Text :=
  t!"\n" ++
  t!"\t\t# {{ displayName .Type }}\n" ++
  t!"\n" ++
  t!"\t\t{{ docDetail .Type }}\n" ++
  t!"\n" ++
  t!"\t\t{{ if .Type.Attributes }}\n" ++
  t!"\t\t\t| Name | Type | Summary |\n" ++
  t!"\t\t\t| ---- | ---- | ------- |\n" ++
  t!"\t\t\t{{ if .Type.IsClass -}}\n" ++
  t!"\t\t\t\t| {{ backTicks \"kind\" }} | String | Name of the type of the object. |\n" ++
  t!"\t\t\t\t| {{ backTicks \"id\" }} | String | Unique identifier of the object. |\n" ++
  t!"\t\t\t\t| {{ backTicks \"href\" }} | String | Link to the object. |\n" ++
  t!"\t\t\t{{ end -}}\n" ++
  t!"\t\t\t{{ range .Type.Attributes -}}\n" ++
  t!"\t\t\t\t| {{ tagName . }} | - | {{ docSummary . }} |\n" ++
  t!"\t\t\t{{ end -}}\n" ++
  t!"\t\t{{ end }}\n" ++
  t!"\n" ++
  t!"\t\t{{ range .Type.Attributes }}\n" ++
  t!"\t\t\t## {{ tagName . }}\n" ++
  t!"\n" ++
  t!"\t\t\t{{ docDetail . }}\n" ++
  t!"\t\t{{ end }}\n" ++
  t!"\t\t"

/-! ## The elements of the model -/

/-- A parameter of a method. -/
structure ParameterView where
  name : Name
  doc : Text
  kind : Kind
  isIn : Bool
  isOut : Bool
deriving DecidableEq, Repr

/-- A method of a resource. -/
structure MethodView where
  name : Name
  doc : Text
  parameters : List ParameterView
deriving DecidableEq, Repr

/-- A resource. -/
structure ResourceView where
  name : Name
  doc : Text
  methods : List MethodView
deriving DecidableEq, Repr

/-- An attribute of a struct, or a value of an enumerated type. -/
structure MemberView where
  name : Name
  doc : Text
deriving DecidableEq, Repr

/-- A type. -/
structure TypeView where
  name : Name
  doc : Text
  kind : Kind
  members : List MemberView
deriving DecidableEq, Repr

/-- A version. -/
structure VersionView where
  name : Name
  resources : List ResourceView
  types : List TypeView
deriving DecidableEq, Repr

/-- A service. -/
structure ServiceView where
  name : Name
  versions : List VersionView
deriving DecidableEq, Repr

/-- A parameter in the templates. -/
def ParameterView.item (p : ParameterView) : Item := .mk .parameter p.name p.doc false []

/-- A method in the templates. -/
def MethodView.item (m : MethodView) : Item :=
  .mk .method m.name m.doc false [(t!"Parameters", m.parameters.map ParameterView.item)]

/-- A resource in the templates. -/
def ResourceView.item (r : ResourceView) : Item :=
  .mk .resource r.name r.doc false [(t!"Methods", r.methods.map MethodView.item)]

/-- An attribute in the templates. -/
def MemberView.attribute (m : MemberView) : Item := .mk .attribute m.name m.doc false []

/-- A value of an enumerated type in the templates. -/
def MemberView.value (m : MemberView) : Item := .mk .value m.name m.doc false []

/-- A type in the templates: `Attributes` are for structs and `Values` for enumerated types. -/
def TypeView.item (t : TypeView) : Item :=
  .mk .type t.name t.doc (t.kind == .class)
    [(t!"Attributes", if t.kind.isStruct then t.members.map MemberView.attribute else []),
      (t!"Values", if t.kind == .enum then t.members.map MemberView.value else [])]

/-- A version in the templates. -/
def VersionView.item (v : VersionView) : Item :=
  .mk .version v.name [] false
    [(t!"Resources", v.resources.map ResourceView.item), (t!"Types", v.types.map TypeView.item)]

/-- A service in the templates. -/
def ServiceView.item (s : ServiceView) : Item :=
  .mk .service s.name [] false [(t!"Versions", s.versions.map VersionView.item)]

/-- The model in the templates. -/
def modelItem (m : List ServiceView) : Item :=
  .mk .model [] [] false [(t!"Services", m.map ServiceView.item)]

/-- `documentIndex`, pkg/generators/docs/docs_generator.go:178-205. -/
def documentIndex (m : List ServiceView) : Option Text :=
  Markdown.emit indexFunctions indexTemplate [(t!"Model", modelItem m)]

/-- `documentResource`, pkg/generators/docs/docs_generator.go:234-270. -/
def documentResource (r : ResourceView) : Option Text :=
  Markdown.emit resourceFunctions resourceTemplate [(t!"Resource", r.item)]

/-- `documentType`, pkg/generators/docs/docs_generator.go:299-306, with `documentEnum` and
`documentStruct`, lines 308-330 and 332-359. -/
def documentType (t : TypeView) : Option Text :=
  if t.kind == .enum then Markdown.emit typeFunctions enumTemplate [(t!"Type", t.item)]
  else if t.kind.isStruct then Markdown.emit typeFunctions structTemplate [(t!"Type", t.item)]
  else some []

/-- The buffer of a page: the name of its file, without extension, and the text generated. -/
structure Page where
  file : Text
  code : Option Text

/-- The pages generated by `Run`, pkg/generators/docs/docs_generator.go:108-151, in order. -/
def pagesOf (m : List ServiceView) : List Page :=
  { file := Markdown.file Nom.index, code := documentIndex m } ::
  m.flatMap fun s => s.versions.flatMap fun v =>
    (v.resources.map fun r => { file := resourceFile r.name, code := documentResource r }) ++
    ((v.types.filter fun t => t.kind == .enum || t.kind.isStruct).map fun t =>
      { file := typeFile t.name, code := documentType t })

/-- The buffer as seen by the writer of files: errors of the template are reported and then the file
isn't written; otherwise what is written is the text without tabs, pkg/markdown/buffer.go:201-250. -/
def Page.job (p : Page) : Files.Job Text :=
  match p.code with
  | none => { path := p.file ++ t!".md", content := [], reported := 1 }
  | some code => { path := p.file ++ t!".md", content := Markdown.removeTabs code, reported := 0 }

/-- `Run`, pkg/generators/docs/docs_generator.go:108-151. The counter of errors of the generator is
never changed. -/
def generate (writable : Text → Bool) (m : List ServiceView) (st : Files.State Text) :
    Files.State Text × Bool :=
  Files.runJobs writable ((pagesOf m).map Page.job) st

/-- `run` of the command that generates documentation, cmd/metamodel/generate/docs/cmd.go:64-123: the
files and the exit code. -/
def command (writable : Text → Bool) (read : List Text → Option (List ServiceView))
    (model : List Text) (output : Text) (disk : Text → Option Text) : (Text → Option Text) × Nat :=
  if model = [] ∨ output = [] then (disk, 1)
  else
    match read model with
    | none => (disk, 1)
    | some m =>
      match generate writable m { disk := disk, errors := 0 } with
      | (st, true) => (st.disk, 0)
      | (st, false) => (st.disk, 1)

end Verif.Docs
