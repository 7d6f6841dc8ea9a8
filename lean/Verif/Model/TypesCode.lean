import Verif.Model.GoTemplate
import Verif.Model.Whole

/-!
# The files of the generated types

Model of the buffer of the generators of Go code, `pkg/generators/golang/buffer.go`, and of the types
generator, `pkg/generators/golang/types_generator.go`, that uses it. The templates are the same texts
that are in the Go code.
-/

namespace Verif.GoFile

open GoTemplate

/-! ## The buffer -/

/-- A buffer, pkg/generators/golang/buffer.go:47-55: the import path of the package, the imports and the
code, together with the number of errors that have been reported. -/
structure Buffer where
  pkg : Text
  errors : Nat := 0
  imports : GoMap Text := []
  code : Text := []

/-- `Import`, pkg/generators/golang/buffer.go:142-148. -/
def Buffer.imprt (b : Buffer) (path selector : Text) : Buffer :=
  if path ≠ [] ∧ path ≠ b.pkg then { b with imports := b.imports.insert path selector } else b

/-- What is done while a template is executed. -/
def Buffer.effect (b : Buffer) : Effect → Buffer
  | .imports path selector => b.imprt path selector
  | .error => { b with errors := b.errors + 1 }

/-- `replaceValue`, pkg/generators/golang/buffer.go:410-425, for a reference. The value doesn't depend on
the imports that the buffer has. -/
def reference {α : Type} (pkg : Text) (ref : GoRef.Ref) : Value α × List Effect :=
  (.text (GoRef.emit pkg ref), List.replicate ref.errors .error ++ [.imports ref.imprt ref.selector])

/-- `Emit` and `Eval`, pkg/generators/golang/buffer.go:172-247 and 269-282. The names of the arguments
are always texts. When there is an error in the template the imports are those of before: nothing will
be written. -/
def Buffer.emit {α : Type} (E : Env α) (b : Buffer) (template : Text) (args : List (Text × α)) : Buffer :=
  if b.errors > 0 then { b with code := b.code ++ t!"\n" }
  else
    match (parse template).bind (runNodes E (.args args) []) with
    | none => { b with errors := b.errors + 1, code := b.code ++ t!"\n" }
    | some (text, effects) =>
      let b := effects.foldl Buffer.effect b
      { b with code := b.code ++ text ++ t!"\n" }

/-- The constant `fileHeader`, pkg/generators/golang/buffer.go:486-504. -/
def fileHeader : Text :=
  List.flatten [
    t!"/*\n",
    t!"Copyright (c) 2020 Red Hat, Inc.\n",
    t!"\n",
    t!"Licensed under the Apache License, Version 2.0 (the \"License\");\n",
    t!"you may not use this file except in compliance with the License.\n",
    t!"You may obtain a copy of the License at\n",
    t!"\n",
    t!"  http://www.apache.org/licenses/LICENSE-2.0\n",
    t!"\n",
    t!"Unless required by applicable law or agreed to in writing, software\n",
    t!"distributed under the License is distributed on an \"AS IS\" BASIS,\n",
    t!"WITHOUT WARRANTIES OR CONDITIONS OF ANY KIND, either express or implied.\n",
    t!"See the License for the specific language governing permissions and\n",
    t!"limitations under the License.\n",
    t!"*/\n",
    t!"\n",
    t!"// IMPORTANT: This file has been generated automatically, refrain from modifying it manually as all\n",
    t!"// your changes will be lost when the file is generated again.\n"]

/-- One line of the import statement, pkg/generators/golang/buffer.go:345-349. -/
def importLine (e : Text × Text) : Text :=
  if e.2 ≠ [] then e.2 ++ t!" \"" ++ e.1 ++ t!"\"\n" else t!"\"" ++ e.1 ++ t!"\"\n"

/-- The import statement, pkg/generators/golang/buffer.go:342-353, for the imports in the order in which
the loop visits them. -/
def importBlock (imports : List (Text × Text)) : Text :=
  if imports.length > 0 then
    t!"import (\n" ++ imports.flatMap importLine ++ t!")\n" ++ t!"\n"
  else []

/-- The code after `removeExtraBlankLines`, pkg/generators/golang/buffer.go:376-407: nothing if a line is
too long. Simplification: the carriage returns at the end of lines, which the scanner removes, are kept. -/
def cleanCode (code : Text) : Option Text :=
  match Markdown.scan code [] with
  | (lines, none) => some ((GoBuffer.removeExtraBlankLines lines).flatMap (· ++ t!"\n"))
  | (_, some _) => none

/-- The part of the file that is before the code, pkg/generators/golang/buffer.go:332-353. -/
def preamble (pkg : Text) (imports : List (Text × Text)) : Text :=
  fileHeader ++ t!"\n" ++ t!"\n" ++
    (t!"package " ++ GoBuffer.cleanPkg (GoRef.pathBase pkg) ++ t!" // " ++ pkg ++ t!"\n") ++ t!"\n" ++
    importBlock imports

/-- `Write`, pkg/generators/golang/buffer.go:285-373, for a file that can be written: the content that
the file has afterwards, if it is opened, and whether it worked. The order is that in which the loop
visits the imports. -/
def Buffer.write (b : Buffer) (order : List (Text × Text)) : Option Text × Bool :=
  if b.errors > 0 then (none, false)
  else
    match cleanCode b.code with
    | none => (some (preamble b.pkg order), false)
    | some code => (some (preamble b.pkg order ++ code), true)

end Verif.GoFile

namespace Verif.TypesCode

open GoTemplate GoFile

/-! ## The generator -/

/-- What the generator needs to know about the model and the options: the base package, the import path
of the package of the type, the version that owns it, and what pointers to types and versions point
to. -/
structure Context where
  base : Text
  pkg : Text
  owner : GoRef.Owner
  typeOf : TypeId → GoRef.Typ
  ownerOf : VersionId → GoRef.Owner

/-- The objects used in the templates. Attributes and values have the type that owns them, and attributes
also have the position, because pointers to them are compared. -/
inductive Obj where
  | typ (c : TypeCell)
  | attribute (c : TypeCell) (i : Nat) (a : Attribute)
  | value (c : TypeCell) (v : EnumValue)
  | ref (t : GoRef.Typ)
  | name (n : Name)

/-- The names of types, pkg/concepts/named.go:30-32. Those of the predefined types are in
pkg/nomenclator/names.go. -/
def nameOf : GoRef.Typ → Name
  | .basic .boolean => Nom.boolean
  | .basic .integer => Nom.integer
  | .basic .long => Nom.long
  | .basic .float => Nom.float
  | .basic .string => Nom.string
  | .basic .date => Nom.date
  | .basic .interface => Nom.interface
  | .enum d => d.name
  | .struct d => d.name
  | .list d _ => d.name
  | .map d _ => d.name

/-- `IsBoolean`, pkg/concepts/type.go:116-119. -/
def isBoolean : GoRef.Typ → Bool
  | .basic .boolean => true
  | _ => false

/-- The attribute as the types calculator uses it, pkg/concepts/attribute.go:24-32. -/
def Context.attr (x : Context) (a : Attribute) : GoRef.Attr :=
  { typ := x.typeOf a.typ, link := a.link, linkOwner := a.linkOwner.map x.ownerOf }

/-- The type as the types calculator uses it. -/
def Context.typ (x : Context) (c : TypeCell) : GoRef.Typ :=
  let d : GoRef.Decl := { owner := x.owner, name := c.name, annotations := c.annotations }
  if c.isEnum then .enum d else .struct d

/-- The methods of the objects: pkg/concepts/named.go:30-32, pkg/concepts/documented.go:27-30,
pkg/concepts/type.go:119-122, 178-181, 218-221 and 232-235, pkg/concepts/attribute.go:50-53 and
pkg/names/name.go:60-70. -/
def Context.member (x : Context) : Obj → Text → Option (Value Obj)
  | .typ c, m =>
    if m = t!"Name" then some (.obj (.name c.name))
    else if m = t!"Doc" then some (.text c.doc)
    else if m = t!"IsClass" then some (.flag c.isClass)
    else if m = t!"Attributes" then some (.list (c.attributes.mapIdx (.attribute c)))
    else if m = t!"Values" then some (.list (c.values.map (.value c)))
    else none
  | .attribute _ _ a, m =>
    if m = t!"Name" then some (.obj (.name a.name))
    else if m = t!"Doc" then some (.text a.doc)
    else if m = t!"Type" then some (.obj (.ref (x.typeOf a.typ)))
    else none
  | .value _ v, m => if m = t!"Doc" then some (.text v.doc) else none
  | .ref t, m =>
    if m = t!"Name" then some (.obj (.name (nameOf t)))
    else if m = t!"IsBoolean" then some (.flag (isBoolean t))
    else none
  | .name n, m => if m = t!"String" then some (.text n.toText) else none

/-- How objects are printed: names have a `String` method, pkg/names/name.go:60-70. -/
def shown : Obj → Option Text
  | .name n => some n.toText
  | _ => none

/-- `BitmapType`, pkg/generators/golang/types_calculator.go:493-528. -/
def bitmapType (c : TypeCell) : GoRef.Ref :=
  match Bitmap.width c with
  | none => { errors := 1 }
  | some size => { name := t!"uint" ++ natText size, text := t!"uint" ++ natText size }

/-- The functions of the buffer, pkg/generators/golang/buffer.go:123-128, and those of the generator,
pkg/generators/golang/types_generator.go:258-269. Only those that the templates use. -/
def Context.functions (x : Context) (f : Text) : Option (List (Value Obj) → Option (Value Obj × List Effect)) :=
  if f = t!"lineComment" then
    some fun
      | [.text t] => some (.text (GoBuffer.lineComment t), [])
      | _ => none
  else if f = t!"bitMask" then
    some fun
      | [.obj (.attribute c i _)] => some (.text (Bitmap.maskText c i), [])
      | _ => none
  else if f = t!"bitmapType" then
    some fun
      | [.obj (.typ c)] => some (reference x.pkg (bitmapType c))
      | _ => none
  else if f = t!"enumName" then
    some fun
      | [.obj (.typ c)] =>
        let ref := GoRef.enumReference x.base (x.typ c)
        some (.text ref.name, List.replicate ref.errors .error)
      | _ => none
  else if f = t!"fieldName" then
    some fun
      | [.obj (.attribute _ _ a)] => some (.text (Go.privateName a.name), [])
      | _ => none
  else if f = t!"fieldType" then
    some fun
      | [.obj (.attribute _ _ a)] => some (reference x.pkg (GoRef.fieldType x.base (x.attr a)))
      | _ => none
  else if f = t!"getterName" then
    some fun
      | [.obj (.attribute _ _ a)] => some (.text (Go.nameOf a.annotations a.name), [])
      | _ => none
  else if f = t!"getterType" then
    some fun
      | [.obj (.attribute _ _ a)] => some (reference x.pkg (GoRef.getterType x.base (x.attr a)))
      | _ => none
  else if f = t!"listName" then
    some fun
      | [.obj (.typ c)] => some (.text (Go.nameOf c.annotations c.name ++ t!"List"), [])
      | _ => none
  else if f = t!"objectName" then
    some fun
      | [.obj (.typ c)] => some (.text (Go.nameOf c.annotations c.name), [])
      | _ => none
  else if f = t!"valueName" then
    some fun
      | [.obj (.value c v)] => some (.text (Go.enumConstant c.annotations c.name v), [])
      | _ => none
  else if f = t!"valueTag" then
    some fun
      | [.obj (.value _ v)] => some (.text (Binding.enumValueName v), [])
      | _ => none
  else if f = t!"zeroValue" then
    some fun
      | [.obj (.ref t)] => some (.text (GoRef.zeroValue x.base t), [])
      | _ => none
  else none

/-- What the templates can use. -/
def Context.env (x : Context) : Env Obj := { member := x.member, shown := shown, functions := x.functions }

/-- The template of the metadata of versions, pkg/generators/golang/types_generator.go:217-241. -/
def metadataTemplate : Text :=
  List.flatten [
    t!"\n",
    t!"\t\t// Metadata contains the version metadata.\n",
    t!"\t\ttype Metadata struct {\n",
    t!"\t\t\tbitmap_       uint32\n",
    t!"\t\t\tserverVersion string\n",
    t!"\t\t}\n",
    t!"\n",
    t!"\t\t// ServerVersion returns the version of the server.\n",
    t!"\t\tfunc (m *Metadata) ServerVersion() string {\n",
    t!"\t\t\tif m != nil && m.bitmap_&1 != 0 {\n",
    t!"\t\t\t\treturn m.serverVersion\n",
    t!"\t\t\t}\n",
    t!"\t\t\treturn \"\"\n",
    t!"\t\t}\n",
    t!"\n",
    t!"\t\t// GetServerVersion returns the value of the server version and a flag indicating if\n",
    t!"\t\t// the attribute has a value.\n",
    t!"\t\tfunc (m *Metadata) GetServerVersion() (value string, ok bool) {\n",
    t!"\t\t\tok = m != nil && m.bitmap_&1 != 0\n",
    t!"\t\t\tif ok {\n",
    t!"\t\t\t\tvalue = m.serverVersion\n",
    t!"\t\t\t}\n",
    t!"\t\t\treturn\n",
    t!"\t\t}\n",
    t!"\t\t"]

/-- The template of enumerated types, pkg/generators/golang/types_generator.go:293-305. -/
def enumTemplate : Text :=
  List.flatten [
    t!"\n",
    t!"\t\t{{ $enumName := enumName .Type }}\n",
    t!"\n",
    t!"\t\t// {{ $enumName }} represents the values of the '{{ .Type.Name }}' enumerated type.\n",
    t!"\t\ttype {{ $enumName }} string\n",
    t!"\n",
    t!"\t\tconst (\n",
    t!"\t\t\t{{ range .Type.Values }}\n",
    t!"\t\t\t\t{{ lineComment .Doc }}\n",
    t!"\t\t\t\t{{ valueName . }} {{ $enumName }} = \"{{ valueTag . }}\"\n",
    t!"\t\t\t{{ end }}\n",
    t!"\t\t)\n",
    t!"\t\t"]

/-- The template of structs and classes, pkg/generators/golang/types_generator.go:312-589. -/
def structTemplate : Text :=
  List.flatten [
    t!"\n",
    t!"\t\t{{ $objectName := objectName .Type }}\n",
    t!"\t\t{{ $listName := listName .Type }}\n",
    t!"\n",
    t!"\t\t{{ if .Type.IsClass }}\n",
    t!"\t\t\t// {{ $objectName }}Kind is the name of the type used to represent objects\n",
    t!"\t\t\t// of type '{{ .Type.Name }}'.\n",
    t!"\t\t\tconst {{ $objectName }}Kind = \"{{ $objectName }}\"\n",
    t!"\n",
    t!"\t\t\t// {{ $objectName }}LinkKind is the name of the type used to represent links\n",
    t!"\t\t\t// to objects of type '{{ .Type.Name }}'.\n",
    t!"\t\t\tconst {{ $objectName }}LinkKind = \"{{ $objectName }}Link\"\n",
    t!"\n",
    t!"\t\t\t// {{ $objectName }}NilKind is the name of the type used to nil references\n",
    t!"\t\t\t// to objects of type '{{ .Type.Name }}'.\n",
    t!"\t\t\tconst {{ $objectName }}NilKind = \"{{ $objectName }}Nil\"\n",
    t!"\t\t{{ end }}\n",
    t!"\n",
    t!"\t\t// {{ $objectName }} represents the values of the '{{ .Type.Name }}' type.\n",
    t!"\t\t//\n",
    t!"\t\t{{ lineComment .Type.Doc }}\n",
    t!"\t\ttype  {{ $objectName }} struct {\n",
    t!"\t\t\tbitmap_ {{ bitmapType .Type }}\n",
    t!"\t\t\t{{ if .Type.IsClass }}\n",
    t!"\t\t\t\tid   string\n",
    t!"\t\t\t\thref string\n",
    t!"\t\t\t{{ end }}\n",
    t!"\t\t\t{{ range .Type.Attributes }}\n",
    t!"\t\t\t\t{{ if not .Type.IsBoolean }}\n",
    t!"\t\t\t\t\t{{ fieldName . }} {{ fieldType . }}\n",
    t!"\t\t\t\t{{ end }}\n",
    t!"\t\t\t{{ end }}\n",
    t!"\t\t\t{{ range .Type.Attributes }}\n",
    t!"\t\t\t\t{{ if .Type.IsBoolean }}\n",
    t!"\t\t\t\t\t{{ fieldName . }} {{ fieldType . }}\n",
    t!"\t\t\t\t{{ end }}\n",
    t!"\t\t\t{{ end }}\n",
    t!"\t\t}\n",
    t!"\n",
    t!"\t\t{{ if .Type.IsClass }}\n",
    t!"\t\t\t// Kind returns the name of the type of the object.\n",
    t!"\t\t\tfunc (o *{{ $objectName }}) Kind() string {\n",
    t!"\t\t\t\tif o == nil {\n",
    t!"\t\t\t\t\treturn {{ $objectName }}NilKind\n",
    t!"\t\t\t\t}\n",
    t!"\t\t\t\tif o.bitmap_&1 != 0 {\n",
    t!"\t\t\t\t\treturn {{ $objectName }}LinkKind\n",
    t!"\t\t\t\t}\n",
    t!"\t\t\t\treturn {{ $objectName }}Kind\n",
    t!"\t\t\t}\n",
    t!"\n",
    t!"\t\t\t// Link returns true if this is a link.\n",
    t!"\t\t\tfunc (o *{{ $objectName }}) Link() bool {\n",
    t!"\t\t\t\treturn o != nil && o.bitmap_&1 != 0\n",
    t!"\t\t\t}\n",
    t!"\n",
    t!"\t\t\t// ID returns the identifier of the object.\n",
    t!"\t\t\tfunc (o *{{ $objectName }}) ID() string {\n",
    t!"\t\t\t\tif o != nil && o.bitmap_&2 != 0 {\n",
    t!"\t\t\t\t\treturn o.id\n",
    t!"\t\t\t\t}\n",
    t!"\t\t\t\treturn \"\"\n",
    t!"\t\t\t}\n",
    t!"\n",
    t!"\t\t\t// GetID returns the identifier of the object and a flag indicating if the\n",
    t!"\t\t\t// identifier has a value.\n",
    t!"\t\t\tfunc (o *{{ $objectName }}) GetID() (value string, ok bool) {\n",
    t!"\t\t\t\tok = o != nil && o.bitmap_&2 != 0\n",
    t!"\t\t\t\tif ok {\n",
    t!"\t\t\t\t\tvalue = o.id\n",
    t!"\t\t\t\t}\n",
    t!"\t\t\t\treturn\n",
    t!"\t\t\t}\n",
    t!"\n",
    t!"\t\t\t// HREF returns the link to the object.\n",
    t!"\t\t\tfunc (o *{{ $objectName }}) HREF() string {\n",
    t!"\t\t\t\tif o != nil && o.bitmap_&4 != 0 {\n",
    t!"\t\t\t\t\treturn o.href\n",
    t!"\t\t\t\t}\n",
    t!"\t\t\t\treturn \"\"\n",
    t!"\t\t\t}\n",
    t!"\n",
    t!"\t\t\t// GetHREF returns the link of the object and a flag indicating if the\n",
    t!"\t\t\t// link has a value.\n",
    t!"\t\t\tfunc (o *{{ $objectName }}) GetHREF() (value string, ok bool) {\n",
    t!"\t\t\t\tok = o != nil && o.bitmap_&4 != 0\n",
    t!"\t\t\t\tif ok {\n",
    t!"\t\t\t\t\tvalue = o.href\n",
    t!"\t\t\t\t}\n",
    t!"\t\t\t\treturn\n",
    t!"\t\t\t}\n",
    t!"\t\t{{ end }}\n",
    t!"\n",
    t!"\t\t// Empty returns true if the object is empty, i.e. no attribute has a value.\n",
    t!"\t\tfunc (o *{{ $objectName }}) Empty() bool {\n",
    t!"\t\t\t{{ if .Type.IsClass }}\n",
    t!"\t\t\t\treturn o == nil || o.bitmap_&^1 == 0\n",
    t!"\t\t\t{{ else }}\n",
    t!"\t\t\t\treturn o == nil || o.bitmap_ == 0\n",
    t!"\t\t\t{{ end }}\n",
    t!"\t\t}\n",
    t!"\n",
    t!"\t\t{{ range .Type.Attributes }}\n",
    t!"\t\t\t{{ $attributeType := .Type.Name.String }}\n",
    t!"\t\t\t{{ $fieldName := fieldName . }}\n",
    t!"\t\t\t{{ $fieldMask := bitMask . }}\n",
    t!"\t\t\t{{ $getterName := getterName . }}\n",
    t!"\t\t\t{{ $getterType := getterType . }}\n",
    t!"\n",
    t!"\t\t\t// {{ $getterName }} returns the value of the '{{ .Name }}' attribute, or\n",
    t!"\t\t\t// the zero value of the type if the attribute doesn't have a value.\n",
    t!"\t\t\t//\n",
    t!"\t\t\t{{ lineComment .Doc }}\n",
    t!"\t\t\tfunc (o *{{ $objectName }}) {{ $getterName }}() {{ $getterType }} {\n",
    t!"\t\t\t\tif o != nil && o.bitmap_&{{ $fieldMask }} != 0 {\n",
    t!"\t\t\t\t\treturn o.{{ $fieldName }}\n",
    t!"\t\t\t\t}\n",
    t!"\t\t\t\treturn {{ zeroValue .Type }}\n",
    t!"\t\t\t}\n",
    t!"\n",
    t!"\t\t\t// Get{{ $getterName }} returns the value of the '{{ .Name }}' attribute and\n",
    t!"\t\t\t// a flag indicating if the attribute has a value.\n",
    t!"\t\t\t//\n",
    t!"\t\t\t{{ lineComment .Doc }}\n",
    t!"\t\t\tfunc (o *{{ $objectName }}) Get{{ $getterName }}() (value {{ $getterType }}, ok bool) {\n",
    t!"\t\t\t\tok = o != nil && o.bitmap_&{{ $fieldMask }} != 0\n",
    t!"\t\t\t\tif ok {\n",
    t!"\t\t\t\t\tvalue = o.{{ $fieldName }}\n",
    t!"\t\t\t\t}\n",
    t!"\t\t\t\treturn\n",
    t!"\t\t\t}\n",
    t!"\t\t{{ end }}\n",
    t!"\n",
    t!"\t\t// {{ $listName }}Kind is the name of the type used to represent list of objects of\n",
    t!"\t\t// type '{{ .Type.Name }}'.\n",
    t!"\t\tconst {{ $listName }}Kind = \"{{ $listName }}\"\n",
    t!"\n",
    t!"\t\t// {{ $listName }}LinkKind is the name of the type used to represent links to list\n",
    t!"\t\t// of objects of type '{{ .Type.Name }}'.\n",
    t!"\t\tconst {{ $listName }}LinkKind = \"{{ $listName }}Link\"\n",
    t!"\n",
    t!"\t\t// {{ $objectName }}NilKind is the name of the type used to nil lists of objects of\n",
    t!"\t\t// type '{{ .Type.Name }}'.\n",
    t!"\t\tconst {{ $listName }}NilKind = \"{{ $listName }}Nil\"\n",
    t!"\n",
    t!"\t\t// {{ $listName }} is a list of values of the '{{ .Type.Name }}' type.\n",
    t!"\t\ttype {{ $listName }} struct {\n",
    t!"\t\t\thref  string\n",
    t!"\t\t\tlink  bool\n",
    t!"\t\t\titems []*{{ $objectName }}\n",
    t!"\t\t}\n",
    t!"\n",
    t!"\t\t{{ if .Type.IsClass }}\n",
    t!"\t\t\t// Kind returns the name of the type of the object.\n",
    t!"\t\t\tfunc (l *{{ $listName }}) Kind() string {\n",
    t!"\t\t\t\tif l == nil {\n",
    t!"\t\t\t\t\treturn {{ $listName }}NilKind\n",
    t!"\t\t\t\t}\n",
    t!"\t\t\t\tif l.link {\n",
    t!"\t\t\t\t\treturn {{ $listName }}LinkKind\n",
    t!"\t\t\t\t}\n",
    t!"\t\t\t\treturn {{ $listName }}Kind\n",
    t!"\t\t\t}\n",
    t!"\n",
    t!"\t\t\t// Link returns true iif this is a link.\n",
    t!"\t\t\tfunc (l *{{ $listName }}) Link() bool {\n",
    t!"\t\t\t\treturn l != nil && l.link\n",
    t!"\t\t\t}\n",
    t!"\n",
    t!"\t\t\t// HREF returns the link to the list.\n",
    t!"\t\t\tfunc (l *{{ $listName }}) HREF() string {\n",
    t!"\t\t\t\tif l != nil {\n",
    t!"\t\t\t\t\treturn l.href\n",
    t!"\t\t\t\t}\n",
    t!"\t\t\t\treturn \"\"\n",
    t!"\t\t\t}\n",
    t!"\n",
    t!"\t\t\t// GetHREF returns the link of the list and a flag indicating if the\n",
    t!"\t\t\t// link has a value.\n",
    t!"\t\t\tfunc (l *{{ $listName }}) GetHREF() (value string, ok bool) {\n",
    t!"\t\t\t\tok = l != nil && l.href != \"\"\n",
    t!"\t\t\t\tif ok {\n",
    t!"\t\t\t\t\tvalue = l.href\n",
    t!"\t\t\t\t}\n",
    t!"\t\t\t\treturn\n",
    t!"\t\t\t}\n",
    t!"\t\t{{ end }}\n",
    t!"\n",
    t!"\t\t// Len returns the length of the list.\n",
    t!"\t\tfunc (l *{{ $listName }}) Len() int {\n",
    t!"\t\t\tif l == nil {\n",
    t!"\t\t\t\treturn 0\n",
    t!"\t\t\t}\n",
    t!"\t\t\treturn len(l.items)\n",
    t!"\t\t}\n",
    t!"\n",
    t!"\t\t// Items sets the items of the list.\n",
    t!"\t\tfunc (l *{{ $listName }}) SetLink(link bool) {\n",
    t!"\t\t\tl.link = link\n",
    t!"\t\t}\n",
    t!"\n",
    t!"\t\t// Items sets the items of the list.\n",
    t!"\t\tfunc (l *{{ $listName }}) SetHREF(href string) {\n",
    t!"\t\t\tl.href = href\n",
    t!"\t\t}\n",
    t!"\n",
    t!"\t\t// Items sets the items of the list.\n",
    t!"\t\tfunc (l *{{ $listName }}) SetItems(items []*{{ $objectName }}) {\n",
    t!"\t\t\tl.items = items\n",
    t!"\t\t}\n",
    t!"\n",
    t!"\t\t// Items returns the items of the list.\n",
    t!"\t\tfunc (l *{{ $listName }}) Items() []*{{ $objectName }} {\n",
    t!"\t\t\tif l == nil {\n",
    t!"\t\t\t\treturn nil\n",
    t!"\t\t\t}\n",
    t!"\t\t\treturn l.items\n",
    t!"\t\t}\n",
    t!"\n",
    t!"\t\t// Empty returns true if the list is empty.\n",
    t!"\t\tfunc (l *{{ $listName }}) Empty() bool {\n",
    t!"\t\t\treturn l == nil || len(l.items) == 0\n",
    t!"\t\t}\n",
    t!"\n",
    t!"\t\t// Get returns the item of the list with the given index. If there is no item with\n",
    t!"\t\t// that index it returns nil.\n",
    t!"\t\tfunc (l *{{ $listName }}) Get(i int) *{{ $objectName }} {\n",
    t!"\t\t\tif l == nil || i < 0 || i >= len(l.items) {\n",
    t!"\t\t\t\treturn nil\n",
    t!"\t\t\t}\n",
    t!"\t\t\treturn l.items[i]\n",
    t!"\t\t}\n",
    t!"\n",
    t!"\t\t// Slice returns an slice containing the items of the list. The returned slice is a\n",
    t!"\t\t// copy of the one used internally, so it can be modified without affecting the\n",
    t!"\t\t// internal representation.\n",
    t!"\t\t//\n",
    t!"\t\t// If you don't need to modify the returned slice consider using the Each or Range\n",
    t!"\t\t// functions, as they don't need to allocate a new slice.\n",
    t!"\t\tfunc (l *{{ $listName }}) Slice() []*{{ $objectName }} {\n",
    t!"\t\t\tvar slice []*{{ $objectName }}\n",
    t!"\t\t\tif l == nil {\n",
    t!"\t\t\t\tslice = make([]*{{ $objectName}}, 0)\n",
    t!"\t\t\t} else {\n",
    t!"\t\t\t\tslice = make([]*{{ $objectName}}, len(l.items))\n",
    t!"\t\t\t\tcopy(slice, l.items)\n",
    t!"\t\t\t}\n",
    t!"\t\t\treturn slice\n",
    t!"\t\t}\n",
    t!"\n",
    t!"\t\t// Each runs the given function for each item of the list, in order. If the function\n",
    t!"\t\t// returns false the iteration stops, otherwise it continues till all the elements\n",
    t!"\t\t// of the list have been processed.\n",
    t!"\t\tfunc (l *{{ $listName }}) Each(f func(item *{{ $objectName }}) bool) {\n",
    t!"\t\t\tif l == nil {\n",
    t!"\t\t\t\treturn\n",
    t!"\t\t\t}\n",
    t!"\t\t\tfor _, item := range l.items {\n",
    t!"\t\t\t\tif !f(item) {\n",
    t!"\t\t\t\t\tbreak\n",
    t!"\t\t\t\t}\n",
    t!"\t\t\t}\n",
    t!"\t\t}\n",
    t!"\n",
    t!"\t\t// Range runs the given function for each index and item of the list, in order. If\n",
    t!"\t\t// the function returns false the iteration stops, otherwise it continues till all\n",
    t!"\t\t// the elements of the list have been processed.\n",
    t!"\t\tfunc (l *{{ $listName }}) Range(f func(index int, item *{{ $objectName }}) bool) {\n",
    t!"\t\t\tif l == nil {\n",
    t!"\t\t\t\treturn\n",
    t!"\t\t\t}\n",
    t!"\t\t\tfor index, item := range l.items {\n",
    t!"\t\t\t\tif !f(index, item) {\n",
    t!"\t\t\t\t\tbreak\n",
    t!"\t\t\t\t}\n",
    t!"\t\t\t}\n",
    t!"\t\t}\n",
    t!"\t\t"]

/-- `generateVersionMetadataTypeSource`, pkg/generators/golang/types_generator.go:215-243. -/
def metadataSource (x : Context) (b : Buffer) : Buffer := b.emit x.env metadataTemplate []

/-- `generateTypeSource`, pkg/generators/golang/types_generator.go:282-589. -/
def typeSource (x : Context) (c : TypeCell) (b : Buffer) : Buffer :=
  if c.isEnum then b.emit x.env enumTemplate [(t!"Type", .typ c)]
  else if c.kind.isStruct then
    (b.imprt t!"time" []).emit x.env structTemplate [(t!"Type", .typ c)]
  else b

/-- `generateVersionMetadataTypeFile`, pkg/generators/golang/types_generator.go:189-213, given the errors
reported before. -/
def metadataFile (x : Context) (errors : Nat) (order : List (Text × Text)) : Option Text × Bool :=
  (metadataSource x { pkg := x.pkg, errors := errors }).write order

/-- `generateTypeFile`, pkg/generators/golang/types_generator.go:245-280, given the errors reported
before. -/
def typeFile (x : Context) (c : TypeCell) (errors : Nat) (order : List (Text × Text)) :
    Option Text × Bool :=
  (typeSource x c { pkg := x.pkg, errors := errors }).write order

/-- What the generator knows about the types of a version of the model that has been read. -/
def contextOf (s : Session) (base : Text) (version : VersionId) : Context :=
  let owner := Whole.ownerOf s (some version)
  { base := base
    pkg := GoRef.versionImport base owner
    owner := owner
    typeOf := Whole.typeOf s
    ownerOf := fun v => Whole.ownerOf s (some v) }

end Verif.TypesCode
