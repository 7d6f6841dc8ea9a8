import Verif.Model.TypesCode

/-!
# The files of the generated builders

Model of the builders generator, `pkg/generators/golang/builders_generator.go`. The templates are the same
texts that are in the Go code.
-/

namespace Verif.BuildersCode

open GoTemplate GoFile

/-- What the generator needs to know about the model and the options: that of the types generator, and the
documentation of the types. -/
structure Context extends TypesCode.Context where
  docOf : TypeId → Text

/-- The objects used in the templates. Attributes have the type that owns them and the position, because
pointers to them are compared. The types of attributes have the documentation. -/
inductive Obj where
  | typ (c : TypeCell)
  | attribute (c : TypeCell) (i : Nat) (a : Attribute)
  | ref (t : GoRef.Typ) (doc : Text)
  | name (n : Name)

/-- `IsMap`, pkg/concepts/type.go:165-168. -/
def isMap : GoRef.Typ → Bool
  | .map _ _ => true
  | _ => false

/-- `Element`, pkg/concepts/type.go:242-245: nothing if it is nil. The documentation of elements isn't
used. -/
def elementOf : GoRef.Typ → Option Obj
  | .list _ t => some (.ref t [])
  | .map _ t => some (.ref t [])
  | _ => none

/-- The methods of the objects: pkg/concepts/named.go:30-32, pkg/concepts/documented.go:27-30,
pkg/concepts/type.go:115-197 and 242-245, and pkg/concepts/attribute.go:58-61. -/
def Context.member (x : Context) : Obj → Text → Option (Value Obj)
  | .typ c, m =>
    if m = t!"Name" then some (.obj (.name c.name))
    else if m = t!"Doc" then some (.text c.doc)
    else if m = t!"IsClass" then some (.flag c.isClass)
    else if m = t!"Attributes" then some (.list (c.attributes.mapIdx (.attribute c)))
    else none
  | .attribute _ _ a, m =>
    if m = t!"Name" then some (.obj (.name a.name))
    else if m = t!"Type" then some (.obj (.ref (x.typeOf a.typ) (x.docOf a.typ)))
    else if m = t!"Link" then some (.flag a.link)
    else none
  | .ref t doc, m =>
    if m = t!"Name" then some (.obj (.name (TypesCode.nameOf t)))
    else if m = t!"Doc" then some (.text doc)
    else if m = t!"IsBoolean" then some (.flag (TypesCode.isBoolean t))
    else if m = t!"IsScalar" then some (.flag t.isScalar)
    else if m = t!"IsStruct" then some (.flag t.isStruct)
    else if m = t!"IsList" then some (.flag t.isList)
    else if m = t!"IsMap" then some (.flag (isMap t))
    else if m = t!"Element" then (elementOf t).map .obj
    else none
  | .name _, _ => none

/-- How objects are printed: names have a `String` method, pkg/names/name.go:60-70. -/
def shown : Obj → Option Text
  | .name n => some n.toText
  | _ => none

/-- The type that an object is. -/
def Context.typeArgument (x : Context) : Obj → Option GoRef.Typ
  | .typ c => some (x.typ c)
  | .ref t _ => some t
  | _ => none

/-- The errors of `objectName`, `builderName` and `builderCtor`,
pkg/generators/golang/builders_generator.go:576-581, 601-606 and 626-631, for the types that have no
builders. -/
def nameErrors (t : GoRef.Typ) : List Effect := if t.isStruct || t.isList then [] else [.error]

/-- A function that calculates a name from a type. -/
def Context.naming (x : Context) (f : GoRef.Typ → Text) : List (Value Obj) → Option (Value Obj × List Effect)
  | [.obj o] => (x.typeArgument o).map fun t => (.text (f t), nameErrors t)
  | _ => none

/-- The functions of the buffer, pkg/generators/golang/buffer.go:123-128, and those of the generator,
pkg/generators/golang/builders_generator.go:185-195 and 475-477. Only those that the templates use. -/
def Context.functions (x : Context) (f : Text) : Option (List (Value Obj) → Option (Value Obj × List Effect)) :=
  if f = t!"lineComment" then
    some fun
      | [.text t] => some (.text (GoBuffer.lineComment t), [])
      | _ => none
  else if f = t!"bitMask" then
    some fun
      | [.obj (.attribute c i _)] => some (.text (Bitmap.maskText c i), [])
      | _ => none
  else if f = t!"bitmapType" then
    some fun
      | [.obj (.typ c)] => some (reference x.pkg (TypesCode.bitmapType c))
      | _ => none
  else if f = t!"builderCtor" then some (x.naming GoRef.builderCtor)
  else if f = t!"builderName" then some (x.naming GoRef.builderName)
  else if f = t!"objectName" then some (x.naming GoRef.objectName)
  else if f = t!"fieldName" then
    some fun
      | [.obj (.attribute _ _ a)] => some (.text (Go.privateName a.name), [])
      | _ => none
  else if f = t!"fieldType" then
    some fun
      | [.obj (.attribute _ _ a)] => some (reference x.pkg (GoRef.builderFieldType x.base (x.attr a)))
      | _ => none
  else if f = t!"selectorType" then
    some fun
      | [.obj (.attribute _ _ a)] => some (.text (GoRef.selectorType (x.attr a)), [])
      | _ => none
  else if f = t!"setterName" then
    some fun
      | [.obj (.attribute _ _ a)] => some (.text (Go.nameOf a.annotations a.name), [])
      | _ => none
  else if f = t!"setterType" then
    some fun
      | [.obj (.attribute _ _ a)] => some (reference x.pkg (GoRef.builderSetterType x.base (x.attr a)))
      | _ => none
  else if f = t!"valueType" then
    some fun
      | [.obj o] => (x.typeArgument o).map fun t => reference x.pkg (GoRef.valueReference x.base t)
      | _ => none
  else none

/-- What the templates can use. -/
def Context.env (x : Context) : Env Obj := { member := x.member, shown := shown, functions := x.functions }

/-- The template of builders of objects, pkg/generators/golang/builders_generator.go:211-453. -/
def builderTemplate : Text :=
  List.flatten [
    t!"\n",
    t!"\t\t{{ $builderName := builderName .Type }}\n",
    t!"\t\t{{ $builderCtor := builderCtor .Type }}\n",
    t!"\t\t{{ $objectName := objectName .Type }}\n",
    t!"\n",
    t!"\t\t// {{ $builderName }} contains the data and logic needed to build '{{ .Type.Name }}' objects.\n",
    t!"\t\t//\n",
    t!"\t\t{{ lineComment .Type.Doc }}\n",
    t!"\t\ttype  {{ $builderName }} struct {\n",
    t!"\t\t\tbitmap_ {{ bitmapType .Type }}\n",
    t!"\t\t\t{{ if .Type.IsClass }}\n",
    t!"\t\t\t\tid   string\n",
    t!"\t\t\t\thref string\n",
    t!"\t\t\t{{ end }}\n",
    t!"\t\t\t{{ range .Type.Attributes }}\n",
    t!"\t\t\t\t{{ if not .Type.IsBoolean }}\n",
    t!"\t\t\t\t\t{{ fieldName . }} {{ fieldType . }}\n",
    t!"\t\t\t\t{{ end }}\n",
    t!"\t\t\t{{ end }}\n",
    t!"\t\t\t{{ range .Type.Attributes }}\n",
    t!"\t\t\t\t{{ if .Type.IsBoolean }}\n",
    t!"\t\t\t\t\t{{ fieldName . }} {{ fieldType . }}\n",
    t!"\t\t\t\t{{ end }}\n",
    t!"\t\t\t{{ end }}\n",
    t!"\t\t}\n",
    t!"\n",
    t!"\t\t// {{ $builderCtor }} creates a new builder of '{{ .Type.Name }}' objects.\n",
    t!"\t\tfunc {{ $builderCtor }}() *{{ $builderName }} {\n",
    t!"\t\t\treturn &{{ $builderName }}{}\n",
    t!"\t\t}\n",
    t!"\n",
    t!"\t\t{{ if .Type.IsClass }}\n",
    t!"\t\t\t// Link sets the flag that indicates if this is a link.\n",
    t!"\t\t\tfunc (b *{{ $builderName }}) Link(value bool) *{{ $builderName }} {\n",
    t!"\t\t\t\tb.bitmap_ |= 1\n",
    t!"\t\t\t\treturn b\n",
    t!"\t\t\t}\n",
    t!"\n",
    t!"\t\t\t// ID sets the identifier of the object.\n",
    t!"\t\t\tfunc (b *{{ $builderName }}) ID(value string) *{{ $builderName }} {\n",
    t!"\t\t\t\tb.id = value\n",
    t!"\t\t\t\tb.bitmap_ |= 2\n",
    t!"\t\t\t\treturn b\n",
    t!"\t\t\t}\n",
    t!"\n",
    t!"\t\t\t// HREF sets the link to the object.\n",
    t!"\t\t\tfunc (b *{{ $builderName }}) HREF(value string) *{{ $builderName }} {\n",
    t!"\t\t\t\tb.href = value\n",
    t!"\t\t\t\tb.bitmap_ |= 4\n",
    t!"\t\t\t\treturn b\n",
    t!"\t\t\t}\n",
    t!"\t\t{{ end }}\n",
    t!"\n",
    t!"\t\t// Empty returns true if the builder is empty, i.e. no attribute has a value.\n",
    t!"\t\tfunc (b *{{ $builderName }}) Empty() bool {\n",
    t!"\t\t\t{{ if .Type.IsClass }}\n",
    t!"\t\t\t\treturn b == nil || b.bitmap_&^1 == 0\n",
    t!"\t\t\t{{ else }}\n",
    t!"\t\t\t\treturn b == nil || b.bitmap_ == 0\n",
    t!"\t\t\t{{ end }}\n",
    t!"\t\t}\n",
    t!"\n",
    t!"\t\t{{ range .Type.Attributes }}\n",
    t!"\t\t\t{{ $fieldName := fieldName . }}\n",
    t!"\t\t\t{{ $setterName := setterName . }}\n",
    t!"\t\t\t{{ $setterType := setterType . }}\n",
    t!"\t\t\t{{ $fieldMask := bitMask . }}\n",
    t!"\t\t\t{{ $selectorType := selectorType . }}\n",
    t!"\n",
    t!"\t\t\t{{ if .Type.IsList }}\n",
    t!"\t\t\t\t// {{ $setterName }} sets the value of the '{{ .Name }}' attribute to the given values.\n",
    t!"\t\t\t\t//\n",
    t!"\t\t\t\t{{ lineComment .Type.Doc }}\n",
    t!"\t\t\t\t{{ if .Link }}\n",
    t!"\t\t\t\t\tfunc (b *{{ $builderName }}) {{ $setterName }}(value {{ $setterType }}) *{{ $builderName }} {\n",
    t!"\t\t\t\t\t\tb.{{ $fieldName }} = value\n",
    t!"\t\t\t\t\t\tb.bitmap_ |= {{ $fieldMask }}\n",
    t!"\t\t\t\t\t\treturn b\n",
    t!"\t\t\t\t\t}\n",
    t!"\t\t\t\t{{ else }}\n",
    t!"\t\t\t\t\t{{ $elementType := valueType .Type.Element }}\n",
    t!"\t\t\t\t\t{{ if .Type.Element.IsScalar }}\n",
    t!"\t\t\t\t\t\tfunc (b *{{ $builderName }}) {{ $setterName }}(values ...{{ $elementType }}) *{{ $builderName }} {\n",
    t!"\t\t\t\t\t\t\tb.{{ $fieldName }} = make([]{{ $elementType }}, len(values))\n",
    t!"\t\t\t\t\t\t\tcopy(b.{{ $fieldName }}, values)\n",
    t!"\t\t\t\t\t\t\tb.bitmap_ |= {{ $fieldMask }}\n",
    t!"\t\t\t\t\t\t\treturn b\n",
    t!"\t\t\t\t\t\t}\n",
    t!"\t\t\t\t\t{{ else }}\n",
    t!"\t\t\t\t\t\t{{ $elementBuilderName := builderName .Type.Element }}\n",
    t!"\t\t\t\t\t\tfunc (b *{{ $builderName }}) {{ $setterName }}(values ...*{{ selectorType . }}{{ $elementBuilderName }}) *{{ $builderName }} {\n",
    t!"\t\t\t\t\t\t\tb.{{ $fieldName }} = make([]*{{ selectorType . }}{{ $elementBuilderName }}, len(values))\n",
    t!"\t\t\t\t\t\t\tcopy(b.{{ $fieldName }}, values)\n",
    t!"\t\t\t\t\t\t\tb.bitmap_ |= {{ $fieldMask }}\n",
    t!"\t\t\t\t\t\t\treturn b\n",
    t!"\t\t\t\t\t\t}\n",
    t!"\t\t\t\t\t{{ end }}\n",
    t!"\t\t\t\t{{ end }}\n",
    t!"\t\t\t{{ else }}\n",
    t!"\t\t\t\t// {{ $setterName }} sets the value of the '{{ .Name }}' attribute to the given value.\n",
    t!"\t\t\t\t//\n",
    t!"\t\t\t\t{{ lineComment .Type.Doc }}\n",
    t!"\t\t\t\tfunc (b *{{ $builderName }}) {{ $setterName }}(value {{ $setterType }}) *{{ $builderName }} {\n",
    t!"\t\t\t\t\tb.{{ $fieldName }} = value\n",
    t!"\t\t\t\t\t{{ if .Type.IsScalar }}\n",
    t!"\t\t\t\t\t\tb.bitmap_ |= {{ $fieldMask }}\n",
    t!"\t\t\t\t\t{{ else }}\n",
    t!"\t\t\t\t\t\tif value != nil {\n",
    t!"\t\t\t\t\t\t\tb.bitmap_ |= {{ $fieldMask }}\n",
    t!"\t\t\t\t\t\t} else {\n",
    t!"\t\t\t\t\t\t\tb.bitmap_ &^= {{ $fieldMask }}\n",
    t!"\t\t\t\t\t\t}\n",
    t!"\t\t\t\t\t{{ end }}\n",
    t!"\t\t\t\t\treturn b\n",
    t!"\t\t\t\t}\n",
    t!"\t\t\t{{ end }}\n",
    t!"\t\t{{ end }}\n",
    t!"\n",
    t!"\t\t// Copy copies the attributes of the given object into this builder, discarding any previous values.\n",
    t!"\t\tfunc (b *{{ $builderName }}) Copy(object *{{ $objectName }}) *{{ $builderName }} {\n",
    t!"\t\t\tif object == nil {\n",
    t!"\t\t\t\treturn b\n",
    t!"\t\t\t}\n",
    t!"\t\t\tb.bitmap_ = object.bitmap_\n",
    t!"\t\t\t{{ if .Type.IsClass }}\n",
    t!"\t\t\t\tb.id = object.id\n",
    t!"\t\t\t\tb.href = object.href\n",
    t!"\t\t\t{{ end }}\n",
    t!"\t\t\t{{ range .Type.Attributes }}\n",
    t!"\t\t\t\t{{ $fieldName := fieldName . }}\n",
    t!"\t\t\t\t{{ $fieldType := fieldType . }}\n",
    t!"\t\t\t\t{{ $selectorType := selectorType . }}\n",
    t!"\t\t\t\t{{ if .Type.IsScalar }}\n",
    t!"\t\t\t\t\tb.{{ $fieldName }} = object.{{ $fieldName }}\n",
    t!"\t\t\t\t{{ else if .Type.IsStruct }}\n",
    t!"\t\t\t\t\tif object.{{ $fieldName }} != nil {\n",
    t!"\t\t\t\t\t\tb.{{ $fieldName }} = {{ selectorType . }}{{ builderCtor .Type }}().Copy(object.{{ $fieldName }})\n",
    t!"\t\t\t\t\t} else {\n",
    t!"\t\t\t\t\t\tb.{{ $fieldName }} = nil\n",
    t!"\t\t\t\t\t}\n",
    t!"\t\t\t\t{{ else if .Type.IsList }}\n",
    t!"\t\t\t\t\tif object.{{ $fieldName }} != nil {\n",
    t!"\t\t\t\t\t\t{{ if .Link }}\n",
    t!"\t\t\t\t\t\t\tb.{{ $fieldName }} = {{ selectorType . }}{{ builderCtor .Type }}().Copy(object.{{ $fieldName }})\n",
    t!"\t\t\t\t\t\t{{ else }}\n",
    t!"\t\t\t\t\t\t\t{{ if .Type.Element.IsScalar }}\n",
    t!"\t\t\t\t\t\t\t\tb.{{ $fieldName }} = make({{ $fieldType }}, len(object.{{ $fieldName }}))\n",
    t!"\t\t\t\t\t\t\t\tcopy(b.{{ $fieldName }}, object.{{ $fieldName }})\n",
    t!"\t\t\t\t\t\t\t{{ else if .Type.Element.IsStruct }}\n",
    t!"\t\t\t\t\t\t\t\tb.{{ $fieldName }} = make([]*{{ selectorType . }}{{ builderName .Type.Element }}, len(object.{{ $fieldName }}))\n",
    t!"\t\t\t\t\t\t\t\tfor i, v := range object.{{ $fieldName }} {\n",
    t!"\t\t\t\t\t\t\t\t\tb.{{ $fieldName }}[i] = {{ selectorType . }}{{ builderCtor .Type.Element }}().Copy(v)\n",
    t!"\t\t\t\t\t\t\t\t}\n",
    t!"\t\t\t\t\t\t\t{{ end }}\n",
    t!"\t\t\t\t\t\t{{ end }}\n",
    t!"\t\t\t\t\t} else {\n",
    t!"\t\t\t\t\t\tb.{{ $fieldName }} = nil\n",
    t!"\t\t\t\t\t}\n",
    t!"\t\t\t\t{{ else if .Type.IsMap }}\n",
    t!"\t\t\t\t\tif len(object.{{ $fieldName }}) > 0 {\n",
    t!"\t\t\t\t\t\t{{ if .Type.Element.IsScalar }}\n",
    t!"\t\t\t\t\t\t\tb.{{ $fieldName }} = {{ $fieldType }}{}\n",
    t!"\t\t\t\t\t\t\tfor k, v := range object.{{ $fieldName }} {\n",
    t!"\t\t\t\t\t\t\t\tb.{{ $fieldName }}[k] = v\n",
    t!"\t\t\t\t\t\t\t}\n",
    t!"\t\t\t\t\t\t{{ else if .Type.Element.IsStruct }}\n",
    t!"\t\t\t\t\t\t\tb.{{ $fieldName }} = map[string]*{{ selectorType . }}{{ builderName .Type.Element }}{}\n",
    t!"\t\t\t\t\t\t\tfor k, v := range object.{{ $fieldName }} {\n",
    t!"\t\t\t\t\t\t\t\tb.{{ $fieldName }}[k] = {{ selectorType . }}{{ builderCtor .Type.Element }}().Copy(v)\n",
    t!"\t\t\t\t\t\t\t}\n",
    t!"\t\t\t\t\t\t{{ end }}\n",
    t!"\t\t\t\t\t} else {\n",
    t!"\t\t\t\t\t\tb.{{ $fieldName }} = nil\n",
    t!"\t\t\t\t\t}\n",
    t!"\t\t\t\t{{ end }}\n",
    t!"\t\t\t{{ end }}\n",
    t!"\t\t\treturn b\n",
    t!"\t\t}\n",
    t!"\n",
    t!"\t\t// Build creates a '{{ .Type.Name }}' object using the configuration stored in the builder.\n",
    t!"\t\tfunc (b *{{ $builderName }}) Build() (object *{{ $objectName }}, err error) {\n",
    t!"\t\t\tobject = new({{ $objectName }})\n",
    t!"\t\t\t{{ if .Type.IsClass }}\n",
    t!"\t\t\t\tobject.id = b.id\n",
    t!"\t\t\t\tobject.href = b.href\n",
    t!"\t\t\t{{ end }}\n",
    t!"\t\t\tobject.bitmap_ = b.bitmap_\n",
    t!"\t\t\t{{ range .Type.Attributes }}\n",
    t!"\t\t\t\t{{ $fieldName := fieldName . }}\n",
    t!"\t\t\t\t{{ $fieldType := fieldType . }}\n",
    t!"\t\t\t\t{{ if .Type.IsScalar }}\n",
    t!"\t\t\t\t\tobject.{{ $fieldName }} = b.{{ $fieldName }}\n",
    t!"\t\t\t\t{{ else if .Type.IsStruct }}\n",
    t!"\t\t\t\t\tif b.{{ $fieldName }} != nil {\n",
    t!"\t\t\t\t\t\tobject.{{ $fieldName }}, err = b.{{ $fieldName }}.Build()\n",
    t!"\t\t\t\t\t\tif err != nil {\n",
    t!"\t\t\t\t\t\t\treturn\n",
    t!"\t\t\t\t\t\t}\n",
    t!"\t\t\t\t\t}\n",
    t!"\t\t\t\t{{ else if .Type.IsList}}\n",
    t!"\t\t\t\t\tif b.{{ $fieldName }} != nil {\n",
    t!"\t\t\t\t\t\t{{ if .Link }}\n",
    t!"\t\t\t\t\t\t\tobject.{{ $fieldName }}, err = b.{{ $fieldName }}.Build()\n",
    t!"\t\t\t\t\t\t\tif err != nil {\n",
    t!"\t\t\t\t\t\t\t\treturn\n",
    t!"\t\t\t\t\t\t\t}\n",
    t!"\t\t\t\t\t\t{{ else }}\n",
    t!"\t\t\t\t\t\t\t{{ if .Type.Element.IsScalar }}\n",
    t!"\t\t\t\t\t\t\t\tobject.{{ $fieldName }} = make({{ $fieldType }}, len(b.{{ $fieldName }}))\n",
    t!"\t\t\t\t\t\t\t\tcopy(object.{{ $fieldName }}, b.{{ $fieldName }})\n",
    t!"\t\t\t\t\t\t\t{{ else if .Type.Element.IsStruct }}\n",
    t!"\t\t\t\t\t\t\t\tobject.{{ $fieldName }} = make([]*{{ selectorType . }}{{ objectName .Type.Element }}, len(b.{{ $fieldName }}))\n",
    t!"\t\t\t\t\t\t\t\tfor i, v := range b.{{ $fieldName }} {\n",
    t!"\t\t\t\t\t\t\t\t\tobject.{{ $fieldName }}[i], err = v.Build()\n",
    t!"\t\t\t\t\t\t\t\t\tif err != nil {\n",
    t!"\t\t\t\t\t\t\t\t\t\treturn\n",
    t!"\t\t\t\t\t\t\t\t\t}\n",
    t!"\t\t\t\t\t\t\t\t}\n",
    t!"\t\t\t\t\t\t\t{{ end }}\n",
    t!"\t\t\t\t\t\t{{ end }}\n",
    t!"\t\t\t\t\t}\n",
    t!"\t\t\t\t{{ else if .Type.IsMap}}\n",
    t!"\t\t\t\t\tif b.{{ $fieldName }} != nil {\n",
    t!"\t\t\t\t\t\t{{ if .Type.Element.IsScalar }}\n",
    t!"\t\t\t\t\t\t\tobject.{{ $fieldName }} = make({{ $fieldType }})\n",
    t!"\t\t\t\t\t\t\tfor k, v := range b.{{ $fieldName }} {\n",
    t!"\t\t\t\t\t\t\t\tobject.{{ $fieldName }}[k] = v\n",
    t!"\t\t\t\t\t\t\t}\n",
    t!"\t\t\t\t\t\t{{ else if .Type.Element.IsStruct }}\n",
    t!"\t\t\t\t\t\t\tobject.{{ $fieldName }}  = make(map[string]*{{ selectorType . }}{{ objectName .Type.Element }})\n",
    t!"\t\t\t\t\t\t\tfor k, v := range b.{{ $fieldName }} {\n",
    t!"\t\t\t\t\t\t\t\tobject.{{ $fieldName }}[k], err = v.Build()\n",
    t!"\t\t\t\t\t\t\t\tif err != nil {\n",
    t!"\t\t\t\t\t\t\t\t\treturn\n",
    t!"\t\t\t\t\t\t\t\t}\n",
    t!"\t\t\t\t\t\t\t}\n",
    t!"\t\t\t\t\t\t{{ end }}\n",
    t!"\t\t\t\t\t}\n",
    t!"\t\t\t\t{{ end }}\n",
    t!"\t\t\t{{ end }}\n",
    t!"\t\t\treturn\n",
    t!"\t\t}\n",
    t!"\t\t"]

/-- The template of builders of lists, pkg/generators/golang/builders_generator.go:494-552. -/
def listBuilderTemplate : Text :=
  List.flatten [
    t!"\n",
    t!"\t\t{{ $objectName := objectName .Type }}\n",
    t!"\t\t{{ $builderName := builderName .Type }}\n",
    t!"\t\t{{ $builderCtor := builderCtor .Type }}\n",
    t!"\t\t{{ $elementObjectName := objectName .Type.Element }}\n",
    t!"\t\t{{ $elementBuilderName := builderName .Type.Element }}\n",
    t!"\t\t{{ $elementBuilderCtor := builderCtor .Type.Element }}\n",
    t!"\n",
    t!"\t\t// {{ $builderName }} contains the data and logic needed to build\n",
    t!"\t\t// '{{ .Type.Element.Name }}' objects.\n",
    t!"\t\ttype  {{ $builderName }} struct {\n",
    t!"\t\t\titems []*{{ $elementBuilderName }}\n",
    t!"\t\t}\n",
    t!"\n",
    t!"\t\t// {{ $builderCtor }} creates a new builder of '{{ .Type.Element.Name }}' objects.\n",
    t!"\t\tfunc {{ $builderCtor }}() *{{ $builderName }} {\n",
    t!"\t\t\treturn new({{ $builderName }})\n",
    t!"\t\t}\n",
    t!"\n",
    t!"\t\t// Items sets the items of the list.\n",
    t!"\t\tfunc (b *{{ $builderName }}) Items(values ...*{{ $elementBuilderName }}) *{{ $builderName }} {\n",
    t!"                        b.items = make([]*{{ $elementBuilderName }}, len(values))\n",
    t!"                        copy(b.items, values)\n",
    t!"\t\t\treturn b\n",
    t!"\t\t}\n",
    t!"\n",
    t!"\t\t// Empty returns true if the list is empty.\n",
    t!"\t\tfunc (b *{{ $builderName }}) Empty() bool {\n",
    t!"\t\t\treturn b == nil || len(b.items) == 0\n",
    t!"\t\t}\n",
    t!"\n",
    t!"\t\t// Copy copies the items of the given list into this builder, discarding any previous items.\n",
    t!"\t\tfunc (b *{{ $builderName }}) Copy(list *{{ $objectName }}) *{{ $builderName }} {\n",
    t!"\t\t\tif list == nil || list.items == nil {\n",
    t!"\t\t\t\tb.items = nil\n",
    t!"\t\t\t} else {\n",
    t!"\t\t\t\tb.items = make([]*{{ $elementBuilderName }}, len(list.items))\n",
    t!"\t\t\t\tfor i, v := range list.items {\n",
    t!"\t\t\t\t\tb.items[i] = {{ $elementBuilderCtor }}().Copy(v)\n",
    t!"\t\t\t\t}\n",
    t!"\t\t\t}\n",
    t!"\t\t\treturn b\n",
    t!"\t\t}\n",
    t!"\n",
    t!"\t\t// Build creates a list of '{{ .Type.Element.Name }}' objects using the\n",
    t!"\t\t// configuration stored in the builder.\n",
    t!"\t\tfunc (b *{{ $builderName }}) Build() (list *{{ $objectName }}, err error) {\n",
    t!"\t\t\titems := make([]*{{ $elementObjectName }}, len(b.items))\n",
    t!"\t\t\tfor i, item := range b.items {\n",
    t!"\t\t\t\titems[i], err = item.Build()\n",
    t!"\t\t\t\tif err != nil {\n",
    t!"\t\t\t\t\treturn\n",
    t!"\t\t\t\t}\n",
    t!"\t\t\t}\n",
    t!"\t\t\tlist = new({{ $objectName }})\n",
    t!"\t\t\tlist.items = items\n",
    t!"\t\t\treturn\n",
    t!"\t\t}\n",
    t!"\t\t"]

/-- `generateStructBuilderSource`, pkg/generators/golang/builders_generator.go:210-456. -/
def builderSource (x : Context) (c : TypeCell) (b : Buffer) : Buffer :=
  b.emit x.env builderTemplate [(t!"Type", .typ c)]

/-- `generateListBuilderSource` and `generateStructListBuilderSource`,
pkg/generators/golang/builders_generator.go:487-555. -/
def listBuilderSource (x : Context) (t : GoRef.Typ) (b : Buffer) : Buffer :=
  match t with
  | .list d element =>
    if element.isStruct then b.emit x.env listBuilderTemplate [(t!"Type", .ref (.list d element) [])] else b
  | _ => b

/-- `generateStructBuilderFile`, pkg/generators/golang/builders_generator.go:172-208, given the errors
reported before. -/
def builderFile (x : Context) (c : TypeCell) (errors : Nat) (order : List (Text × Text)) :
    Option Text × Bool :=
  (builderSource x c { pkg := x.pkg, errors := errors }).write order

/-- `generateListBuilderFile`, pkg/generators/golang/builders_generator.go:458-485, given the errors
reported before. -/
def listBuilderFile (x : Context) (t : GoRef.Typ) (errors : Nat) (order : List (Text × Text)) :
    Option Text × Bool :=
  (listBuilderSource x t { pkg := x.pkg, errors := errors }).write order

/-- What the generator knows about the types of a version of the model that has been read. -/
def contextOf (s : Session) (base : Text) (version : VersionId) : Context :=
  { TypesCode.contextOf s base version with
    docOf := fun id => ((s.heap[id]?).map (·.doc)).getD [] }

end Verif.BuildersCode
