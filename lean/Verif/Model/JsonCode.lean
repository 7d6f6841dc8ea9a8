import Verif.Model.BuildersCode

/-!
# The files of the generated JSON support

Model of the part of the JSON support generator, `pkg/generators/golang/json_generator.go`, that writes the files of
the types. The templates are the same texts that are in the Go code.
-/

namespace Verif.JsonCode

open GoTemplate GoFile

/-- What the generator needs to know about the model and the options. -/
abbrev Context := TypesCode.Context

/-- The objects used in the templates. Attributes have the type that owns them and the position, because
pointers to them are compared. Texts, flags and pointers to versions are only used as arguments. -/
inductive Obj where
  | typ (c : TypeCell)
  | attribute (c : TypeCell) (i : Nat) (a : Attribute)
  | ref (t : GoRef.Typ)
  | name (n : Name)
  | text (t : Text)
  | flag (b : Bool)
  | owner (o : Option GoRef.Owner)

/-- The value that an argument of a template is. -/
def inject : Obj → Value Obj
  | .text t => .text t
  | .flag b => .flag b
  | o => .obj o

/-- Tells if a type is one of those that every version has: `IsBoolean`, `IsInteger`, `IsLong`, `IsFloat`, `IsString`,
`IsDate` and `IsInterface`, pkg/concepts/type.go:115-158. -/
def isBasic (b : GoRef.Basic) : GoRef.Typ → Bool
  | .basic b' => b' = b
  | _ => false

/-- `IsEnum`, pkg/concepts/type.go:150-153. -/
def isEnum : GoRef.Typ → Bool
  | .enum _ => true
  | _ => false

/-- `Element`, pkg/concepts/type.go:242-245: nothing if it is nil. -/
def elementOf : GoRef.Typ → Option Obj
  | .list _ t => some (.ref t)
  | .map _ t => some (.ref t)
  | _ => none

/-- The methods of the objects: pkg/concepts/named.go:30-32, pkg/concepts/type.go:115-197 and 242-245, and
pkg/concepts/attribute.go:39-41 and 59-61. -/
def member (x : Context) : Obj → Text → Option (Value Obj)
  | .typ c, m =>
    if m = t!"Name" then some (.obj (.name c.name))
    else if m = t!"IsClass" then some (.flag c.isClass)
    else if m = t!"Attributes" then some (.list (c.attributes.mapIdx (.attribute c)))
    else none
  | .attribute _ _ a, m =>
    if m = t!"Type" then some (.obj (.ref (x.typeOf a.typ)))
    else if m = t!"Link" then some (.flag a.link)
    else if m = t!"LinkOwner" then some (.obj (.owner (a.linkOwner.map x.ownerOf)))
    else none
  | .ref t, m =>
    if m = t!"Name" then some (.obj (.name (TypesCode.nameOf t)))
    else if m = t!"IsBoolean" then some (.flag (isBasic .boolean t))
    else if m = t!"IsInteger" then some (.flag (isBasic .integer t))
    else if m = t!"IsLong" then some (.flag (isBasic .long t))
    else if m = t!"IsFloat" then some (.flag (isBasic .float t))
    else if m = t!"IsString" then some (.flag (isBasic .string t))
    else if m = t!"IsDate" then some (.flag (isBasic .date t))
    else if m = t!"IsInterface" then some (.flag (isBasic .interface t))
    else if m = t!"IsEnum" then some (.flag (isEnum t))
    else if m = t!"IsScalar" then some (.flag t.isScalar)
    else if m = t!"IsStruct" then some (.flag t.isStruct)
    else if m = t!"IsList" then some (.flag t.isList)
    else if m = t!"IsMap" then some (.flag (BuildersCode.isMap t))
    else if m = t!"Element" then (elementOf t).map .obj
    else none
  | _, _ => none

/-- How objects are printed: names have a `String` method, pkg/names/name.go:60-70. -/
def shown : Obj → Option Text
  | .name n => some n.toText
  | _ => none

/-- The type that an object is. -/
def typeArgument (x : Context) : Obj → Option GoRef.Typ
  | .typ c => some (x.typ c)
  | .ref t => some t
  | _ => none

/-- `marshalTypeFunc`, pkg/generators/golang/json_generator.go:1519-1526. -/
def marshalTypeFunc (t : GoRef.Typ) : Text := t!"Marshal" ++ t.decl

/-- `unmarshalTypeFunc`, pkg/generators/golang/json_generator.go:1542-1549. -/
def unmarshalTypeFunc (t : GoRef.Typ) : Text := t!"Unmarshal" ++ t.decl

/-- `writeTypeFunc`, pkg/generators/golang/json_generator.go:1528-1531. -/
def writeTypeFunc (t : GoRef.Typ) : Text := Go.publicName (Nom.write ++ TypesCode.nameOf t)

/-- `readTypeFunc`, pkg/generators/golang/json_generator.go:1551-1554. -/
def readTypeFunc (t : GoRef.Typ) : Text := Go.publicName (Nom.read ++ TypesCode.nameOf t)

/-- `writeRefTypeFunc`, pkg/generators/golang/json_generator.go:1533-1540. -/
def writeRefTypeFunc (t : GoRef.Typ) : Option GoRef.Owner → Text
  | some o => GoRef.versionSelector o ++ t!"." ++ writeTypeFunc t
  | none => writeTypeFunc t

/-- `readRefTypeFunc`, pkg/generators/golang/json_generator.go:1556-1563. -/
def readRefTypeFunc (t : GoRef.Typ) : Option GoRef.Owner → Text
  | some o => GoRef.versionSelector o ++ t!"." ++ readTypeFunc t
  | none => readTypeFunc t

/-- `selectorFromLinkOwner`, pkg/generators/golang/json_generator.go:1678-1683. -/
def selectorFromLinkOwner : Option GoRef.Owner → Text
  | some o => GoRef.versionSelector o ++ t!"."
  | none => []

/-- A function that calculates a name from a type. -/
def naming (x : Context) (f : GoRef.Typ → Text) : List (Value Obj) → Option (Value Obj × List Effect)
  | [.obj o] => (typeArgument x o).map fun t => (.text (f t), [])
  | _ => none

/-- A function that calculates a reference from a type. -/
def referring (x : Context) (f : Text → GoRef.Typ → GoRef.Ref) : List (Value Obj) → Option (Value Obj × List Effect)
  | [.obj o] => (typeArgument x o).map fun t => reference x.pkg (f x.base t)
  | _ => none

/-- A function that calculates a name from a type and a version. -/
def namingRef (f : GoRef.Typ → Option GoRef.Owner → Text) : List (Value Obj) → Option (Value Obj × List Effect)
  | [.obj (.ref t), .obj (.owner o)] => some (.text (f t o), [])
  | _ => none

/-- What `generateReadValue`, if the flag is true, and `generateWriteValue` give for a variable or value, a type, and
the flag and the version of the links. -/
abbrev Values := Bool → Text → GoRef.Typ → Bool → Option GoRef.Owner → Option (Text × List Effect)

/-- The functions that generate the code of values. -/
def generating (values : Values) (reading : Bool) : List (Value Obj) → Option (Value Obj × List Effect)
  | [.text v, .obj (.ref t), .flag link, .obj (.owner o)] =>
    (values reading v t link o).map fun (text, fx) => (.text text, fx)
  | _ => none

/-- The functions of the buffer, pkg/generators/golang/buffer.go:123-131, and those of the generator,
pkg/generators/golang/json_generator.go:551-565 and 736-747. Only those that the templates use. -/
def functions (x : Context) (values : Values) (f : Text) :
    Option (List (Value Obj) → Option (Value Obj × List Effect)) :=
  if f = t!"sub" then
    some fun
      | [.nat a, .nat b] => some (.nat (a - b), [])
      | _ => none
  else if f = t!"bitMask" then
    some fun
      | [.obj (.attribute c i _)] => some (.text (Bitmap.maskText c i), [])
      | _ => none
  else if f = t!"enumName" then
    some fun
      | [.obj (.ref t)] =>
        let ref := GoRef.enumReference x.base t
        some (.text ref.name, List.replicate ref.errors .error)
      | _ => none
  else if f = t!"fieldName" then
    some fun
      | [.obj (.attribute _ _ a)] => some (.text (Go.privateName a.name), [])
      | _ => none
  else if f = t!"fieldTag" then
    some fun
      | [.obj (.attribute _ _ a)] => some (.text (Binding.attributeName a), [])
      | _ => none
  else if f = t!"generateReadValue" then some (generating values true)
  else if f = t!"generateWriteValue" then some (generating values false)
  else if f = t!"marshalTypeFunc" then some (naming x marshalTypeFunc)
  else if f = t!"readRefTypeFunc" then some (namingRef readRefTypeFunc)
  else if f = t!"readTypeFunc" then some (naming x readTypeFunc)
  else if f = t!"selectorFromLinkOwner" then
    some fun
      | [.obj (.owner o)] => some (.text (selectorFromLinkOwner o), [])
      | _ => none
  else if f = t!"structName" then some (referring x GoRef.structReference)
  else if f = t!"unmarshalTypeFunc" then some (naming x unmarshalTypeFunc)
  else if f = t!"valueReference" then some (referring x GoRef.valueReference)
  else if f = t!"writeRefTypeFunc" then some (namingRef writeRefTypeFunc)
  else if f = t!"writeTypeFunc" then some (naming x writeTypeFunc)
  else none

/-- What the templates can use. -/
def env (x : Context) (values : Values) : Env Obj :=
  { member := member x, shown := shown, functions := functions x values, inject := inject }

/-- The template of `generateReadValue`, pkg/generators/golang/json_generator.go:1327-1390. -/
def readTemplate : Text :=
  List.flatten [
    t!"\n",
    t!"\t\t{{ if .Type.IsBoolean }}\n",
    t!"\t\t\t{{ .Variable }} := iterator.ReadBool()\n",
    t!"\t\t{{ else if .Type.IsInteger }}\n",
    t!"\t\t\t{{ .Variable }} := iterator.ReadInt()\n",
    t!"\t\t{{ else if .Type.IsLong }}\n",
    t!"\t\t\t{{ .Variable }} := iterator.ReadInt64()\n",
    t!"\t\t{{ else if .Type.IsFloat }}\n",
    t!"\t\t\t{{ .Variable }} := iterator.ReadFloat64()\n",
    t!"\t\t{{ else if .Type.IsString }}\n",
    t!"\t\t\t{{ .Variable }} := iterator.ReadString()\n",
    t!"\t\t{{ else if .Type.IsInterface }}\n",
    t!"\t\t\tvar {{ .Variable }} interface{}\n",
    t!"\t\t\titerator.ReadVal(&{{ .Variable }})\n",
    t!"\t\t{{ else if .Type.IsDate }}\n",
    t!"\t\t\ttext := iterator.ReadString()\n",
    t!"\t\t\t{{ .Variable }}, err := time.Parse(time.RFC3339, text)\n",
    t!"\t\t\tif err != nil {\n",
    t!"\t\t\t\titerator.ReportError(\"\", err.Error())\n",
    t!"\t\t\t}\n",
    t!"\t\t{{ else if .Type.IsEnum }}\n",
    t!"\t\t\ttext := iterator.ReadString()\n",
    t!"\t\t\t{{ .Variable }} := {{ enumName .Type }}(text)\n",
    t!"\t\t{{ else if .Type.IsStruct }}\n",
    t!"\t\t\t{{ .Variable }} := {{ readRefTypeFunc .Type .LinkOwner }}(iterator)\n",
    t!"\t\t{{ else if .Type.IsList }}\n",
    t!"\t\t\t{{ if .Link }}\n",
    t!"\t\t\t \t{{ $selectorFromLinkOwner := selectorFromLinkOwner .LinkOwner }}\n",
    t!"\t\t\t\t{{ $structName := structName .Type }}\n",
    t!"\t\t\t\t{{ .Variable }} := &{{ $selectorFromLinkOwner }}{{ $structName }}{}\n",
    t!"\t\t\t\tfor {\n",
    t!"\t\t\t\t\tfield := iterator.ReadObject()\n",
    t!"\t\t\t\t\tif field == \"\" {\n",
    t!"\t\t\t\t\t\tbreak\n",
    t!"\t\t\t\t\t}\n",
    t!"\t\t\t\t\tswitch field {\n",
    t!"\t\t\t\t\tcase \"kind\":\n",
    t!"\t\t\t\t\t\ttext := iterator.ReadString()\n",
    t!"\t\t\t\t\t\t{{ .Variable }}.SetLink(text == {{ $selectorFromLinkOwner }}{{ $structName }}LinkKind)\n",
    t!"\t\t\t\t\tcase \"href\":\n",
    t!"\t\t\t\t\t\t{{ .Variable }}.SetHREF(iterator.ReadString())\n",
    t!"\t\t\t\t\tcase \"items\":\n",
    t!"\t\t\t\t\t\t{{ .Variable }}.SetItems({{ readRefTypeFunc .Type .LinkOwner }}(iterator))\n",
    t!"\t\t\t\t\tdefault:\n",
    t!"\t\t\t\t\t\titerator.ReadAny()\n",
    t!"\t\t\t\t\t}\n",
    t!"\t\t\t\t}\n",
    t!"\t\t\t{{ else }}\n",
    t!"\t\t\t\t{{ .Variable }} := {{ readTypeFunc .Type }}(iterator)\n",
    t!"\t\t\t{{ end }}\n",
    t!"\t\t{{ else if .Type.IsMap }}\n",
    t!"\t\t\t{{ .Variable }} := {{ valueReference .Type }}{}\n",
    t!"\t\t\tfor {\n",
    t!"\t\t\t\tkey := iterator.ReadObject()\n",
    t!"\t\t\t\tif key == \"\" {\n",
    t!"\t\t\t\t\tbreak\n",
    t!"\t\t\t\t}\n",
    t!"\t\t\t\t{{ generateReadValue \"item\" .Type.Element false .LinkOwner }}\n",
    t!"\t\t\t\t{{ .Variable }}[key] = item\n",
    t!"\t\t\t}\n",
    t!"\t\t{{ else }}\n",
    t!"\t\t\titerator.ReadAny()\n",
    t!"\t\t{{ end }}\n",
    t!"\t\t"]

/-- The template of `generateWriteValue`, pkg/generators/golang/json_generator.go:1444-1495. -/
def writeTemplate : Text :=
  List.flatten [
    t!"\n",
    t!"\t\t{{ if .Type.IsBoolean }}\n",
    t!"\t\t\tstream.WriteBool({{ .Value }})\n",
    t!"\t\t{{ else if .Type.IsInteger }}\n",
    t!"\t\t\tstream.WriteInt({{ .Value }})\n",
    t!"\t\t{{ else if .Type.IsLong }}\n",
    t!"\t\t\tstream.WriteInt64({{ .Value }})\n",
    t!"\t\t{{ else if .Type.IsFloat }}\n",
    t!"\t\t\tstream.WriteFloat64({{ .Value }})\n",
    t!"\t\t{{ else if .Type.IsString }}\n",
    t!"\t\t\tstream.WriteString({{ .Value }})\n",
    t!"\t\t{{ else if .Type.IsDate }}\n",
    t!"\t\t\tstream.WriteString(({{ .Value }}).Format(time.RFC3339))\n",
    t!"\t\t{{ else if .Type.IsEnum }}\n",
    t!"\t\t\tstream.WriteString(string({{ .Value }}))\n",
    t!"\t\t{{ else if .Type.IsInterface }}\n",
    t!"\t\t\tstream.WriteVal({{ .Value }})\n",
    t!"\t\t{{ else if .Type.IsStruct }}\n",
    t!"\t\t\t{{ writeRefTypeFunc .Type .LinkOwner }}({{ .Value}}, stream)\n",
    t!"\t\t{{ else if .Type.IsList }}\n",
    t!"\t\t\t{{ if .Link }}\n",
    t!"\t\t\t\tstream.WriteObjectStart()\n",
    t!"\t\t\t\tstream.WriteObjectField(\"items\")\n",
    t!"\t\t\t\t{{ writeRefTypeFunc .Type .LinkOwner }}({{ .Value }}.Items(), stream)\n",
    t!"\t\t\t\tstream.WriteObjectEnd()\n",
    t!"\t\t\t{{ else }}\n",
    t!"\t\t\t\t{{ writeTypeFunc .Type }}({{ .Value }}, stream)\n",
    t!"\t\t\t{{ end }}\n",
    t!"\t\t{{ else if .Type.IsMap }}\n",
    t!"\t\t\tif {{ .Value }} != nil {\n",
    t!"\t\t\t\tstream.WriteObjectStart()\n",
    t!"\t\t\t\tkeys := make([]string, len({{ .Value }}))\n",
    t!"\t\t\t\ti := 0;\n",
    t!"\t\t\t\tfor key := range {{ .Value }} {\n",
    t!"\t\t\t\t\tkeys[i] = key\n",
    t!"\t\t\t\t\ti++\n",
    t!"\t\t\t\t}\n",
    t!"\t\t\t\tsort.Strings(keys)\n",
    t!"\t\t\t\tfor i, key := range keys {\n",
    t!"\t\t\t\t\tif i > 0 {\n",
    t!"\t\t\t\t\t\tstream.WriteMore()\n",
    t!"\t\t\t\t\t}\n",
    t!"\t\t\t\t\titem := {{ .Value }}[key]\n",
    t!"\t\t\t\t\tstream.WriteObjectField(key)\n",
    t!"\t\t\t\t\t{{ generateWriteValue \"item\" .Type.Element false .LinkOwner }}\n",
    t!"\t\t\t\t}\n",
    t!"\t\t\t\tstream.WriteObjectEnd()\n",
    t!"\t\t\t} else {\n",
    t!"\t\t\t\tstream.WriteNil()\n",
    t!"\t\t\t}\n",
    t!"\t\t{{ end }}\n",
    t!"\t\t"]

/-- The template of structs and classes, pkg/generators/golang/json_generator.go:588-713. -/
def structTemplate : Text :=
  List.flatten [
    t!"\n",
    t!"\t\t{{ $structName := structName .Type }}\n",
    t!"\t\t{{ $marshalTypeFunc := marshalTypeFunc .Type }}\n",
    t!"\t\t{{ $writeTypeFunc := writeTypeFunc .Type }}\n",
    t!"\t\t{{ $unmarshalTypeFunc := unmarshalTypeFunc .Type }}\n",
    t!"\t\t{{ $readTypeFunc := readTypeFunc .Type }}\n",
    t!"\n",
    t!"\t\t// {{ $marshalTypeFunc }} writes a value of the '{{ .Type.Name }}' type to the given writer.\n",
    t!"\t\tfunc {{ $marshalTypeFunc }}(object *{{ $structName }}, writer io.Writer) error {\n",
    t!"\t\t\tstream := helpers.NewStream(writer)\n",
    t!"\t\t\t{{ $writeTypeFunc }}(object, stream)\n",
    t!"\t\t\terr := stream.Flush()\n",
    t!"\t\t\tif err != nil {\n",
    t!"\t\t\t\treturn err\n",
    t!"\t\t\t}\n",
    t!"\t\t\treturn stream.Error\n",
    t!"\t\t}\n",
    t!"\n",
    t!"\t\t// {{ $writeTypeFunc }} writes a value of the '{{ .Type.Name }}' type to the given stream.\n",
    t!"\t\tfunc {{ $writeTypeFunc }}(object *{{ $structName }}, stream *jsoniter.Stream) {\n",
    t!"\t\t\tcount := 0\n",
    t!"\t\t\tstream.WriteObjectStart()\n",
    t!"\t\t\t{{ if .Type.IsClass }}\n",
    t!"\t\t\t\tstream.WriteObjectField(\"kind\")\n",
    t!"\t\t\t\tif object.bitmap_&1 != 0 {\n",
    t!"\t\t\t\t\tstream.WriteString({{ $structName }}LinkKind)\n",
    t!"\t\t\t\t} else {\n",
    t!"\t\t\t\t\tstream.WriteString({{ $structName }}Kind)\n",
    t!"\t\t\t\t}\n",
    t!"\t\t\t\tcount++\n",
    t!"\t\t\t\tif object.bitmap_&2 != 0 {\n",
    t!"\t\t\t\t\tif count > 0 {\n",
    t!"\t\t\t\t\t\tstream.WriteMore()\n",
    t!"\t\t\t\t\t}\n",
    t!"\t\t\t\t\tstream.WriteObjectField(\"id\")\n",
    t!"\t\t\t\t\tstream.WriteString(object.id)\n",
    t!"\t\t\t\t\tcount++\n",
    t!"\t\t\t\t}\n",
    t!"\t\t\t\tif object.bitmap_&4 != 0 {\n",
    t!"\t\t\t\t\tif count > 0 {\n",
    t!"\t\t\t\t\t\tstream.WriteMore()\n",
    t!"\t\t\t\t\t}\n",
    t!"\t\t\t\t\tstream.WriteObjectField(\"href\")\n",
    t!"\t\t\t\t\tstream.WriteString(object.href)\n",
    t!"\t\t\t\t\t{{ if .Type.Attributes }}\n",
    t!"\t\t\t\t\t\tcount++\n",
    t!"\t\t\t\t\t{{ end }}\n",
    t!"\t\t\t\t}\n",
    t!"\t\t\t{{ end }}\n",
    t!"\t\t\t{{ if .Type.Attributes }}\n",
    t!"\t\t\t\tvar present_ bool\n",
    t!"\t\t\t\t{{ $n := len .Type.Attributes }}\n",
    t!"\t\t\t\t{{ range $i, $v := .Type.Attributes }}\n",
    t!"\t\t\t\t\t{{ $fieldName := fieldName $v }}\n",
    t!"\t\t\t\t\t{{ $fieldTag := fieldTag $v }}\n",
    t!"\t\t\t\t\t{{ $fieldMask := bitMask $v }}\n",
    t!"\t\t\t\t\t{{ if .Type.IsScalar }}\n",
    t!"\t\t\t\t\t\tpresent_ = object.bitmap_&{{ $fieldMask }} != 0\n",
    t!"\t\t\t\t\t{{ else }}\n",
    t!"\t\t\t\t\t\tpresent_ = object.bitmap_&{{ $fieldMask }} != 0 && object.{{ $fieldName }} != nil\n",
    t!"\t\t\t\t\t{{ end }}\n",
    t!"\t\t\t\t\tif present_ {\n",
    t!"\t\t\t\t\t\tif count > 0 {\n",
    t!"\t\t\t\t\t\t\tstream.WriteMore()\n",
    t!"\t\t\t\t\t\t}\n",
    t!"\t\t\t\t\t\tstream.WriteObjectField(\"{{ $fieldTag }}\")\n",
    t!"\t\t\t\t\t\t{{ generateWriteValue (print \"object.\" $fieldName) $v.Type $v.Link $v.LinkOwner }}\n",
    t!"\t\t\t\t\t\t{{ if lt $i (sub $n 1) }}\n",
    t!"\t\t\t\t\t\t\tcount++\n",
    t!"\t\t\t\t\t\t{{ end }}\n",
    t!"\t\t\t\t\t}\n",
    t!"\t\t\t\t{{ end }}\n",
    t!"\t\t\t{{ end }}\n",
    t!"\t\t\tstream.WriteObjectEnd()\n",
    t!"\t\t}\n",
    t!"\n",
    t!"\t\t// {{ $unmarshalTypeFunc }} reads a value of the '{{ .Type.Name }}' type from the given\n",
    t!"\t\t// source, which can be an slice of bytes, a string or a reader.\n",
    t!"\t\tfunc {{ $unmarshalTypeFunc }}(source interface{}) (object *{{ $structName }}, err error) {\n",
    t!"\t\t\titerator, err := helpers.NewIterator(source)\n",
    t!"\t\t\tif err != nil {\n",
    t!"\t\t\t\treturn\n",
    t!"\t\t\t}\n",
    t!"\t\t\tobject = {{ $readTypeFunc }}(iterator)\n",
    t!"\t\t\terr = iterator.Error\n",
    t!"\t\t\treturn\n",
    t!"\t\t}\n",
    t!"\n",
    t!"\t\t// {{ $readTypeFunc }} reads a value of the '{{ .Type.Name }}' type from the given iterator.\n",
    t!"\t\tfunc {{ $readTypeFunc }}(iterator *jsoniter.Iterator) *{{ $structName }} {\n",
    t!"\t\t\tobject := &{{ $structName }}{}\n",
    t!"\t\t\tfor {\n",
    t!"\t\t\t\tfield := iterator.ReadObject()\n",
    t!"\t\t\t\tif field == \"\" {\n",
    t!"\t\t\t\t\tbreak\n",
    t!"\t\t\t\t}\n",
    t!"\t\t\t\tswitch field {\n",
    t!"\t\t\t\t{{ if .Type.IsClass }}\n",
    t!"\t\t\t\t\tcase \"kind\":\n",
    t!"\t\t\t\t\t\tvalue := iterator.ReadString()\n",
    t!"\t\t\t\t\t\tif value == {{ $structName }}LinkKind {\n",
    t!"\t\t\t\t\t\t\tobject.bitmap_ |= 1\n",
    t!"\t\t\t\t\t\t}\n",
    t!"\t\t\t\t\tcase \"id\":\n",
    t!"\t\t\t\t\t\tobject.id = iterator.ReadString()\n",
    t!"\t\t\t\t\t\tobject.bitmap_ |= 2\n",
    t!"\t\t\t\t\tcase \"href\":\n",
    t!"\t\t\t\t\t\tobject.href = iterator.ReadString()\n",
    t!"\t\t\t\t\t\tobject.bitmap_ |= 4\n",
    t!"\t\t\t\t{{ end }}\n",
    t!"\t\t\t\t{{ range .Type.Attributes }}\n",
    t!"\t\t\t\t\t{{ $fieldName := fieldName . }}\n",
    t!"\t\t\t\t\t{{ $fieldTag := fieldTag . }}\n",
    t!"\t\t\t\t\t{{ $fieldMask := bitMask . }}\n",
    t!"\t\t\t\t\tcase \"{{ $fieldTag }}\":\n",
    t!"\t\t\t\t\t\t{{ generateReadValue \"value\" .Type .Link .LinkOwner }}\n",
    t!"\t\t\t\t\t\tobject.{{ $fieldName }} = value\n",
    t!"\t\t\t\t\t\tobject.bitmap_ |= {{ $fieldMask }}\n",
    t!"\t\t\t\t{{ end }}\n",
    t!"\t\t\t\tdefault:\n",
    t!"\t\t\t\t\titerator.ReadAny()\n",
    t!"\t\t\t\t}\n",
    t!"\t\t\t}\n",
    t!"\t\t\treturn object\n",
    t!"\t\t}\n",
    t!"\t\t"]

/-- The template of lists, pkg/generators/golang/json_generator.go:770-825. -/
def listTemplate : Text :=
  List.flatten [
    t!"\n",
    t!"\t\t{{ $structName := structName .Type }}\n",
    t!"\t\t{{ $sliceType := valueReference .Type }}\n",
    t!"\t\t{{ $marshalTypeFunc := marshalTypeFunc .Type }}\n",
    t!"\t\t{{ $writeTypeFunc := writeTypeFunc .Type }}\n",
    t!"\t\t{{ $unmarshalTypeFunc := unmarshalTypeFunc .Type }}\n",
    t!"\t\t{{ $readTypeFunc := readTypeFunc .Type }}\n",
    t!"\n",
    t!"\t\t// {{ $marshalTypeFunc }} writes a list of values of the '{{ .Type.Element.Name }}' type to\n",
    t!"\t\t// the given writer.\n",
    t!"\t\tfunc {{ $marshalTypeFunc }}(list {{ $sliceType }}, writer io.Writer) error {\n",
    t!"\t\t\tstream := helpers.NewStream(writer)\n",
    t!"\t\t\t{{ $writeTypeFunc }}(list, stream)\n",
    t!"\t\t\terr := stream.Flush()\n",
    t!"\t\t\tif err != nil {\n",
    t!"\t\t\t\treturn err\n",
    t!"\t\t\t}\n",
    t!"\t\t\treturn stream.Error\n",
    t!"\t\t}\n",
    t!"\n",
    t!"\t\t// {{ $writeTypeFunc }} writes a list of value of the '{{ .Type.Element.Name }}' type to\n",
    t!"\t\t// the given stream.\n",
    t!"\t\tfunc {{ $writeTypeFunc }}(list {{ $sliceType }}, stream *jsoniter.Stream) {\n",
    t!"\t\t\tstream.WriteArrayStart()\n",
    t!"\t\t\tfor i, value := range list {\n",
    t!"\t\t\t\tif i > 0 {\n",
    t!"\t\t\t\t\tstream.WriteMore()\n",
    t!"\t\t\t\t}\n",
    t!"\t\t\t\t{{ generateWriteValue \"value\" .Type.Element false .linkOwner }}\n",
    t!"\t\t\t}\n",
    t!"\t\t\tstream.WriteArrayEnd()\n",
    t!"\t\t}\n",
    t!"\n",
    t!"\t\t// {{ $unmarshalTypeFunc }} reads a list of values of the '{{ .Type.Element.Name }}' type\n",
    t!"\t\t// from the given source, which can be a slice of bytes, a string or a reader.\n",
    t!"\t\tfunc {{ $unmarshalTypeFunc }}(source interface{}) (items {{ $sliceType }}, err error) {\n",
    t!"\t\t\titerator, err := helpers.NewIterator(source)\n",
    t!"\t\t\tif err != nil {\n",
    t!"\t\t\t\treturn\n",
    t!"\t\t\t}\n",
    t!"\t\t\titems = {{ $readTypeFunc }}(iterator)\n",
    t!"\t\t\terr = iterator.Error\n",
    t!"\t\t\treturn\n",
    t!"\t\t}\n",
    t!"\n",
    t!"\t\t// {{ $readTypeFunc }} reads list of values of the ''{{ .Type.Element.Name }}' type from\n",
    t!"\t\t// the given iterator.\n",
    t!"\t\tfunc {{ $readTypeFunc }}(iterator *jsoniter.Iterator) {{ $sliceType }} {\n",
    t!"\t\t\tlist := {{ valueReference .Type }}{}\n",
    t!"\t\t\tfor iterator.ReadArray() {\n",
    t!"\t\t\t\t{{ generateReadValue \"item\" .Type.Element false .linkOwner }}\n",
    t!"\t\t\t\tlist = append(list, item)\n",
    t!"\t\t\t}\n",
    t!"\t\t\treturn list\n",
    t!"\t\t}\n",
    t!"\t\t"]

/-- How many templates are executed one inside of the other to generate the code of values. -/
def depth : GoRef.Typ → Nat
  | .map _ t => depth t + 1
  | _ => 1

/-- `generateReadValue` and `generateWriteValue`, pkg/generators/golang/json_generator.go:1323-1396 and 1438-1501. The
number is for the templates that are executed one inside of the other. Simplification: the template is executed
even if errors have been reported; nothing will be written in that case. -/
def valueCode (x : Context) : Nat → Values
  | 0, _, _, _, _, _ => none
  | n + 1, true, v, t, link, o =>
    after [.imports t!"time" []]
      ((parse readTemplate).bind (runNodes (env x (valueCode x n))
        (.args [(t!"Variable", .text v), (t!"Type", .ref t), (t!"Link", .flag link), (t!"LinkOwner", .owner o)]) []))
  | n + 1, false, v, t, link, o =>
    after [.imports t!"sort" [], .imports t!"time" []]
      ((parse writeTemplate).bind (runNodes (env x (valueCode x n))
        (.args [(t!"Value", .text v), (t!"Type", .ref t), (t!"Link", .flag link), (t!"LinkOwner", .owner o)]) []))

/-- What the templates of types can use. -/
def typeEnv (x : Context) : Env Obj := env x fun reading v t => valueCode x (depth t) reading v t

/-- The imports that are added before the code of a file. -/
def Buffer.imports (b : Buffer) (imports : List (Text × Text)) : Buffer :=
  imports.foldl (fun b i => b.imprt i.1 i.2) b

/-- `generateStructTypeSource`, pkg/generators/golang/json_generator.go:582-715. -/
def structSource (x : Context) (c : TypeCell) (b : Buffer) : Buffer :=
  (Buffer.imports b [(t!"fmt", []), (t!"io", []), (t!"time", []), (t!"github.com/json-iterator/go", t!"jsoniter"),
    (Go.helpersImport x.base, [])]).emit (typeEnv x) structTemplate [(t!"Type", .typ c)]

/-- `generateListTypeSource`, pkg/generators/golang/json_generator.go:763-829. -/
def listSource (x : Context) (t : GoRef.Typ) (b : Buffer) : Buffer :=
  (Buffer.imports b [(t!"fmt", []), (Go.helpersImport x.base, []),
    (t!"github.com/json-iterator/go", t!"jsoniter")]).emit (typeEnv x) listTemplate
      [(t!"Type", .ref t), (t!"linkOwner", .owner none)]

/-- `generateStructTypeSupport`, pkg/generators/golang/json_generator.go:533-580, given the imports of the versions
of the links, and the errors reported before. -/
def structFile (x : Context) (c : TypeCell) (links : List (Text × Text)) (errors : Nat) (order : List (Text × Text)) :
    Option Text × Bool :=
  (structSource x c (Buffer.imports { pkg := x.pkg, errors := errors } links)).write order

/-- `generateListTypeSupport`, pkg/generators/golang/json_generator.go:718-761, given the imports of the versions of
the links, and the errors reported before. -/
def listFile (x : Context) (t : GoRef.Typ) (links : List (Text × Text)) (errors : Nat) (order : List (Text × Text)) :
    Option Text × Bool :=
  (listSource x t (Buffer.imports { pkg := x.pkg, errors := errors } links)).write order

end Verif.JsonCode
