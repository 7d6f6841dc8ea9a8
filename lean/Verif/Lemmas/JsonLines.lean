import Verif.Lemmas.GoTemplate
import Verif.Model.JsonCode

/-! The lines of the templates of the JSON support generator. -/

namespace Verif.JsonCode

open GoTemplate

/-- The lines of the code that reads links to lists. -/
def readLinkLines : List Line := [
  .set t!"$selectorFromLinkOwner" [t!"selectorFromLinkOwner", t!".LinkOwner"],
  .set t!"$structName" [t!"structName", t!".Type"],
  .line [.print [t!".Variable"], .lit t!" := &", .print [t!"$selectorFromLinkOwner"], .print [t!"$structName"],
    .lit t!"{}"],
  .line [.lit t!"for {"],
  .line [.lit t!"field := iterator.ReadObject()"],
  .line [.lit t!"if field == \"\" {"],
  .line [.lit t!"break"],
  .line [.lit t!"}"],
  .line [.lit t!"switch field {"],
  .line [.lit t!"case \"kind\":"],
  .line [.lit t!"text := iterator.ReadString()"],
  .line [.print [t!".Variable"], .lit t!".SetLink(text == ", .print [t!"$selectorFromLinkOwner"],
    .print [t!"$structName"], .lit t!"LinkKind)"],
  .line [.lit t!"case \"href\":"],
  .line [.print [t!".Variable"], .lit t!".SetHREF(iterator.ReadString())"],
  .line [.lit t!"case \"items\":"],
  .line [.print [t!".Variable"], .lit t!".SetItems(", .print [t!"readRefTypeFunc", t!".Type", t!".LinkOwner"],
    .lit t!"(iterator))"],
  .line [.lit t!"default:"],
  .line [.lit t!"iterator.ReadAny()"],
  .line [.lit t!"}"],
  .line [.lit t!"}"]]

/-- The lines of the code that reads maps. -/
def readMapLines : List Line := [
  .line [.print [t!".Variable"], .lit t!" := ", .print [t!"valueReference", t!".Type"], .lit t!"{}"],
  .line [.lit t!"for {"],
  .line [.lit t!"key := iterator.ReadObject()"],
  .line [.lit t!"if key == \"\" {"],
  .line [.lit t!"break"],
  .line [.lit t!"}"],
  .line [.print [t!"generateReadValue", t!"\"item\"", t!".Type.Element", t!"false", t!".LinkOwner"]],
  .line [.print [t!".Variable"], .lit t!"[key] = item"],
  .line [.lit t!"}"]]

/-- The lines of the code that writes maps. -/
def writeMapLines : List Line := [
  .line [.lit t!"if ", .print [t!".Value"], .lit t!" != nil {"],
  .line [.lit t!"stream.WriteObjectStart()"],
  .line [.lit t!"keys := make([]string, len(", .print [t!".Value"], .lit t!"))"],
  .line [.lit t!"i := 0;"],
  .line [.lit t!"for key := range ", .print [t!".Value"], .lit t!" {"],
  .line [.lit t!"keys[i] = key"],
  .line [.lit t!"i++"],
  .line [.lit t!"}"],
  .line [.lit t!"sort.Strings(keys)"],
  .line [.lit t!"for i, key := range keys {"],
  .line [.lit t!"if i > 0 {"],
  .line [.lit t!"stream.WriteMore()"],
  .line [.lit t!"}"],
  .line [.lit t!"item := ", .print [t!".Value"], .lit t!"[key]"],
  .line [.lit t!"stream.WriteObjectField(key)"],
  .line [.print [t!"generateWriteValue", t!"\"item\"", t!".Type.Element", t!"false", t!".LinkOwner"]],
  .line [.lit t!"}"],
  .line [.lit t!"stream.WriteObjectEnd()"],
  .line [.lit t!"} else {"],
  .line [.lit t!"stream.WriteNil()"],
  .line [.lit t!"}"]]

/-- The lines of the template of the code that reads values. -/
def readLines : List Line := [
  .branch [t!".Type.IsBoolean"]
   [
    .line [.print [t!".Variable"], .lit t!" := iterator.ReadBool()"]]
   [
    .branch [t!".Type.IsInteger"]
     [
      .line [.print [t!".Variable"], .lit t!" := iterator.ReadInt()"]]
     [
      .branch [t!".Type.IsLong"]
       [
        .line [.print [t!".Variable"], .lit t!" := iterator.ReadInt64()"]]
       [
        .branch [t!".Type.IsFloat"]
         [
          .line [.print [t!".Variable"], .lit t!" := iterator.ReadFloat64()"]]
         [
          .branch [t!".Type.IsString"]
           [
            .line [.print [t!".Variable"], .lit t!" := iterator.ReadString()"]]
           [
            .branch [t!".Type.IsInterface"]
             [
              .line [.lit t!"var ", .print [t!".Variable"], .lit t!" interface{}"],
              .line [.lit t!"iterator.ReadVal(&", .print [t!".Variable"], .lit t!")"]]
             [
              .branch [t!".Type.IsDate"]
               [
                .line [.lit t!"text := iterator.ReadString()"],
                .line [.print [t!".Variable"], .lit t!", err := time.Parse(time.RFC3339, text)"],
                .line [.lit t!"if err != nil {"],
                .line [.lit t!"iterator.ReportError(\"\", err.Error())"],
                .line [.lit t!"}"]]
               [
                .branch [t!".Type.IsEnum"]
                 [
                  .line [.lit t!"text := iterator.ReadString()"],
                  .line [.print [t!".Variable"], .lit t!" := ", .print [t!"enumName", t!".Type"], .lit t!"(text)"]]
                 [
                  .branch [t!".Type.IsStruct"]
                   [
                    .line [.print [t!".Variable"], .lit t!" := ", .print [t!"readRefTypeFunc", t!".Type",
                      t!".LinkOwner"], .lit t!"(iterator)"]]
                   [
                    .branch [t!".Type.IsList"]
                     [
                      .branch [t!".Link"]
                       readLinkLines
                       [
                        .line [.print [t!".Variable"], .lit t!" := ", .print [t!"readTypeFunc", t!".Type"],
                          .lit t!"(iterator)"]]]
                     [
                      .branch [t!".Type.IsMap"]
                       readMapLines
                       [
                        .line [.lit t!"iterator.ReadAny()"]]]]]]]]]]]]]

/-- The lines of the template of the code that writes values. -/
def writeLines : List Line := [
  .branch [t!".Type.IsBoolean"]
   [
    .line [.lit t!"stream.WriteBool(", .print [t!".Value"], .lit t!")"]]
   [
    .branch [t!".Type.IsInteger"]
     [
      .line [.lit t!"stream.WriteInt(", .print [t!".Value"], .lit t!")"]]
     [
      .branch [t!".Type.IsLong"]
       [
        .line [.lit t!"stream.WriteInt64(", .print [t!".Value"], .lit t!")"]]
       [
        .branch [t!".Type.IsFloat"]
         [
          .line [.lit t!"stream.WriteFloat64(", .print [t!".Value"], .lit t!")"]]
         [
          .branch [t!".Type.IsString"]
           [
            .line [.lit t!"stream.WriteString(", .print [t!".Value"], .lit t!")"]]
           [
            .branch [t!".Type.IsDate"]
             [
              .line [.lit t!"stream.WriteString((", .print [t!".Value"], .lit t!").Format(time.RFC3339))"]]
             [
              .branch [t!".Type.IsEnum"]
               [
                .line [.lit t!"stream.WriteString(string(", .print [t!".Value"], .lit t!"))"]]
               [
                .branch [t!".Type.IsInterface"]
                 [
                  .line [.lit t!"stream.WriteVal(", .print [t!".Value"], .lit t!")"]]
                 [
                  .branch [t!".Type.IsStruct"]
                   [
                    .line [.print [t!"writeRefTypeFunc", t!".Type", t!".LinkOwner"], .lit t!"(",
                      .print [t!".Value"], .lit t!", stream)"]]
                   [
                    .branch [t!".Type.IsList"]
                     [
                      .branch [t!".Link"]
                       [
                        .line [.lit t!"stream.WriteObjectStart()"],
                        .line [.lit t!"stream.WriteObjectField(\"items\")"],
                        .line [.print [t!"writeRefTypeFunc", t!".Type", t!".LinkOwner"], .lit t!"(",
                          .print [t!".Value"], .lit t!".Items(), stream)"],
                        .line [.lit t!"stream.WriteObjectEnd()"]]
                       [
                        .line [.print [t!"writeTypeFunc", t!".Type"], .lit t!"(", .print [t!".Value"],
                          .lit t!", stream)"]]]
                     [
                      .branch [t!".Type.IsMap"]
                       writeMapLines
                       []]]]]]]]]]]]

/-- The function that writes an object. -/
def marshalLines : List Line := [
  .line [.lit t!"// ", .print [t!"$marshalTypeFunc"], .lit t!" writes a value of the '", .print [t!".Type.Name"],
    .lit t!"' type to the given writer."],
  .line [.lit t!"func ", .print [t!"$marshalTypeFunc"], .lit t!"(object *", .print [t!"$structName"],
    .lit t!", writer io.Writer) error {"],
  .line [.lit t!"stream := helpers.NewStream(writer)"],
  .line [.print [t!"$writeTypeFunc"], .lit t!"(object, stream)"],
  .line [.lit t!"err := stream.Flush()"],
  .line [.lit t!"if err != nil {"],
  .line [.lit t!"return err"],
  .line [.lit t!"}"],
  .line [.lit t!"return stream.Error"],
  .line [.lit t!"}"]]

/-- The start of the function that writes an object to a stream. -/
def writeHead : List Line := [
  .line [.lit t!"// ", .print [t!"$writeTypeFunc"], .lit t!" writes a value of the '", .print [t!".Type.Name"],
    .lit t!"' type to the given stream."],
  .line [.lit t!"func ", .print [t!"$writeTypeFunc"], .lit t!"(object *", .print [t!"$structName"],
    .lit t!", stream *jsoniter.Stream) {"],
  .line [.lit t!"count := 0"],
  .line [.lit t!"stream.WriteObjectStart()"]]

/-- The kind, identifier and link in the function that writes an object. -/
def writeIdentity : List Line := [
  .branch [t!".Type.IsClass"]
   [
    .line [.lit t!"stream.WriteObjectField(\"kind\")"],
    .line [.lit t!"if object.bitmap_&1 != 0 {"],
    .line [.lit t!"stream.WriteString(", .print [t!"$structName"], .lit t!"LinkKind)"],
    .line [.lit t!"} else {"],
    .line [.lit t!"stream.WriteString(", .print [t!"$structName"], .lit t!"Kind)"],
    .line [.lit t!"}"],
    .line [.lit t!"count++"],
    .line [.lit t!"if object.bitmap_&2 != 0 {"],
    .line [.lit t!"if count > 0 {"],
    .line [.lit t!"stream.WriteMore()"],
    .line [.lit t!"}"],
    .line [.lit t!"stream.WriteObjectField(\"id\")"],
    .line [.lit t!"stream.WriteString(object.id)"],
    .line [.lit t!"count++"],
    .line [.lit t!"}"],
    .line [.lit t!"if object.bitmap_&4 != 0 {"],
    .line [.lit t!"if count > 0 {"],
    .line [.lit t!"stream.WriteMore()"],
    .line [.lit t!"}"],
    .line [.lit t!"stream.WriteObjectField(\"href\")"],
    .line [.lit t!"stream.WriteString(object.href)"],
    .branch [t!".Type.Attributes"]
     [
      .line [.lit t!"count++"]]
     [],
    .line [.lit t!"}"]]
   []]

/-- An attribute in the function that writes an object. -/
def writeBody : List Line := [
  .set t!"$fieldName" [t!"fieldName", t!"$v"],
  .set t!"$fieldTag" [t!"fieldTag", t!"$v"],
  .set t!"$fieldMask" [t!"bitMask", t!"$v"],
  .branch [t!".Type.IsScalar"]
   [
    .line [.lit t!"present_ = object.bitmap_&", .print [t!"$fieldMask"], .lit t!" != 0"]]
   [
    .line [.lit t!"present_ = object.bitmap_&", .print [t!"$fieldMask"], .lit t!" != 0 && object.",
      .print [t!"$fieldName"], .lit t!" != nil"]],
  .line [.lit t!"if present_ {"],
  .line [.lit t!"if count > 0 {"],
  .line [.lit t!"stream.WriteMore()"],
  .line [.lit t!"}"],
  .line [.lit t!"stream.WriteObjectField(\"", .print [t!"$fieldTag"], .lit t!"\")"],
  .line [.print [t!"generateWriteValue", t!"(print", t!"\"object.\"", t!"$fieldName)", t!"$v.Type", t!"$v.Link",
    t!"$v.LinkOwner"]],
  .branch [t!"lt", t!"$i", t!"(sub", t!"$n", t!"1)"]
   [
    .line [.lit t!"count++"]]
   [],
  .line [.lit t!"}"]]

/-- The attributes in the function that writes an object. -/
def writeAttributes : List Line := [
  .branch [t!".Type.Attributes"]
   [
    .line [.lit t!"var present_ bool"],
    .set t!"$n" [t!"len", t!".Type.Attributes"],
    .range [t!"$i,", t!"$v", t!":=", t!".Type.Attributes"] writeBody]
    []]

/-- The end of the function that writes an object. -/
def writeTail : List Line := [
  .line [.lit t!"stream.WriteObjectEnd()"],
  .line [.lit t!"}"]]

/-- The function that reads an object. -/
def unmarshalLines : List Line := [
  .line [.lit t!"// ", .print [t!"$unmarshalTypeFunc"], .lit t!" reads a value of the '", .print [t!".Type.Name"],
    .lit t!"' type from the given"],
  .line [.lit t!"// source, which can be an slice of bytes, a string or a reader."],
  .line [.lit t!"func ", .print [t!"$unmarshalTypeFunc"], .lit t!"(source interface{}) (object *",
    .print [t!"$structName"], .lit t!", err error) {"],
  .line [.lit t!"iterator, err := helpers.NewIterator(source)"],
  .line [.lit t!"if err != nil {"],
  .line [.lit t!"return"],
  .line [.lit t!"}"],
  .line [.lit t!"object = ", .print [t!"$readTypeFunc"], .lit t!"(iterator)"],
  .line [.lit t!"err = iterator.Error"],
  .line [.lit t!"return"],
  .line [.lit t!"}"]]

/-- The start of the function that reads an object from an iterator. -/
def readHead : List Line := [
  .line [.lit t!"// ", .print [t!"$readTypeFunc"], .lit t!" reads a value of the '", .print [t!".Type.Name"],
    .lit t!"' type from the given iterator."],
  .line [.lit t!"func ", .print [t!"$readTypeFunc"], .lit t!"(iterator *jsoniter.Iterator) *",
    .print [t!"$structName"], .lit t!" {"],
  .line [.lit t!"object := &", .print [t!"$structName"], .lit t!"{}"],
  .line [.lit t!"for {"],
  .line [.lit t!"field := iterator.ReadObject()"],
  .line [.lit t!"if field == \"\" {"],
  .line [.lit t!"break"],
  .line [.lit t!"}"],
  .line [.lit t!"switch field {"]]

/-- The kind, identifier and link in the function that reads an object. -/
def readIdentity : List Line := [
  .branch [t!".Type.IsClass"]
   [
    .line [.lit t!"case \"kind\":"],
    .line [.lit t!"value := iterator.ReadString()"],
    .line [.lit t!"if value == ", .print [t!"$structName"], .lit t!"LinkKind {"],
    .line [.lit t!"object.bitmap_ |= 1"],
    .line [.lit t!"}"],
    .line [.lit t!"case \"id\":"],
    .line [.lit t!"object.id = iterator.ReadString()"],
    .line [.lit t!"object.bitmap_ |= 2"],
    .line [.lit t!"case \"href\":"],
    .line [.lit t!"object.href = iterator.ReadString()"],
    .line [.lit t!"object.bitmap_ |= 4"]]
   []]

/-- An attribute in the function that reads an object. -/
def readBody : List Line := [
  .set t!"$fieldName" [t!"fieldName", t!"."],
  .set t!"$fieldTag" [t!"fieldTag", t!"."],
  .set t!"$fieldMask" [t!"bitMask", t!"."],
  .line [.lit t!"case \"", .print [t!"$fieldTag"], .lit t!"\":"],
  .line [.print [t!"generateReadValue", t!"\"value\"", t!".Type", t!".Link", t!".LinkOwner"]],
  .line [.lit t!"object.", .print [t!"$fieldName"], .lit t!" = value"],
  .line [.lit t!"object.bitmap_ |= ", .print [t!"$fieldMask"]]]

/-- The attributes in the function that reads an object. -/
def readAttributes : List Line := [
  .range [t!".Type.Attributes"] readBody]

/-- The end of the function that reads an object. -/
def readTail : List Line := [
  .line [.lit t!"default:"],
  .line [.lit t!"iterator.ReadAny()"],
  .line [.lit t!"}"],
  .line [.lit t!"}"],
  .line [.lit t!"return object"],
  .line [.lit t!"}"]]

/-- The lines of the template of structs and classes. -/
def structLines : List Line :=
   .set t!"$structName" [t!"structName", t!".Type"] ::
   .set t!"$marshalTypeFunc" [t!"marshalTypeFunc", t!".Type"] ::
   .set t!"$writeTypeFunc" [t!"writeTypeFunc", t!".Type"] ::
   .set t!"$unmarshalTypeFunc" [t!"unmarshalTypeFunc", t!".Type"] ::
   .set t!"$readTypeFunc" [t!"readTypeFunc", t!".Type"] ::
  (marshalLines ++ (writeHead ++ (writeIdentity ++ (writeAttributes ++ (writeTail ++ (unmarshalLines ++
    (readHead ++ (readIdentity ++ (readAttributes ++ readTail)))))))))

/-- The function that writes a list. -/
def listMarshalLines : List Line := [
  .line [.lit t!"// ", .print [t!"$marshalTypeFunc"], .lit t!" writes a list of values of the '",
    .print [t!".Type.Element.Name"], .lit t!"' type to"],
  .line [.lit t!"// the given writer."],
  .line [.lit t!"func ", .print [t!"$marshalTypeFunc"], .lit t!"(list ", .print [t!"$sliceType"],
    .lit t!", writer io.Writer) error {"],
  .line [.lit t!"stream := helpers.NewStream(writer)"],
  .line [.print [t!"$writeTypeFunc"], .lit t!"(list, stream)"],
  .line [.lit t!"err := stream.Flush()"],
  .line [.lit t!"if err != nil {"],
  .line [.lit t!"return err"],
  .line [.lit t!"}"],
  .line [.lit t!"return stream.Error"],
  .line [.lit t!"}"]]

/-- The start of the function that writes a list to a stream. -/
def listWriteHead : List Line := [
  .line [.lit t!"// ", .print [t!"$writeTypeFunc"], .lit t!" writes a list of value of the '",
    .print [t!".Type.Element.Name"], .lit t!"' type to"],
  .line [.lit t!"// the given stream."],
  .line [.lit t!"func ", .print [t!"$writeTypeFunc"], .lit t!"(list ", .print [t!"$sliceType"],
    .lit t!", stream *jsoniter.Stream) {"],
  .line [.lit t!"stream.WriteArrayStart()"],
  .line [.lit t!"for i, value := range list {"],
  .line [.lit t!"if i > 0 {"],
  .line [.lit t!"stream.WriteMore()"],
  .line [.lit t!"}"]]

/-- The end of the function that writes a list to a stream. -/
def listWriteTail : List Line := [
  .line [.lit t!"}"],
  .line [.lit t!"stream.WriteArrayEnd()"],
  .line [.lit t!"}"]]

/-- The function that reads a list. -/
def listUnmarshalLines : List Line := [
  .line [.lit t!"// ", .print [t!"$unmarshalTypeFunc"], .lit t!" reads a list of values of the '",
    .print [t!".Type.Element.Name"], .lit t!"' type"],
  .line [.lit t!"// from the given source, which can be a slice of bytes, a string or a reader."],
  .line [.lit t!"func ", .print [t!"$unmarshalTypeFunc"], .lit t!"(source interface{}) (items ",
    .print [t!"$sliceType"], .lit t!", err error) {"],
  .line [.lit t!"iterator, err := helpers.NewIterator(source)"],
  .line [.lit t!"if err != nil {"],
  .line [.lit t!"return"],
  .line [.lit t!"}"],
  .line [.lit t!"items = ", .print [t!"$readTypeFunc"], .lit t!"(iterator)"],
  .line [.lit t!"err = iterator.Error"],
  .line [.lit t!"return"],
  .line [.lit t!"}"]]

/-- The start of the function that reads a list from an iterator. -/
def listReadHead : List Line := [
  .line [.lit t!"// ", .print [t!"$readTypeFunc"], .lit t!" reads list of values of the ''",
    .print [t!".Type.Element.Name"], .lit t!"' type from"],
  .line [.lit t!"// the given iterator."],
  .line [.lit t!"func ", .print [t!"$readTypeFunc"], .lit t!"(iterator *jsoniter.Iterator) ",
    .print [t!"$sliceType"], .lit t!" {"],
  .line [.lit t!"list := ", .print [t!"valueReference", t!".Type"], .lit t!"{}"],
  .line [.lit t!"for iterator.ReadArray() {"]]

/-- The end of the function that reads a list from an iterator. -/
def listReadTail : List Line := [
  .line [.lit t!"list = append(list, item)"],
  .line [.lit t!"}"],
  .line [.lit t!"return list"],
  .line [.lit t!"}"]]

/-- The lines of the template of lists. -/
def listLines : List Line :=
   .set t!"$structName" [t!"structName", t!".Type"] ::
   .set t!"$sliceType" [t!"valueReference", t!".Type"] ::
   .set t!"$marshalTypeFunc" [t!"marshalTypeFunc", t!".Type"] ::
   .set t!"$writeTypeFunc" [t!"writeTypeFunc", t!".Type"] ::
   .set t!"$unmarshalTypeFunc" [t!"unmarshalTypeFunc", t!".Type"] ::
   .set t!"$readTypeFunc" [t!"readTypeFunc", t!".Type"] ::
  (listMarshalLines ++ (listWriteHead ++
  (.line [.print [t!"generateWriteValue", t!"\"value\"", t!".Type.Element", t!"false", t!".linkOwner"]] ::
  (listWriteTail ++ (listUnmarshalLines ++ (listReadHead ++
  (.line [.print [t!"generateReadValue", t!"\"item\"", t!".Type.Element", t!"false", t!".linkOwner"]] ::
  listReadTail)))))))

set_option maxRecDepth 100000 in
theorem read_lines : hasLines readTemplate readLines = true := by decide +kernel

set_option maxRecDepth 100000 in
theorem write_lines : hasLines writeTemplate writeLines = true := by decide +kernel

set_option maxRecDepth 100000 in
theorem struct_lines : hasLines structTemplate structLines = true := by decide +kernel

set_option maxRecDepth 100000 in
theorem list_lines : hasLines listTemplate listLines = true := by decide +kernel

end Verif.JsonCode
