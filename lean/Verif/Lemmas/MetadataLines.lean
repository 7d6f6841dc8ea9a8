import Verif.Model.MetadataCode
import Verif.Lemmas.TypesCode

namespace Verif.JsonCode

open GoTemplate

/-- The lines of the template. -/
def metadataLines : List Line := [
  .line [.lit t!"// MarshalMetadata writes a value of the metadata type to the given target, which"],
  .line [.lit t!"// can be a writer or a JSON encoder."],
  .line [.lit t!"func MarshalMetadata(object *Metadata, writer io.Writer) error {"],
  .line [.lit t!"stream := helpers.NewStream(writer)"],
  .line [.lit t!"writeMetadata(object, stream)"],
  .line [.lit t!"err := stream.Flush()"],
  .line [.lit t!"if err != nil {"],
  .line [.lit t!"return err"],
  .line [.lit t!"}"],
  .line [.lit t!"return stream.Error"],
  .line [.lit t!"}"],
  .line [.lit t!"func writeMetadata(object *Metadata, stream *jsoniter.Stream) {"],
  .line [.lit t!"stream.WriteObjectStart()"],
  .line [.lit t!"if object.bitmap_&1 != 0 {"],
  .line [.lit t!"stream.WriteObjectField(\"server_version\")"],
  .line [.lit t!"stream.WriteString(object.serverVersion)"],
  .line [.lit t!"}"],
  .line [.lit t!"stream.WriteObjectEnd()"],
  .line [.lit t!"}"],
  .line [.lit t!"// UnmarshalMetadata reads a value of the metadata type from the given source, which"],
  .line [.lit t!"// which can be a reader, a slice of byte or a string."],
  .line [.lit t!"func UnmarshalMetadata(source interface{}) (object *Metadata, err error) {"],
  .line [.lit t!"iterator, err := helpers.NewIterator(source)"],
  .line [.lit t!"if err != nil {"],
  .line [.lit t!"return"],
  .line [.lit t!"}"],
  .line [.lit t!"object = readMetadata(iterator)"],
  .line [.lit t!"err = iterator.Error"],
  .line [.lit t!"return"],
  .line [.lit t!"}"],
  .line [.lit t!"func readMetadata(iterator *jsoniter.Iterator) *Metadata {"],
  .line [.lit t!"object := &Metadata{}"],
  .line [.lit t!"for {"],
  .line [.lit t!"field := iterator.ReadObject()"],
  .line [.lit t!"if field == \"\" {"],
  .line [.lit t!"break"],
  .line [.lit t!"}"],
  .line [.lit t!"switch field {"],
  .line [.lit t!"case \"server_version\":"],
  .line [.lit t!"object.serverVersion = iterator.ReadString()"],
  .line [.lit t!"object.bitmap_ |= 1"],
  .line [.lit t!"default:"],
  .line [.lit t!"iterator.ReadAny()"],
  .line [.lit t!"}"],
  .line [.lit t!"}"],
  .line [.lit t!"return object"],
  .line [.lit t!"}"]]

set_option maxRecDepth 100000 in
theorem metadata_lines : hasLines metadataTemplate metadataLines = true := by decide +kernel

end Verif.JsonCode
