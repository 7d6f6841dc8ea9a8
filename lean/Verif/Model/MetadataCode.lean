import Verif.Model.JsonCode

/-!
# The text of the JSON support of the metadata of versions

The template of the file is copied verbatim.
-/

namespace Verif.JsonCode

open GoTemplate GoFile

/-- The template of the JSON support of the metadata of versions,
pkg/generators/golang/json_generator.go:477-528. -/
def metadataTemplate : Text :=
  List.flatten [
    t!"\n",
    t!"\t\t// MarshalMetadata writes a value of the metadata type to the given target, which\n",
    t!"\t\t// can be a writer or a JSON encoder.\n",
    t!"\t\tfunc MarshalMetadata(object *Metadata, writer io.Writer) error {\n",
    t!"\t\t\tstream := helpers.NewStream(writer)\n",
    t!"\t\t\twriteMetadata(object, stream)\n",
    t!"\t\t\terr := stream.Flush()\n",
    t!"\t\t\tif err != nil {\n",
    t!"\t\t\t\treturn err\n",
    t!"\t\t\t}\n",
    t!"\t\t\treturn stream.Error\n",
    t!"\t\t}\n",
    t!"\n",
    t!"\t\tfunc writeMetadata(object *Metadata, stream *jsoniter.Stream) {\n",
    t!"\t\t\tstream.WriteObjectStart()\n",
    t!"\t\t\tif object.bitmap_&1 != 0 {\n",
    t!"\t\t\t\tstream.WriteObjectField(\"server_version\")\n",
    t!"\t\t\t\tstream.WriteString(object.serverVersion)\n",
    t!"\t\t\t}\n",
    t!"\t\t\tstream.WriteObjectEnd()\n",
    t!"\t\t}\n",
    t!"\n",
    t!"\t\t// UnmarshalMetadata reads a value of the metadata type from the given source, which\n",
    t!"\t\t// which can be a reader, a slice of byte or a string.\n",
    t!"\t\tfunc UnmarshalMetadata(source interface{}) (object *Metadata, err error) {\n",
    t!"\t\t\titerator, err := helpers.NewIterator(source)\n",
    t!"\t\t\tif err != nil {\n",
    t!"\t\t\t\treturn\n",
    t!"\t\t\t}\n",
    t!"\t\t\tobject = readMetadata(iterator)\n",
    t!"\t\t\terr = iterator.Error\n",
    t!"\t\t\treturn\n",
    t!"\t\t}\n",
    t!"\n",
    t!"\t\tfunc readMetadata(iterator *jsoniter.Iterator) *Metadata {\n",
    t!"\t\t\tobject := &Metadata{}\n",
    t!"\t\t\tfor {\n",
    t!"\t\t\t\tfield := iterator.ReadObject()\n",
    t!"\t\t\t\tif field == \"\" {\n",
    t!"\t\t\t\t\tbreak\n",
    t!"\t\t\t\t}\n",
    t!"\t\t\t\tswitch field {\n",
    t!"\t\t\t\tcase \"server_version\":\n",
    t!"\t\t\t\t\tobject.serverVersion = iterator.ReadString()\n",
    t!"\t\t\t\t\tobject.bitmap_ |= 1\n",
    t!"\t\t\t\tdefault:\n",
    t!"\t\t\t\t\titerator.ReadAny()\n",
    t!"\t\t\t\t}\n",
    t!"\t\t\t}\n",
    t!"\t\t\treturn object\n",
    t!"\t\t}\n",
    t!"\t\t"]

/-- `generateVersionMetadataSource`, pkg/generators/golang/json_generator.go:472-531. The template doesn't use the
version that it is given. -/
def metadataSource (x : Context) (b : Buffer) : Buffer :=
  (Buffer.imports b [(t!"fmt", []), (t!"io", []), (Go.helpersImport x.base, []),
    (t!"github.com/json-iterator/go", t!"jsoniter")]).emit (typeEnv x) metadataTemplate []

/-- `generateVersionMetadataSupport`, pkg/generators/golang/json_generator.go:436-470, given the errors reported before
and the order of the imports. -/
def metadataFile (x : Context) (errors : Nat) (order : List (Text × Text)) : Option Text × Bool :=
  (metadataSource x { pkg := x.pkg, errors := errors }).write order

end Verif.JsonCode
