import Verif.Spec.JsonCode
import Verif.Model.MetadataCode

/-!
# What the file of the JSON support of the metadata of versions contains
-/

namespace Verif.JsonCode

open GoProgram
open TypesCode (Item dot bitSet)

/-- The names of the functions of the metadata. -/
def metadataFunctions : Functions :=
  { marshal := t!"MarshalMetadata", write := t!"writeMetadata", unmarshal := t!"UnmarshalMetadata"
    read := t!"readMetadata" }

/-- The function that writes the metadata to a stream. -/
def metadataWrite : Declaration :=
  .func {
    name := t!"writeMetadata", params := [(t!"object", t!"*Metadata"), (t!"stream", t!"*jsoniter.Stream")], results := []
    body := [
      .perform t!"stream.WriteObjectStart" [],
      .branch (bitSet t!"object" 0) [
        .perform t!"stream.WriteObjectField" [.str t!"server_version"],
        .perform t!"stream.WriteString" [dot t!"object" t!"serverVersion"]] [],
      .perform t!"stream.WriteObjectEnd" []] }

/-- The function that reads the metadata from an iterator. -/
def metadataRead : Declaration :=
  .func {
    name := t!"readMetadata", params := [(t!"iterator", t!"*jsoniter.Iterator")], results := [([], t!"*Metadata")]
    body := [
      .define t!"object" (.address t!"Metadata"),
      .forever (nextField t!"field" ++ [
        .switch (.var t!"field") [
          .case t!"server_version" [.assign (dot t!"object" t!"serverVersion") readString, setBit 0],
          .default [.perform t!"iterator.ReadAny" []]]]),
      .ret [.var t!"object"]] }

/-- The file of the JSON support of the metadata. -/
def metadataJson : List Item := [
  { comment := [
      t!"// MarshalMetadata writes a value of the metadata type to the given target, which",
      t!"// can be a writer or a JSON encoder."]
    decl := marshalFunc metadataFunctions t!"object" t!"*Metadata" },
  { comment := [], decl := metadataWrite },
  { comment := [
      t!"// UnmarshalMetadata reads a value of the metadata type from the given source, which",
      t!"// which can be a reader, a slice of byte or a string."]
    decl := unmarshalFunc metadataFunctions t!"object" t!"*Metadata" },
  { comment := [], decl := metadataRead }]

end Verif.JsonCode
