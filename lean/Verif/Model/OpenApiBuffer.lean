import Verif.Model.Json

/-!
# The buffer of the OpenAPI generator

Model of pkg/generators/openapi/buffer.go. As in the model of the JSON support code, the stream of
jsoniter is a sequence of tokens; indentation isn't modelled.
-/

namespace Verif

namespace OpenApi

/-- `Buffer`, pkg/generators/openapi/buffer.go:38-43: the stream and the stack of counters, with the
last one first. The counters are pointers that nobody else has, so they are modelled by their
values. The reporter is modelled by the number of errors; the output by the result of `write`. -/
structure Buffer where
  out : List Tok := []
  stack : List Nat := [0]
  errors : Nat := 0
deriving DecidableEq, Repr

/-- The calls that the generator makes: the methods of the buffer, with the optional name, and
`reporter.Errorf`. The values of fields and items are documents. -/
inductive Call
  | startObject (name : Option Text)
  | endObject
  | field (name : Text) (value : Json)
  | startArray (name : Option Text)
  | endArray
  | item (value : Json)
  | report
deriving Repr

namespace Buffer

/-- `stream.WriteMore` if the counter isn't zero, pkg/generators/openapi/buffer.go:110-112, 133-135,
143-145 and 166-168. -/
def more (level : Nat) : List Tok := if level > 0 then [.comma] else []

/-- `StartObject`, pkg/generators/openapi/buffer.go:108-122. The empty stack makes it panic. -/
def startObject (b : Buffer) (name : Option Text) : Option Buffer :=
  match b.stack with
  | [] => none
  | level :: levels =>
    match name with
    | some name =>
      some { b with
        out := b.out ++ more level ++ [.str name, .colon] ++ [.objectStart]
        stack := 0 :: (level + 1) :: levels }
    | none =>
      some { b with out := b.out ++ more level ++ [.objectStart], stack := 0 :: level :: levels }

/-- `EndObject`, pkg/generators/openapi/buffer.go:124-129. `popLevel` and `peekLevel` panic if the
stack is empty. -/
def endObject (b : Buffer) : Option Buffer :=
  match b.stack with
  | _ :: level :: levels =>
    some { b with out := b.out ++ [.objectEnd], stack := (level + 1) :: levels }
  | _ => none

/-- `Field`, pkg/generators/openapi/buffer.go:131-139. -/
def field (b : Buffer) (name : Text) (value : Json) : Option Buffer :=
  match b.stack with
  | [] => none
  | level :: levels =>
    some { b with
      out := b.out ++ more level ++ [.str name, .colon] ++ value.tokens
      stack := (level + 1) :: levels }

/-- `StartArray`, pkg/generators/openapi/buffer.go:141-155. -/
def startArray (b : Buffer) (name : Option Text) : Option Buffer :=
  match b.stack with
  | [] => none
  | level :: levels =>
    match name with
    | some name =>
      some { b with
        out := b.out ++ more level ++ [.str name, .colon] ++ [.arrayStart]
        stack := 0 :: (level + 1) :: levels }
    | none =>
      some { b with out := b.out ++ more level ++ [.arrayStart], stack := 0 :: level :: levels }

/-- `EndArray`, pkg/generators/openapi/buffer.go:157-162. -/
def endArray (b : Buffer) : Option Buffer :=
  match b.stack with
  | _ :: level :: levels =>
    some { b with out := b.out ++ [.arrayEnd], stack := (level + 1) :: levels }
  | _ => none

/-- `Item`, pkg/generators/openapi/buffer.go:164-171. -/
def item (b : Buffer) (value : Json) : Option Buffer :=
  match b.stack with
  | [] => none
  | level :: levels =>
    some { b with out := b.out ++ more level ++ value.tokens, stack := (level + 1) :: levels }

/-- One call. -/
def exec (b : Buffer) : Call → Option Buffer
  | .startObject name => b.startObject name
  | .endObject => b.endObject
  | .field name value => b.field name value
  | .startArray name => b.startArray name
  | .endArray => b.endArray
  | .item value => b.item value
  | .report => some { b with errors := b.errors + 1 }

/-- A sequence of calls. The result is nothing if one of them panics. -/
def run (b : Buffer) : List Call → Option Buffer
  | [] => some b
  | c :: cs =>
    match b.exec c with
    | none => none
    | some b => b.run cs

/-- `Write`, pkg/generators/openapi/buffer.go:174-204: what is written to the file, or nothing if
there were errors. Errors of the file system aren't modelled. -/
def write (b : Buffer) : Option (List Tok) := if b.errors > 0 then none else some b.out

end Buffer

end OpenApi

end Verif
