import Verif.Model.JsonLoop

/-!
# Bodies of requests and responses

Model of the functions generated by `generateMethodSource`,
pkg/generators/golang/json_generator.go:884-1264: they write the body of the request of a method and
read the body of its response. And of the functions for the metadata, lines 472-533.

The fields of a request or response are given by a function from parameters to values; the value is
`nil` for those that haven't been set. Pointers to scalars are represented by the scalar.
-/

namespace Verif

namespace GoJson

/-! ## Requests -/

/-- The result of generating, compiling and running the function that writes a request. -/
inductive Written
  | body (ts : List Tok)
  | nothing
  | panic
  | doesNotCompile
deriving DecidableEq, Repr

/-- The marshal functions exist only for the types that `Run`,
pkg/generators/golang/json_generator.go:163-192, generates support for: structs and lists whose
elements are scalars or structs. -/
def hasMarshal (S : Schema) (ty : TypeId) : Bool :=
  match S ty with
  | .struct _ _ _ => true
  | .list _ element =>
    match S element with
    | .struct _ _ _ => true
    | shape => shape.isScalar
  | _ => false

/-- The call to the marshal function. -/
def marshalBody (S : Schema) (ty : TypeId) (v : Val) : Written :=
  if hasMarshal S ty then
    match marshal S ty v with
    | some ts => .body ts
    | none => .panic
  else .doesNotCompile

/-- `generateWriteBodyParameter`, pkg/generators/golang/json_generator.go:1398-1436, for the
parameters of an action. -/
def writeParameters (S : Schema) (fields : Parameter → Val) (count : Nat) :
    List Parameter → Option (List Tok)
  | [] => some []
  | p :: ps =>
    if (fields p).isNil then writeParameters S fields count ps
    else
      match writeVal S p.typ.id false (fields p) with
      | none => none
      | some ts =>
        match writeParameters S fields (count + 1) ps with
        | none => none
        | some rest =>
          some (more count ++ (.str (Binding.bodyParameterName p) :: .colon :: (ts ++ rest)))

/-- The function that writes the request of an action,
pkg/generators/golang/json_generator.go:1219-1232. -/
def writeActionRequest (S : Schema) (m : Method) (fields : Parameter → Val) : Written :=
  match Binding.requestBodyParameters m with
  | [] => .nothing
  | ps =>
    match writeParameters S fields 0 ps with
    | none => .panic
    | some ts => .body (.objectStart :: (ts ++ [.objectEnd]))

/-- The last element for which the condition holds: the result of assigning a variable in a
loop. -/
def lastWhere {α : Type} (p : α → Bool) (l : List α) : Option α :=
  l.foldl (fun acc a => if p a then some a else acc) none

/-- The function that writes the request of a method, `generateMethodSource`,
pkg/generators/golang/json_generator.go:884-908, and for each kind of method lines 910-931 (add),
933-947 (delete), 949-970 (get), 972-1053 (list), 1055-1095 (post), 1097-1187 (search), 1189-1210
(update) and 1212-1264 (action). A nil body parameter makes the evaluation of the template fail. -/
def writeRequest (S : Schema) (m : Method) (fields : Parameter → Val) : Written :=
  if m.isAdd then
    match m.getParameter Nom.body with
    | none => .doesNotCompile
    | some body => marshalBody S body.typ.id (fields body)
  else if m.isDelete || m.isAsyncDelete then .nothing
  else if m.isGet then .nothing
  else if m.isList then .nothing
  else if m.isPost then
    match lastWhere (fun p => p.isIn) m.parameters with
    | none => .nothing
    | some request => marshalBody S request.typ.id (fields request)
  else if m.isSearch then
    match lastWhere (fun p => Name.equals (some p.name) (some Nom.body)) m.parameters with
    | none => .nothing
    | some body => marshalBody S body.typ.id (fields body)
  else if m.isUpdate || m.isAsyncUpdate then
    match m.getParameter Nom.body with
    | none => .doesNotCompile
    | some body => marshalBody S body.typ.id (fields body)
  else writeActionRequest S m fields

/-- The body of the request that `SendContext` sends, pkg/generators/golang/clients_generator.go:852-858
and 866-868: there is no body if there are no body parameters. -/
def requestBody (S : Schema) (m : Method) (fields : Parameter → Val) : Written :=
  match Binding.requestBodyParameters m with
  | [] => .nothing
  | _ => writeRequest S m fields

/-! ## Responses -/

/-- A case of the `switch` of the function that reads a response: the name of the member and the
parameter that receives its value. The items of lists of objects are put inside a structure. -/
structure Case where
  tag : Text
  param : Parameter
  wrap : Bool := false
deriving DecidableEq, Repr

/-- Assignment to a field. -/
def setField (fields : Parameter → Val) (p : Parameter) (v : Val) : Parameter → Val :=
  fun q => if q = p then v else fields q

/-- The structure that contains the items, pkg/generators/golang/json_generator.go:1035-1037. -/
def Case.value (c : Case) (v : Val) : Val := if c.wrap then .linkList false [] v else v

/-- The `switch` of the functions that read responses: the cases generated by
`generateReadBodyParameter`, pkg/generators/golang/json_generator.go:1300-1321, the case for the
items, lines 1026-1035, and the default case. -/
def readCase (D : DateParser) (S : Schema) (cases : List Case) (fuel : Nat) (field : Text)
    (fields : Parameter → Val) (r : List Tok) : Option ((Parameter → Val) × List Tok) :=
  match cases.find? (fun c => c.tag == field) with
  | some c =>
    (readVal D S fuel c.param.typ.id false r).map fun p => (setField fields c.param (c.value p.1), p.2)
  | none => skipValue fuel fields r

/-- The case for a parameter. -/
def bodyCase (p : Parameter) : Case := { tag := Binding.bodyParameterName p, param := p }

/-- The classification of the parameters of list and search methods,
pkg/generators/golang/json_generator.go:981-994 and 1107-1122: the last one with a name. -/
def lastNamed (m : Method) (name : Name) : Option Parameter :=
  lastWhere (fun p => Name.equals (some p.name) (some name)) m.parameters

/-- The parameters that aren't classified. -/
def otherParameters (m : Method) (names : List Name) : List Parameter :=
  m.parameters.filter fun p => !names.any fun n => Name.equals (some p.name) (some n)

/-- The cases of the responses of list and search methods,
pkg/generators/golang/json_generator.go:1012-1040 and 1146-1173. The type of the items must be a
list. -/
def pageCases (S : Schema) (m : Method) (names : List Name) : Option (List Case) :=
  match lastNamed m Nom.items with
  | none => none
  | some items =>
    match S items.typ.id with
    | .list _ element =>
      some ((lastNamed m Nom.page).toList.map bodyCase
        ++ (lastNamed m Nom.size).toList.map bodyCase
        ++ (lastNamed m Nom.total).toList.map bodyCase
        ++ ((otherParameters m names).filter fun p => p.isOut).map bodyCase
        ++ [{ tag := t!"items", param := items, wrap := !(S element).isScalar }])
    | _ => none

/-- The result of generating, compiling and running the function that reads a response. -/
inductive Received
  | fields (f : Parameter → Val)
  | error
  | doesNotCompile

/-- The loop with the given cases. -/
def readCases (D : DateParser) (S : Schema) (fuel : Nat) (cases : List Case)
    (fields : Parameter → Val) (source : List Tok) : Received :=
  match readLoop (readCase D S cases) fuel fields source with
  | some (f, _) => .fields f
  | none => .error

/-- The call to the unmarshal function for the body. -/
def unmarshalBody (D : DateParser) (S : Schema) (fuel : Nat) (p : Parameter)
    (fields : Parameter → Val) (source : List Tok) : Received :=
  if hasMarshal S p.typ.id then
    match unmarshal D S fuel p.typ.id source with
    | some v => .fields (setField fields p v)
    | none => .error
  else .doesNotCompile

/-- The function that reads the response of a method, `generateMethodSource`,
pkg/generators/golang/json_generator.go:884-908, and for each kind of method the same lines as
`writeRequest`; lines 1238-1260 for actions. -/
def readResponse (D : DateParser) (S : Schema) (fuel : Nat) (m : Method)
    (fields : Parameter → Val) (source : List Tok) : Received :=
  if m.isAdd then
    match m.getParameter Nom.body with
    | none => .doesNotCompile
    | some body => unmarshalBody D S fuel body fields source
  else if m.isDelete || m.isAsyncDelete then .fields fields
  else if m.isGet then
    match m.getParameter Nom.body with
    | none => .doesNotCompile
    | some body => unmarshalBody D S fuel body fields source
  else if m.isList then
    match pageCases S m [Nom.page, Nom.size, Nom.total, Nom.items] with
    | none => .doesNotCompile
    | some cases => readCases D S fuel cases fields source
  else if m.isPost then
    match lastWhere (fun p => p.isOut) m.parameters with
    | none => .fields fields
    | some response => unmarshalBody D S fuel response fields source
  else if m.isSearch then
    match pageCases S m [Nom.page, Nom.size, Nom.total, Nom.body, Nom.items] with
    | none => .doesNotCompile
    | some cases => readCases D S fuel cases fields source
  else if m.isUpdate || m.isAsyncUpdate then
    match m.getParameter Nom.body with
    | none => .doesNotCompile
    | some body => unmarshalBody D S fuel body fields source
  else
    match Binding.responseParameters m with
    | [] => .fields fields
    | ps => readCases D S fuel (ps.map bodyCase) fields source

/-- The name of the field that the code that reads and writes JSON uses for a parameter,
`parameterFieldName`, pkg/generators/golang/json_generator.go:1569-1571. -/
def parameterFieldName (p : Parameter) : Text := Go.privateName p.name

/-! ## Metadata -/

/-- `Metadata`: the structure generated by pkg/generators/golang/types_generator.go. -/
structure Metadata where
  bitmap : Nat := 0
  serverVersion : Text := []
deriving DecidableEq, Repr

/-- `writeMetadata`, pkg/generators/golang/json_generator.go:490-497. -/
def writeMetadata (m : Metadata) : List Tok :=
  .objectStart ::
    ((if m.bitmap.testBit 0 then [.str t!"server_version", .colon, .str m.serverVersion] else [])
      ++ [.objectEnd])

/-- `readMetadata`, pkg/generators/golang/json_generator.go:511-529. -/
def readMetadata (fuel : Nat) (source : List Tok) : Option Metadata :=
  (readLoop (fun fuel field (m : Metadata) r =>
    if field = t!"server_version" then
      (readString r).map fun p => ({ bitmap := m.bitmap ||| 1, serverVersion := p.1 }, p.2)
    else skipValue fuel m r) fuel {} source).map Prod.fst

end GoJson

end Verif
