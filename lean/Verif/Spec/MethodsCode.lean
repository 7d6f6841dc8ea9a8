import Verif.Spec.JsonCode
import Verif.Model.MethodsCode

/-!
# What the files of the generated JSON support of resources contain

The declarations that the files of the generated JSON support of resources should contain: for each method, the
function that writes the body of the request and the function that reads the body of the response.
-/

namespace Verif.MethodsCode

open GoProgram
open TypesCode (Item dot notNil)
open JsonCode (Form comma nextField camel formOf functionsOf)

/-- A parameter that is a field of the JSON object that is the body: the name of the field of the request or response,
the name of the field of the JSON object, whether it is scalar, whether it can be anything, and how its values are
written and read. -/
structure Field where
  field : Text
  tag : Text
  scalar : Bool
  anything : Bool
  form : Form

/-- The body of a request: nothing, the value of a parameter, written with a function, or an object with fields. -/
inductive Request where
  | nothing
  | whole (field marshal : Text)
  | fields (fs : List Field)

/-- The body of a response: nothing, the value of a parameter, read with a function, an object with fields, or a
page. Pages have also the items, that are put inside of a structure unless they are scalar values. -/
inductive Response where
  | nothing
  | whole (field unmarshal : Text)
  | fields (fs : List Field)
  | page (fs : List Field) (items : Form) (list : Option Text)

/-- A method: the names of its functions and of the types of the request and the response, and their bodies. -/
structure Message where
  write : Text
  read : Text
  requestType : Text
  responseType : Text
  request : Request
  response : Response

/-- The code that writes a parameter, if it has a value. The values of scalar parameters are behind pointers. -/
def Field.write (f : Field) : Stmt :=
  .branch (.ne (dot t!"request" f.field) .nil) (
    comma ::
    .perform t!"stream.WriteObjectField" [.str f.tag] ::
    (f.form.write (if f.scalar && !f.anything then .deref (dot t!"request" f.field) else dot t!"request" f.field) ++
    [.increment t!"count"])) []

/-- The case for a parameter. -/
def Field.read (f : Field) : Stmt :=
  .case f.tag (f.form.read t!"value" ++
    [.assign (dot t!"response" f.field) (if f.scalar then .ref t!"value" else .var t!"value")])

/-- The case for the items. -/
def readItems (form : Form) (list : Option Text) : Stmt :=
  .case t!"items" (form.read t!"items" ++ [
    match list with
    | none => .assign (dot t!"response" t!"items") (.var t!"items")
    | some typ => .assignNew (dot t!"response" t!"items") typ t!"items" (.var t!"items")])

/-- The body of the function that writes the request. -/
def Request.body : Request → List Stmt
  | .nothing => [.ret [.nil]]
  | .whole field marshal => [.ret [.apply marshal [dot t!"request" field, .var t!"writer"]]]
  | .fields fs => [
      .define t!"count" (.int 0),
      .define t!"stream" (.call t!"helpers.NewStream" [.var t!"writer"]),
      .perform t!"stream.WriteObjectStart" []] ++ fs.map Field.write ++ [
      .perform t!"stream.WriteObjectEnd" [],
      .define t!"err" (.call t!"stream.Flush" []),
      .branch (notNil t!"err") [.ret [.var t!"err"]] [],
      .ret [.read t!"stream.Error"]]

/-- The code that reads the fields of an object, with those cases. The fields that aren't known are ignored. -/
def readFields (cases : List Stmt) : List Stmt := [
  .defineBoth t!"iterator" t!"err" t!"helpers.NewIterator" [.var t!"reader"],
  .branch (notNil t!"err") [.ret [.var t!"err"]] [],
  .forever (nextField t!"field" ++ [
    .switch (.var t!"field") (cases ++ [.default [.perform t!"iterator.ReadAny" []]])]),
  .ret [.read t!"iterator.Error"]]

/-- The body of the function that reads the response. -/
def Response.body : Response → List Stmt
  | .nothing => [.ret [.nil]]
  | .whole field unmarshal => [
      .var t!"err" t!"error",
      .assignPair (dot t!"response" field) (.var t!"err") unmarshal [.var t!"reader"],
      .ret [.var t!"err"]]
  | .fields fs => readFields (fs.map Field.read)
  | .page fs items list => readFields (fs.map Field.read ++ [readItems items list])

/-- The function that writes the request. -/
def Message.writeFunc (s : Message) : Declaration :=
  .func {
    name := s.write, params := [(t!"request", t!"*" ++ s.requestType), (t!"writer", t!"io.Writer")]
    results := [([], t!"error")], body := s.request.body }

/-- The function that reads the response. -/
def Message.readFunc (s : Message) : Declaration :=
  .func {
    name := s.read, params := [(t!"response", t!"*" ++ s.responseType), (t!"reader", t!"io.Reader")]
    results := [([], t!"error")], body := s.response.body }

/-- The code of a method. -/
def Message.items (s : Message) : List Item := [
  { comment := [], decl := s.writeFunc }, { comment := [], decl := s.readFunc }]

/-! ## What they are for a method of the model -/

/-- A parameter. -/
def fieldOf (x : Context) (p : Parameter) : Field :=
  { field := Go.privateName p.name, tag := Binding.bodyParameterName p
    scalar := (x.typeOf p.typ.id).isScalar
    anything := match x.typeOf p.typ.id with
      | .basic .interface => true
      | _ => false
    form := formOf x false none (x.typeOf p.typ.id) }

/-- The last parameter that satisfies a condition. -/
def lastThat (m : Method) (f : Parameter → Bool) : Option Parameter := m.parameters.reverse.find? f

/-- The body of a request that is the value of that parameter, if there is one. -/
def wholeRequest (x : Context) : Option Parameter → Request
  | none => .nothing
  | some p => .whole (Go.privateName p.name) (functionsOf (x.typeOf p.typ.id)).marshal

/-- The body of a response that is the value of that parameter, if there is one. -/
def wholeResponse (x : Context) : Option Parameter → Response
  | none => .nothing
  | some p => .whole (Go.privateName p.name) (functionsOf (x.typeOf p.typ.id)).unmarshal

/-- The fields of a page: the page, the size and the total, if the method has them, and then the other output
parameters. -/
def pageFields (m : Method) (known : List Name) : List Parameter :=
  (lastThat m (·.name == Nom.page)).toList ++ (lastThat m (·.name == Nom.size)).toList ++
    (lastThat m (·.name == Nom.total)).toList ++
    m.parameters.filter fun p => !known.contains p.name && p.isOut

/-- The type of the structure of the items of a page: none if they are scalar values. -/
def pageList (x : Context) (t : GoRef.Typ) : Option Text :=
  match t with
  | .list d e =>
    if e.isScalar then none else some (GoRef.emit x.pkg (GoRef.structReference x.base (.list d e)))
  | t => some (GoRef.emit x.pkg (GoRef.structReference x.base t))

/-- The body of a response that is a page, given the parameter of the items. -/
def pageOf (x : Context) (m : Method) (known : List Name) (items : Parameter) : Response :=
  .page ((pageFields m known).map (fieldOf x)) (formOf x false none (x.typeOf items.typ.id))
    (pageList x (x.typeOf items.typ.id))

/-- A request with fields: there is no body if there are none. -/
def requestFields (x : Context) : List Parameter → Request
  | [] => .nothing
  | ps => .fields (ps.map (fieldOf x))

/-- A response with fields: there is no body if there are none. -/
def responseFields (x : Context) : List Parameter → Response
  | [] => .nothing
  | ps => .fields (ps.map (fieldOf x))

/-- The kinds of methods, by their names: the others are actions. -/
inductive Kind where
  | add | delete | get | list | post | search | update | action
deriving DecidableEq

/-- The kind of a method. -/
def kindOf (m : Method) : Kind :=
  if m.name = Nom.add then .add
  else if m.name = Nom.delete ∨ m.name = Nom.asyncDelete then .delete
  else if m.name = Nom.get then .get
  else if m.name = Nom.list then .list
  else if m.name = Nom.post then .post
  else if m.name = Nom.search then .search
  else if m.name = Nom.update ∨ m.name = Nom.asyncUpdate then .update
  else .action

/-- The parameter called `Body`: the first one. -/
def bodyOf (m : Method) : Option Parameter := m.parameters.find? (·.name == Nom.body)

/-- The parameter called `Items`: the last one. -/
def itemsOf (m : Method) : Option Parameter := lastThat m (·.name == Nom.items)

/-- A method has the parameter that its kind requires. -/
def Complete (m : Method) : Prop :=
  match kindOf m with
  | .add | .get | .update => bodyOf m ≠ none
  | .list | .search => itemsOf m ≠ none
  | .delete | .post | .action => True

/-- The body of the request of a method. -/
def requestOf (x : Context) (m : Method) : Request :=
  match kindOf m with
  | .add | .update => wholeRequest x (bodyOf m)
  | .delete | .get | .list => .nothing
  | .post => wholeRequest x (lastThat m (·.isIn))
  | .search => wholeRequest x (lastThat m (·.name == Nom.body))
  | .action => requestFields x (m.parameters.filter (·.isIn))

/-- The body of the response of a method. -/
def responseOf (x : Context) (m : Method) : Response :=
  match kindOf m with
  | .add | .get | .update => wholeResponse x (bodyOf m)
  | .delete => .nothing
  | .list => match itemsOf m with
    | none => .nothing
    | some items => pageOf x m [Nom.page, Nom.size, Nom.total, Nom.items] items
  | .post => wholeResponse x (lastThat m (·.isOut))
  | .search => match itemsOf m with
    | none => .nothing
    | some items => pageOf x m [Nom.page, Nom.size, Nom.total, Nom.body, Nom.items] items
  | .action => responseFields x (m.parameters.filter (·.isOut))

/-- The name of the resource in the names of functions: the name of the root isn't written. -/
def prefixOf (r : Resource) : Text := if r.name.toText = t!"root" then [] else camel r.name

/-- The same for the names of types, where the name given in the annotations is used. -/
def typePrefixOf (r : Resource) : Text := if r.name.toText = t!"root" then [] else Go.nameOf r.annotations r.name

/-- The code of a method. -/
def messageOf (x : Context) (r : Resource) (m : Method) : Message :=
  { write := t!"write" ++ prefixOf r ++ camel m.name ++ t!"Request"
    read := t!"read" ++ prefixOf r ++ camel m.name ++ t!"Response"
    requestType := typePrefixOf r ++ Go.nameOf m.annotations m.name ++ t!"Request"
    responseType := typePrefixOf r ++ Go.nameOf m.annotations m.name ++ t!"Response"
    request := requestOf x m
    response := responseOf x m }

/-! ## References and imports -/

/-- A parameter that is a field of the body of the response. -/
def ReadField (m : Method) (p : Parameter) : Prop :=
  match kindOf m with
  | .list => p ∈ pageFields m [Nom.page, Nom.size, Nom.total, Nom.items]
  | .search => p ∈ pageFields m [Nom.page, Nom.size, Nom.total, Nom.body, Nom.items]
  | .action => p ∈ m.parameters.filter (·.isOut)
  | _ => False

/-- A reference that the code of a method has: those of the code that reads the fields, and for pages those of the code
that reads the items and the type of the structure that contains them. -/
def Uses (x : Context) (m : Method) (ref : GoRef.Ref) : Prop :=
  (∃ p, ReadField m p ∧ JsonCode.ValueUses x false (x.typeOf p.typ.id) ref) ∨
  ((kindOf m = .list ∨ kindOf m = .search) ∧ ∃ items, itemsOf m = some items ∧
    (JsonCode.ValueUses x false (x.typeOf items.typ.id) ref ∨
      ((pageList x (x.typeOf items.typ.id)).isSome ∧ ref = GoRef.structReference x.base (x.typeOf items.typ.id))))

/-- The code of a method can be generated: it has the parameter that it needs, and the types that it refers to can be
calculated. -/
def Generable (x : Context) (m : Method) : Prop := Complete m ∧ ∀ ref, Uses x m ref → ref.errors = 0

/-- The code of a method reads a value that isn't behind one of the functions of other files. -/
def ReadsValues (m : Method) : Prop := (∃ p, ReadField m p) ∨ kindOf m = .list ∨ kindOf m = .search

/-- An import that the code of a method needs. -/
def Needs (x : Context) (m : Method) (path selector : Text) : Prop :=
  (path, selector) ∈ [(t!"net/http", []), (Go.helpersImport x.base, [])] ∨
  (ReadsValues m ∧ path = t!"time" ∧ selector = []) ∨
  (kindOf m = .action ∧ m.parameters.filter (·.isIn) ≠ [] ∧ path ∈ [t!"sort", t!"time"] ∧ selector = []) ∨
  ∃ ref, Uses x m ref ∧ ref.imprt = path ∧ ref.selector = selector

end Verif.MethodsCode
