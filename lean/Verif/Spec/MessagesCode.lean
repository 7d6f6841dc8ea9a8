import Verif.Spec.MethodsCode
import Verif.Model.GoNames

/-!
# What the requests and responses of a method contain
-/

namespace Verif.MessagesCode

/-- A parameter of a request. The setter stores the value, or its address. -/
structure Input where
  declared : Text
  doc : Text
  field : Text
  fieldType : Text
  setter : Text
  setterType : Text
  address : Bool

/-- The setter of a parameter of a request. -/
def Input.lines (request : Text) (i : Input) : List Text := [
  t!"// " ++ i.setter ++ t!" sets the value of the '" ++ i.declared ++ t!"' parameter.",
  t!"//",
  TypesCode.commentOf i.doc,
  t!"func (r *" ++ request ++ t!") " ++ i.setter ++ t!"(value " ++ i.setterType ++ t!") *" ++ request ++ t!" {",
  t!"r." ++ i.field ++ t!" = " ++ (if i.address then t!"&value" else t!"value"),
  t!"return r",
  t!"}"]

/-- A query parameter: the field with the value, and the name in the query. -/
structure Query where
  field : Text
  name : Text

/-- A query parameter is sent only if it has been set. -/
def Query.lines (q : Query) : List Text := [
  t!"if r." ++ q.field ++ t!" != nil {",
  t!"helpers.AddValue(&query, \"" ++ q.name ++ t!"\", *r." ++ q.field ++ t!")",
  t!"}"]

/-- The request of a method: `write` is the function that writes the body, if there is one, and `read` the function that
reads the body of the response, if there is one. -/
structure Request where
  declared : Text
  request : Text
  response : Text
  inputs : List Input
  queries : List Query
  verb : Text
  write : Option Text
  read : Option Text

/-- The type of the request, and the methods that all the requests have. -/
def Request.typeLines (q : Request) : List Text := [
  t!"// " ++ q.request ++ t!" is the request for the '" ++ q.declared ++ t!"' method.",
  t!"type " ++ q.request ++ t!" struct {",
  t!"transport http.RoundTripper",
  t!"path      string",
  t!"query     url.Values",
  t!"header    http.Header"] ++
  q.inputs.map (fun i => i.field ++ t!" " ++ i.fieldType) ++ [
  t!"}",
  t!"// Parameter adds a query parameter.",
  t!"func (r *" ++ q.request ++ t!") Parameter(name string, value interface{}) *" ++ q.request ++ t!" {",
  t!"helpers.AddValue(&r.query, name, value)",
  t!"return r",
  t!"}",
  t!"// Header adds a request header.",
  t!"func (r *" ++ q.request ++ t!") Header(name string, value interface{}) *" ++ q.request ++ t!" {",
  t!"helpers.AddHeader(&r.header, name, value)",
  t!"return r",
  t!"}",
  t!"// Impersonate wraps requests on behalf of another user.",
  t!"// Note: Services that do not support this feature may silently ignore this call. ",
  t!"func (r *" ++ q.request ++ t!") Impersonate(user string) *" ++ q.request ++ t!" {",
  t!"helpers.AddImpersonationHeader(&r.header, user)",
  t!"return r",
  t!"}"]

/-- The methods that send the request. The query, the headers and the body are prepared first, then the request is sent,
and finally the error or the body of the response are read. An empty response is accepted. -/
def Request.sendLines (q : Request) : List Text := [
  t!"// Send sends this request, waits for the response, and returns it.",
  t!"//",
  t!"// This is a potentially lengthy operation, as it requires network communication.",
  t!"// Consider using a context and the SendContext method.",
  t!"func (r *" ++ q.request ++ t!") Send() (result *" ++ q.response ++ t!", err error) {",
  t!"return r.SendContext(context.Background())",
  t!"}",
  t!"// SendContext sends this request, waits for the response, and returns it.",
  t!"func (r *" ++ q.request ++ t!") SendContext(ctx context.Context) (result *" ++ q.response ++ t!", err error) {",
  t!"query := helpers.CopyQuery(r.query)"] ++
  q.queries.flatMap Query.lines ++ [
  t!"header := helpers.CopyHeader(r.header)"] ++
  (match q.write with
    | some write => [
      t!"buffer := &bytes.Buffer{}",
      t!"err = " ++ write ++ t!"(r, buffer)",
      t!"if err != nil {",
      t!"return",
      t!"}"]
    | none => []) ++ [
  t!"uri := &url.URL{",
  t!"Path: r.path,",
  t!"RawQuery: query.Encode(),",
  t!"}",
  t!"request := &http.Request{",
  t!"Method: \"" ++ q.verb ++ t!"\",",
  t!"URL:    uri,",
  t!"Header: header,"] ++
  (match q.write with
    | some _ => [t!"Body: io.NopCloser(buffer),"]
    | none => []) ++ [
  t!"}",
  t!"if ctx != nil {",
  t!"request = request.WithContext(ctx)",
  t!"}",
  t!"response, err := r.transport.RoundTrip(request)",
  t!"if err != nil {",
  t!"return",
  t!"}",
  t!"defer response.Body.Close()",
  t!"result = &" ++ q.response ++ t!"{}",
  t!"result.status = response.StatusCode",
  t!"result.header = response.Header",
  t!"reader := bufio.NewReader(response.Body)",
  t!"_, err = reader.Peek(1)",
  t!"if err == io.EOF {",
  t!"err = nil",
  t!"return",
  t!"}",
  t!"if result.status >= 400 {",
  t!"result.err, err = errors.UnmarshalErrorStatus(reader, result.status)",
  t!"if err != nil {",
  t!"return",
  t!"}",
  t!"err = result.err",
  t!"return",
  t!"}"] ++
  (match q.read with
    | some read => [
      t!"err = " ++ read ++ t!"(result, reader)",
      t!"if err != nil {",
      t!"return",
      t!"}"]
    | none => []) ++ [
  t!"return",
  t!"}"]

/-- The lines of a request. -/
def Request.lines (q : Request) : List Text :=
  q.typeLines ++ q.inputs.flatMap (Input.lines q.request) ++ q.sendLines

/-- A parameter of a response. For scalars the field is a pointer, and the getter returns what it points to, or the given
zero value. -/
structure Output where
  declared : Text
  doc : Text
  field : Text
  fieldType : Text
  getter : Text
  getterType : Text
  zero : Option Text

/-- The two getters of a parameter of a response. -/
def Output.lines (response : Text) (o : Output) : List Text := [
  t!"// " ++ o.getter ++ t!" returns the value of the '" ++ o.declared ++ t!"' parameter.",
  t!"//",
  TypesCode.commentOf o.doc,
  t!"func (r *" ++ response ++ t!") " ++ o.getter ++ t!"() " ++ o.getterType ++ t!" {"] ++
  (match o.zero with
    | some zero => [
      t!"if r != nil && r." ++ o.field ++ t!" != nil {",
      t!"return *r." ++ o.field,
      t!"}",
      t!"return " ++ zero]
    | none => [
      t!"if r == nil {",
      t!"return nil",
      t!"}",
      t!"return r." ++ o.field]) ++ [
  t!"}",
  t!"// Get" ++ o.getter ++ t!" returns the value of the '" ++ o.declared ++ t!"' parameter and",
  t!"// a flag indicating if the parameter has a value.",
  t!"//",
  TypesCode.commentOf o.doc,
  t!"func (r *" ++ response ++ t!") Get" ++ o.getter ++ t!"() (value " ++ o.getterType ++ t!", ok bool) {",
  t!"ok = r != nil && r." ++ o.field ++ t!" != nil",
  t!"if ok {",
  t!"value = " ++ (if o.zero.isSome then t!"*r." else t!"r.") ++ o.field,
  t!"}",
  t!"return",
  t!"}"]

/-- The response of a method. -/
structure Response where
  declared : Text
  response : Text
  outputs : List Output

/-- The lines of a response. -/
def Response.lines (s : Response) : List Text := [
  t!"// " ++ s.response ++ t!" is the response for the '" ++ s.declared ++ t!"' method.",
  t!"type  " ++ s.response ++ t!" struct {",
  t!"status int",
  t!"header http.Header",
  t!"err    *errors.Error"] ++
  s.outputs.map (fun o => o.field ++ t!" " ++ o.fieldType) ++ [
  t!"}",
  t!"// Status returns the response status code.",
  t!"func (r *" ++ s.response ++ t!") Status() int {",
  t!"if r == nil {",
  t!"return 0",
  t!"}",
  t!"return r.status",
  t!"}",
  t!"// Header returns header of the response.",
  t!"func (r *" ++ s.response ++ t!") Header() http.Header {",
  t!"if r == nil {",
  t!"return nil",
  t!"}",
  t!"return r.header",
  t!"}",
  t!"// Error returns the response error.",
  t!"func (r *" ++ s.response ++ t!") Error() *errors.Error {",
  t!"if r == nil {",
  t!"return nil",
  t!"}",
  t!"return r.err",
  t!"}"] ++
  s.outputs.flatMap (Output.lines s.response)

/-! ## For a method -/

/-- The name of the requests or responses of a method, see C29: that of the resource, unless it is the root, that of the
method, and the suffix. -/
def nameOf (r : Resource) (m : Method) (suffix : Text) : Text :=
  MethodsCode.typePrefixOf r ++ Go.nameOf m.annotations m.name ++ suffix

/-- A parameter of the request, where `t` is its type. The types of the field and of the setter are those of C78. The
values of structs and lists are stored as they are, and for the rest the address is stored. -/
def inputOf (base pkg : Text) (m : Method) (p : Parameter) (t : GoRef.Typ) : Input :=
  { declared := p.name.toText
    doc := p.doc
    field := Go.parameterField p
    fieldType := GoRef.requestField base pkg { typ := t, items := p.isItems m }
    setter := Go.parameterSetter p
    setterType := GoRef.requestSetter base pkg { typ := t, items := p.isItems m }
    address := match t with
      | .struct _ | .list _ _ => false
      | _ => true }

/-- A parameter of the response, where `t` is its type. The types of the field and of the getter are those of C78. -/
def outputOf (base pkg : Text) (m : Method) (p : Parameter) (t : GoRef.Typ) : Output :=
  { declared := p.name.toText
    doc := p.doc
    field := Go.parameterField p
    fieldType := GoRef.responseField base pkg { typ := t, items := p.isItems m }
    getter := Go.parameterGetter p
    getterType := GoRef.responseGetter base pkg { typ := t, items := p.isItems m }
    zero := match t with
      | .basic _ | .enum _ => some (GoRef.zeroValue base t)
      | _ => none }

/-- The request of a method. The scalar parameters of methods that aren't actions are sent in the query, and the rest in
the body. The names in the query are those of C28, and the verbs those of C26. -/
def requestOf (x : TypesCode.Context) (r : Resource) (m : Method) : Request :=
  { declared := m.name.toText
    request := nameOf r m t!"Request"
    response := nameOf r m t!"Response"
    inputs := (m.parameters.filter (·.isIn)).map fun p => inputOf x.base x.pkg m p (x.typeOf p.typ.id)
    queries := if m.isAction then [] else (m.parameters.filter fun p => p.isIn && p.typ.isScalar).map fun p =>
      { field := Go.parameterField p, name := Binding.queryParameterName p }
    verb := Binding.method m
    write := if m.parameters.any fun p => p.isIn && (m.isAction || !p.typ.isScalar)
      then some (t!"write" ++ MethodsCode.prefixOf r ++ JsonCode.camel m.name ++ t!"Request") else none
    read := if m.parameters.any (·.isOut)
      then some (t!"read" ++ MethodsCode.prefixOf r ++ JsonCode.camel m.name ++ t!"Response") else none }

/-- The response of a method. -/
def responseOf (x : TypesCode.Context) (r : Resource) (m : Method) : Response :=
  { declared := m.name.toText
    response := nameOf r m t!"Response"
    outputs := (m.parameters.filter (·.isOut)).map fun p => outputOf x.base x.pkg m p (x.typeOf p.typ.id) }

end Verif.MessagesCode
