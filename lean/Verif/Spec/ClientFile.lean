import Verif.Spec.MessagesCode
import Verif.Spec.ResourceClient

/-!
# What the file of the client of a resource contains
-/

namespace Verif.ClientFile

/-- A setter or getter of the types used to poll. -/
structure Accessor where
  declared : Text
  doc : Text
  name : Text
  type : Text

/-- The lines of a setter: it calls that of the request of the method. -/
def Accessor.setterLines (request : Text) (a : Accessor) : List Text := [
  t!"// " ++ a.name ++ t!" sets the value of the '" ++ a.declared ++ t!"' parameter for all the requests that",
  t!"// will be used to retrieve the object.",
  t!"//",
  TypesCode.commentOf a.doc,
  t!"func (r *" ++ request ++ t!") " ++ a.name ++ t!"(value " ++ a.type ++ t!") *" ++ request ++ t!" {",
  t!"r.request." ++ a.name ++ t!"(value)",
  t!"return r",
  t!"}"]

/-- The lines of the getters: they call those of the response of the method. -/
def Accessor.getterLines (response : Text) (a : Accessor) : List Text := [
  t!"// " ++ a.name ++ t!" returns the value of the '" ++ a.declared ++ t!"' parameter.",
  t!"//",
  TypesCode.commentOf a.doc,
  t!"func (r *" ++ response ++ t!") " ++ a.name ++ t!"() " ++ a.type ++ t!" {",
  t!"return r.response." ++ a.name ++ t!"()",
  t!"}",
  t!"// Get" ++ a.name ++ t!" returns the value of the '" ++ a.declared ++ t!"' parameter and",
  t!"// a flag indicating if the parameter has a value.",
  t!"//",
  TypesCode.commentOf a.doc,
  t!"func (r *" ++ response ++ t!") Get" ++ a.name ++ t!"() (value " ++ a.type ++ t!", ok bool) {",
  t!"return r.response.Get" ++ a.name ++ t!"()",
  t!"}"]

/-- The names of the types used to poll, of the types of the method that retrieves the object, and of the method of the
client that creates its request. -/
structure Poll where
  client : Text
  request : Text
  response : Text
  methodRequest : Text
  methodResponse : Text
  method : Text
  setters : List Accessor
  getters : List Accessor

/-- The lines of the types used to poll. -/
def Poll.lines (p : Poll) : List Text := [
  t!"// " ++ p.request ++ t!" is the request for the Poll method.",
  t!"type " ++ p.request ++ t!" struct {",
  t!"request    *" ++ p.methodRequest,
  t!"interval   time.Duration",
  t!"statuses   []int",
  t!"predicates []func (interface{}) bool",
  t!"}",
  t!"// Parameter adds a query parameter to all the requests that will be used to retrieve the object.",
  t!"func (r *" ++ p.request ++ t!") Parameter(name string, value interface{}) *" ++ p.request ++ t!" {",
  t!"r.request.Parameter(name, value)",
  t!"return r",
  t!"}",
  t!"// Header adds a request header to all the requests that will be used to retrieve the object.",
  t!"func (r *" ++ p.request ++ t!") Header(name string, value interface{}) *" ++ p.request ++ t!" {",
  t!"r.request.Header(name, value)",
  t!"return r",
  t!"}"] ++
  p.setters.flatMap (Accessor.setterLines p.request) ++ [
  t!"// Interval sets the polling interval. This parameter is mandatory and must be greater than zero.",
  t!"func (r *" ++ p.request ++ t!") Interval(value time.Duration) *" ++ p.request ++ t!" {",
  t!"r.interval = value",
  t!"return r",
  t!"}",
  t!"// Status set the expected status of the response. Multiple values can be set calling this method",
  t!"// multiple times. The response will be considered successful if the status is any of those values.",
  t!"func (r *" ++ p.request ++ t!") Status(value int) *" ++ p.request ++ t!" {",
  t!"r.statuses = append(r.statuses, value)",
  t!"return r",
  t!"}",
  t!"// Predicate adds a predicate that the response should satisfy be considered successful. Multiple",
  t!"// predicates can be set calling this method multiple times. The response will be considered successful",
  t!"// if all the predicates are satisfied.",
  t!"func (r *" ++ p.request ++ t!") Predicate(value func (*" ++ p.methodResponse ++ t!") bool) *" ++ p.request ++
    t!" {",
  t!"r.predicates = append(r.predicates, func(response interface{}) bool {",
  t!"return value(response.(*" ++ p.methodResponse ++ t!"))",
  t!"})",
  t!"return r",
  t!"}",
  t!"// StartContext starts the polling loop. Responses will be considered successful if the status is one of",
  t!"// the values specified with the Status method and if all the predicates specified with the Predicate",
  t!"// method return nil.",
  t!"//",
  t!"// The context must have a timeout or deadline, otherwise this method will immediately return an error.",
  t!"func (r *" ++ p.request ++ t!") StartContext(ctx context.Context) (response *" ++ p.response ++ t!", err error) {",
  t!"result, err := helpers.PollContext(ctx, r.interval, r.statuses, r.predicates, r.task)",
  t!"if result != nil {",
  t!"response = &" ++ p.response ++ t!"{",
  t!"response: result.(*" ++ p.methodResponse ++ t!"),",
  t!"}",
  t!"}",
  t!"return",
  t!"}",
  t!"// task adapts the types of the request/response types so that they can be used with the generic",
  t!"// polling function from the helpers package.",
  t!"func (r *" ++ p.request ++ t!") task(ctx context.Context) (status int, result interface{}, err error) {",
  t!"response, err := r.request.SendContext(ctx)",
  t!"if response != nil {",
  t!"status = response.Status()",
  t!"result = response",
  t!"}",
  t!"return",
  t!"}",
  t!"// " ++ p.response ++ t!" is the response for the Poll method.",
  t!"type " ++ p.response ++ t!" struct {",
  t!"response *" ++ p.methodResponse,
  t!"}",
  t!"// Status returns the response status code.",
  t!"func (r *" ++ p.response ++ t!") Status() int {",
  t!"if r == nil {",
  t!"return 0",
  t!"}",
  t!"return r.response.Status()",
  t!"}",
  t!"// Header returns header of the response.",
  t!"func (r *" ++ p.response ++ t!") Header() http.Header {",
  t!"if r == nil {",
  t!"return nil",
  t!"}",
  t!"return r.response.Header()",
  t!"}",
  t!"// Error returns the response error.",
  t!"func (r *" ++ p.response ++ t!") Error() *errors.Error {",
  t!"if r == nil {",
  t!"return nil",
  t!"}",
  t!"return r.response.Error()",
  t!"}"] ++
  p.getters.flatMap (Accessor.getterLines p.response) ++ [
  t!"// Poll creates a request to repeatedly retrieve the object till the response has one of a given set",
  t!"// of states and satisfies a set of predicates.",
  t!"func (c *" ++ p.client ++ t!") Poll() *" ++ p.request ++ t!" {",
  t!"return &" ++ p.request ++ t!"{",
  t!"request: c." ++ p.method ++ t!"(),",
  t!"}",
  t!"}"]

/-- How the objects of a resource are polled, with the given method. The types of the setters and getters are those of the
request and response of the method, see C107. -/
def pollOf (x : TypesCode.Context) (r : Resource) (m : Method) : Poll :=
  { client := ResourceClient.nameFor r
    request := Go.nameOf r.annotations r.name ++ t!"PollRequest"
    response := Go.nameOf r.annotations r.name ++ t!"PollResponse"
    methodRequest := MessagesCode.nameOf r m t!"Request"
    methodResponse := MessagesCode.nameOf r m t!"Response"
    method := Go.nameOf m.annotations m.name
    setters := (MessagesCode.requestOf x r m).inputs.map fun i => ⟨i.declared, i.doc, i.setter, i.setterType⟩
    getters := (MessagesCode.responseOf x r m).outputs.map fun o => ⟨o.declared, o.doc, o.getter, o.getterType⟩ }

/-- The first method called `get`. -/
def getOf (r : Resource) : Option Method := r.methods.find? fun m => m.name == parseUsingCase t!"Get"

/-- The lines of the code of the client of a resource: the client, the types used to poll if there is a method to retrieve
the object, and the request and the response of each method. -/
def linesOf (x : TypesCode.Context) (g : Graph) (r : Resource) : List Text :=
  ResourceClient.clientLines (ResourceClient.nameFor r) r.name.toText r.doc (r.name.toText = t!"root")
    (r.methods.map (ResourceClient.callFor r))
    (r.locators.filterMap fun l => (l.target.bind (g[·]?)).map (ResourceClient.stepFor l)) ++
  (match getOf r with
    | some m => (pollOf x r m).lines
    | none => []) ++
  r.methods.flatMap fun m => (MessagesCode.requestOf x r m).lines ++ (MessagesCode.responseOf x r m).lines

end Verif.ClientFile
