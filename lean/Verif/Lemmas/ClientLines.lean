import Verif.Model.ClientFile
import Verif.Lemmas.GoTemplate

/-! The lines of the template of polling. -/

namespace Verif.ClientFile

open GoTemplate GoCode GoFile

/-- The part of the template of polling for each setter. -/
def pollSetterBody : List Line := [
  .set t!"$setterName" [t!"setterName", t!"."],
  .set t!"$setterType" [t!"setterType", t!"."],
  .line [.lit t!"// ", .print [t!"$setterName"], .lit t!" sets the value of the '", .print [t!".Name"],
    .lit t!"' parameter for all the requests that"],
  .line [.lit t!"// will be used to retrieve the object."],
  .line [.lit t!"//"],
  .line [.print [t!"lineComment", t!".Doc"]],
  .line [.lit t!"func (r *", .print [t!"$requestName"], .lit t!") ", .print [t!"$setterName"], .lit t!"(value ",
    .print [t!"$setterType"], .lit t!") *", .print [t!"$requestName"], .lit t!" {"],
  .line [.lit t!"r.request.", .print [t!"$setterName"], .lit t!"(value)"],
  .line [.lit t!"return r"],
  .line [.lit t!"}"]]

/-- The part for each getter. -/
def pollGetterBody : List Line := [
  .set t!"$parameterType" [t!".Type.Name.String"],
  .set t!"$fieldName" [t!"fieldName", t!"."],
  .set t!"$getterName" [t!"getterName", t!"."],
  .set t!"$getterType" [t!"getterType", t!"."],
  .line [.lit t!"// ", .print [t!"$getterName"], .lit t!" returns the value of the '", .print [t!".Name"],
    .lit t!"' parameter."],
  .line [.lit t!"//"],
  .line [.print [t!"lineComment", t!".Doc"]],
  .line [.lit t!"func (r *", .print [t!"$responseName"], .lit t!") ", .print [t!"$getterName"], .lit t!"() ",
    .print [t!"$getterType"], .lit t!" {"],
  .line [.lit t!"return r.response.", .print [t!"$getterName"], .lit t!"()"],
  .line [.lit t!"}"],
  .line [.lit t!"// Get", .print [t!"$getterName"], .lit t!" returns the value of the '", .print [t!".Name"],
    .lit t!"' parameter and"],
  .line [.lit t!"// a flag indicating if the parameter has a value."],
  .line [.lit t!"//"],
  .line [.print [t!"lineComment", t!".Doc"]],
  .line [.lit t!"func (r *", .print [t!"$responseName"], .lit t!") Get", .print [t!"$getterName"],
    .lit t!"() (value ", .print [t!"$getterType"], .lit t!", ok bool) {"],
  .line [.lit t!"return r.response.Get", .print [t!"$getterName"], .lit t!"()"],
  .line [.lit t!"}"]]

/-- The lines of the template of polling. -/
def pollLines : List Line := [
  .set t!"$clientName" [t!"clientName", t!".Resource"],
  .set t!"$requestName" [t!"pollRequestName", t!".Resource"],
  .set t!"$responseName" [t!"pollResponseName", t!".Resource"],
  .set t!"$methodRequestName" [t!"requestName", t!".Method"],
  .set t!"$methodResponseName" [t!"responseName", t!".Method"],
  .set t!"$methodRequestParameters" [t!"requestParameters", t!".Method"],
  .set t!"$methodResponseParameters" [t!"responseParameters", t!".Method"],
  .line [.lit t!"// ", .print [t!"$requestName"], .lit t!" is the request for the Poll method."],
  .line [.lit t!"type ", .print [t!"$requestName"], .lit t!" struct {"],
  .line [.lit t!"request    *", .print [t!"$methodRequestName"]],
  .line [.lit t!"interval   time.Duration"],
  .line [.lit t!"statuses   []int"],
  .line [.lit t!"predicates []func (interface{}) bool"],
  .line [.lit t!"}"],
  .line [.lit t!"// Parameter adds a query parameter to all the requests that will be used to retrieve the object."],
  .line [.lit t!"func (r *", .print [t!"$requestName"], .lit t!") Parameter(name string, value interface{}) *",
    .print [t!"$requestName"], .lit t!" {"],
  .line [.lit t!"r.request.Parameter(name, value)"],
  .line [.lit t!"return r"],
  .line [.lit t!"}"],
  .line [.lit t!"// Header adds a request header to all the requests that will be used to retrieve the object."],
  .line [.lit t!"func (r *", .print [t!"$requestName"], .lit t!") Header(name string, value interface{}) *",
    .print [t!"$requestName"], .lit t!" {"],
  .line [.lit t!"r.request.Header(name, value)"],
  .line [.lit t!"return r"],
  .line [.lit t!"}"],
  .range [t!"$methodRequestParameters"] pollSetterBody,
  .line [.lit t!"// Interval sets the polling interval. This parameter is mandatory and must be greater than zero."],
  .line [.lit t!"func (r *", .print [t!"$requestName"], .lit t!") Interval(value time.Duration) *",
    .print [t!"$requestName"], .lit t!" {"],
  .line [.lit t!"r.interval = value"],
  .line [.lit t!"return r"],
  .line [.lit t!"}"],
  .line [.lit t!"// Status set the expected status of the response. Multiple values can be set calling this method"],
  .line [.lit t!"// multiple times. The response will be considered successful if the status is any of those values."],
  .line [.lit t!"func (r *", .print [t!"$requestName"], .lit t!") Status(value int) *", .print [t!"$requestName"],
    .lit t!" {"],
  .line [.lit t!"r.statuses = append(r.statuses, value)"],
  .line [.lit t!"return r"],
  .line [.lit t!"}"],
  .line [.lit t!"// Predicate adds a predicate that the response should satisfy be considered successful. Multiple"],
  .line [.lit t!"// predicates can be set calling this method multiple times. The response will be considered successful"],
  .line [.lit t!"// if all the predicates are satisfied."],
  .line [.lit t!"func (r *", .print [t!"$requestName"], .lit t!") Predicate(value func (*",
    .print [t!"$methodResponseName"], .lit t!") bool) *", .print [t!"$requestName"], .lit t!" {"],
  .line [.lit t!"r.predicates = append(r.predicates, func(response interface{}) bool {"],
  .line [.lit t!"return value(response.(*", .print [t!"$methodResponseName"], .lit t!"))"],
  .line [.lit t!"})"],
  .line [.lit t!"return r"],
  .line [.lit t!"}"],
  .line [.lit t!"// StartContext starts the polling loop. Responses will be considered successful if the status is one of"],
  .line [.lit t!"// the values specified with the Status method and if all the predicates specified with the Predicate"],
  .line [.lit t!"// method return nil."],
  .line [.lit t!"//"],
  .line [.lit t!"// The context must have a timeout or deadline, otherwise this method will immediately return an error."],
  .line [.lit t!"func (r *", .print [t!"$requestName"], .lit t!") StartContext(ctx context.Context) (response *",
    .print [t!"$responseName"], .lit t!", err error) {"],
  .line [.lit t!"result, err := helpers.PollContext(ctx, r.interval, r.statuses, r.predicates, r.task)"],
  .line [.lit t!"if result != nil {"],
  .line [.lit t!"response = &", .print [t!"$responseName"], .lit t!"{"],
  .line [.lit t!"response: result.(*", .print [t!"$methodResponseName"], .lit t!"),"],
  .line [.lit t!"}"],
  .line [.lit t!"}"],
  .line [.lit t!"return"],
  .line [.lit t!"}"],
  .line [.lit t!"// task adapts the types of the request/response types so that they can be used with the generic"],
  .line [.lit t!"// polling function from the helpers package."],
  .line [.lit t!"func (r *", .print [t!"$requestName"],
    .lit t!") task(ctx context.Context) (status int, result interface{}, err error) {"],
  .line [.lit t!"response, err := r.request.SendContext(ctx)"],
  .line [.lit t!"if response != nil {"],
  .line [.lit t!"status = response.Status()"],
  .line [.lit t!"result = response"],
  .line [.lit t!"}"],
  .line [.lit t!"return"],
  .line [.lit t!"}"],
  .line [.lit t!"// ", .print [t!"$responseName"], .lit t!" is the response for the Poll method."],
  .line [.lit t!"type ", .print [t!"$responseName"], .lit t!" struct {"],
  .line [.lit t!"response *", .print [t!"$methodResponseName"]],
  .line [.lit t!"}"],
  .line [.lit t!"// Status returns the response status code."],
  .line [.lit t!"func (r *", .print [t!"$responseName"], .lit t!") Status() int {"],
  .line [.lit t!"if r == nil {"],
  .line [.lit t!"return 0"],
  .line [.lit t!"}"],
  .line [.lit t!"return r.response.Status()"],
  .line [.lit t!"}"],
  .line [.lit t!"// Header returns header of the response."],
  .line [.lit t!"func (r *", .print [t!"$responseName"], .lit t!") Header() http.Header {"],
  .line [.lit t!"if r == nil {"],
  .line [.lit t!"return nil"],
  .line [.lit t!"}"],
  .line [.lit t!"return r.response.Header()"],
  .line [.lit t!"}"],
  .line [.lit t!"// Error returns the response error."],
  .line [.lit t!"func (r *", .print [t!"$responseName"], .lit t!") Error() *errors.Error {"],
  .line [.lit t!"if r == nil {"],
  .line [.lit t!"return nil"],
  .line [.lit t!"}"],
  .line [.lit t!"return r.response.Error()"],
  .line [.lit t!"}"],
  .range [t!"$methodResponseParameters"] pollGetterBody,
  .line [.lit t!"// Poll creates a request to repeatedly retrieve the object till the response has one of a given set"],
  .line [.lit t!"// of states and satisfies a set of predicates."],
  .line [.lit t!"func (c *", .print [t!"$clientName"], .lit t!") Poll() *", .print [t!"$requestName"], .lit t!" {"],
  .line [.lit t!"return &", .print [t!"$requestName"], .lit t!"{"],
  .line [.lit t!"request: c.", .print [t!"methodName", t!".Method"], .lit t!"(),"],
  .line [.lit t!"}"],
  .line [.lit t!"}"]]


set_option maxRecDepth 100000 in
theorem poll_lines : hasLines pollTemplate pollLines = true := by decide +kernel

end Verif.ClientFile
