import Verif.Model.MessagesCode
import Verif.Lemmas.GoTemplate

/-! The lines of the templates of requests and responses. -/

namespace Verif.MessagesCode

open GoTemplate GoCode GoFile

/-- The part of the template of requests for the field of each parameter. -/
def fieldBody : List Line := [
  .line [.print [t!"fieldName", t!"."], .lit t!" ", .print [t!"fieldType", t!"."]]]

/-- The part for the setter of each parameter. -/
def setterBody : List Line := [
  .set t!"$fieldName" [t!"fieldName", t!"."],
  .set t!"$setterName" [t!"setterName", t!"."],
  .set t!"$setterType" [t!"setterType", t!"."],
  .line [.lit t!"// ", .print [t!"$setterName"], .lit t!" sets the value of the '", .print [t!".Name"],
    .lit t!"' parameter."],
  .line [.lit t!"//"],
  .line [.print [t!"lineComment", t!".Doc"]],
  .line [.lit t!"func (r *", .print [t!"$requestName"], .lit t!") ", .print [t!"$setterName"], .lit t!"(value ",
    .print [t!"$setterType"], .lit t!") *", .print [t!"$requestName"], .lit t!" {"],
  .branch [t!"or", t!".Type.IsStruct", t!".Type.IsList"]
    [
      .line [.lit t!"r.", .print [t!"$fieldName"], .lit t!" = value"]]
    [
      .line [.lit t!"r.", .print [t!"$fieldName"], .lit t!" = &value"]],
  .line [.lit t!"return r"],
  .line [.lit t!"}"]]

/-- The part for each query parameter. -/
def queryBody : List Line := [
  .set t!"$fieldName" [t!"fieldName", t!"."],
  .set t!"$parameterName" [t!"parameterName", t!"."],
  .line [.lit t!"if r.", .print [t!"$fieldName"], .lit t!" != nil {"],
  .line [.lit t!"helpers.AddValue(&query, \"", .print [t!"$parameterName"], .lit t!"\", *r.",
    .print [t!"$fieldName"], .lit t!")"],
  .line [.lit t!"}"]]

/-- The lines of the template of requests. -/
def requestLines : List Line := [
  .set t!"$requestName" [t!"requestName", t!".Method"],
  .set t!"$requestParameters" [t!"requestParameters", t!".Method"],
  .set t!"$requestQueryParameters" [t!"requestQueryParameters", t!".Method"],
  .set t!"$requestBodyParameters" [t!"requestBodyParameters", t!".Method"],
  .set t!"$requestBodyLen" [t!"len", t!"$requestBodyParameters"],
  .set t!"$responseName" [t!"responseName", t!".Method"],
  .set t!"$responseParameters" [t!"responseParameters", t!".Method"],
  .set t!"$isAction" [t!".Method.IsAction"],
  .line [.lit t!"// ", .print [t!"$requestName"], .lit t!" is the request for the '", .print [t!".Method.Name"],
    .lit t!"' method."],
  .line [.lit t!"type ", .print [t!"$requestName"], .lit t!" struct {"],
  .line [.lit t!"transport http.RoundTripper"],
  .line [.lit t!"path      string"],
  .line [.lit t!"query     url.Values"],
  .line [.lit t!"header    http.Header"],
  .range [t!"$requestParameters"] fieldBody,
  .line [.lit t!"}"],
  .line [.lit t!"// Parameter adds a query parameter."],
  .line [.lit t!"func (r *", .print [t!"$requestName"], .lit t!") Parameter(name string, value interface{}) *",
    .print [t!"$requestName"], .lit t!" {"],
  .line [.lit t!"helpers.AddValue(&r.query, name, value)"],
  .line [.lit t!"return r"],
  .line [.lit t!"}"],
  .line [.lit t!"// Header adds a request header."],
  .line [.lit t!"func (r *", .print [t!"$requestName"], .lit t!") Header(name string, value interface{}) *",
    .print [t!"$requestName"], .lit t!" {"],
  .line [.lit t!"helpers.AddHeader(&r.header, name, value)"],
  .line [.lit t!"return r"],
  .line [.lit t!"}"],
  .line [.lit t!"// Impersonate wraps requests on behalf of another user."],
  .line [.lit t!"// Note: Services that do not support this feature may silently ignore this call. "],
  .line [.lit t!"func (r *", .print [t!"$requestName"], .lit t!") Impersonate(user string) *",
    .print [t!"$requestName"], .lit t!" {"],
  .line [.lit t!"helpers.AddImpersonationHeader(&r.header, user)"],
  .line [.lit t!"return r"],
  .line [.lit t!"}"],
  .range [t!"$requestParameters"] setterBody,
  .line [.lit t!"// Send sends this request, waits for the response, and returns it."],
  .line [.lit t!"//"],
  .line [.lit t!"// This is a potentially lengthy operation, as it requires network communication."],
  .line [.lit t!"// Consider using a context and the SendContext method."],
  .line [.lit t!"func (r *", .print [t!"$requestName"], .lit t!") Send() (result *", .print [t!"$responseName"],
    .lit t!", err error) {"],
  .line [.lit t!"return r.SendContext(context.Background())"],
  .line [.lit t!"}"],
  .line [.lit t!"// SendContext sends this request, waits for the response, and returns it."],
  .line [.lit t!"func (r *", .print [t!"$requestName"], .lit t!") SendContext(ctx context.Context) (result *",
    .print [t!"$responseName"], .lit t!", err error) {"],
  .line [.lit t!"query := helpers.CopyQuery(r.query)"],
  .range [t!"$requestQueryParameters"] queryBody,
  .line [.lit t!"header := helpers.CopyHeader(r.header)"],
  .branch [t!"$requestBodyParameters"]
    [
      .line [.lit t!"buffer := &bytes.Buffer{}"],
      .line [.lit t!"err = ", .print [t!"writeRequestFunc", t!".Method"], .lit t!"(r, buffer)"],
      .line [.lit t!"if err != nil {"],
      .line [.lit t!"return"],
      .line [.lit t!"}"]]
    [],
  .line [.lit t!"uri := &url.URL{"],
  .line [.lit t!"Path: r.path,"],
  .line [.lit t!"RawQuery: query.Encode(),"],
  .line [.lit t!"}"],
  .line [.lit t!"request := &http.Request{"],
  .line [.lit t!"Method: \"", .print [t!"httpMethod", t!".Method"], .lit t!"\","],
  .line [.lit t!"URL:    uri,"],
  .line [.lit t!"Header: header,"],
  .branch [t!"$requestBodyParameters"]
    [
      .line [.lit t!"Body: io.NopCloser(buffer),"]]
    [],
  .line [.lit t!"}"],
  .line [.lit t!"if ctx != nil {"],
  .line [.lit t!"request = request.WithContext(ctx)"],
  .line [.lit t!"}"],
  .line [.lit t!"response, err := r.transport.RoundTrip(request)"],
  .line [.lit t!"if err != nil {"],
  .line [.lit t!"return"],
  .line [.lit t!"}"],
  .line [.lit t!"defer response.Body.Close()"],
  .line [.lit t!"result = &", .print [t!"$responseName"], .lit t!"{}"],
  .line [.lit t!"result.status = response.StatusCode"],
  .line [.lit t!"result.header = response.Header"],
  .line [.lit t!"reader := bufio.NewReader(response.Body)"],
  .line [.lit t!"_, err = reader.Peek(1)"],
  .line [.lit t!"if err == io.EOF {"],
  .line [.lit t!"err = nil"],
  .line [.lit t!"return"],
  .line [.lit t!"}"],
  .line [.lit t!"if result.status >= 400 {"],
  .line [.lit t!"result.err, err = errors.UnmarshalErrorStatus(reader, result.status)"],
  .line [.lit t!"if err != nil {"],
  .line [.lit t!"return"],
  .line [.lit t!"}"],
  .line [.lit t!"err = result.err"],
  .line [.lit t!"return"],
  .line [.lit t!"}"],
  .branch [t!"$responseParameters"]
    [
      .line [.lit t!"err = ", .print [t!"readResponseFunc", t!".Method"], .lit t!"(result, reader)"],
      .line [.lit t!"if err != nil {"],
      .line [.lit t!"return"],
      .line [.lit t!"}"]]
    [],
  .line [.lit t!"return"],
  .line [.lit t!"}"]]


set_option maxRecDepth 100000 in
theorem request_lines : hasLines requestTemplate requestLines = true := by decide +kernel

/-- The part of the template of responses for the field of each parameter. -/
def responseFieldBody : List Line := [
  .branch [t!"and", t!".Type.IsList", t!".Type.Element.IsScalar"]
    [
      .line [.print [t!"fieldName", t!"."], .lit t!" []", .print [t!"valueType", t!".Type.Element"]]]
    [
      .line [.print [t!"fieldName", t!"."], .lit t!" ", .print [t!"fieldType", t!"."]]]]

/-- The part for the getters of each parameter. -/
def getterBody : List Line := [
  .set t!"$fieldName" [t!"fieldName", t!"."],
  .set t!"$getterName" [t!"getterName", t!"."],
  .set t!"$getterType" [t!"getterType", t!"."],
  .line [.lit t!"// ", .print [t!"$getterName"], .lit t!" returns the value of the '", .print [t!".Name"],
    .lit t!"' parameter."],
  .line [.lit t!"//"],
  .line [.print [t!"lineComment", t!".Doc"]],
  .line [.lit t!"func (r *", .print [t!"$responseName"], .lit t!") ", .print [t!"$getterName"], .lit t!"() ",
    .print [t!"$getterType"], .lit t!" {"],
  .branch [t!".Type.IsScalar"]
    [
      .line [.lit t!"if r != nil && r.", .print [t!"$fieldName"], .lit t!" != nil {"],
      .line [.lit t!"return *r.", .print [t!"$fieldName"]],
      .line [.lit t!"}"],
      .line [.lit t!"return ", .print [t!"zeroValue", t!".Type"]]]
    [
      .branch [t!"or", t!".Type.IsStruct", t!".Type.IsList", t!".Type.IsMap"]
        [
          .line [.lit t!"if r == nil {"],
          .line [.lit t!"return nil"],
          .line [.lit t!"}"],
          .line [.lit t!"return r.", .print [t!"$fieldName"]]]
        []],
  .line [.lit t!"}"],
  .line [.lit t!"// Get", .print [t!"$getterName"], .lit t!" returns the value of the '", .print [t!".Name"],
    .lit t!"' parameter and"],
  .line [.lit t!"// a flag indicating if the parameter has a value."],
  .line [.lit t!"//"],
  .line [.print [t!"lineComment", t!".Doc"]],
  .line [.lit t!"func (r *", .print [t!"$responseName"], .lit t!") Get", .print [t!"$getterName"],
    .lit t!"() (value ", .print [t!"$getterType"], .lit t!", ok bool) {"],
  .line [.lit t!"ok = r != nil && r.", .print [t!"$fieldName"], .lit t!" != nil"],
  .line [.lit t!"if ok {"],
  .branch [t!".Type.IsScalar"]
    [
      .line [.lit t!"value = *r.", .print [t!"$fieldName"]]]
    [
      .branch [t!"or", t!".Type.IsStruct", t!".Type.IsList", t!".Type.IsMap"]
        [
          .line [.lit t!"value = r.", .print [t!"$fieldName"]]]
        []],
  .line [.lit t!"}"],
  .line [.lit t!"return"],
  .line [.lit t!"}"]]

/-- The lines of the template of responses. -/
def responseLines : List Line := [
  .set t!"$responseName" [t!"responseName", t!".Method"],
  .set t!"$responseParameters" [t!"responseParameters", t!".Method"],
  .set t!"$responseBodyLen" [t!"len", t!"$responseParameters"],
  .set t!"$isAction" [t!".Method.IsAction"],
  .line [.lit t!"// ", .print [t!"$responseName"], .lit t!" is the response for the '", .print [t!".Method.Name"],
    .lit t!"' method."],
  .line [.lit t!"type  ", .print [t!"$responseName"], .lit t!" struct {"],
  .line [.lit t!"status int"],
  .line [.lit t!"header http.Header"],
  .line [.lit t!"err    *errors.Error"],
  .range [t!"$responseParameters"] responseFieldBody,
  .line [.lit t!"}"],
  .line [.lit t!"// Status returns the response status code."],
  .line [.lit t!"func (r *", .print [t!"$responseName"], .lit t!") Status() int {"],
  .line [.lit t!"if r == nil {"],
  .line [.lit t!"return 0"],
  .line [.lit t!"}"],
  .line [.lit t!"return r.status"],
  .line [.lit t!"}"],
  .line [.lit t!"// Header returns header of the response."],
  .line [.lit t!"func (r *", .print [t!"$responseName"], .lit t!") Header() http.Header {"],
  .line [.lit t!"if r == nil {"],
  .line [.lit t!"return nil"],
  .line [.lit t!"}"],
  .line [.lit t!"return r.header"],
  .line [.lit t!"}"],
  .line [.lit t!"// Error returns the response error."],
  .line [.lit t!"func (r *", .print [t!"$responseName"], .lit t!") Error() *errors.Error {"],
  .line [.lit t!"if r == nil {"],
  .line [.lit t!"return nil"],
  .line [.lit t!"}"],
  .line [.lit t!"return r.err"],
  .line [.lit t!"}"],
  .range [t!"$responseParameters"] getterBody]


set_option maxRecDepth 100000 in
theorem response_lines : hasLines responseTemplate responseLines = true := by decide +kernel

end Verif.MessagesCode
