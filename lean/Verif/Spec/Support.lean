import Verif.Spec.GoCode

/-!
# What the files that don't depend on the model contain
-/

namespace Verif.Support

/-- The lines of the helpers. -/
def helpersLines : List Text := [
  t!"// AddValue creates the given set of query parameters if needed, an then adds",
  t!"// the given parameter.",
  t!"func AddValue(query *url.Values, name string, value interface{}) {",
  t!"if *query == nil {",
  t!"*query = make(url.Values)",
  t!"}",
  t!"var text string",
  t!"switch typed := value.(type) {",
  t!"case time.Time:",
  t!"text = typed.UTC().Format(time.RFC3339)",
  t!"default:",
  t!"text = fmt.Sprintf(\"%v\", value)",
  t!"}",
  t!"query.Add(name, text)",
  t!"}",
  t!"// CopyQuery creates a copy of the given set of query parameters.",
  t!"func CopyQuery(query url.Values) url.Values {",
  t!"if query == nil {",
  t!"return nil",
  t!"}",
  t!"result := make(url.Values)",
  t!"for name, values := range query {",
  t!"result[name] = CopyValues(values)",
  t!"}",
  t!"return result",
  t!"}",
  t!"// AddHeader creates the given set of headers if needed, and then adds the given",
  t!"// header:",
  t!"func AddHeader(header *http.Header, name string, value interface{}) {",
  t!"if *header == nil {",
  t!"*header = make(http.Header)",
  t!"}",
  t!"header.Add(name, fmt.Sprintf(\"%v\", value))",
  t!"}",
  t!"// CopyHeader creates a copy of the given set of headers.",
  t!"func CopyHeader(header http.Header) http.Header {",
  t!"result := make(http.Header)",
  t!"for name, values := range header {",
  t!"result[name] = CopyValues(values)",
  t!"}",
  t!"return result",
  t!"}",
  t!"const impersonateUserHeader = \"Impersonate-User\"",
  t!"func AddImpersonationHeader(header *http.Header, user string) {",
  t!"AddHeader(header, impersonateUserHeader, user)",
  t!"}",
  t!"// CopyValues copies a slice of strings.",
  t!"func CopyValues(values []string) []string {",
  t!"if values == nil {",
  t!"return nil",
  t!"}",
  t!"result := make([]string, len(values))",
  t!"copy(result, values)",
  t!"return result",
  t!"}",
  t!"// Segments calculates the path segments for the given path.",
  t!"func Segments(path string) []string {",
  t!"for strings.HasPrefix(path, \"/\") {",
  t!"path = path[1:]",
  t!"}",
  t!"for strings.HasSuffix(path, \"/\") {",
  t!"path = path[0:len(path)-1]",
  t!"}",
  t!"return strings.Split(path, \"/\")",
  t!"}",
  t!"// PollContext repeatedly executes a task till it returns one of the given statuses and till the result",
  t!"// satisfies all the given predicates.",
  t!"func PollContext(",
  t!"ctx context.Context,",
  t!"interval time.Duration,",
  t!"statuses []int,",
  t!"predicates []func(interface{}) bool,",
  t!"task func(context.Context) (int, interface{}, error),",
  t!") (result interface{}, err error) {",
  t!"// Check the deadline:",
  t!"deadline, ok := ctx.Deadline()",
  t!"if !ok {",
  t!"err = fmt.Errorf(\"context deadline is mandatory\")",
  t!"return",
  t!"}",
  t!"// Check the interval:",
  t!"if interval <= 0 {",
  t!"err = fmt.Errorf(\"interval must be greater than zero\")",
  t!"return",
  t!"}",
  t!"// Create a cancellable context so that we can explicitly cancel it when we know that the next",
  t!"// iteration of the loop will be after the deadline:",
  t!"ctx, cancel := context.WithCancel(ctx)",
  t!"defer cancel()",
  t!"// If no expected status has been explicitly specified then add the default:",
  t!"if len(statuses) == 0 {",
  t!"statuses = []int{http.StatusOK}",
  t!"}",
  t!"for {",
  t!"// Execute the task. If this produces an error and the status code is zero it means that",
  t!"// there was an error like a timeout, or a low level communications problem. In that",
  t!"// case we want to immediately stop waiting.",
  t!"var status int",
  t!"status, result, err = task(ctx)",
  t!"if err != nil && status == 0 {",
  t!"break",
  t!"}",
  t!"// Evaluate the status and the predicates:",
  t!"statusOK := evalStatus(statuses, status)",
  t!"predicatesOK := evalPredicates(predicates, result)",
  t!"if statusOK && predicatesOK {",
  t!"break",
  t!"}",
  t!"// If either the status or the predicates aren't acceptable then we need to check if we",
  t!"// have enough time for another iteration before the deadline:",
  t!"if time.Now().Add(interval).After(deadline) {",
  t!"cancel()",
  t!"break",
  t!"}",
  t!"time.Sleep(interval)",
  t!"}",
  t!"return",
  t!"}",
  t!"// evalStatus checks if the actual status is one of the expected ones.",
  t!"func evalStatus(expected []int, actual int) bool {",
  t!"for _, current := range expected {",
  t!"if actual == current {",
  t!"return true",
  t!"}",
  t!"}",
  t!"return false",
  t!"}",
  t!"// evalPredicates checks if the object satisfies all the predicates.",
  t!"func evalPredicates(predicates []func(interface{}) bool, object interface{}) bool {",
  t!"if len(predicates) > 0 && object == nil {",
  t!"return false",
  t!"}",
  t!"for _, predicate := range predicates {",
  t!"if !predicate(object) {",
  t!"return false",
  t!"}",
  t!"}",
  t!"return true",
  t!"}"]

/-- The lines of the helpers of the JSON support. -/
def jsonHelpersLines : List Text := [
  t!"// NewIterator creates a new JSON iterator that will read to the given source, which",
  t!"// can be a slice of bytes, a string, a reader or an existing iterator.",
  t!"func NewIterator(source interface{}) (iterator *jsoniter.Iterator, err error) {",
  t!"config := jsoniter.Config{}",
  t!"api := config.Froze()",
  t!"switch typed := source.(type) {",
  t!"case []byte:",
  t!"iterator = jsoniter.ParseBytes(api, typed)",
  t!"case string:",
  t!"iterator = jsoniter.ParseString(api, typed)",
  t!"case io.Reader:",
  t!"iterator = jsoniter.Parse(api, typed, 4096)",
  t!"case *jsoniter.Iterator:",
  t!"iterator = typed",
  t!"default:",
  t!"err = fmt.Errorf(",
  t!"\"expected slice of bytes, string, reader or iterator but got '%T'\",",
  t!"source,",
  t!")",
  t!"}",
  t!"return",
  t!"}",
  t!"// NewStream creates a new JSON stream that will write to the given writer.",
  t!"func NewStream(writer io.Writer) *jsoniter.Stream {",
  t!"config := jsoniter.Config{",
  t!"IndentionStep: 2,",
  t!"}",
  t!"api := config.Froze()",
  t!"return jsoniter.NewStream(api, writer, 0)",
  t!"}",
  t!"// NewBoolean allocates a new bool in the heap and returns a pointer to it.",
  t!"func NewBoolean(value bool) *bool {",
  t!"return &value",
  t!"}",
  t!"// NewInteger allocates a new integer in the heap and returns a pointer to it.",
  t!"func NewInteger(value int) *int {",
  t!"return &value",
  t!"}",
  t!"// NewFloat allocates a new floating point value in the heap and returns an pointer",
  t!"// to it.",
  t!"func NewFloat(value float64) *float64 {",
  t!"return &value",
  t!"}",
  t!"// NewString allocates a new string in the heap and returns a pointer to it.",
  t!"func NewString(value string) *string {",
  t!"return &value",
  t!"}",
  t!"// NewDate allocates a new date in the heap and returns a pointer to it.",
  t!"func NewDate(value time.Time) *time.Time {",
  t!"return &value",
  t!"}",
  t!"// ParseInteger reads a string and parses it to integer,",
  t!"// if an error occurred it returns a non-nil error.",
  t!"func ParseInteger(query url.Values, parameterName string) (*int, error) {",
  t!"values := query[parameterName]",
  t!"count := len(values)",
  t!"if count == 0 {",
  t!"return nil, nil",
  t!"}",
  t!"if count > 1 {",
  t!"err := fmt.Errorf(",
  t!"\"expected at most one value for parameter '%s' but got %d\",",
  t!"parameterName, count,",
  t!")",
  t!"return nil, err",
  t!"}",
  t!"value := values[0]",
  t!"parsedInt64, err := strconv.ParseInt(value, 10, 64)",
  t!"if err != nil {",
  t!"return nil, fmt.Errorf(",
  t!"\"value '%s' isn't valid for the '%s' parameter because it isn't an integer: %v\",",
  t!"value, parameterName, err,",
  t!")",
  t!"}",
  t!"parsedInt := int(parsedInt64)",
  t!"return &parsedInt, nil",
  t!"}",
  t!"// ParseFloat reads a string and parses it to float,",
  t!"// if an error occurred it returns a non-nil error.",
  t!"func ParseFloat(query url.Values, parameterName string) (*float64, error) {",
  t!"values := query[parameterName]",
  t!"count := len(values)",
  t!"if count == 0 {",
  t!"return nil, nil",
  t!"}",
  t!"if count > 1 {",
  t!"err := fmt.Errorf(",
  t!"\"expected at most one value for parameter '%s' but got %d\",",
  t!"parameterName, count,",
  t!")",
  t!"return nil, err",
  t!"}",
  t!"value := values[0]",
  t!"parsedFloat, err := strconv.ParseFloat(value, 64)",
  t!"if err != nil {",
  t!"return nil, fmt.Errorf(",
  t!"\"value '%s' isn't valid for the '%s' parameter because it isn't a float: %v\",",
  t!"value, parameterName, err,",
  t!")",
  t!"}",
  t!"return &parsedFloat, nil",
  t!"}",
  t!"// ParseString returns a pointer to the string and nil error.",
  t!"func ParseString(query url.Values, parameterName string) (*string, error) {",
  t!"values := query[parameterName]",
  t!"count := len(values)",
  t!"if count == 0 {",
  t!"return nil, nil",
  t!"}",
  t!"if count > 1 {",
  t!"err := fmt.Errorf(",
  t!"\"expected at most one value for parameter '%s' but got %d\",",
  t!"parameterName, count,",
  t!")",
  t!"return nil, err",
  t!"}",
  t!"return &values[0], nil",
  t!"}",
  t!"// ParseBoolean reads a string and parses it to boolean,",
  t!"// if an error occurred it returns a non-nil error.",
  t!"func ParseBoolean(query url.Values, parameterName string) (*bool, error) {",
  t!"values := query[parameterName]",
  t!"count := len(values)",
  t!"if count == 0 {",
  t!"return nil, nil",
  t!"}",
  t!"if count > 1 {",
  t!"err := fmt.Errorf(",
  t!"\"expected at most one value for parameter '%s' but got %d\",",
  t!"parameterName, count,",
  t!")",
  t!"return nil, err",
  t!"}",
  t!"value := values[0]",
  t!"parsedBool, err := strconv.ParseBool(value)",
  t!"if err != nil {",
  t!"return nil, fmt.Errorf(",
  t!"\"value '%s' isn't valid for the '%s' parameter because it isn't a boolean: %v\",",
  t!"value, parameterName, err,",
  t!")",
  t!"}",
  t!"return &parsedBool, nil",
  t!"}",
  t!"// ParseDate reads a string and parses it to a time.Time,",
  t!"// if an error occurred it returns a non-nil error.",
  t!"func ParseDate(query url.Values, parameterName string) (*time.Time, error) {",
  t!"values := query[parameterName]",
  t!"count := len(values)",
  t!"if count == 0 {",
  t!"return nil, nil",
  t!"}",
  t!"if count > 1 {",
  t!"err := fmt.Errorf(",
  t!"\"expected at most one value for parameter '%s' but got %d\",",
  t!"parameterName, count,",
  t!")",
  t!"return nil, err",
  t!"}",
  t!"value := values[0]",
  t!"parsedTime, err := time.Parse(time.RFC3339, value)",
  t!"if err != nil {",
  t!"return nil, fmt.Errorf(",
  t!"\"value '%s' isn't valid for the '%s' parameter because it isn't a date: %v\",",
  t!"value, parameterName, err,",
  t!")",
  t!"}",
  t!"return &parsedTime, nil",
  t!"}"]

/-- Part 1 of the lines of the common errors. -/
def commonErrorsLines1 : List Text := [
  t!"// Error kind is the name of the type used to represent errors.",
  t!"const ErrorKind = \"Error\"",
  t!"// ErrorNilKind is the name of the type used to nil errors.",
  t!"const ErrorNilKind = \"ErrorNil\"",
  t!"// ErrorBuilder is a builder for the error type.",
  t!"type ErrorBuilder struct{",
  t!"bitmap_     uint32",
  t!"status      int",
  t!"id          string",
  t!"href        string",
  t!"code        string",
  t!"reason      string",
  t!"details     interface{}",
  t!"operationID string",
  t!"timestamp   *time.Time",
  t!"}",
  t!"// Error represents errors.",
  t!"type Error struct {",
  t!"bitmap_     uint32",
  t!"status      int",
  t!"id          string",
  t!"href        string",
  t!"code        string",
  t!"reason      string",
  t!"details     interface{}",
  t!"operationID string",
  t!"timestamp   *time.Time",
  t!"}",
  t!"// NewError creates a new builder that can then be used to create error objects.",
  t!"func NewError() *ErrorBuilder {",
  t!"return &ErrorBuilder{}",
  t!"}",
  t!"// Status sets the HTTP status code.",
  t!"func (b *ErrorBuilder) Status(value int) *ErrorBuilder {",
  t!"b.status = value",
  t!"b.bitmap_ |= 1",
  t!"return b",
  t!"}",
  t!"// ID sets the identifier of the error.",
  t!"func (b *ErrorBuilder) ID(value string) *ErrorBuilder {",
  t!"b.id = value",
  t!"b.bitmap_ |= 2",
  t!"return b",
  t!"}",
  t!"// HREF sets the link of the error.",
  t!"func (b *ErrorBuilder) HREF(value string) *ErrorBuilder {",
  t!"b.href = value",
  t!"b.bitmap_ |= 4",
  t!"return b",
  t!"}",
  t!"// Code sets the code of the error.",
  t!"func (b *ErrorBuilder) Code(value string) *ErrorBuilder {",
  t!"b.code = value",
  t!"b.bitmap_ |= 8",
  t!"return b",
  t!"}",
  t!"// Reason sets the reason of the error.",
  t!"func (b *ErrorBuilder) Reason(value string) *ErrorBuilder {",
  t!"b.reason = value",
  t!"b.bitmap_ |= 16",
  t!"return b",
  t!"}",
  t!"// OperationID sets the identifier of the operation that caused the error.",
  t!"func (b *ErrorBuilder) OperationID(value string) *ErrorBuilder {",
  t!"b.operationID = value",
  t!"b.bitmap_ |= 32",
  t!"return b",
  t!"}",
  t!"// Details sets additional details of the error.",
  t!"func (b *ErrorBuilder) Details(value interface{}) *ErrorBuilder {",
  t!"b.details = value",
  t!"b.bitmap_ |= 64",
  t!"return b",
  t!"}",
  t!"// Timestamp sets the moment when it happened.",
  t!"func (b *ErrorBuilder) Timestamp(value *time.Time) *ErrorBuilder {",
  t!"b.timestamp = value",
  t!"b.bitmap_ |= 128",
  t!"return b",
  t!"}",
  t!"// Copy copies the attributes of the given error into this",
  t!"// builder, discarding any previous values.",
  t!"func (b *ErrorBuilder) Copy(object *Error) *ErrorBuilder {",
  t!"if object == nil {",
  t!"return b",
  t!"}",
  t!"b.bitmap_ = object.bitmap_",
  t!"b.status = object.status",
  t!"b.id = object.id",
  t!"b.href = object.href",
  t!"b.code = object.code",
  t!"b.reason = object.reason",
  t!"b.details = object.details",
  t!"b.operationID = object.operationID",
  t!"b.timestamp = object.timestamp",
  t!"return b",
  t!"}",
  t!"// Build uses the information stored in the builder to create a new error object.",
  t!"func (b *ErrorBuilder) Build() (result *Error, err error) {",
  t!"result = &Error{",
  t!"status:      b.status,",
  t!"id:          b.id,",
  t!"href:        b.href,",
  t!"code:        b.code,",
  t!"reason:      b.reason,",
  t!"details:     b.details,",
  t!"operationID: b.operationID,",
  t!"timestamp:   b.timestamp,",
  t!"bitmap_:     b.bitmap_,",
  t!"}",
  t!"return",
  t!"}",
  t!"// Kind returns the name of the type of the error.",
  t!"func (e *Error) Kind() string {",
  t!"if e == nil {",
  t!"return ErrorNilKind",
  t!"}",
  t!"return ErrorKind",
  t!"}",
  t!"// Status returns the HTTP status code.",
  t!"func (e *Error) Status() int {",
  t!"if e != nil && e.bitmap_&1 != 0 {",
  t!"return e.status",
  t!"}",
  t!"return 0",
  t!"}",
  t!"// GetStatus returns the HTTP status code of the error and a flag indicating",
  t!"// if the status has a value.",
  t!"func (e *Error) GetStatus() (value int, ok bool) {",
  t!"ok = e != nil && e.bitmap_&1 != 0",
  t!"if ok {",
  t!"value = e.status",
  t!"}",
  t!"return",
  t!"}"]

/-- Part 2 of the lines of the common errors. -/
def commonErrorsLines2 : List Text := [
  t!"// ID returns the identifier of the error.",
  t!"func (e *Error) ID() string {",
  t!"if e != nil && e.bitmap_&2 != 0 {",
  t!"return e.id",
  t!"}",
  t!"return \"\"",
  t!"}",
  t!"// GetID returns the identifier of the error and a flag indicating if the",
  t!"// identifier has a value.",
  t!"func (e *Error) GetID() (value string, ok bool) {",
  t!"ok = e != nil && e.bitmap_&2 != 0",
  t!"if ok {",
  t!"value = e.id",
  t!"}",
  t!"return",
  t!"}",
  t!"// HREF returns the link to the error.",
  t!"func (e *Error) HREF() string {",
  t!"if e != nil && e.bitmap_&4 != 0 {",
  t!"return e.href",
  t!"}",
  t!"return \"\"",
  t!"}",
  t!"// GetHREF returns the link of the error and a flag indicating if the",
  t!"// link has a value.",
  t!"func (e *Error) GetHREF() (value string, ok bool) {",
  t!"ok = e != nil && e.bitmap_&4 != 0",
  t!"if ok {",
  t!"value = e.href",
  t!"}",
  t!"return",
  t!"}",
  t!"// Code returns the code of the error.",
  t!"func (e *Error) Code() string {",
  t!"if e != nil && e.bitmap_&8 != 0 {",
  t!"return e.code",
  t!"}",
  t!"return \"\"",
  t!"}",
  t!"// GetCode returns the link of the error and a flag indicating if the",
  t!"// code has a value.",
  t!"func (e *Error) GetCode() (value string, ok bool) {",
  t!"ok = e != nil && e.bitmap_&8 != 0",
  t!"if ok {",
  t!"value = e.code",
  t!"}",
  t!"return",
  t!"}",
  t!"// Reason returns the reason of the error.",
  t!"func (e *Error) Reason() string {",
  t!"if e != nil && e.bitmap_&16 != 0 {",
  t!"return e.reason",
  t!"}",
  t!"return \"\"",
  t!"}",
  t!"// GetReason returns the link of the error and a flag indicating if the",
  t!"// reason has a value.",
  t!"func (e *Error) GetReason() (value string, ok bool) {",
  t!"ok = e != nil && e.bitmap_&16 != 0",
  t!"if ok {",
  t!"value = e.reason",
  t!"}",
  t!"return",
  t!"}",
  t!"// OperationID returns the identifier of the operation that caused the error.",
  t!"func (e *Error) OperationID() string {",
  t!"if e != nil && e.bitmap_&32 != 0 {",
  t!"return e.operationID",
  t!"}",
  t!"return \"\"",
  t!"}",
  t!"// GetOperationID returns the identifier of the operation that caused the error and",
  t!"// a flag indicating if that identifier does have a value.",
  t!"func (e *Error) GetOperationID() (value string, ok bool) {",
  t!"ok = e != nil && e.bitmap_&32 != 0",
  t!"if ok {",
  t!"value = e.operationID",
  t!"}",
  t!"return",
  t!"}",
  t!"// Details returns the details of the error",
  t!"func (e *Error) Details() interface{} {",
  t!"if e != nil && e.bitmap_&64 != 0 {",
  t!"return e.details",
  t!"}",
  t!"return nil",
  t!"}",
  t!"// GetDetails returns the details of the error and a flag ",
  t!"// indicating if the details have a value.",
  t!"func (e *Error) GetDetails() (value interface{}, ok bool) {",
  t!"ok = e != nil && e.bitmap_&64 != 0",
  t!"if ok {",
  t!"value = e.details",
  t!"}",
  t!"return",
  t!"}",
  t!"// Timestamp sets the moment when it happened",
  t!"func (e *Error) Timestamp() *time.Time {",
  t!"if e != nil && e.bitmap_&128 != 0 {",
  t!"return e.timestamp",
  t!"}",
  t!"return nil",
  t!"}",
  t!"// GetTimestamp returns the timestamp of the error and a flag ",
  t!"// indicating if the timestamp have a value.",
  t!"func (e *Error) GetTimestamp() (value *time.Time, ok bool) {",
  t!"ok = e != nil && e.bitmap_&128 != 0",
  t!"if ok {",
  t!"value = e.timestamp",
  t!"}",
  t!"return",
  t!"}",
  t!"// Error is the implementation of the error interface.",
  t!"// Details are intentionally left out as there is no guarantee of their type",
  t!"func (e *Error) Error() string {",
  t!"chunks := make([]string, 0, 3)",
  t!"if e.bitmap_&1 != 0 {",
  t!"chunks = append(chunks, fmt.Sprintf(\"status is %d\", e.status))",
  t!"}",
  t!"if e.bitmap_&2 != 0 {",
  t!"chunks = append(chunks, fmt.Sprintf(\"identifier is '%s'\", e.id))",
  t!"}",
  t!"if e.bitmap_&8 != 0 {",
  t!"chunks = append(chunks, fmt.Sprintf(\"code is '%s'\", e.code))",
  t!"}",
  t!"if e.bitmap_&128 != 0 {",
  t!"chunks = append(chunks, fmt.Sprintf(\"at '%v'\", e.timestamp.Format(time.RFC3339)))",
  t!"}",
  t!"if e.bitmap_&32 != 0 {",
  t!"chunks = append(chunks, fmt.Sprintf(\"operation identifier is '%s'\", e.operationID))",
  t!"}",
  t!"var result string",
  t!"size := len(chunks)",
  t!"if size == 1 {",
  t!"result = chunks[0]"]

/-- Part 3 of the lines of the common errors. -/
def commonErrorsLines3 : List Text := [
  t!"} else if size > 1 {",
  t!"result = strings.Join(chunks[0:size-1], \", \") + \" and \" + chunks[size-1]",
  t!"}",
  t!"if e.bitmap_&16 != 0 {",
  t!"if result != \"\" {",
  t!"result = result + \": \"",
  t!"}",
  t!"result = result + e.reason",
  t!"}",
  t!"if result == \"\" {",
  t!"result = \"unknown error\"",
  t!"}",
  t!"return result",
  t!"}",
  t!"// String returns a string representing the error.",
  t!"func (e *Error) String() string {",
  t!"return e.Error()",
  t!"}",
  t!"// UnmarshalError reads an error from the given source which can be an slice of",
  t!"// bytes, a string, a reader or a JSON decoder.",
  t!"func UnmarshalError(source interface{}) (object *Error, err error) {",
  t!"iterator, err := helpers.NewIterator(source)",
  t!"if err != nil {",
  t!"return",
  t!"}",
  t!"object = readError(iterator)",
  t!"err = iterator.Error",
  t!"return",
  t!"}",
  t!"// UnmarshalErrorStatus reads an error from the given source and sets",
  t!"// the given status code.",
  t!"func UnmarshalErrorStatus(source interface{}, status int) (object *Error, err error) {",
  t!"object, err = UnmarshalError(source)",
  t!"if err != nil {",
  t!"return",
  t!"}",
  t!"object.status = status",
  t!"object.bitmap_ |= 1",
  t!"return",
  t!"}",
  t!"func readError(iterator *jsoniter.Iterator) *Error {",
  t!"object := &Error{}",
  t!"for {",
  t!"field := iterator.ReadObject()",
  t!"if field == \"\" {",
  t!"break",
  t!"}",
  t!"switch field {",
  t!"case \"status\":",
  t!"object.status = iterator.ReadInt()",
  t!"object.bitmap_ |= 1",
  t!"case \"id\":",
  t!"object.id = iterator.ReadString()",
  t!"object.bitmap_ |= 2",
  t!"case \"href\":",
  t!"object.href = iterator.ReadString()",
  t!"object.bitmap_ |= 4",
  t!"case \"code\":",
  t!"object.code = iterator.ReadString()",
  t!"object.bitmap_ |= 8",
  t!"case \"reason\":",
  t!"object.reason = iterator.ReadString()",
  t!"object.bitmap_ |= 16",
  t!"case \"operation_id\":",
  t!"object.operationID = iterator.ReadString()",
  t!"object.bitmap_ |= 32",
  t!"case \"details\":",
  t!"object.details = iterator.ReadAny().GetInterface()",
  t!"object.bitmap_ |= 64",
  t!"case \"timestamp\":",
  t!"text := iterator.ReadString()",
  t!"value, err := time.Parse(time.RFC3339, text)",
  t!"if err != nil {",
  t!"iterator.ReportError(\"\", err.Error())",
  t!"}",
  t!"object.timestamp = &value",
  t!"object.bitmap_ |= 128",
  t!"default:",
  t!"iterator.ReadAny()",
  t!"}",
  t!"}",
  t!"return object",
  t!"}",
  t!"// MarshalError writes an error to the given writer.",
  t!"func MarshalError(e *Error, writer io.Writer) error {",
  t!"stream := helpers.NewStream(writer)",
  t!"writeError(e, stream)",
  t!"err := stream.Flush()",
  t!"if err != nil {",
  t!"return err",
  t!"}",
  t!"return stream.Error",
  t!"}",
  t!"func writeError(e *Error, stream *jsoniter.Stream) {",
  t!"stream.WriteObjectStart()",
  t!"stream.WriteObjectField(\"kind\")",
  t!"stream.WriteString(ErrorKind)",
  t!"if e.bitmap_&1 != 0 {",
  t!"stream.WriteMore()",
  t!"stream.WriteObjectField(\"status\")",
  t!"stream.WriteInt(e.status)",
  t!"}",
  t!"if e.bitmap_&2 != 0 {",
  t!"stream.WriteMore()",
  t!"stream.WriteObjectField(\"id\")",
  t!"stream.WriteString(e.id)",
  t!"}",
  t!"if e.bitmap_&4 != 0 {",
  t!"stream.WriteMore()",
  t!"stream.WriteObjectField(\"href\")",
  t!"stream.WriteString(e.href)",
  t!"}",
  t!"if e.bitmap_&8 != 0 {",
  t!"stream.WriteMore()",
  t!"stream.WriteObjectField(\"code\")",
  t!"stream.WriteString(e.code)",
  t!"}",
  t!"if e.bitmap_&16 != 0 {",
  t!"stream.WriteMore()",
  t!"stream.WriteObjectField(\"reason\")",
  t!"stream.WriteString(e.reason)",
  t!"}",
  t!"if e.bitmap_&32 != 0 {",
  t!"stream.WriteMore()",
  t!"stream.WriteObjectField(\"operation_id\")",
  t!"stream.WriteString(e.operationID)",
  t!"}",
  t!"if e.bitmap_&64 != 0 {",
  t!"stream.WriteMore()",
  t!"stream.WriteObjectField(\"details\")",
  t!"stream.WriteVal(e.details)",
  t!"}",
  t!"if e.bitmap_&128 != 0 {",
  t!"stream.WriteMore()",
  t!"stream.WriteObjectField(\"timestamp\")"]

/-- Part 4 of the lines of the common errors. -/
def commonErrorsLines4 : List Text := [
  t!"stream.WriteVal(e.timestamp)",
  t!"}",
  t!"stream.WriteObjectEnd()",
  t!"}",
  t!"var panicID = \"1000\"",
  t!"var panicError, _ = NewError().",
  t!"ID(panicID).",
  t!"Reason(\"An unexpected error happened, please check the log of the service \" +",
  t!"\"for details\").",
  t!"Build()",
  t!"// SendError writes a given error and status code to a response writer.",
  t!"// if an error occurred it will log the error and exit.",
  t!"// This methods is used internaly and no backwards compatibily is guaranteed.",
  t!"func SendError(w http.ResponseWriter, r *http.Request, object *Error) {",
  t!"status, err := strconv.Atoi(object.ID())",
  t!"if err != nil {",
  t!"SendPanic(w, r)",
  t!"return",
  t!"}",
  t!"w.Header().Set(\"Content-Type\", \"application/json\")",
  t!"w.WriteHeader(status)",
  t!"err = MarshalError(object, w)",
  t!"if err != nil {",
  t!"glog.Errorf(\"Can't send response body for request '%s'\", r.URL.Path)",
  t!"return",
  t!"}",
  t!"}",
  t!"// SendPanic sends a panic error response to the client, but it doesn't end the process.",
  t!"// This methods is used internaly and no backwards compatibily is guaranteed.",
  t!"func SendPanic(w http.ResponseWriter, r *http.Request) {",
  t!"w.Header().Set(\"Content-Type\", \"application/json\")",
  t!"err := MarshalError(panicError, w)",
  t!"if err != nil {",
  t!"glog.Errorf(",
  t!"\"Can't send panic response for request '%s': %s\",",
  t!"r.URL.Path,",
  t!"err.Error(),",
  t!")",
  t!"}",
  t!"}",
  t!"// SendNotFound sends a generic 404 error.",
  t!"func SendNotFound(w http.ResponseWriter, r *http.Request) {",
  t!"reason := fmt.Sprintf(",
  t!"\"Can't find resource for path '%s'\",",
  t!"r.URL.Path,",
  t!")",
  t!"body, err := NewError().",
  t!"ID(\"404\").",
  t!"Reason(reason).",
  t!"Build()",
  t!"if err != nil {",
  t!"SendPanic(w, r)",
  t!"return",
  t!"}",
  t!"SendError(w, r, body)",
  t!"}",
  t!"// SendMethodNotAllowed sends a generic 405 error.",
  t!"func SendMethodNotAllowed(w http.ResponseWriter, r *http.Request) {",
  t!"reason := fmt.Sprintf(",
  t!"\"Method '%s' isn't supported for path '%s'\",",
  t!"r.Method, r.URL.Path,",
  t!")",
  t!"body, err := NewError().",
  t!"ID(\"405\").",
  t!"Reason(reason).",
  t!"Build()",
  t!"if err != nil {",
  t!"SendPanic(w, r)",
  t!"return",
  t!"}",
  t!"SendError(w, r, body)",
  t!"}",
  t!"// SendInternalServerError sends a generic 500 error.",
  t!"func SendInternalServerError(w http.ResponseWriter, r *http.Request) {",
  t!"reason := fmt.Sprintf(",
  t!"\"Can't process '%s' request for path '%s' due to an internal\"+",
  t!"\"server error\",",
  t!"r.Method, r.URL.Path,",
  t!")",
  t!"body, err := NewError().",
  t!"ID(\"500\").",
  t!"Reason(reason).",
  t!"Build()",
  t!"if err != nil {",
  t!"SendPanic(w, r)",
  t!"return",
  t!"}",
  t!"SendError(w, r, body)",
  t!"}"]

/-- The lines of the common errors. -/
def commonErrorsLines : List Text :=
  List.flatten [commonErrorsLines1, commonErrorsLines2, commonErrorsLines3, commonErrorsLines4]

/-- The lines of the client of the metadata of versions. -/
def metadataClientLines : List Text := [
  t!"// MetadataRequest is the request to retrieve the metadata.",
  t!"type MetadataRequest struct {",
  t!"transport http.RoundTripper",
  t!"path      string",
  t!"query     url.Values",
  t!"header    http.Header",
  t!"}",
  t!"// MetadataResponse is the response for the metadata request.",
  t!"type MetadataResponse struct {",
  t!"status int",
  t!"header http.Header",
  t!"err    *errors.Error",
  t!"body   *Metadata",
  t!"}",
  t!"// Parameter adds a query parameter.",
  t!"func (r *MetadataRequest) Parameter(name string, value interface{}) *MetadataRequest {",
  t!"helpers.AddValue(&r.query, name, value)",
  t!"return r",
  t!"}",
  t!"// Header adds a request header.",
  t!"func (r *MetadataRequest) Header(name string, value interface{}) *MetadataRequest {",
  t!"helpers.AddHeader(&r.header, name, value)",
  t!"return r",
  t!"}",
  t!"// Send sends the metadata request, waits for the response, and returns it.",
  t!"//",
  t!"// This is a potentially lengthy operation, as it requires network communication.",
  t!"// Consider using a context and the SendContext method.",
  t!"func (r *MetadataRequest) Send() (result *MetadataResponse, err error) {",
  t!"return r.SendContext(context.Background())",
  t!"}",
  t!"// SendContext sends the metadata request, waits for the response, and returns it.",
  t!"func (r *MetadataRequest) SendContext(ctx context.Context) (result *MetadataResponse, err error) {",
  t!"query := helpers.CopyQuery(r.query)",
  t!"header := helpers.CopyHeader(r.header)",
  t!"uri := &url.URL{",
  t!"Path: r.path,",
  t!"RawQuery: query.Encode(),",
  t!"}",
  t!"request := &http.Request{",
  t!"Method: http.MethodGet,",
  t!"URL:    uri,",
  t!"Header: header,",
  t!"}",
  t!"if ctx != nil {",
  t!"request = request.WithContext(ctx)",
  t!"}",
  t!"response, err := r.transport.RoundTrip(request)",
  t!"if err != nil {",
  t!"return",
  t!"}",
  t!"defer response.Body.Close()",
  t!"result = &MetadataResponse{",
  t!"status: response.StatusCode,",
  t!"header: response.Header,",
  t!"}",
  t!"reader := bufio.NewReader(response.Body)",
  t!"_, err = reader.Peek(1)",
  t!"if err == io.EOF {",
  t!"return",
  t!"}",
  t!"if result.status >= 400 {",
  t!"result.err, err = errors.UnmarshalErrorStatus(reader, result.status)",
  t!"if err != nil {",
  t!"return",
  t!"}",
  t!"err = result.err",
  t!"return",
  t!"}",
  t!"result.body, err = UnmarshalMetadata(reader)",
  t!"if err != nil {",
  t!"return",
  t!"}",
  t!"return",
  t!"}",
  t!"// Status returns the response status code.",
  t!"func (r *MetadataResponse) Status() int {",
  t!"if r == nil {",
  t!"return 0",
  t!"}",
  t!"return r.status",
  t!"}",
  t!"// Header returns header of the response.",
  t!"func (r *MetadataResponse) Header() http.Header {",
  t!"if r == nil {",
  t!"return nil",
  t!"}",
  t!"return r.header",
  t!"}",
  t!"// Error returns the response error.",
  t!"func (r *MetadataResponse) Error() *errors.Error {",
  t!"if r == nil {",
  t!"return nil",
  t!"}",
  t!"return r.err",
  t!"}",
  t!"// Body returns the response body.",
  t!"func (r *MetadataResponse) Body() *Metadata {",
  t!"return r.body",
  t!"}"]

/-! ## The packages that the code uses -/

/-- A letter, a digit or an underscore. -/
def wordChar (c : Char) : Bool :=
  ('a' ≤ c && c ≤ 'z') || ('A' ≤ c && c ≤ 'Z') || ('0' ≤ c && c ≤ '9') || c == '_'

/-- The text without what is between double quotes. -/
def unquoted : Bool → Text → Text
  | _, [] => []
  | true, '\\' :: _ :: rest => unquoted true rest
  | true, c :: rest => if c = '"' then unquoted false rest else unquoted true rest
  | false, c :: rest => if c = '"' then unquoted true rest else c :: unquoted false rest

/-- Tells if a line is a comment. -/
def comment (line : Text) : Bool := (t!"//").isPrefixOf line

/-- The identifiers that follow a qualifier and a dot in a text, where the character before the text is given. -/
def membersIn (qualifier : Text) : Char → Text → List Text
  | _, [] => []
  | before, c :: rest =>
    if !wordChar before && before != '.' && (qualifier ++ ['.']).isPrefixOf (c :: rest) then
      ((c :: rest).drop (qualifier.length + 1)).takeWhile wordChar :: membersIn qualifier c rest
    else membersIn qualifier c rest

/-- The members of a package that some lines of code use. -/
def members (qualifier : Text) (lines : List Text) : List Text :=
  (lines.filter (!comment ·)).flatMap fun l => membersIn qualifier ' ' (unquoted false l)

/-- Tells if some lines of code use a package. -/
def uses (lines : List Text) (package : Text) : Bool := !(members package lines).isEmpty

/-- The name of a package that is imported: that given explicitly or the last part of the path. -/
def packageName (i : Text × Text) : Text :=
  if i.2 = [] then (i.1.reverse.takeWhile (· ≠ '/')).reverse else i.2

/-- The packages that the generated code can use. -/
def packages : List Text :=
  [t!"bufio", t!"bytes", t!"context", t!"fmt", t!"io", t!"http", t!"url", t!"strings", t!"time", t!"strconv",
    t!"jsoniter", t!"glog", t!"runtime", t!"helpers", t!"errors"]

/-- The functions, not methods, that some lines of code declare. -/
def declared (lines : List Text) : List Text :=
  lines.filterMap fun l =>
    if (t!"func ").isPrefixOf l && !(t!"func (").isPrefixOf l then some ((l.drop 5).takeWhile wordChar) else none

/-- The types that some lines of code declare. -/
def declaredTypes (lines : List Text) : List Text :=
  lines.filterMap fun l => if (t!"type ").isPrefixOf l then some ((l.drop 5).takeWhile wordChar) else none

/-! ## The files -/

/-- The files that don't depend on the model. -/
inductive Kind where
  | helpers
  | jsonHelpers
  | commonErrors
  | metadataClient
  deriving DecidableEq

/-- The lines of a file. -/
def linesOf : Kind → List Text
  | .helpers => helpersLines
  | .jsonHelpers => jsonHelpersLines
  | .commonErrors => commonErrorsLines
  | .metadataClient => metadataClientLines

/-- The imports of a file, given the base of the import paths. -/
def importsOf (base : Text) : Kind → List (Text × Text)
  | .helpers => [(t!"context", []), (t!"fmt", []), (t!"net/http", []), (t!"net/url", []), (t!"strings", []),
    (t!"time", [])]
  | .jsonHelpers => [(t!"bytes", []), (t!"fmt", []), (t!"io", []), (t!"net/url", []), (t!"strconv", []),
    (t!"github.com/json-iterator/go", t!"jsoniter")]
  | .commonErrors => [(t!"fmt", []), (t!"io", []), (t!"strings", []), (t!"time", []), (t!"github.com/golang/glog", []),
    (t!"github.com/openshift-online/ocm-api-metamodel/pkg/runtime", []), (base ++ t!"/helpers", [])]
  | .metadataClient => [(t!"bufio", []), (t!"context", []), (t!"io", []), (t!"net/http", []), (t!"net/url", []),
    (base ++ t!"/errors", []), (base ++ t!"/helpers", [])]

end Verif.Support
