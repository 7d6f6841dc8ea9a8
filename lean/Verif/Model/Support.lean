import Verif.Model.JsonCode

/-!
# The files that don't depend on the model

Model of the parts of the generators that write files whose text is always the same: the helpers, the helpers of the JSON
support, the common errors and the client of the metadata of versions. The templates are copied verbatim. They contain no
actions, so the objects and functions of the template engine aren't used.
-/

namespace Verif.Support

open GoTemplate GoFile

/-- The environment of the templates, without objects nor functions. -/
def env : Env Unit := { member := fun _ _ => none, shown := fun _ => none, functions := fun _ => none }

/-- The template of the helpers, pkg/generators/golang/helpers_generator.go:149-305. -/
def helpersTemplate : Text :=
  List.flatten [
    t!"\n",
    t!"\t\t// AddValue creates the given set of query parameters if needed, an then adds\n",
    t!"\t\t// the given parameter.\n",
    t!"\t\tfunc AddValue(query *url.Values, name string, value interface{}) {\n",
    t!"\t\t\tif *query == nil {\n",
    t!"\t\t\t\t*query = make(url.Values)\n",
    t!"\t\t\t}\n",
    t!"\t\t\tvar text string\n",
    t!"\t\t\tswitch typed := value.(type) {\n",
    t!"\t\t\tcase time.Time:\n",
    t!"\t\t\t\ttext = typed.UTC().Format(time.RFC3339)\n",
    t!"\t\t\tdefault:\n",
    t!"\t\t\t\ttext = fmt.Sprintf(\"%v\", value)\n",
    t!"\t\t\t}\n",
    t!"\t\t\tquery.Add(name, text)\n",
    t!"\t\t}\n",
    t!"\n",
    t!"\t\t// CopyQuery creates a copy of the given set of query parameters.\n",
    t!"\t\tfunc CopyQuery(query url.Values) url.Values {\n",
    t!"\t\t\tif query == nil {\n",
    t!"\t\t\t\treturn nil\n",
    t!"\t\t\t}\n",
    t!"\t\t\tresult := make(url.Values)\n",
    t!"\t\t\tfor name, values := range query {\n",
    t!"\t\t\t\tresult[name] = CopyValues(values)\n",
    t!"\t\t\t}\n",
    t!"\t\t\treturn result\n",
    t!"\t\t}\n",
    t!"\n",
    t!"\t\t// AddHeader creates the given set of headers if needed, and then adds the given\n",
    t!"\t\t// header:\n",
    t!"\t\tfunc AddHeader(header *http.Header, name string, value interface{}) {\n",
    t!"\t\t\tif *header == nil {\n",
    t!"\t\t\t\t*header = make(http.Header)\n",
    t!"\t\t\t}\n",
    t!"\t\t\theader.Add(name, fmt.Sprintf(\"%v\", value))\n",
    t!"\t\t}\n",
    t!"\n",
    t!"\t\t// CopyHeader creates a copy of the given set of headers.\n",
    t!"\t\tfunc CopyHeader(header http.Header) http.Header {\n",
    t!"\t\t\tresult := make(http.Header)\n",
    t!"\t\t\tfor name, values := range header {\n",
    t!"\t\t\t\tresult[name] = CopyValues(values)\n",
    t!"\t\t\t}\n",
    t!"\t\t\treturn result\n",
    t!"\t\t}\n",
    t!"\n",
    t!"\t\tconst impersonateUserHeader = \"Impersonate-User\"\n",
    t!"\t\tfunc AddImpersonationHeader(header *http.Header, user string) {\n",
    t!"\t\t\tAddHeader(header, impersonateUserHeader, user)\n",
    t!"\t\t}\n",
    t!"\n",
    t!"\t\t// CopyValues copies a slice of strings.\n",
    t!"\t\tfunc CopyValues(values []string) []string {\n",
    t!"\t\t\tif values == nil {\n",
    t!"\t\t\t\treturn nil\n",
    t!"\t\t\t}\n",
    t!"\t\t\tresult := make([]string, len(values))\n",
    t!"\t\t\tcopy(result, values)\n",
    t!"\t\t\treturn result\n",
    t!"\t\t}\n",
    t!"\n",
    t!"\t\t// Segments calculates the path segments for the given path.\n",
    t!"\t\tfunc Segments(path string) []string {\n",
    t!"\t\t\tfor strings.HasPrefix(path, \"/\") {\n",
    t!"\t\t\t\tpath = path[1:]\n",
    t!"\t\t\t}\n",
    t!"\t\t\tfor strings.HasSuffix(path, \"/\") {\n",
    t!"\t\t\t\tpath = path[0:len(path)-1]\n",
    t!"\t\t\t}\n",
    t!"\t\t\treturn strings.Split(path, \"/\")\n",
    t!"\t\t}\n",
    t!"\n",
    t!"\t\t// PollContext repeatedly executes a task till it returns one of the given statuses and till the result\n",
    t!"\t\t// satisfies all the given predicates.\n",
    t!"\t\tfunc PollContext(\n",
    t!"\t\t\tctx context.Context,\n",
    t!"\t\t\tinterval time.Duration,\n",
    t!"\t\t\tstatuses []int,\n",
    t!"\t\t\tpredicates []func(interface{}) bool,\n",
    t!"\t\t\ttask func(context.Context) (int, interface{}, error),\n",
    t!"\t\t) (result interface{}, err error) {\n",
    t!"\t\t\t// Check the deadline:\n",
    t!"\t\t\tdeadline, ok := ctx.Deadline()\n",
    t!"\t\t\tif !ok {\n",
    t!"\t\t\t\terr = fmt.Errorf(\"context deadline is mandatory\")\n",
    t!"\t\t\t\treturn\n",
    t!"\t\t\t}\n",
    t!"\n",
    t!"\t\t\t// Check the interval:\n",
    t!"\t\t\tif interval <= 0 {\n",
    t!"\t\t\t\terr = fmt.Errorf(\"interval must be greater than zero\")\n",
    t!"\t\t\t\treturn\n",
    t!"\t\t\t}\n",
    t!"\n",
    t!"\t\t\t// Create a cancellable context so that we can explicitly cancel it when we know that the next\n",
    t!"\t\t\t// iteration of the loop will be after the deadline:\n",
    t!"\t\t\tctx, cancel := context.WithCancel(ctx)\n",
    t!"\t\t\tdefer cancel()\n",
    t!"\n",
    t!"\t\t\t// If no expected status has been explicitly specified then add the default:\n",
    t!"\t\t\tif len(statuses) == 0 {\n",
    t!"\t\t\t\tstatuses = []int{http.StatusOK}\n",
    t!"\t\t\t}\n",
    t!"\n",
    t!"\t\t\tfor {\n",
    t!"\t\t\t\t// Execute the task. If this produces an error and the status code is zero it means that\n",
    t!"\t\t\t\t// there was an error like a timeout, or a low level communications problem. In that\n",
    t!"\t\t\t\t// case we want to immediately stop waiting.\n",
    t!"\t\t\t\tvar status int\n",
    t!"\t\t\t\tstatus, result, err = task(ctx)\n",
    t!"\t\t\t\tif err != nil && status == 0 {\n",
    t!"\t\t\t\t\tbreak\n",
    t!"\t\t\t\t}\n",
    t!"\n",
    t!"\t\t\t\t// Evaluate the status and the predicates:\n",
    t!"\t\t\t\tstatusOK := evalStatus(statuses, status)\n",
    t!"\t\t\t\tpredicatesOK := evalPredicates(predicates, result)\n",
    t!"\t\t\t\tif statusOK && predicatesOK {\n",
    t!"\t\t\t\t\tbreak\n",
    t!"\t\t\t\t}\n",
    t!"\n",
    t!"\t\t\t\t// If either the status or the predicates aren't acceptable then we need to check if we\n",
    t!"\t\t\t\t// have enough time for another iteration before the deadline:\n",
    t!"\t\t\t\tif time.Now().Add(interval).After(deadline) {\n",
    t!"\t\t\t\t\tcancel()\n",
    t!"\t\t\t\t\tbreak\n",
    t!"\t\t\t\t}\n",
    t!"\t\t\t\ttime.Sleep(interval)\n",
    t!"\t\t\t}\n",
    t!"\n",
    t!"\t\t\treturn\n",
    t!"\t\t}\n",
    t!"\n",
    t!"\t\t// evalStatus checks if the actual status is one of the expected ones.\n",
    t!"\t\tfunc evalStatus(expected []int, actual int) bool {\n",
    t!"\t\t\tfor _, current := range expected {\n",
    t!"\t\t\t\tif actual == current {\n",
    t!"\t\t\t\t\treturn true\n",
    t!"\t\t\t\t}\n",
    t!"\t\t\t}\n",
    t!"\t\t\treturn false\n",
    t!"\t\t}\n",
    t!"\n",
    t!"\t\t// evalPredicates checks if the object satisfies all the predicates.\n",
    t!"\t\tfunc evalPredicates(predicates []func(interface{}) bool, object interface{}) bool {\n",
    t!"\t\t\tif len(predicates) > 0 && object == nil {\n",
    t!"\t\t\t\treturn false\n",
    t!"\t\t\t}\n",
    t!"\t\t\tfor _, predicate := range predicates {\n",
    t!"\t\t\t\tif !predicate(object) {\n",
    t!"\t\t\t\t\treturn false\n",
    t!"\t\t\t\t}\n",
    t!"\t\t\t}\n",
    t!"\t\t\treturn true\n",
    t!"\t\t}\n",
    t!"        "]

/-- `Run` of the helpers generator, pkg/generators/golang/helpers_generator.go:123-309, where the code is generated. -/
def helpersSource (b : Buffer) : Buffer :=
  (JsonCode.Buffer.imports b
    [(t!"context", []), (t!"fmt", []), (t!"net/http", []), (t!"net/url", []), (t!"strings", []), (t!"time", [])])
    |>.emit env helpersTemplate []

/-- `Run` of the helpers generator, pkg/generators/golang/helpers_generator.go:123-309, given the errors reported
before and the order of the imports. -/
def helpersFile (base : Text) (errors : Nat) (order : List (Text × Text)) :
    Option Text × Bool :=
  (helpersSource { pkg := GoRef.pathJoin base Go.helpersPackage, errors := errors }).write order

/-- The template of the helpers of the JSON support, pkg/generators/golang/json_generator.go:250-430. -/
def jsonHelpersTemplate : Text :=
  List.flatten [
    t!"\n",
    t!"\t\t// NewIterator creates a new JSON iterator that will read to the given source, which\n",
    t!"\t\t// can be a slice of bytes, a string, a reader or an existing iterator.\n",
    t!"\t\tfunc NewIterator(source interface{}) (iterator *jsoniter.Iterator, err error) {\n",
    t!"\t\t\tconfig := jsoniter.Config{}\n",
    t!"\t\t\tapi := config.Froze()\n",
    t!"\t\t\tswitch typed := source.(type) {\n",
    t!"\t\t\tcase []byte:\n",
    t!"\t\t\t\titerator = jsoniter.ParseBytes(api, typed)\n",
    t!"\t\t\tcase string:\n",
    t!"\t\t\t\titerator = jsoniter.ParseString(api, typed)\n",
    t!"\t\t\tcase io.Reader:\n",
    t!"\t\t\t\titerator = jsoniter.Parse(api, typed, 4096)\n",
    t!"\t\t\tcase *jsoniter.Iterator:\n",
    t!"\t\t\t\titerator = typed\n",
    t!"\t\t\tdefault:\n",
    t!"\t\t\t\terr = fmt.Errorf(\n",
    t!"\t\t\t\t\t\"expected slice of bytes, string, reader or iterator but got '%T'\",\n",
    t!"\t\t\t\t\tsource,\n",
    t!"\t\t\t\t)\n",
    t!"\t\t\t}\n",
    t!"\t\t\treturn\n",
    t!"\t\t}\n",
    t!"\n",
    t!"\t\t// NewStream creates a new JSON stream that will write to the given writer.\n",
    t!"\t\tfunc NewStream(writer io.Writer) *jsoniter.Stream {\n",
    t!"\t\t\tconfig := jsoniter.Config{\n",
    t!"\t\t\t\tIndentionStep: 2,\n",
    t!"\t\t\t}\n",
    t!"\t\t\tapi := config.Froze()\n",
    t!"\t\t\treturn jsoniter.NewStream(api, writer, 0)\n",
    t!"\t\t}\n",
    t!"\n",
    t!"\t\t// NewBoolean allocates a new bool in the heap and returns a pointer to it.\n",
    t!"\t\tfunc NewBoolean(value bool) *bool {\n",
    t!"\t\t\treturn &value\n",
    t!"\t\t}\n",
    t!"\n",
    t!"\t\t// NewInteger allocates a new integer in the heap and returns a pointer to it.\n",
    t!"\t\tfunc NewInteger(value int) *int {\n",
    t!"\t\t\treturn &value\n",
    t!"\t\t}\n",
    t!"\n",
    t!"\t\t// NewFloat allocates a new floating point value in the heap and returns an pointer\n",
    t!"\t\t// to it.\n",
    t!"\t\tfunc NewFloat(value float64) *float64 {\n",
    t!"\t\t\treturn &value\n",
    t!"\t\t}\n",
    t!"\n",
    t!"\t\t// NewString allocates a new string in the heap and returns a pointer to it.\n",
    t!"\t\tfunc NewString(value string) *string {\n",
    t!"\t\t\treturn &value\n",
    t!"\t\t}\n",
    t!"\n",
    t!"\t\t// NewDate allocates a new date in the heap and returns a pointer to it.\n",
    t!"\t\tfunc NewDate(value time.Time) *time.Time {\n",
    t!"\t\t\treturn &value\n",
    t!"\t\t}\n",
    t!"\n",
    t!"\t\t// ParseInteger reads a string and parses it to integer,\n",
    t!"\t\t// if an error occurred it returns a non-nil error.\n",
    t!"\t\tfunc ParseInteger(query url.Values, parameterName string) (*int, error) {\n",
    t!"\t\t\tvalues := query[parameterName]\n",
    t!"\t\t\tcount := len(values)\n",
    t!"\t\t\tif count == 0 {\n",
    t!"\t\t\t\treturn nil, nil\n",
    t!"\t\t\t}\n",
    t!"\t\t   \tif count > 1 {\n",
    t!"\t\t\t\terr := fmt.Errorf(\n",
    t!"\t\t\t\t\t\"expected at most one value for parameter '%s' but got %d\",\n",
    t!"\t\t\t\t\tparameterName, count,\n",
    t!"\t\t\t\t)\n",
    t!"\t\t\t\treturn nil, err\n",
    t!"\t\t\t}\n",
    t!"\t\t\tvalue := values[0]\n",
    t!"\t\t\tparsedInt64, err := strconv.ParseInt(value, 10, 64)\n",
    t!"\t\t\tif err != nil {\n",
    t!"\t\t\t\treturn nil, fmt.Errorf(\n",
    t!"\t\t\t\t\t\"value '%s' isn't valid for the '%s' parameter because it isn't an integer: %v\",\n",
    t!"\t\t\t\t\tvalue, parameterName, err,\n",
    t!"\t\t\t\t)\n",
    t!"\t\t\t}\n",
    t!"\t\t\tparsedInt := int(parsedInt64)\n",
    t!"\t\t\treturn &parsedInt, nil\n",
    t!"\t\t}\n",
    t!"\n",
    t!"\t\t// ParseFloat reads a string and parses it to float,\n",
    t!"\t\t// if an error occurred it returns a non-nil error.\n",
    t!"\t\tfunc ParseFloat(query url.Values, parameterName string) (*float64, error) {\n",
    t!"\t\t\tvalues := query[parameterName]\n",
    t!"\t\t\tcount := len(values)\n",
    t!"\t\t\tif count == 0 {\n",
    t!"\t\t\t\treturn nil, nil\n",
    t!"\t\t\t}\n",
    t!"\t\t   \tif count > 1 {\n",
    t!"\t\t\t\terr := fmt.Errorf(\n",
    t!"\t\t\t\t\t\"expected at most one value for parameter '%s' but got %d\",\n",
    t!"\t\t\t\t\tparameterName, count,\n",
    t!"\t\t\t\t)\n",
    t!"\t\t\t\treturn nil, err\n",
    t!"\t\t\t}\n",
    t!"\t\t\tvalue := values[0]\n",
    t!"\t\t\tparsedFloat, err := strconv.ParseFloat(value, 64)\n",
    t!"\t\t\tif err != nil {\n",
    t!"\t\t\t\treturn nil, fmt.Errorf(\n",
    t!"\t\t\t\t\t\"value '%s' isn't valid for the '%s' parameter because it isn't a float: %v\",\n",
    t!"\t\t\t\t\tvalue, parameterName, err,\n",
    t!"\t\t\t\t)\n",
    t!"\t\t\t}\n",
    t!"\t\t\treturn &parsedFloat, nil\n",
    t!"\t\t}\n",
    t!"\n",
    t!"\t\t// ParseString returns a pointer to the string and nil error.\n",
    t!"\t\tfunc ParseString(query url.Values, parameterName string) (*string, error) {\n",
    t!"\t\t\tvalues := query[parameterName]\n",
    t!"\t\t\tcount := len(values)\n",
    t!"\t\t\tif count == 0 {\n",
    t!"\t\t\t\treturn nil, nil\n",
    t!"\t\t\t}\n",
    t!"\t\t   \tif count > 1 {\n",
    t!"\t\t\t\terr := fmt.Errorf(\n",
    t!"\t\t\t\t\t\"expected at most one value for parameter '%s' but got %d\",\n",
    t!"\t\t\t\t\tparameterName, count,\n",
    t!"\t\t\t\t)\n",
    t!"\t\t\t\treturn nil, err\n",
    t!"\t\t\t}\n",
    t!"\t\t\treturn &values[0], nil\n",
    t!"\t\t}\n",
    t!"\n",
    t!"\t\t// ParseBoolean reads a string and parses it to boolean,\n",
    t!"\t\t// if an error occurred it returns a non-nil error.\n",
    t!"\t\tfunc ParseBoolean(query url.Values, parameterName string) (*bool, error) {\n",
    t!"\t\t\tvalues := query[parameterName]\n",
    t!"\t\t\tcount := len(values)\n",
    t!"\t\t\tif count == 0 {\n",
    t!"\t\t\t\treturn nil, nil\n",
    t!"\t\t\t}\n",
    t!"\t\t   \tif count > 1 {\n",
    t!"\t\t\t\terr := fmt.Errorf(\n",
    t!"\t\t\t\t\t\"expected at most one value for parameter '%s' but got %d\",\n",
    t!"\t\t\t\t\tparameterName, count,\n",
    t!"\t\t\t\t)\n",
    t!"\t\t\t\treturn nil, err\n",
    t!"\t\t\t}\n",
    t!"\t\t\tvalue := values[0]\n",
    t!"\t\t\tparsedBool, err := strconv.ParseBool(value)\n",
    t!"\t\t\tif err != nil {\n",
    t!"\t\t\t\treturn nil, fmt.Errorf(\n",
    t!"\t\t\t\t\t\"value '%s' isn't valid for the '%s' parameter because it isn't a boolean: %v\",\n",
    t!"\t\t\t\t\tvalue, parameterName, err,\n",
    t!"\t\t\t\t)\n",
    t!"\t\t\t}\n",
    t!"\t\t\treturn &parsedBool, nil\n",
    t!"\t\t}\n",
    t!"\n",
    t!"\t\t// ParseDate reads a string and parses it to a time.Time,\n",
    t!"\t\t// if an error occurred it returns a non-nil error.\n",
    t!"\t\tfunc ParseDate(query url.Values, parameterName string) (*time.Time, error) {\n",
    t!"\t\t\tvalues := query[parameterName]\n",
    t!"\t\t\tcount := len(values)\n",
    t!"\t\t\tif count == 0 {\n",
    t!"\t\t\t\treturn nil, nil\n",
    t!"\t\t\t}\n",
    t!"\t\t   \tif count > 1 {\n",
    t!"\t\t\t\terr := fmt.Errorf(\n",
    t!"\t\t\t\t\t\"expected at most one value for parameter '%s' but got %d\",\n",
    t!"\t\t\t\t\tparameterName, count,\n",
    t!"\t\t\t\t)\n",
    t!"\t\t\t\treturn nil, err\n",
    t!"\t\t\t}\n",
    t!"\t\t\tvalue := values[0]\n",
    t!"\t\t\tparsedTime, err := time.Parse(time.RFC3339, value)\n",
    t!"\t\t\tif err != nil {\n",
    t!"\t\t\t\treturn nil, fmt.Errorf(\n",
    t!"\t\t\t\t\t\"value '%s' isn't valid for the '%s' parameter because it isn't a date: %v\",\n",
    t!"\t\t\t\t\tvalue, parameterName, err,\n",
    t!"\t\t\t\t)\n",
    t!"\t\t\t}\n",
    t!"\t\t\treturn &parsedTime, nil\n",
    t!"\t\t}\n",
    t!"\t"]

/-- `generateHelpers`, pkg/generators/golang/json_generator.go:224-434, where the code is generated. -/
def jsonHelpersSource (b : Buffer) : Buffer :=
  (JsonCode.Buffer.imports b
    [(t!"bytes", []), (t!"fmt", []), (t!"io", []), (t!"net/url", []), (t!"strconv", []),
      (t!"github.com/json-iterator/go", t!"jsoniter")])
    |>.emit env jsonHelpersTemplate []

/-- `generateHelpers`, pkg/generators/golang/json_generator.go:224-434, given the errors reported
before and the order of the imports. -/
def jsonHelpersFile (base : Text) (errors : Nat) (order : List (Text × Text)) :
    Option Text × Bool :=
  (jsonHelpersSource { pkg := GoRef.pathJoin base Go.helpersPackage, errors := errors }).write order

/-- Part 1 of the template of the common errors, pkg/generators/golang/errors_generator.go:182-316. -/
def commonErrorsTemplate1 : Text :=
  List.flatten [
    t!"\n",
    t!"\t\t// Error kind is the name of the type used to represent errors.\n",
    t!"\t\tconst ErrorKind = \"Error\"\n",
    t!"\n",
    t!"\t\t// ErrorNilKind is the name of the type used to nil errors.\n",
    t!"\t\tconst ErrorNilKind = \"ErrorNil\"\n",
    t!"\n",
    t!"\t\t// ErrorBuilder is a builder for the error type.\n",
    t!"\t\ttype ErrorBuilder struct{\n",
    t!"\t\t\tbitmap_     uint32\n",
    t!"\t\t\tstatus      int\n",
    t!"\t\t\tid          string\n",
    t!"\t\t\thref        string\n",
    t!"\t\t\tcode        string\n",
    t!"\t\t\treason      string\n",
    t!"\t\t\tdetails     interface{}\n",
    t!"\t\t\toperationID string\n",
    t!"\t\t\ttimestamp   *time.Time\n",
    t!"\t\t}\n",
    t!"\n",
    t!"\t\t// Error represents errors.\n",
    t!"\t\ttype Error struct {\n",
    t!"\t\t\tbitmap_     uint32\n",
    t!"\t\t\tstatus      int\n",
    t!"\t\t\tid          string\n",
    t!"\t\t\thref        string\n",
    t!"\t\t\tcode        string\n",
    t!"\t\t\treason      string\n",
    t!"\t\t\tdetails     interface{}\n",
    t!"\t\t\toperationID string\n",
    t!"\t\t\ttimestamp   *time.Time\n",
    t!"\t\t}\n",
    t!"\n",
    t!"\t\t// NewError creates a new builder that can then be used to create error objects.\n",
    t!"\t\tfunc NewError() *ErrorBuilder {\n",
    t!"\t\t\treturn &ErrorBuilder{}\n",
    t!"\t\t}\n",
    t!"\n",
    t!"\t\t// Status sets the HTTP status code.\n",
    t!"\t\tfunc (b *ErrorBuilder) Status(value int) *ErrorBuilder {\n",
    t!"\t\t\tb.status = value\n",
    t!"\t\t\tb.bitmap_ |= 1\n",
    t!"\t\t\treturn b\n",
    t!"\t\t}\n",
    t!"\n",
    t!"\t\t// ID sets the identifier of the error.\n",
    t!"\t\tfunc (b *ErrorBuilder) ID(value string) *ErrorBuilder {\n",
    t!"\t\t\tb.id = value\n",
    t!"\t\t\tb.bitmap_ |= 2\n",
    t!"\t\t\treturn b\n",
    t!"\t\t}\n",
    t!"\n",
    t!"\t\t// HREF sets the link of the error.\n",
    t!"\t\tfunc (b *ErrorBuilder) HREF(value string) *ErrorBuilder {\n",
    t!"\t\t\tb.href = value\n",
    t!"\t\t\tb.bitmap_ |= 4\n",
    t!"\t\t\treturn b\n",
    t!"\t\t}\n",
    t!"\n",
    t!"\t\t// Code sets the code of the error.\n",
    t!"\t\tfunc (b *ErrorBuilder) Code(value string) *ErrorBuilder {\n",
    t!"\t\t\tb.code = value\n",
    t!"\t\t\tb.bitmap_ |= 8\n",
    t!"\t\t\treturn b\n",
    t!"\t\t}\n",
    t!"\n",
    t!"\t\t// Reason sets the reason of the error.\n",
    t!"\t\tfunc (b *ErrorBuilder) Reason(value string) *ErrorBuilder {\n",
    t!"\t\t\tb.reason = value\n",
    t!"\t\t\tb.bitmap_ |= 16\n",
    t!"\t\t\treturn b\n",
    t!"\t\t}\n",
    t!"\n",
    t!"\t\t// OperationID sets the identifier of the operation that caused the error.\n",
    t!"\t\tfunc (b *ErrorBuilder) OperationID(value string) *ErrorBuilder {\n",
    t!"\t\t\tb.operationID = value\n",
    t!"\t\t\tb.bitmap_ |= 32\n",
    t!"\t\t\treturn b\n",
    t!"\t\t}\n",
    t!"\n",
    t!"\t\t// Details sets additional details of the error.\n",
    t!"\t\tfunc (b *ErrorBuilder) Details(value interface{}) *ErrorBuilder {\n",
    t!"\t\t\tb.details = value\n",
    t!"\t\t\tb.bitmap_ |= 64\n",
    t!"\t\t\treturn b\n",
    t!"\t\t}\n",
    t!"\n",
    t!"\t\t// Timestamp sets the moment when it happened.\n",
    t!"\t\tfunc (b *ErrorBuilder) Timestamp(value *time.Time) *ErrorBuilder {\n",
    t!"\t\t\tb.timestamp = value\n",
    t!"\t\t\tb.bitmap_ |= 128\n",
    t!"\t\t\treturn b\n",
    t!"\t\t}\n",
    t!"\n",
    t!"\t\t// Copy copies the attributes of the given error into this\n",
    t!"\t\t// builder, discarding any previous values.\n",
    t!"\t\tfunc (b *ErrorBuilder) Copy(object *Error) *ErrorBuilder {\n",
    t!"\t\t\tif object == nil {\n",
    t!"\t\t\t\treturn b\n",
    t!"\t\t\t}\n",
    t!"\t\t\tb.bitmap_ = object.bitmap_\n",
    t!"\t\t\tb.status = object.status\n",
    t!"\t\t\tb.id = object.id\n",
    t!"\t\t\tb.href = object.href\n",
    t!"\t\t\tb.code = object.code\n",
    t!"\t\t\tb.reason = object.reason\n",
    t!"\t\t\tb.details = object.details\n",
    t!"\t\t\tb.operationID = object.operationID\n",
    t!"\t\t\tb.timestamp = object.timestamp\n",
    t!"\t\t\treturn b\n",
    t!"\t\t}\n",
    t!"\n",
    t!"\t\t// Build uses the information stored in the builder to create a new error object.\n",
    t!"\t\tfunc (b *ErrorBuilder) Build() (result *Error, err error) {\n",
    t!"\t\t\tresult = &Error{\n",
    t!"\t\t\t\tstatus:      b.status,\n",
    t!"\t\t\t\tid:          b.id,\n",
    t!"\t\t\t\thref:        b.href,\n",
    t!"\t\t\t\tcode:        b.code,\n",
    t!"\t\t\t\treason:      b.reason,\n",
    t!"\t\t\t\tdetails:     b.details,\n",
    t!"\t\t\t\toperationID: b.operationID,\n",
    t!"\t\t\t\ttimestamp:   b.timestamp,\n",
    t!"\t\t\t\tbitmap_:     b.bitmap_,\n",
    t!"\t\t\t}\n",
    t!"\t\t\treturn\n",
    t!"\t\t}\n",
    t!"\n",
    t!"\t\t// Kind returns the name of the type of the error.\n",
    t!"\t\tfunc (e *Error) Kind() string {\n",
    t!"\t\t\tif e == nil {\n",
    t!"\t\t\t\treturn ErrorNilKind\n",
    t!"\t\t\t}\n",
    t!"\t\t\treturn ErrorKind\n",
    t!"\t\t}\n"]

/-- Part 2 of the template of the common errors, pkg/generators/golang/errors_generator.go:317-451. -/
def commonErrorsTemplate2 : Text :=
  List.flatten [
    t!"\n",
    t!"\t\t// Status returns the HTTP status code.\n",
    t!"\t\tfunc (e *Error) Status() int {\n",
    t!"\t\t\tif e != nil && e.bitmap_&1 != 0 {\n",
    t!"\t\t\t\treturn e.status\n",
    t!"\t\t\t}\n",
    t!"\t\t\treturn 0\n",
    t!"\t\t}\n",
    t!"\n",
    t!"\t\t// GetStatus returns the HTTP status code of the error and a flag indicating\n",
    t!"\t\t// if the status has a value.\n",
    t!"\t\tfunc (e *Error) GetStatus() (value int, ok bool) {\n",
    t!"\t\t\tok = e != nil && e.bitmap_&1 != 0\n",
    t!"\t\t\tif ok {\n",
    t!"\t\t\t\tvalue = e.status\n",
    t!"\t\t\t}\n",
    t!"\t\t\treturn\n",
    t!"\t\t}\n",
    t!"\n",
    t!"\t\t// ID returns the identifier of the error.\n",
    t!"\t\tfunc (e *Error) ID() string {\n",
    t!"\t\t\tif e != nil && e.bitmap_&2 != 0 {\n",
    t!"\t\t\t\treturn e.id\n",
    t!"\t\t\t}\n",
    t!"\t\t\treturn \"\"\n",
    t!"\t\t}\n",
    t!"\n",
    t!"\t\t// GetID returns the identifier of the error and a flag indicating if the\n",
    t!"\t\t// identifier has a value.\n",
    t!"\t\tfunc (e *Error) GetID() (value string, ok bool) {\n",
    t!"\t\t\tok = e != nil && e.bitmap_&2 != 0\n",
    t!"\t\t\tif ok {\n",
    t!"\t\t\t\tvalue = e.id\n",
    t!"\t\t\t}\n",
    t!"\t\t\treturn\n",
    t!"\t\t}\n",
    t!"\n",
    t!"\t\t// HREF returns the link to the error.\n",
    t!"\t\tfunc (e *Error) HREF() string {\n",
    t!"\t\t\tif e != nil && e.bitmap_&4 != 0 {\n",
    t!"\t\t\t\treturn e.href\n",
    t!"\t\t\t}\n",
    t!"\t\t\treturn \"\"\n",
    t!"\t\t}\n",
    t!"\n",
    t!"\t\t// GetHREF returns the link of the error and a flag indicating if the\n",
    t!"\t\t// link has a value.\n",
    t!"\t\tfunc (e *Error) GetHREF() (value string, ok bool) {\n",
    t!"\t\t\tok = e != nil && e.bitmap_&4 != 0\n",
    t!"\t\t\tif ok {\n",
    t!"\t\t\t\tvalue = e.href\n",
    t!"\t\t\t}\n",
    t!"\t\t\treturn\n",
    t!"\t\t}\n",
    t!"\n",
    t!"\t\t// Code returns the code of the error.\n",
    t!"\t\tfunc (e *Error) Code() string {\n",
    t!"\t\t\tif e != nil && e.bitmap_&8 != 0 {\n",
    t!"\t\t\t\treturn e.code\n",
    t!"\t\t\t}\n",
    t!"\t\t\treturn \"\"\n",
    t!"\t\t}\n",
    t!"\n",
    t!"\t\t// GetCode returns the link of the error and a flag indicating if the\n",
    t!"\t\t// code has a value.\n",
    t!"\t\tfunc (e *Error) GetCode() (value string, ok bool) {\n",
    t!"\t\t\tok = e != nil && e.bitmap_&8 != 0\n",
    t!"\t\t\tif ok {\n",
    t!"\t\t\t\tvalue = e.code\n",
    t!"\t\t\t}\n",
    t!"\t\t\treturn\n",
    t!"\t\t}\n",
    t!"\n",
    t!"\t\t// Reason returns the reason of the error.\n",
    t!"\t\tfunc (e *Error) Reason() string {\n",
    t!"\t\t\tif e != nil && e.bitmap_&16 != 0 {\n",
    t!"\t\t\t\treturn e.reason\n",
    t!"\t\t\t}\n",
    t!"\t\t\treturn \"\"\n",
    t!"\t\t}\n",
    t!"\n",
    t!"\t\t// GetReason returns the link of the error and a flag indicating if the\n",
    t!"\t\t// reason has a value.\n",
    t!"\t\tfunc (e *Error) GetReason() (value string, ok bool) {\n",
    t!"\t\t\tok = e != nil && e.bitmap_&16 != 0\n",
    t!"\t\t\tif ok {\n",
    t!"\t\t\t\tvalue = e.reason\n",
    t!"\t\t\t}\n",
    t!"\t\t\treturn\n",
    t!"\t\t}\n",
    t!"\n",
    t!"\t\t// OperationID returns the identifier of the operation that caused the error.\n",
    t!"\t\tfunc (e *Error) OperationID() string {\n",
    t!"\t\t\tif e != nil && e.bitmap_&32 != 0 {\n",
    t!"\t\t\t\treturn e.operationID\n",
    t!"\t\t\t}\n",
    t!"\t\t\treturn \"\"\n",
    t!"\t\t}\n",
    t!"\n",
    t!"\t\t// GetOperationID returns the identifier of the operation that caused the error and\n",
    t!"\t\t// a flag indicating if that identifier does have a value.\n",
    t!"\t\tfunc (e *Error) GetOperationID() (value string, ok bool) {\n",
    t!"\t\t\tok = e != nil && e.bitmap_&32 != 0\n",
    t!"\t\t\tif ok {\n",
    t!"\t\t\t\tvalue = e.operationID\n",
    t!"\t\t\t}\n",
    t!"\t\t\treturn\n",
    t!"\t\t}\n",
    t!"\n",
    t!"\t\t// Details returns the details of the error\n",
    t!"\t\tfunc (e *Error) Details() interface{} {\n",
    t!"\t\t\tif e != nil && e.bitmap_&64 != 0 {\n",
    t!"\t\t\t\treturn e.details\n",
    t!"\t\t\t}\n",
    t!"\t\t\treturn nil\n",
    t!"\t\t}\n",
    t!"\n",
    t!"\t\t// GetDetails returns the details of the error and a flag \n",
    t!"\t\t// indicating if the details have a value.\n",
    t!"\t\tfunc (e *Error) GetDetails() (value interface{}, ok bool) {\n",
    t!"\t\t\tok = e != nil && e.bitmap_&64 != 0\n",
    t!"\t\t\tif ok {\n",
    t!"\t\t\t\tvalue = e.details\n",
    t!"\t\t\t}\n",
    t!"\t\t\treturn\n",
    t!"\t\t}\n",
    t!"\n",
    t!"\t\t// Timestamp sets the moment when it happened\n",
    t!"\t\tfunc (e *Error) Timestamp() *time.Time {\n",
    t!"\t\t\tif e != nil && e.bitmap_&128 != 0 {\n",
    t!"\t\t\t\treturn e.timestamp\n",
    t!"\t\t\t}\n",
    t!"\t\t\treturn nil\n",
    t!"\t\t}\n",
    t!"\n"]

/-- Part 3 of the template of the common errors, pkg/generators/golang/errors_generator.go:452-586. -/
def commonErrorsTemplate3 : Text :=
  List.flatten [
    t!"\t\t// GetTimestamp returns the timestamp of the error and a flag \n",
    t!"\t\t// indicating if the timestamp have a value.\n",
    t!"\t\tfunc (e *Error) GetTimestamp() (value *time.Time, ok bool) {\n",
    t!"\t\t\tok = e != nil && e.bitmap_&128 != 0\n",
    t!"\t\t\tif ok {\n",
    t!"\t\t\t\tvalue = e.timestamp\n",
    t!"\t\t\t}\n",
    t!"\t\t\treturn\n",
    t!"\t\t}\n",
    t!"\n",
    t!"\t\t// Error is the implementation of the error interface.\n",
    t!"\t\t// Details are intentionally left out as there is no guarantee of their type\n",
    t!"\t\tfunc (e *Error) Error() string {\n",
    t!"\t\t\tchunks := make([]string, 0, 3)\n",
    t!"\t\t\tif e.bitmap_&1 != 0 {\n",
    t!"\t\t\t\tchunks = append(chunks, fmt.Sprintf(\"status is %d\", e.status))\n",
    t!"\t\t\t}\n",
    t!"\t\t\tif e.bitmap_&2 != 0 {\n",
    t!"\t\t\t\tchunks = append(chunks, fmt.Sprintf(\"identifier is '%s'\", e.id))\n",
    t!"\t\t\t}\n",
    t!"\t\t\tif e.bitmap_&8 != 0 {\n",
    t!"\t\t\t\tchunks = append(chunks, fmt.Sprintf(\"code is '%s'\", e.code))\n",
    t!"\t\t\t}\n",
    t!"\t\t\tif e.bitmap_&128 != 0 {\n",
    t!"\t\t\t\tchunks = append(chunks, fmt.Sprintf(\"at '%v'\", e.timestamp.Format(time.RFC3339)))\n",
    t!"\t\t\t}\n",
    t!"\t\t\tif e.bitmap_&32 != 0 {\n",
    t!"\t\t\t\tchunks = append(chunks, fmt.Sprintf(\"operation identifier is '%s'\", e.operationID))\n",
    t!"\t\t\t}\n",
    t!"\t\t\tvar result string\n",
    t!"\t\t\tsize := len(chunks)\n",
    t!"\t\t\tif size == 1 {\n",
    t!"\t\t\t\tresult = chunks[0]\n",
    t!"\t\t\t} else if size > 1 {\n",
    t!"\t\t\t\tresult = strings.Join(chunks[0:size-1], \", \") + \" and \" + chunks[size-1]\n",
    t!"\t\t\t}\n",
    t!"\t\t\tif e.bitmap_&16 != 0 {\n",
    t!"\t\t\t\tif result != \"\" {\n",
    t!"\t\t\t\t\tresult = result + \": \"\n",
    t!"\t\t\t\t}\n",
    t!"\t\t\t\tresult = result + e.reason\n",
    t!"\t\t\t}\n",
    t!"\t\t\tif result == \"\" {\n",
    t!"\t\t\t\tresult = \"unknown error\"\n",
    t!"\t\t\t}\n",
    t!"\t\t\treturn result\n",
    t!"\t\t}\n",
    t!"\n",
    t!"\t\t// String returns a string representing the error.\n",
    t!"\t\tfunc (e *Error) String() string {\n",
    t!"\t\t\treturn e.Error()\n",
    t!"\t\t}\n",
    t!"\n",
    t!"\t\t// UnmarshalError reads an error from the given source which can be an slice of\n",
    t!"\t\t// bytes, a string, a reader or a JSON decoder.\n",
    t!"\t\tfunc UnmarshalError(source interface{}) (object *Error, err error) {\n",
    t!"\t\t\titerator, err := helpers.NewIterator(source)\n",
    t!"\t\t\tif err != nil {\n",
    t!"\t\t\t\treturn\n",
    t!"\t\t\t}\n",
    t!"\t\t\tobject = readError(iterator)\n",
    t!"\t\t\terr = iterator.Error\n",
    t!"\t\t\treturn\n",
    t!"\t\t}\n",
    t!"\n",
    t!"\t\t// UnmarshalErrorStatus reads an error from the given source and sets\n",
    t!"\t\t// the given status code.\n",
    t!"\t\tfunc UnmarshalErrorStatus(source interface{}, status int) (object *Error, err error) {\n",
    t!"\t\t\tobject, err = UnmarshalError(source)\n",
    t!"\t\t\tif err != nil {\n",
    t!"\t\t\t\treturn\n",
    t!"\t\t\t}\n",
    t!"\t\t\tobject.status = status\n",
    t!"\t\t\tobject.bitmap_ |= 1\n",
    t!"\t\t\treturn\n",
    t!"\t\t}\n",
    t!"\n",
    t!"\t\tfunc readError(iterator *jsoniter.Iterator) *Error {\n",
    t!"\t\t\tobject := &Error{}\n",
    t!"\t\t\tfor {\n",
    t!"\t\t\t\tfield := iterator.ReadObject()\n",
    t!"\t\t\t\tif field == \"\" {\n",
    t!"\t\t\t\t\tbreak\n",
    t!"\t\t\t\t}\n",
    t!"\t\t\t\tswitch field {\n",
    t!"\t\t\t\tcase \"status\":\n",
    t!"\t\t\t\t\tobject.status = iterator.ReadInt()\n",
    t!"\t\t\t\t\tobject.bitmap_ |= 1\n",
    t!"\t\t\t\tcase \"id\":\n",
    t!"\t\t\t\t\tobject.id = iterator.ReadString()\n",
    t!"\t\t\t\t\tobject.bitmap_ |= 2\n",
    t!"\t\t\t\tcase \"href\":\n",
    t!"\t\t\t\t\tobject.href = iterator.ReadString()\n",
    t!"\t\t\t\t\tobject.bitmap_ |= 4\n",
    t!"\t\t\t\tcase \"code\":\n",
    t!"\t\t\t\t\tobject.code = iterator.ReadString()\n",
    t!"\t\t\t\t\tobject.bitmap_ |= 8\n",
    t!"\t\t\t\tcase \"reason\":\n",
    t!"\t\t\t\t\tobject.reason = iterator.ReadString()\n",
    t!"\t\t\t\t\tobject.bitmap_ |= 16\n",
    t!"\t\t\t\tcase \"operation_id\":\n",
    t!"\t\t\t\t\tobject.operationID = iterator.ReadString()\n",
    t!"\t\t\t\t\tobject.bitmap_ |= 32\n",
    t!"\t\t\t\tcase \"details\":\n",
    t!"\t\t\t\t\tobject.details = iterator.ReadAny().GetInterface()\n",
    t!"\t\t\t\t\tobject.bitmap_ |= 64\n",
    t!"\t\t\t\tcase \"timestamp\":\n",
    t!"\t\t\t\t\ttext := iterator.ReadString()\n",
    t!"\t\t\t\t\tvalue, err := time.Parse(time.RFC3339, text)\n",
    t!"\t\t\t\t\tif err != nil {\n",
    t!"\t\t\t\t\t\titerator.ReportError(\"\", err.Error())\n",
    t!"\t\t\t\t\t}\n",
    t!"\t\t\t\t\tobject.timestamp = &value\n",
    t!"\t\t\t\t\tobject.bitmap_ |= 128\n",
    t!"\t\t\t\tdefault:\n",
    t!"\t\t\t\t\titerator.ReadAny()\n",
    t!"\t\t\t\t}\n",
    t!"\t\t\t}\n",
    t!"\t\t\treturn object\n",
    t!"\t\t}\n",
    t!"\n",
    t!"\t\t// MarshalError writes an error to the given writer.\n",
    t!"\t\tfunc MarshalError(e *Error, writer io.Writer) error {\n",
    t!"\t\t\tstream := helpers.NewStream(writer)\n",
    t!"\t\t\twriteError(e, stream)\n",
    t!"\t\t\terr := stream.Flush()\n",
    t!"\t\t\tif err != nil {\n",
    t!"\t\t\t\treturn err\n",
    t!"\t\t\t}\n",
    t!"\t\t\treturn stream.Error\n",
    t!"\t\t}\n",
    t!"\n",
    t!"\t\tfunc writeError(e *Error, stream *jsoniter.Stream) {\n",
    t!"\t\t\tstream.WriteObjectStart()\n",
    t!"\t\t\tstream.WriteObjectField(\"kind\")\n"]

/-- Part 4 of the template of the common errors, pkg/generators/golang/errors_generator.go:587-721. -/
def commonErrorsTemplate4 : Text :=
  List.flatten [
    t!"\t\t\tstream.WriteString(ErrorKind)\n",
    t!"\t\t\tif e.bitmap_&1 != 0 {\n",
    t!"\t\t\t\tstream.WriteMore()\n",
    t!"\t\t\t\tstream.WriteObjectField(\"status\")\n",
    t!"\t\t\t\tstream.WriteInt(e.status)\n",
    t!"\t\t\t}\n",
    t!"\t\t\tif e.bitmap_&2 != 0 {\n",
    t!"\t\t\t\tstream.WriteMore()\n",
    t!"\t\t\t\tstream.WriteObjectField(\"id\")\n",
    t!"\t\t\t\tstream.WriteString(e.id)\n",
    t!"\t\t\t}\n",
    t!"\t\t\tif e.bitmap_&4 != 0 {\n",
    t!"\t\t\t\tstream.WriteMore()\n",
    t!"\t\t\t\tstream.WriteObjectField(\"href\")\n",
    t!"\t\t\t\tstream.WriteString(e.href)\n",
    t!"\t\t\t}\n",
    t!"\t\t\tif e.bitmap_&8 != 0 {\n",
    t!"\t\t\t\tstream.WriteMore()\n",
    t!"\t\t\t\tstream.WriteObjectField(\"code\")\n",
    t!"\t\t\t\tstream.WriteString(e.code)\n",
    t!"\t\t\t}\n",
    t!"\t\t\tif e.bitmap_&16 != 0 {\n",
    t!"\t\t\t\tstream.WriteMore()\n",
    t!"\t\t\t\tstream.WriteObjectField(\"reason\")\n",
    t!"\t\t\t\tstream.WriteString(e.reason)\n",
    t!"\t\t\t}\n",
    t!"\t\t\tif e.bitmap_&32 != 0 {\n",
    t!"\t\t\t\tstream.WriteMore()\n",
    t!"\t\t\t\tstream.WriteObjectField(\"operation_id\")\n",
    t!"\t\t\t\tstream.WriteString(e.operationID)\n",
    t!"\t\t\t}\n",
    t!"\t\t\tif e.bitmap_&64 != 0 {\n",
    t!"\t\t\t\tstream.WriteMore()\n",
    t!"\t\t\t\tstream.WriteObjectField(\"details\")\n",
    t!"\t\t\t\tstream.WriteVal(e.details)\n",
    t!"\t\t\t}\n",
    t!"\t\t\tif e.bitmap_&128 != 0 {\n",
    t!"\t\t\t\tstream.WriteMore()\n",
    t!"\t\t\t\tstream.WriteObjectField(\"timestamp\")\n",
    t!"\t\t\t\tstream.WriteVal(e.timestamp)\n",
    t!"\t\t\t}\n",
    t!"\t\t\tstream.WriteObjectEnd()\n",
    t!"\t\t}\n",
    t!"\n",
    t!"\t\tvar panicID = \"1000\"\n",
    t!"\t\tvar panicError, _ = NewError().\n",
    t!"\t\t\tID(panicID).\n",
    t!"\t\t\tReason(\"An unexpected error happened, please check the log of the service \" +\n",
    t!"\t\t\t\"for details\").\n",
    t!"\t\t\tBuild()\n",
    t!"\n",
    t!"\t\t// SendError writes a given error and status code to a response writer.\n",
    t!"\t\t// if an error occurred it will log the error and exit.\n",
    t!"\t\t// This methods is used internaly and no backwards compatibily is guaranteed.\n",
    t!"\t\tfunc SendError(w http.ResponseWriter, r *http.Request, object *Error) {\n",
    t!"\t\t\tstatus, err := strconv.Atoi(object.ID())\n",
    t!"\t\t\tif err != nil {\n",
    t!"\t\t\t\tSendPanic(w, r)\n",
    t!"\t\t\t\treturn\n",
    t!"\t\t\t}\n",
    t!"\t\t\tw.Header().Set(\"Content-Type\", \"application/json\")\n",
    t!"\t\t\tw.WriteHeader(status)\n",
    t!"\t\t\terr = MarshalError(object, w)\n",
    t!"\t\t\tif err != nil {\n",
    t!"\t\t\t\tglog.Errorf(\"Can't send response body for request '%s'\", r.URL.Path)\n",
    t!"\t\t\t\treturn\n",
    t!"\t\t\t}\n",
    t!"\t\t}\n",
    t!"\n",
    t!"\t\t// SendPanic sends a panic error response to the client, but it doesn't end the process.\n",
    t!"\t\t// This methods is used internaly and no backwards compatibily is guaranteed.\n",
    t!"\t\tfunc SendPanic(w http.ResponseWriter, r *http.Request) {\n",
    t!"\t\t\tw.Header().Set(\"Content-Type\", \"application/json\")\n",
    t!"\t\t\terr := MarshalError(panicError, w)\n",
    t!"\t\t\tif err != nil {\n",
    t!"\t\t\t\tglog.Errorf(\n",
    t!"\t\t\t\t\t\"Can't send panic response for request '%s': %s\",\n",
    t!"\t\t\t\t\tr.URL.Path,\n",
    t!"\t\t\t\t\terr.Error(),\n",
    t!"\t\t\t\t)\n",
    t!"\t\t\t}\n",
    t!"\t\t}\n",
    t!"\n",
    t!"\t\t// SendNotFound sends a generic 404 error.\n",
    t!"\t\tfunc SendNotFound(w http.ResponseWriter, r *http.Request) {\n",
    t!"\t\t\treason := fmt.Sprintf(\n",
    t!"\t\t\t\t\"Can't find resource for path '%s'\",\n",
    t!"\t\t\t\tr.URL.Path,\n",
    t!"\t\t\t)\n",
    t!"\t\t\tbody, err := NewError().\n",
    t!"\t\t\t\tID(\"404\").\n",
    t!"\t\t\t\tReason(reason).\n",
    t!"\t\t\t\tBuild()\n",
    t!"\t\t\tif err != nil {\n",
    t!"\t\t\t\tSendPanic(w, r)\n",
    t!"\t\t\t\treturn\n",
    t!"\t\t\t}\n",
    t!"\t\t\tSendError(w, r, body)\n",
    t!"\t\t}\n",
    t!"\n",
    t!"\t\t// SendMethodNotAllowed sends a generic 405 error.\n",
    t!"\t\tfunc SendMethodNotAllowed(w http.ResponseWriter, r *http.Request) {\n",
    t!"\t\t\treason := fmt.Sprintf(\n",
    t!"\t\t\t\t\"Method '%s' isn't supported for path '%s'\",\n",
    t!"\t\t\t\tr.Method, r.URL.Path,\n",
    t!"\t\t\t)\n",
    t!"\t\t\tbody, err := NewError().\n",
    t!"\t\t\t\tID(\"405\").\n",
    t!"\t\t\t\tReason(reason).\n",
    t!"\t\t\t\tBuild()\n",
    t!"\t\t\tif err != nil {\n",
    t!"\t\t\t\tSendPanic(w, r)\n",
    t!"\t\t\t\treturn\n",
    t!"\t\t\t}\n",
    t!"\t\t\tSendError(w, r, body)\n",
    t!"\t\t}\n",
    t!"\n",
    t!"\t\t// SendInternalServerError sends a generic 500 error.\n",
    t!"\t\tfunc SendInternalServerError(w http.ResponseWriter, r *http.Request) {\n",
    t!"\t\t\treason := fmt.Sprintf(\n",
    t!"\t\t\t\t\"Can't process '%s' request for path '%s' due to an internal\"+\n",
    t!"\t\t\t\t\t\"server error\",\n",
    t!"\t\t\t\tr.Method, r.URL.Path,\n",
    t!"\t\t\t)\n",
    t!"\t\t\tbody, err := NewError().\n",
    t!"\t\t\t\tID(\"500\").\n",
    t!"\t\t\t\tReason(reason).\n",
    t!"\t\t\t\tBuild()\n",
    t!"\t\t\tif err != nil {\n",
    t!"\t\t\t\tSendPanic(w, r)\n",
    t!"\t\t\t\treturn\n",
    t!"\t\t\t}\n",
    t!"\t\t\tSendError(w, r, body)\n",
    t!"\t\t}\n",
    t!"        "]

/-- The template of the common errors, pkg/generators/golang/errors_generator.go:182-721. -/
def commonErrorsTemplate : Text :=
  List.flatten [
    commonErrorsTemplate1,
    commonErrorsTemplate2,
    commonErrorsTemplate3,
    commonErrorsTemplate4]

/-- `generateCommonErrors`, pkg/generators/golang/errors_generator.go:155-725, where the code is generated. -/
def commonErrorsSource (base : Text) (b : Buffer) : Buffer :=
  (JsonCode.Buffer.imports b
    [(t!"fmt", []), (t!"io", []), (t!"strings", []), (t!"time", []), (t!"github.com/golang/glog", []),
      (t!"github.com/openshift-online/ocm-api-metamodel/pkg/runtime", []), (Go.helpersImport base, [])])
    |>.emit env commonErrorsTemplate []

/-- `generateCommonErrors`, pkg/generators/golang/errors_generator.go:155-725, given the errors reported
before and the order of the imports. -/
def commonErrorsFile (base : Text) (errors : Nat) (order : List (Text × Text)) :
    Option Text × Bool :=
  (commonErrorsSource base { pkg := GoRef.pathJoin base Go.errorsPackage, errors := errors }).write order

/-- The template of the client of the metadata of versions, pkg/generators/golang/clients_generator.go:316-426. -/
def metadataClientTemplate : Text :=
  List.flatten [
    t!"\n",
    t!"\t\t// MetadataRequest is the request to retrieve the metadata.\n",
    t!"\t\ttype MetadataRequest struct {\n",
    t!"\t\t\ttransport http.RoundTripper\n",
    t!"\t\t\tpath      string\n",
    t!"\t\t\tquery     url.Values\n",
    t!"\t\t\theader    http.Header\n",
    t!"\t\t}\n",
    t!"\n",
    t!"\t\t// MetadataResponse is the response for the metadata request.\n",
    t!"\t\ttype MetadataResponse struct {\n",
    t!"\t\t\tstatus int\n",
    t!"\t\t\theader http.Header\n",
    t!"\t\t\terr    *errors.Error\n",
    t!"\t\t\tbody   *Metadata\n",
    t!"\t\t}\n",
    t!"\n",
    t!"\t\t// Parameter adds a query parameter.\n",
    t!"\t\tfunc (r *MetadataRequest) Parameter(name string, value interface{}) *MetadataRequest {\n",
    t!"\t\t\thelpers.AddValue(&r.query, name, value)\n",
    t!"\t\t\treturn r\n",
    t!"\t\t}\n",
    t!"\n",
    t!"\t\t// Header adds a request header.\n",
    t!"\t\tfunc (r *MetadataRequest) Header(name string, value interface{}) *MetadataRequest {\n",
    t!"\t\t\thelpers.AddHeader(&r.header, name, value)\n",
    t!"\t\t\treturn r\n",
    t!"\t\t}\n",
    t!"\n",
    t!"\t\t// Send sends the metadata request, waits for the response, and returns it.\n",
    t!"\t\t//\n",
    t!"\t\t// This is a potentially lengthy operation, as it requires network communication.\n",
    t!"\t\t// Consider using a context and the SendContext method.\n",
    t!"\t\tfunc (r *MetadataRequest) Send() (result *MetadataResponse, err error) {\n",
    t!"\t\t\treturn r.SendContext(context.Background())\n",
    t!"\t\t}\n",
    t!"\n",
    t!"\t\t// SendContext sends the metadata request, waits for the response, and returns it.\n",
    t!"\t\tfunc (r *MetadataRequest) SendContext(ctx context.Context) (result *MetadataResponse, err error) {\n",
    t!"\t\t\tquery := helpers.CopyQuery(r.query)\n",
    t!"\t\t\theader := helpers.CopyHeader(r.header)\n",
    t!"\t\t\turi := &url.URL{\n",
    t!"\t\t\t\tPath: r.path,\n",
    t!"\t\t\t\tRawQuery: query.Encode(),\n",
    t!"\t\t\t}\n",
    t!"\t\t\trequest := &http.Request{\n",
    t!"\t\t\t\tMethod: http.MethodGet,\n",
    t!"\t\t\t\tURL:    uri,\n",
    t!"\t\t\t\tHeader: header,\n",
    t!"\t\t\t}\n",
    t!"\t\t\tif ctx != nil {\n",
    t!"\t\t\t\trequest = request.WithContext(ctx)\n",
    t!"\t\t\t}\n",
    t!"\t\t\tresponse, err := r.transport.RoundTrip(request)\n",
    t!"\t\t\tif err != nil {\n",
    t!"\t\t\t\treturn\n",
    t!"\t\t\t}\n",
    t!"\t\t\tdefer response.Body.Close()\n",
    t!"\t\t\tresult = &MetadataResponse{\n",
    t!"\t\t\t\tstatus: response.StatusCode,\n",
    t!"\t\t\t\theader: response.Header,\n",
    t!"\t\t\t}\n",
    t!"\t\t\treader := bufio.NewReader(response.Body)\n",
    t!"\t\t\t_, err = reader.Peek(1)\n",
    t!"\t\t\tif err == io.EOF {\n",
    t!"\t\t\t\treturn\n",
    t!"\t\t\t}\n",
    t!"\t\t\tif result.status >= 400 {\n",
    t!"\t\t\t\tresult.err, err = errors.UnmarshalErrorStatus(reader, result.status)\n",
    t!"\t\t\t\tif err != nil {\n",
    t!"\t\t\t\t\treturn\n",
    t!"\t\t\t\t}\n",
    t!"\t\t\t\terr = result.err\n",
    t!"\t\t\t\treturn\n",
    t!"\t\t\t}\n",
    t!"\t\t\tresult.body, err = UnmarshalMetadata(reader)\n",
    t!"\t\t\tif err != nil {\n",
    t!"\t\t\t\treturn\n",
    t!"\t\t\t}\n",
    t!"\t\t\treturn\n",
    t!"\t\t}\n",
    t!"\n",
    t!"\t\t// Status returns the response status code.\n",
    t!"\t\tfunc (r *MetadataResponse) Status() int {\n",
    t!"\t\t\tif r == nil {\n",
    t!"\t\t\t\treturn 0\n",
    t!"\t\t\t}\n",
    t!"\t\t\treturn r.status\n",
    t!"\t\t}\n",
    t!"\n",
    t!"\t\t// Header returns header of the response.\n",
    t!"\t\tfunc (r *MetadataResponse) Header() http.Header {\n",
    t!"\t\t\tif r == nil {\n",
    t!"\t\t\t\treturn nil\n",
    t!"\t\t\t}\n",
    t!"\t\t\treturn r.header\n",
    t!"\t\t}\n",
    t!"\n",
    t!"\t\t// Error returns the response error.\n",
    t!"\t\tfunc (r *MetadataResponse) Error() *errors.Error {\n",
    t!"\t\t\tif r == nil {\n",
    t!"\t\t\t\treturn nil\n",
    t!"\t\t\t}\n",
    t!"\t\t\treturn r.err\n",
    t!"\t\t}\n",
    t!"\n",
    t!"\t\t// Body returns the response body.\n",
    t!"\t\tfunc (r *MetadataResponse) Body() *Metadata {\n",
    t!"\t\t\treturn r.body\n",
    t!"\t\t}\n",
    t!"\t\t"]

/-- `generateVersionMetadataClientSource`, pkg/generators/golang/clients_generator.go:308-428. -/
def metadataClientSource (base : Text) (b : Buffer) : Buffer :=
  (JsonCode.Buffer.imports b
    [(t!"bufio", []), (t!"context", []), (t!"io", []), (t!"net/http", []), (t!"net/url", []),
      (Go.errorsImport base, []), (Go.helpersImport base, [])])
    |>.emit env metadataClientTemplate []

/-- `generateVersionMetadataClient`, pkg/generators/golang/clients_generator.go:282-306, given the import path of the
package of the version, the errors reported before and the order of the imports. -/
def metadataClientFile (base pkg : Text) (errors : Nat) (order : List (Text × Text)) :
    Option Text × Bool :=
  (metadataClientSource base { pkg := pkg, errors := errors }).write order

end Verif.Support
