{"id": "C01", "title": "Names are totally ordered", "statement": "Comparing two names gives a total order: comparing in the opposite direction gives the opposite sign, the order is transitive, and the result is zero exactly when both names consist of the same sequence of word texts. Consequently the 'less' used for sorting is a strict weak order.", "quantifier": "all pairs and triples of names, with any number of words of any length", "why_tests_cant": "An ordering law ranges over all triples of unbounded names; a table of samples cannot exclude an inconsistent triple, and an inconsistent order makes every generated listing unstable.", "anchors": ["pkg/names/name.go: Name.Compare, Names.Less, Name.Equals", "pkg/names/words.go: Word.Equals"]}
{"id": "C02", "title": "Parsing a camel case identifier loses nothing", "statement": "For every identifier made of letters and digits whose first character is not a lower case letter, the texts of the words obtained by parsing it, joined and lower-cased, are exactly the lower-cased identifier, and no word is empty. (The same is expected of every identifier that the model language accepts; the code violates it for identifiers that start in lower case or contain underscores.)", "quantifier": "all identifiers of the model language, of any length", "why_tests_cant": "The parser table test has about twenty entries; the claim is about every identifier.", "anchors": ["pkg/names/parser.go: ParseUsingCase, parseWord", "pkg/names/case.go: isLower, isUpper", "pkg/language/ModelLexer.g4: IDENTIFIER"]}
{"id": "C03", "title": "Rendering a name in camel case and parsing it again gives the same name", "statement": "Every canonical name (lower case words; initialisms of upper case letters, never followed by another initialism) rendered in camel case and parsed again gives the same words with the same initialism flags. Hence two different canonical names never give the same exported identifier.", "quantifier": "all canonical names, of any number of words and any word lengths", "why_tests_cant": "It is a round trip over an infinite set; a collision between two model names silently produces Go code that does not compile or overwrites another type.", "anchors": ["pkg/names/parser.go: ParseUsingCase", "pkg/names/name.go: Name.Camel, CapitalizedJoined", "pkg/generators/golang/names_calculator.go: Public"]}
{"id": "C04", "title": "Splitting by a separator and joining is the identity", "statement": "Parsing any text with a separator and rendering the resulting name with the same separator gives the original text; no word contains the separator; and parsing the rendering of a name whose words do not contain the separator gives the same words.", "quantifier": "all texts, all names", "why_tests_cant": "Round trip over all texts; directory names are arbitrary.", "anchors": ["pkg/names/parser.go: ParseUsingSeparator", "pkg/names/name.go: Name.String, LowerJoined"]}
{"id": "C05", "title": "Listings do not depend on insertion or map iteration order", "statement": "The list of services, versions, types and resources of a model is the same for every order in which they were added and for every iteration order of the underlying maps; it is strictly sorted by name and contains each stored concept exactly once. Attributes, values, methods, parameters and locators with different names are listed in the same order whatever the order of declaration.", "quantifier": "all sets of concepts, all insertion orders, all map iteration orders", "why_tests_cant": "Map iteration order is random in Go; a test sees one order per run.", "anchors": ["pkg/concepts/version.go: Types, Resources", "pkg/concepts/model.go: Services", "pkg/concepts/service.go: Versions", "pkg/concepts/type.go: AddAttribute, AddValue", "pkg/concepts/resource.go: AddMethod, AddLocator"]}
{"id": "C06", "title": "Listing the errors of a version", "statement": "The errors of a version are listed sorted by name, like every other concept. (The code violates it: as soon as a version has two errors the listing dereferences a nil name and panics.)", "quantifier": "all versions, with any number of errors", "why_tests_cant": "The bundled test model declares only one error, and with one element the comparison never runs.", "anchors": ["pkg/concepts/error.go: Error, ErrorSlice.Less", "pkg/concepts/version.go: Errors"]}
{"id": "C07", "title": "Finding a concept returns the last one added with that name", "statement": "After any sequence of additions, looking up a name in a version returns the concept most recently added with that name and nothing else; adding a concept never affects the result for other names. A new version already contains the boolean, integer, long, float, string, date and interface types and a list type for each of them.", "quantifier": "all histories of additions and lookups", "why_tests_cant": "It is a refinement to an abstract map for every history.", "anchors": ["pkg/concepts/version.go: NewVersion, AddType, FindType, AddResource, FindResource", "pkg/concepts/service.go", "pkg/concepts/model.go"]}
{"id": "C08", "title": "The paths of a version are exactly the chains of locators from the root", "statement": "For every version without locator loops reachable from its root, the enumeration of paths terminates and returns every non empty chain of locators that starts at the root, exactly once each, shorter chains first, and nothing else.", "quantifier": "all resource graphs, of any size and shape", "why_tests_cant": "Quantifies over all graphs and all paths.", "anchors": ["pkg/concepts/version.go: Paths, Root"]}
{"id": "C09", "title": "Locator loops reachable from the root are rejected, and only those", "statement": "Reading a model reports a locator loop if and only if some chain of locators starting at the root visits the same resource twice, and the search for loops always terminates, even for cyclic models.", "quantifier": "all resource graphs, including cyclic ones", "why_tests_cant": "Soundness, completeness and termination of a graph search over all graphs.", "anchors": ["pkg/language/checks.go: checkLocatorLoops, checkLocatorPathLoops, reportLocatorPathLoop"]}
{"id": "C10", "title": "Accepted models generate in finite time", "statement": "For every version accepted by the checks the enumeration of paths used by the OpenAPI generator and the tree of URL paths used by the metrics generator are finite, and the enumeration stops.", "quantifier": "all accepted models", "why_tests_cant": "Termination for all inputs cannot be tested.", "anchors": ["pkg/concepts/version.go: Paths", "pkg/generators/golang/metrics_generator.go: resourceBranch", "pkg/language/checks.go: checkLocatorLoops"]}
{"id": "C11", "title": "Rules for Add methods", "statement": "An Add method is accepted without errors if and only if all its parameters are scalars or structs, exactly one is a struct, that struct is both input and output and it is named 'Body', and default values are of the right type.", "quantifier": "all methods, with any parameters", "why_tests_cant": "The acceptance condition is an equivalence over every parameter list.", "anchors": ["pkg/language/checks.go: checkAdd, checkParameter"]}
{"id": "C12", "title": "Rules for Delete and AsyncDelete methods", "statement": "A Delete or AsyncDelete method is accepted if and only if all its parameters are scalars that are input and not output, and default values are of the right type.", "quantifier": "all methods, with any parameters", "why_tests_cant": "Equivalence over every parameter list.", "anchors": ["pkg/language/checks.go: checkDelete"]}
{"id": "C13", "title": "Rules for Get methods", "statement": "A Get method is accepted if and only if all its parameters are scalars or structs, exactly one is a struct, scalars are input only, the struct is output only and is named 'Body', and default values are of the right type.", "quantifier": "all methods, with any parameters", "why_tests_cant": "Equivalence over every parameter list.", "anchors": ["pkg/language/checks.go: checkGet"]}
{"id": "C14", "title": "Rules for List methods and paging", "statement": "A List method is accepted if and only if all its parameters are scalars or lists, exactly one is a list, it is named 'Items' and is output only, and the parameters named Page, Size and Total, if present, are integers with the required directions and default values; the absence of Page, Size or Total never causes an error.", "quantifier": "all methods, with any parameters", "why_tests_cant": "Equivalence over every parameter list.", "anchors": ["pkg/language/checks.go: checkList, checkPage, checkSize, checkTotal, checkItems"]}
{"id": "C15", "title": "Rules for Search and Post methods", "statement": "A Search method is accepted exactly when it has one output list named 'Items' and one input struct named 'Body', with the paging rules of List; a Post method is accepted exactly when it has at most one input, all inputs are structs, exactly one output, and it is a struct.", "quantifier": "all methods, with any parameters", "why_tests_cant": "Equivalence over every parameter list.", "anchors": ["pkg/language/checks.go: checkSearch, checkPost"]}
{"id": "C16", "title": "Rules for Update and AsyncUpdate methods", "statement": "An Update or AsyncUpdate method is accepted if and only if all its parameters are scalars, structs or lists, exactly one is a struct or list, it is named 'Body' and is input and output, scalars are input only, and default values are of the right type.", "quantifier": "all methods, with any parameters", "why_tests_cant": "Equivalence over every parameter list.", "anchors": ["pkg/language/checks.go: checkUpdate"]}
{"id": "C17", "title": "A model is returned exactly when no error was reported", "statement": "The reader returns a model if and only if no error was reported while reading it; otherwise it returns an error whose text contains the number of errors. Generators write no file once an error has been reported.", "quantifier": "all sequences of reported messages and writes", "why_tests_cant": "It is an invariant over all histories of the shared reporter.", "anchors": ["pkg/language/reader.go: Read", "pkg/reporter/reporter.go", "pkg/generators/golang/buffer.go: Write", "pkg/generators/openapi/buffer.go: Write", "pkg/markdown/buffer.go: Write"]}
{"id": "C18", "title": "A successful read leaves no undefined type or resource", "statement": "If a single version is read without errors then every type referenced by an attribute, parameter, list or map, and every resource targeted by a locator, was declared. (For several versions the property fails: the index of undefined names is shared between versions.)", "quantifier": "all sequences of declarations, in any order, with forward and recursive references", "why_tests_cant": "Quantifies over all models and declaration orders.", "anchors": ["pkg/language/reader.go: Read, ExitClassDecl, ExitStructDecl, ExitEnumDecl, ExitPlainTypeReference, ExitListTypeReference, ExitMapTypeReference, ExitResourceReference, addUndefinedType, removeUndefinedType"]}
{"id": "C19", "title": "The order of declarations does not matter", "statement": "Reading the same declarations of a version in any order, split in any way in files, gives the same types with the same kinds and attributes, the same resources, and the same verdict about undefined or duplicated names.", "quantifier": "all permutations of all sequences of declarations", "why_tests_cant": "n! orders of unbounded inputs.", "anchors": ["pkg/language/reader.go: ExitClassDecl, ExitStructDecl, ExitEnumDecl, ExitPlainTypeReference, loadVersion, loadFile"]}
{"id": "C20", "title": "Duplicated declarations are reported", "statement": "In a single version, declaring twice a type, a resource or an error always reports an error, whatever the position of the declarations and of the references to them; declarations of different names never do.", "quantifier": "all sequences of declarations", "why_tests_cant": "All histories of declarations.", "anchors": ["pkg/language/reader.go: ExitClassDecl, ExitResourceDecl, ExitErrorDecl"]}
{"id": "C21", "title": "Every type has a list type", "statement": "After a successful read, for every type T of every version that is not itself a list the version contains a type named T_list, and every list type created by the reader has as element the type whose name it extends.", "quantifier": "all models", "why_tests_cant": "Invariant over all declaration sequences.", "anchors": ["pkg/language/reader.go: Read, ExitListTypeReference", "pkg/concepts/version.go: NewVersion"]}
{"id": "C22", "title": "Documentation comments", "statement": "The documentation of a declaration is the block of consecutive line comments immediately above it, with the comment marks and the indentation of the first line removed; a comment is never attached to two declarations; blank first lines do not crash. (The last part is false: a block that starts with an empty comment makes the reader panic.)", "quantifier": "all comment layouts", "why_tests_cant": "All layouts of comment lines.", "anchors": ["pkg/language/reader.go: getDoc"]}
{"id": "C23", "title": "Parameter directions", "statement": "A parameter declared without directions is output only; with directions it has exactly the directions listed, independently of their order and repetition; the input and output parameters of a method are exactly those flagged.", "quantifier": "all parameter declarations", "why_tests_cant": "All lists of directions.", "anchors": ["pkg/language/reader.go: ExitMethodParameterDecl", "pkg/http/binding_calculator.go: RequestParameters, ResponseParameters"]}
{"id": "C24", "title": "Variable flag of locators", "statement": "A locator is variable if and only if it declares a variable. (SetVariable ignores its argument and always sets the flag.)", "quantifier": "all locators and calls", "why_tests_cant": "All histories of calls.", "anchors": ["pkg/concepts/locator.go: SetVariable", "pkg/language/reader.go: ExitLocatorDecl"]}
{"id": "C25", "title": "Request parameters are split between query and body", "statement": "For every method, each input parameter goes either to the query string or to the body and never to both nor to neither: inputs of actions go to the body, other inputs go to the query if they are scalars and to the body otherwise. Output only parameters are never sent, and input only parameters are never in the response.", "quantifier": "all methods, with any parameters", "why_tests_cant": "A partition law over all parameter lists.", "anchors": ["pkg/http/binding_calculator.go: RequestParameters, RequestQueryParameters, RequestBodyParameters, ResponseParameters"]}
{"id": "C26", "title": "HTTP verb and status of methods", "statement": "The HTTP verb and default status of every method are the documented ones (Add and Post: POST/201, Get and List: GET/200, Update: PATCH/200, AsyncUpdate: PATCH/202, Delete: DELETE/204, AsyncDelete: DELETE/202, anything else: POST/200), and the reference documentation shows the same verb as the generated client and OpenAPI specification use.", "quantifier": "all method names", "why_tests_cant": "All method names; three separate implementations must agree.", "anchors": ["pkg/http/binding_calculator.go: Method, DefaultStatus", "pkg/generators/docs/docs_generator.go: httpMethod"]}
{"id": "C27", "title": "Methods of a resource are distinguishable over HTTP", "statement": "Two different methods of the same resource never share both HTTP verb and URL. (False: Add, Post and Search share POST on the resource URL, Update and AsyncUpdate share PATCH, Delete and AsyncDelete share DELETE. It holds for actions with different segments and for the remaining combinations.)", "quantifier": "all pairs of methods", "why_tests_cant": "All pairs of methods of all resources.", "anchors": ["pkg/http/binding_calculator.go: Method, MethodSegment", "pkg/language/checks.go"]}
{"id": "C28", "title": "Names used in JSON, query and URL honour the annotations", "statement": "The name used for an attribute, enumerated value, parameter, service, version, locator or action is the value of the applicable name annotation if there is one (for query parameters @http first and then @json) and the snake case of the name otherwise.", "quantifier": "all annotated concepts", "why_tests_cant": "All combinations of annotations.", "anchors": ["pkg/http/binding_calculator.go: AttributeName, QueryParameterName, EnumValueName, ServiceSegment, VersionSegment, LocatorSegment, MethodSegment", "pkg/annotations/annotations.go"]}
{"id": "C29", "title": "Generated identifiers are never Go keywords", "statement": "No exported or unexported identifier or field name produced by the names calculator is a reserved word of Go, and names that are not reserved are not altered.", "quantifier": "all names", "why_tests_cant": "All names.", "anchors": ["pkg/generators/golang/reserved_words.go", "pkg/generators/golang/names_calculator.go: Public, Private"]}
{"id": "C30", "title": "Attribute bits are distinct", "statement": "In every class or struct each attribute has its own single bit, different from those of the other attributes and from the three bits reserved in classes for link, identifier and link address.", "quantifier": "all types with any number of attributes", "why_tests_cant": "All numbers of attributes.", "anchors": ["pkg/generators/golang/types_calculator.go: BitMask, BitmapType"]}
{"id": "C31", "title": "Attribute bits fit in the bitmap", "statement": "If a bitmap type is produced for a type without reporting an error then the bit of every attribute, as an integer literal, fits in that unsigned bitmap type; and types with more attributes than bits are reported. (False at exactly one point: the 64th bit is computed with a signed integer and becomes a negative literal.)", "quantifier": "all types with any number of attributes", "why_tests_cant": "The boundary is at 64 attributes, which no test model reaches.", "anchors": ["pkg/generators/golang/types_calculator.go: BitMask, BitmapType, bitmapSize"]}
{"id": "C32", "title": "Documentation text never leaks into generated code", "statement": "Every line of a documentation text inserted in generated Go code is preceded by the comment mark, so no documentation can introduce code.", "quantifier": "all documentation texts", "why_tests_cant": "All texts.", "anchors": ["pkg/generators/golang/buffer.go: lineComment"]}
{"id": "C33", "title": "Removing blank lines only removes blank lines", "statement": "Post-processing a generated Go file removes only blank lines: the non blank lines of the result are the non blank lines of the input, in order. (False of the last line if it is not blank.)", "quantifier": "all texts", "why_tests_cant": "All texts.", "anchors": ["pkg/generators/golang/buffer.go: removeExtraBlankLines"]}
{"id": "C34", "title": "Embedded bytes are the original bytes", "statement": "The byte literal used to embed the OpenAPI specification evaluates to exactly the original bytes, in lines of at most sixteen.", "quantifier": "all byte sequences", "why_tests_cant": "All byte sequences and lengths.", "anchors": ["pkg/generators/golang/buffer.go: byteArray", "pkg/generators/golang/openapi_generator.go: generateSpec"]}
{"id": "C35", "title": "Packages of different services and versions are different", "statement": "Two different versions never share a Go package directory. (False: word boundaries are lost, so services 'a_bc' and 'ab_c' collide; it holds for names that stay different once their words are joined.)", "quantifier": "all pairs of services and versions", "why_tests_cant": "All pairs of names.", "anchors": ["pkg/generators/golang/packages_calculator.go: VersionPackage, ServicePackage, MetricsImport"]}
{"id": "C36", "title": "Generated writers produce well formed JSON", "statement": "For every schema and every object the generated writer produces well formed JSON: braces balance, exactly one comma separates consecutive members, none before the first nor after the last, whatever subset of attributes has a value.", "quantifier": "all schemas, all objects of any depth, all subsets of attributes", "why_tests_cant": "2^n subsets of attributes of unbounded nested objects.", "anchors": ["pkg/generators/golang/json_generator.go: generateStructTypeSource, generateStructTypeListSource, generateWriteValue"]}
{"id": "C37", "title": "An attribute is written exactly when it has a value", "statement": "The object written contains a member for an attribute if and only if the attribute has a value (and, for objects, lists and maps, the value is not nil), under the JSON name of the attribute and in attribute order; classes also carry kind, and id and href when set.", "quantifier": "all objects", "why_tests_cant": "All subsets of attributes.", "anchors": ["pkg/generators/golang/json_generator.go: generateStructTypeSource"]}
{"id": "C38", "title": "Writing and reading an object gives back the same object", "statement": "Reading the output of the generated writer gives the original object, for every schema with different JSON names and every object whose maps have no empty key, whose dates have whole seconds, and that contains no nil in lists. (Without those restrictions it fails: an empty map key ends the object early, sub second precision is dropped, links to lists lose their address.)", "quantifier": "all schemas and objects of any depth", "why_tests_cant": "Round trip over recursive data.", "anchors": ["pkg/generators/golang/json_generator.go"]}
{"id": "C39", "title": "Reading tolerates reordered and unknown members", "statement": "Reading an object gives the same result whatever the order of its members and whatever unknown members it contains; if a member is repeated the last one wins.", "quantifier": "all documents", "why_tests_cant": "All permutations and all unknown members.", "anchors": ["pkg/generators/golang/json_generator.go: generateStructTypeSource (readX)"]}
{"id": "C40", "title": "Query parameter parsing", "statement": "Reading a query parameter of type integer, float, string, boolean or date gives no value if it is absent, an error if it is repeated or malformed, and otherwise the value that the text denotes; default values are used exactly when it is absent. For parameters of other types the generated code doesn't compile.", "quantifier": "all query strings", "why_tests_cant": "All query values.", "anchors": ["pkg/generators/golang/json_generator.go: generateHelpers (ParseInteger, ParseBoolean, ParseFloat, ParseString, ParseDate), generateReadQueryParameter"]}
{"id": "C41", "title": "Getters return what the builder was given", "statement": "After any sequence of setter calls on a builder, building succeeds and the getter of each attribute returns the value last set and reports it as present, attributes never set are absent and give the zero value, and the setter of an attribute never affects another attribute.", "quantifier": "all sequences of setter calls, all attributes", "why_tests_cant": "All call histories.", "anchors": ["pkg/generators/golang/builders_generator.go: generateStructBuilderSource", "pkg/generators/golang/types_generator.go: generateStructTypeSource"]}
{"id": "C42", "title": "Copying an object into a builder and building gives an equal object", "statement": "Copying an object into a builder, whatever the previous state of the builder, and building gives an object equal to the copied one. (False: empty maps become nil, nil items of lists become empty objects, the link and address of lists are dropped, and copying nil keeps the previous values.)", "quantifier": "all objects, all builder states", "why_tests_cant": "All objects and all previous builder states.", "anchors": ["pkg/generators/golang/builders_generator.go: Copy, Build"]}
{"id": "C43", "title": "Link flag of builders", "statement": "Setting the link flag of a builder to false leaves an object that is not a link. (False: the argument is ignored.)", "quantifier": "all call histories", "why_tests_cant": "All call histories.", "anchors": ["pkg/generators/golang/builders_generator.go: Link"]}
{"id": "C44", "title": "Empty objects", "statement": "An object or builder is empty exactly if no attribute (other than the link flag) has a value; nil is empty.", "quantifier": "all bitmaps", "why_tests_cant": "All bitmaps.", "anchors": ["pkg/generators/golang/types_generator.go: Empty", "pkg/generators/golang/builders_generator.go: Empty"]}
{"id": "C45", "title": "List accessors", "statement": "For every list, including nil: the length is the number of items, getting an index in range returns that item and any other index (negative included) returns nil, iterating visits the items in order and stops at the first item rejected, and the copied slice has the same items.", "quantifier": "all lists, indexes and visitor functions", "why_tests_cant": "All lists, indexes and functions.", "anchors": ["pkg/generators/golang/types_generator.go: Len, Get, Slice, Each, Range, Empty"]}
{"id": "C46", "title": "Polling stops and returns only what was asked for", "statement": "Polling requires a deadline and a positive interval, always stops by the deadline plus one task execution, returns without error only a result whose status is expected and that satisfies all predicates unless the deadline was reached, and stops immediately on communication errors.", "quantifier": "all sequences of task results, statuses and predicates, all clocks that advance", "why_tests_cant": "All schedules of responses.", "anchors": ["pkg/generators/golang/helpers_generator.go: PollContext, evalStatus, evalPredicates"]}
{"id": "C47", "title": "Interpretation of responses by clients", "statement": "Sending a request returns an error if the transport fails, if the status is 400 or more and the body holds an error, or if the body is malformed; otherwise it returns the parsed body. Every status of 400 or more is reported as an error. (The last part is false for empty bodies; and the metadata request reports EOF for an empty body where the others report success.)", "quantifier": "all responses", "why_tests_cant": "All statuses and bodies.", "anchors": ["pkg/generators/golang/clients_generator.go: SendContext, MetadataRequest.SendContext"]}
{"id": "C48", "title": "URL sent by clients", "statement": "The path of the request created by following any chain of locators and then a method is the service path, the version segment, the segment or identifier of each locator and the action segment, in order, and agrees with the path template published in the OpenAPI specification.", "quantifier": "all chains of locators, identifiers and methods", "why_tests_cant": "All chains.", "anchors": ["pkg/generators/golang/clients_generator.go: generateResourceClientSource, generateServiceClientSource", "pkg/generators/openapi/openapi_generator.go: absolutePath"]}
{"id": "C49", "title": "Query assembly does not alter the request", "statement": "Sending adds to the query the explicitly set query parameters only, in order, after those added by hand, and sending the same request again sends the same query and headers.", "quantifier": "all requests, all numbers of sends", "why_tests_cant": "All histories of sends.", "anchors": ["pkg/generators/golang/helpers_generator.go: AddValue, CopyQuery, CopyHeader", "pkg/generators/golang/clients_generator.go: SendContext"]}
{"id": "C50", "title": "Path segments", "statement": "Splitting a path in segments ignores leading and trailing slashes: joining the segments gives the path without them.", "quantifier": "all paths", "why_tests_cant": "All paths.", "anchors": ["pkg/generators/golang/helpers_generator.go: Segments"]}
{"id": "C51", "title": "Errors survive a round trip", "statement": "Writing and reading back an error gives the same error and statuses received with a response override the one in the body; the text of an error mentions exactly the attributes that have a value, and is never empty.", "quantifier": "all errors, all subsets of attributes", "why_tests_cant": "2^8 subsets with arbitrary values.", "anchors": ["pkg/generators/golang/errors_generator.go: writeError, readError, Error, UnmarshalErrorStatus"]}
{"id": "C52", "title": "Status codes of error responses", "statement": "Sending an error answers with the status given by the numeric identifier of the error; errors whose identifier is not numeric are answered as internal errors (500). (False: the fallback never sets a status, so it is answered as 200.)", "quantifier": "all errors", "why_tests_cant": "All identifiers.", "anchors": ["pkg/generators/golang/errors_generator.go: SendError, SendPanic, SendNotFound"]}
{"id": "C53", "title": "The OpenAPI buffer writes well formed JSON", "statement": "For every properly nested sequence of calls the OpenAPI buffer writes exactly one comma between consecutive members or items and none elsewhere.", "quantifier": "all properly nested call sequences, of any depth", "why_tests_cant": "All call sequences.", "anchors": ["pkg/generators/openapi/buffer.go: StartObject, EndObject, StartArray, EndArray, Field, Item"]}
{"id": "C54", "title": "References of the OpenAPI specification resolve", "statement": "Every schema reference written in the specification of a version names a schema written in the same specification, for every version whose types refer only to types of the same version.", "quantifier": "all versions", "why_tests_cant": "All type graphs.", "anchors": ["pkg/generators/openapi/openapi_generator.go: generateSchemaReference, generateComponents, generateSchema"]}
{"id": "C55", "title": "Path templates and path parameters of the OpenAPI specification agree", "statement": "For every path the variables in the template are exactly the path parameters listed in each of its operations, in the same order.", "quantifier": "all paths and methods", "why_tests_cant": "All locator chains.", "anchors": ["pkg/generators/openapi/openapi_generator.go: absolutePath, generateURLParameters, generatePathParameter"]}
{"id": "C56", "title": "Keys of the OpenAPI specification are unique", "statement": "The objects of the specification do not contain repeated keys. (False: methods sharing a verb repeat the verb key, a root resource with methods repeats the metadata path, and a type named Metadata or Error repeats a schema.)", "quantifier": "all versions", "why_tests_cant": "All versions.", "anchors": ["pkg/generators/openapi/openapi_generator.go: generatePaths, generateResourcePaths, generateComponents"]}
{"id": "C57", "title": "Documentation summaries", "statement": "The summary of a documentation text is its first sentence, or all of it if it has no dot, and contains no line breaks. (False: line breaks stay when there is no dot, and words at the end of a line are glued to the next.)", "quantifier": "all documentation texts", "why_tests_cant": "All texts.", "anchors": ["pkg/generators/docs/docs_generator.go: docSummary"]}
{"id": "C58", "title": "Links of the documentation index", "statement": "Every link of the documentation index points to a generated page and different concepts have different pages. (False: the index links built-in and list types that have no page and pages of different services overwrite each other.)", "quantifier": "all models", "why_tests_cant": "All models.", "anchors": ["pkg/generators/docs/docs_generator.go: documentIndex, Run, fileName"]}
{"id": "C59", "title": "The metrics path tree describes exactly the served paths", "statement": "A URL path is a branch of the generated path tree if and only if it corresponds to a chain of locators from the root of a version, with variables replaced by a dash, optionally followed by an action, provided that labels do not clash.", "quantifier": "all accepted models, all paths", "why_tests_cant": "All graphs and paths.", "anchors": ["pkg/generators/golang/metrics_generator.go: Run, resourceBranch"]}
{"id": "C60", "title": "The type of a reference is the type that was written", "statement": "A reference to a list or map of some types resolves to a list or map of exactly those types. (False when the computed name clashes: a declared type named ClusterList captures references to lists of Cluster, and maps of different types can have the same computed name.)", "quantifier": "all type names and references", "why_tests_cant": "All pairs of names.", "anchors": ["pkg/language/reader.go: ExitListTypeReference, ExitMapTypeReference"]}
{"id": "C61", "title": "Incomplete models are rejected with a message", "statement": "Checking a version always finishes: a version that has no root resource, or whose locators have no target, is rejected with an error message. (False: after sending the message the loop check dereferences the missing root or target and the reader crashes.)", "quantifier": "all versions, with or without root, all resource graphs", "why_tests_cant": "Tests only cover complete models; the claim is about every shape of model, including broken ones.", "anchors": ["pkg/language/checks.go:checkVersion", "pkg/language/checks.go:checkLocatorLoops", "pkg/language/checks.go:checkLocatorPathLoops"]}
{"id": "C62", "title": "A model is accepted exactly when every version, method and path is", "statement": "The checks of a model report no error if and only if, for every version, all the methods of all its resources satisfy their rules and no chain of locators from the root visits the same resource twice; the checks of one version never hide or cause errors of another.", "quantifier": "all models, with any number of services, versions, resources and methods", "why_tests_cant": "It relates the verdict with every combination of parts of arbitrarily large models.", "anchors": ["pkg/language/checks.go:checkModel", "pkg/language/checks.go:checkVersion", "pkg/language/checks.go:checkMethod"]}
{"id": "C63", "title": "Members of generated requests and responses do not clash", "statement": "For every method the struct generated for its request, and the one for its response, declare each field and each method once, whatever the names of the parameters; and two methods of one version never generate request types of the same name. (False: only err, status, Error and Status are avoided, so a parameter named Path, Query, Header or Transport repeats a field; and resource Cluster with action NodeDelete clashes with resource ClusterNode and method Delete.)", "quantifier": "all methods, parameters, names and annotations", "why_tests_cant": "The clash depends on the names that the author of the model chooses; no finite set of models covers them.", "anchors": ["pkg/generators/golang/clients_generator.go:avoidBuiltin", "pkg/generators/golang/clients_generator.go:builtinFields", "pkg/generators/golang/clients_generator.go:requestName"]}
{"id": "C64", "title": "Package clause of generated files", "statement": "The name in the package clause of a generated file is the last dash separated part of the name of its directory, ignoring a final -go, so that it never contains dashes. (False for directories that start with the only dash.)", "quantifier": "all directory names", "why_tests_cant": "The name is chosen by the user of the tool; it must be right for every combination of dashes and suffixes.", "anchors": ["pkg/generators/golang/buffer.go:cleanPkg"]}
{"id": "C66", "title": "Bodies of requests and responses", "statement": "The body of a request holds the input parameters that travel in the body: the value itself for add, update, search and post methods, nothing for get, list and delete methods, and for actions an object with one member for each input parameter that has been set, in order. Reading a response gives each output parameter the value of the last member of the body with its name, whatever the order of the members, ignores members with other names, leaves the other parameters alone, and fails exactly when the value of a member for an output parameter isn't valid.", "quantifier": "all methods that pass the checks, all values of the parameters, all response bodies", "why_tests_cant": "Unit tests exercise a handful of methods with fixed bodies; the property must hold for every method of every model and every document the server can send.", "anchors": ["pkg/generators/golang/json_generator.go: generateMethodSource, generateAddMethodSource ... generateActionMethodSource, generateReadBodyParameter, generateWriteBodyParameter, generateMetadataSupport", "pkg/generators/golang/clients_generator.go: SendContext template"]}
{"id": "C67", "title": "Fields used by the JSON code exist", "statement": "The code that reads and writes requests and responses uses, for each parameter, the field that the type of the request or response has for it.", "quantifier": "all parameters of all methods", "why_tests_cant": "It depends on the name of the parameter; the generated code is only compiled for the models used in tests.", "anchors": ["pkg/generators/golang/json_generator.go: parameterFieldName", "pkg/generators/golang/clients_generator.go: fieldName, avoidBuiltin"]}
{"id": "C68", "title": "The OpenAPI specification describes exactly the version", "statement": "Whenever the specification of a version is written it is exactly the document that corresponds to the version: one operation for each method of each resource reachable from the root, one schema for each enumerated and struct type, and the schemas of metadata and errors. It is written if and only if no errors were reported before, the version has a root, its paths can be listed and all the types used can be described.", "quantifier": "all versions, all numbers of previously reported errors", "why_tests_cant": "All resource graphs, types, methods and annotations; tests compare a handful of generated specifications.", "anchors": ["pkg/generators/openapi/openapi_generator.go: generateSpec, generateSpecSource, generatePaths, generateComponents", "pkg/generators/openapi/buffer.go: Buffer"]}
{"id": "C65", "title": "Classes that refer to classes of other services", "statement": "After the declaration of a class with the annotation ref, the version has under the name of the class the class of the other service with all its attributes, and all the types that it needs except those that are only the target of links, as types of its own; links to types that the version doesn't declare with references remember the version that owns the type; nothing else of what was loaded changes, and references that are not right are reported as errors. Models without references are not affected.", "quantifier": "all models, services, versions, references and states of the reader", "why_tests_cant": "All graphs of types, orders of declarations and sets of types declared with references; termination on every graph.", "anchors": ["pkg/language/reader.go: ExitClassDecl, removeLinkedAttributes, handleClassRef, recursivelyAddTypeToVersion", "pkg/annotations/annotations.go: ReferencePath", "pkg/concepts/type.go: IsBasicType, SetOwner, SetExplicitDeclared", "pkg/concepts/attribute.go: LinkOwner"]}
{"id": "C69", "title": "The reader accepts exactly the texts of the language", "statement": "A text is accepted without syntax errors exactly when its tokens, up to the end or up to the first one that can't start a declaration, are a sequence of declarations of the grammar, and the result is the tree of those declarations, which is unique.", "quantifier": "all texts, all sequences of declarations", "why_tests_cant": "There are infinitely many texts and nestings; tests parse a few files.", "anchors": ["pkg/language/ModelParser.g4", "pkg/language/model_parser.go: File, Declaration, EnumDecl, ClassDecl, StructDecl, ResourceDecl, ErrorDecl", "pkg/language/reader.go: loadFile"]}
{"id": "C70", "title": "The text of a file is divided in tokens by longest match", "statement": "Each token is the longest text that matches some lexical rule, with keywords before names; blanks and block comments are skipped, line comments are recorded with their line, tokens have the line where they start, and the process always ends.", "quantifier": "all texts", "why_tests_cant": "All combinations of characters, quotes and comments.", "anchors": ["pkg/language/ModelLexer.g4", "pkg/language/model_lexer.go"]}
{"id": "C71", "title": "Blanks and comments don't change the meaning", "statement": "Two texts with the same tokens and different blanks and comments are both accepted or both rejected, and give the same trees except for line numbers.", "quantifier": "all texts and all layouts", "why_tests_cant": "All the ways to lay out all the texts.", "anchors": ["pkg/language/ModelLexer.g4: LINE_COMMENT, BLOCK_COMMENT, WS"]}
{"id": "C72", "title": "Everything in a file is read or reported", "statement": "If no error is reported for a file then all the tokens of the file are part of its declarations.", "quantifier": "all texts", "why_tests_cant": "A file with trailing text looks like one that is right; all possible trailing texts must be considered.", "anchors": ["pkg/language/ModelParser.g4: file", "pkg/language/model_parser.go: File"]}
{"id": "C73", "title": "Any name can be used", "statement": "Every word that is a valid identifier can be the name of a type, attribute, value, parameter, method, locator, resource or error; the trees that can be written are exactly those with valid names and literals.", "quantifier": "all trees", "why_tests_cant": "All names and all combinations of declarations.", "anchors": ["pkg/language/ModelLexer.g4: keywords, IDENTIFIER", "pkg/language/ModelParser.g4: identifier"]}
{"id": "C74", "title": "Literals have the values that are written", "statement": "Integers have their decimal value if it fits in 64 bits, strings with back quotes are verbatim, strings with double quotes have the escape sequences of Go, every text can be written as a string, and an error is reported exactly for literals that don't have a value. Parameters of annotations have the last value that is given to them.", "quantifier": "all literals and annotations", "why_tests_cant": "All texts of literals and all escape sequences.", "anchors": ["pkg/language/reader.go: ExitIntegerLiteral, ExitStringLiteral, ExitLiteral, ExitAnnotation, ExitAnnotationParameters", "pkg/language/ModelLexer.g4: INTEGER_LITERAL, STRING_LITERAL"]}
{"id": "C75", "title": "Declarations are read with their names, values and documentation", "statement": "Every declaration, member and parameter of a file is read with the names, types, values and annotations that are written for it and with the documentation that is right before it; if a literal has no value or the syntax is wrong an error is reported.", "quantifier": "all texts", "why_tests_cant": "The documentation is taken from a shared map that each node modifies; all the sequences of nodes and comments must be considered.", "anchors": ["pkg/language/reader.go: loadFile, getDoc, ExitEnumDecl, ExitClassDecl, ExitStructDecl, ExitResourceDecl, ExitErrorDecl and the callbacks of their members"]}
{"id": "C76", "title": "Each version of a model has exactly the content of its own files", "statement": "For inputs with any number of services and versions, if everything can be read and the declarations of each version are acceptable on their own, no errors are reported, the model has exactly the versions that have directories, and the types, resources and errors of each version are exactly those that its own files describe, plus the lists of its types: the other services and versions have no effect.", "quantifier": "all inputs, services, versions, files and declarations", "why_tests_cant": "The reader has global tables shared by all the versions; all the combinations of services, versions and contents must be considered.", "anchors": ["pkg/language/reader.go: Read, loadModel, loadService, loadVersion, loadFiles, findOrMakeType, reportUndefinedTypes, reportUndefinedResources", "pkg/concepts/model.go: AddService, FindService", "pkg/concepts/service.go: AddVersion, FindVersion", "pkg/concepts/version.go: NewVersion, AddType, FindType, AddResource, AddError"]}
{"id": "C77", "title": "The model that is returned is the one that is written in the texts of the files", "statement": "For the texts of any number of files, if all the directories and files can be read, every text has the right syntax, its literals have values, its comments are well formed and each element starts in its own line, and the names of each version are acceptable, then no errors are reported, the model has exactly the versions that have directories, each version has exactly the types, resources and errors that its own texts describe, and the model is returned if the checks find no errors. In the other direction, a model is returned only if all the directories and files can be read, all the texts have the right syntax and all their literals have values.", "quantifier": "all file systems and all texts of files", "why_tests_cant": "It must hold for every text and every combination of files, versions and services; tests use a few files.", "anchors": ["pkg/language/reader.go: Read, loadModel, loadService, loadVersion, loadFile, getDoc, all the Exit callbacks", "pkg/language/ModelLexer.g4", "pkg/language/ModelParser.g4", "pkg/language/errors.go: SyntaxError"]}
{"id": "C78", "title": "The types written in the generated Go code are those of the model", "statement": "In the generated Go code the fields and getters of an object, the fields and setters of its builder, what Copy and Build assign, the fields, setters and getters of requests and responses, and the zero values, all have the Go type that corresponds to the type of the attribute or parameter in the model, written with the package it belongs to; the file imports exactly that package; and an attribute whose type isn't supported is reported as an error. (False in general: enumerated types of other versions are written without package, references to versions whose names have several words use a package name that doesn't exist, versions of different services with the same name share the package name, setters of map parameters of requests and getters of interface parameters of responses don't have the right type.)", "quantifier": "every base package, every version, every attribute and parameter of every type, links or not, with the type declared in any version", "why_tests_cant": "the result depends on the kind of the type and of its element, on the link flag, on the names of the versions and on where the type is declared; tests only compile a few combinations", "anchors": ["pkg/generators/golang/types_calculator.go: ValueReference, NullableReference, ListReference, BuilderReference, StructReference, EnumReference, ZeroValue, Package", "pkg/generators/golang/types_generator.go: fieldType, getterType", "pkg/generators/golang/builders_generator.go: fieldType, setterType, selectorType, generateStructBuilderSource", "pkg/generators/golang/clients_generator.go: fieldType, accessorType, generateRequestSource, generateResponseSource", "pkg/generators/golang/buffer.go: Import, replaceValue"]}
{"id": "C79", "title": "Generating the Go code writes exactly the files that the model asks for, each with its own content, and stops at the first error", "statement": "For every model, the command that generates Go code writes one file for each version, struct, enumerated type, builder, service, resource and reader or writer of JSON, in the directory of its version, plus the fixed files of errors, helpers and metrics, and touches no other file. No file overwrites another one, so each file contains the code of the element it is for, and the OpenAPI specification embedded for a version is that of the version. If an error is reported while the content of a file is generated, or a file can't be written, then the command finishes with a code that isn't zero, that file isn't written, and no file of a later generator is touched. The commands finish with code zero exactly if the options are given, the model can be read and everything is generated.", "quantifier": "all models, all contents of the output directory before, all sets of errors reported while files are generated and all sets of files that can't be written", "why_tests_cant": "Whether two of the files of a model have the same name depends on all the names of the model, and the state left by a failure depends on which of the files fails", "anchors": ["pkg/generators/golang/types_generator.go:TypesGenerator.Run", "pkg/generators/golang/builders_generator.go:BuildersGenerator.Run", "pkg/generators/golang/clients_generator.go:ClientsGenerator.Run", "pkg/generators/golang/json_generator.go:JSONSupportGenerator.Run", "pkg/generators/golang/errors_generator.go:ErrorsGenerator.Run", "pkg/generators/golang/openapi_generator.go:OpenAPIGenerator.Run", "pkg/generators/golang/buffer.go:Buffer.Write", "pkg/generators/openapi/openapi_generator.go:OpenAPIGenerator.Run", "pkg/generators/openapi/names_calculator.go:FileName", "cmd/metamodel/generate/golang/cmd.go:run", "cmd/metamodel/generate/openapi/cmd.go:run", "cmd/metamodel/check/cmd.go:run"]}
{"id": "C80", "title": "The messages say exactly what is wrong with the model, and where", "statement": "For every history of messages, the errors are written in order to the error stream, the other messages in order to the output stream, the number of errors is the number of times that an error was reported, and the error returned to the caller is the text written. The elements of the model are written in the messages with the names of all their owners, so that elements with different names are told apart. For every method, the errors reported by the checks are exactly its flaws: each message names the parameter that has the flaw, its kind or the number of parameters found, and no flaw goes without its message.", "quantifier": "all histories of calls to the reporter, all formats and arguments, all methods with any number of parameters of any kinds, directions and default values", "why_tests_cant": "A test sees the messages of a few wrong methods; that no wrong method goes without a message, and that no message blames the wrong parameter, ranges over all the combinations of parameters", "anchors": ["pkg/reporter/reporter.go:Reporter.Infof", "pkg/reporter/reporter.go:Reporter.Warnf", "pkg/reporter/reporter.go:Reporter.Errorf", "pkg/reporter/reporter.go:Reporter.printf", "pkg/reporter/reporter.go:Reporter.fqn", "pkg/language/checks.go:Reader.checkMethod", "pkg/language/checks.go:Reader.checkDelete", "pkg/language/checks.go:Reader.checkParameter"]}
{"id": "C81", "title": "The pages of the documentation say exactly what the model says", "statement": "For every model, generating the documentation never fails because of what the model contains, and writes one page for the index, for each resource and for each enumerated type, struct and class. Each page has exactly the lines that correspond to the names, the documentation and the verbs of the elements of the model: a table with the summaries of the members, and a section for each of them, in order. The only change made to the documentation is the removal of the tabs at the start and of the white space at the end of each line. The command returns zero if and only if the options are given, the model is read without errors and all the pages can be written; if one can't be written then the pages before it have been written and no other file is changed.", "quantifier": "all models with any number of services, versions, resources, methods, parameters, types, attributes and values, with any names and documentation, all sets of files that can't be written, and all previous contents of the files", "why_tests_cant": "A test compares the page of one small model; that no combination of present and absent members, or of documentation, breaks the page ranges over unbounded trees and texts", "anchors": ["pkg/markdown/buffer.go:Buffer.Emit", "pkg/markdown/buffer.go:Buffer.Write", "pkg/markdown/buffer.go:Buffer.removeTabs", "pkg/generators/docs/docs_generator.go:DocsGenerator.Run", "pkg/generators/docs/docs_generator.go:DocsGenerator.documentIndex", "pkg/generators/docs/docs_generator.go:DocsGenerator.documentResource", "pkg/generators/docs/docs_generator.go:DocsGenerator.documentEnum", "pkg/generators/docs/docs_generator.go:DocsGenerator.documentStruct", "cmd/metamodel/generate/docs/cmd.go:run"]}
{"id": "C82", "title": "Dates that are sent are received as the same point in time", "statement": "Every date given to the generated code arrives at the other side as the same point in time: in JSON documents with the offset of its location, in query parameters converted to UTC, and in the timestamps of errors with its fraction of second. The texts accepted for dates are exactly those of RFC 3339 that name a day and a time that exist. (False in general: fractions of seconds are lost in documents and query parameters, years after 9999 and before zero can't be read back, and offsets that aren't a number of minutes shift the date. The theorems say exactly which dates survive.)", "quantifier": "all dates of all years, with any time of the day, fraction of second and offset, and all texts", "why_tests_cant": "The domain is the set of all instants and all offsets, and of all the texts; tests take a few dates, usually recent and without fractions, and leap years and centuries break only at special points.", "anchors": ["pkg/generators/golang/json_generator.go: generateReadValue, generateWriteValue, ParseDate", "pkg/generators/golang/helpers_generator.go: AddValue", "pkg/generators/golang/errors_generator.go: readErrorTimestamp, writeError"]}
{"id": "C83", "title": "The generated packages declare each name once and declare every name that they use", "statement": "The constants, variables, types and functions that all the generators put in the package of a version are exactly those that derive from its types, resources, methods and errors, and no name is declared twice. The functions and types used by the code that writes and reads attributes and by the clients are declared in the package. (False in general: a name of the model that looks like a name derived from another one, like a class FooList next to a class Foo, breaks the generated package, and so do lists of lists. The theorems say when each name is declared once.)", "quantifier": "all versions with any number of types, attributes, resources, methods, locators and errors, with any names and annotations", "why_tests_cant": "The names interact: a clash needs a pair of names out of all the pairs of derived names, so tests with some models can't show that no pair of names clashes.", "anchors": ["pkg/generators/golang/types_generator.go: generateTypeSource, listName", "pkg/generators/golang/builders_generator.go: builderName, builderCtor", "pkg/generators/golang/json_generator.go: writeTypeFunc, readTypeFunc, generateReadValue, generateWriteValue", "pkg/generators/golang/clients_generator.go: clientName, requestName, pollRequestName, generateResourceClientSource", "pkg/generators/golang/errors_generator.go: errorName", "pkg/generators/golang/openapi_generator.go: generateSpec"]}
{"id": "C84", "title": "The fields and methods of the generated types have different names", "statement": "Every type generated for an object, a list, a builder, a client, a request, a response or for polling has fields and methods with different names, so that it compiles. (False in general: nothing prevents attributes called Kind, ID, Empty or Copy, an attribute GetFoo next to Foo, a method and a locator with the same name, a method Get of the root, or a parameter Interval of a method Get. The theorems say exactly which names clash.)", "quantifier": "all types with any attributes, all resources with any methods and locators, all methods with any parameters, all services with any versions, with any names and annotations", "why_tests_cant": "A clash depends on the combination of names and on the annotations; tests only have some models, and the names that clash aren't in them because the models wouldn't compile.", "anchors": ["pkg/generators/golang/types_generator.go: generateStructTypeSource, fieldName, getterName", "pkg/generators/golang/builders_generator.go: generateStructBuilderSource, setterName", "pkg/generators/golang/clients_generator.go: generateResourceClientSource, generatePollMethodSource, generateRequestSource, generateResponseSource, generateServiceClientSource"]}
{"id": "C85", "title": "Go code is generated for the models accepted by the reader", "statement": "If the reader accepts a model and all the files can be written then generating the Go code succeeds, and it never crashes. (False in general: the reader accepts attributes and parameters whose types are lists of lists, maps of lists or maps of maps, classes of more than 61 attributes, a second parameter named Items, and versions with two errors; the generators report errors for them. The theorems say exactly which accepted models are generated, and that none of them makes the generators crash.)", "quantifier": "all models accepted by the reader, with any services, versions, types, resources, methods and parameters, all output directories where some files can be written and others can't, and all base packages", "why_tests_cant": "The result depends on the combination of checks of the reader and of the shapes of the types supported by seven generators; tests only generate a few models.", "anchors": ["pkg/generators/golang/types_calculator.go: ValueReference, NullableReference, StructReference, ListReference, EnumReference, BitmapType", "pkg/generators/golang/types_generator.go: generateStructTypeSource", "pkg/generators/golang/builders_generator.go: generateStructBuilderSource, generateListBuilderSource, builderName", "pkg/generators/golang/json_generator.go: generateReadValue, generateMethodSource", "pkg/generators/golang/clients_generator.go: generateResourceClientSource, generatePollMethodSource", "pkg/language/checks.go: checkMethod"]}
{"id": "C86", "title": "Go code is generated for the directories that are read without errors", "statement": "If the files of a model are read without errors and the output can be written, the command that generates Go code writes all the files and finishes without errors; if they aren't read without errors nothing is written and the command fails; and the generators never crash with a model returned by the reader. (The first part is false in general: a list or map of a predefined list, like []StringList, a class of more than 61 attributes, or a version with two errors, is read without errors but no code can be generated. The theorems say exactly which declarations are generated.)", "quantifier": "all lists of model directories, with any services, versions, files and declarations, all base packages, output directories where some files can be written and others can't, and previous contents of the output", "why_tests_cant": "It composes the reader, the checks and all the generators over every possible model; tests generate the code of one model.", "anchors": ["cmd/metamodel/generate/golang/cmd.go: run", "pkg/language/reader.go: Read", "pkg/language/checks.go: checkModel", "pkg/concepts/version.go: NewVersion, Types, Resources", "pkg/generators/golang/types_generator.go: Run", "pkg/generators/golang/builders_generator.go: Run", "pkg/generators/golang/json_generator.go: Run", "pkg/generators/golang/clients_generator.go: Run"]}
{"id": "C87", "title": "Which sources are accepted depends only on what is written in them", "statement": "Sources whose declarations are complete and not repeated are accepted exactly if every version has a resource called Root, no chain of locators that starts in it goes through a resource twice, the parameters of the standard methods (Add, Delete, AsyncDelete, Get, List, Post, Search, Update, AsyncUpdate) have the types, directions, names and default values of the documented rules, and default values are of the type of the parameter. If they are accepted the model is returned without errors; if some rule isn't followed an error is returned and the number of errors is reported; if some version has no Root the reader crashes. Accepted sources that can be expressed in Go are the ones for which the command that generates Go code works.", "quantifier": "all lists of model directories, with any services, versions, files, types, resources, methods, parameters and locators, in any order, in any number of files and directories", "why_tests_cant": "The rules are checked on the graph of objects that the reader builds, with pointers to types and resources that are created before or after they are used, and after sorting. That the result only depends on what is written has to be shown for every set of declarations and every order of them; tests check one file for each rule.", "anchors": ["pkg/language/reader.go: Read, ExitMethodParameterDecl, ExitLocatorDecl, ExitResourceDecl", "pkg/language/checks.go: checkModel, checkVersion, checkMethod, checkLocatorLoops", "pkg/concepts/version.go: Root, FindType, Resources", "pkg/concepts/parameter.go: In, Out, Default"]}
{"id": "C88", "title": "The Go types of attributes and parameters are the ones written in the sources", "statement": "For every class, struct, enumerated type and resource declared in the files of a version, the generated Go types belong to the package of the version and have the declared names, each declared attribute has exactly one field and getter, and its Go type is determined by the type written in the file: bool, int, int64, float64, string, time.Time or interface{} for the predefined types, the name of the enumerated type, a pointer for classes and structs, a slice for lists, a map with string keys for maps, and a pointer to the list type for links to lists. The builders use the builders of the objects instead of the objects, for the field, the setter, Copy and Build alike. The fields of requests and responses are the same types made nullable, and their setters and getters use the plain ones. The time package is imported exactly when dates are used. (False in general: the Go name of a type is the one of its first use, which can be written in another way than in the declaration.)", "quantifier": "all lists of model directories, all services and versions, all declarations of classes, structs, enumerated types and resources in any order and in any number of files, all attributes and parameters of any type that can be expressed in Go, and all base packages", "why_tests_cant": "The types that the generators use are pointers created by the reader before or after the declarations are read, possibly in other files; that each field has the type that was written has to be shown for every order and every combination of declarations. Tests look at some fields of one generated model.", "anchors": ["pkg/language/reader.go: ExitPlainTypeReference, ExitListTypeReference, ExitMapTypeReference, ExitStructDecl, ExitClassDecl, ExitMethodParameterDecl", "pkg/generators/golang/types_calculator.go: ValueReference, NullableReference, ListReference, BuilderReference, Package", "pkg/generators/golang/types_generator.go: fieldType, getterType", "pkg/generators/golang/builders_generator.go: fieldType, setterType", "pkg/generators/golang/clients_generator.go: fieldType, accessorType", "pkg/generators/golang/buffer.go: replaceValue"]}
{"id": "C89", "title": "The files of the Go types contain exactly the declarations of the types", "statement": "For every enumerated type, struct and class of a version, the file that is generated contains, in this order and except for blank lines and indentation: the license, the package, the imports, and then exactly the declarations that correspond to the type: the string type and one constant per value for enumerated types; and for structs and classes the constants of the kinds, the structure with the bitmap and one field per attribute, boolean ones at the end, the methods Kind, Link, ID, GetID, HREF, GetHREF and Empty, two getters per attribute that look at the bit of the attribute, and the type of the lists with its methods, with the comments taken from the documentation. The same for the metadata of the version. The imports are the time package and those of the types of fields and getters, once each. If there are errors nothing is written. (False for types that use the 64 bits of the bitmap.)", "quantifier": "all enumerated types, structs and classes with any names, documentation, annotations and number of attributes and values, whatever the types of the attributes, all base packages, and all orders in which the imports are visited", "why_tests_cant": "The code is the result of executing templates with conditions, loops and variables over arbitrary types, and then of removing lines; tests compare or compile what is generated for some fixed models.", "anchors": ["pkg/generators/golang/types_generator.go: generateTypeFile, generateTypeSource, generateEnumTypeSource, generateStructTypeSource, generateVersionMetadataTypeFile, generateVersionMetadataTypeSource", "pkg/generators/golang/buffer.go: Import, Emit, Eval, Write, removeExtraBlankLines, replaceValue, lineComment", "pkg/generators/golang/types_calculator.go: BitMask, BitmapType, ZeroValue, EnumReference"]}
{"id": "C90", "title": "The code in the files of the Go types does what the types promise", "statement": "Running the declarations that the file of a struct or class contains: for an object, or nil, Kind returns the name of the type, of the link or of nil; Link, ID, GetID, HREF, GetHREF, Empty and the two getters of each attribute return the value and flag that the bits of the object say, or the zero value of the type; for a list, or nil, Kind, Link, HREF, GetHREF, Len, Empty, Items and Get return what the list contains, Get returns nil outside of the range, the setters change only that field of that list and panic for nil, Slice returns a new array whose changes don't affect the list, and Each and Range call the function with the items in order till it returns false. The same for the getters of the metadata. Nothing else in memory changes, and nothing panics except the setters of nil.", "quantifier": "all structs and classes whose code compiles, all contents of the memory, all objects, lists and nil, all bitmaps, values of attributes, indexes and functions with any state", "why_tests_cant": "The code of every type is generated, and the results depend on the values and bits of all the objects and on the functions of the caller; tests run the methods of some objects of some types.", "anchors": ["pkg/generators/golang/types_generator.go: generateStructTypeSource, generateVersionMetadataTypeSource", "pkg/generators/golang/types_calculator.go: ZeroValue, BitMask"]}
{"id": "C91", "title": "The files of the builders contain exactly the declarations of the builders", "statement": "For every struct and class of a version, the file of its builder contains, in this order and except for blank lines and indentation: the license, the package, the imports, and then exactly these declarations: the structure with the bitmap and one field per attribute, boolean ones at the end; the constructor; Link, ID and HREF for classes; Empty; one setter per attribute, which stores the value, or a copy for lists that aren't links, and sets the bit of the attribute, or clears it for nil objects and maps; Copy, which copies the bitmap and each attribute, with new builders for objects; and Build, which creates the object from the bitmap and each attribute, building the nested builders and stopping at the first error. For every list of objects the file of its builder contains the structure with the items, the constructor, Items, Empty, Copy and Build. The imports are those of the types of fields and setters, once each. If there are errors nothing is written. (False for types that use the 64 bits of the bitmap.)", "quantifier": "all structs, classes and lists of them with any names, documentation, annotations and number of attributes, whatever the types of the attributes, in the same or other versions, all base packages, and all orders in which the imports are visited", "why_tests_cant": "The code is the result of executing templates with nested conditions on the types of the attributes, loops and variables over arbitrary types; tests compile and run what is generated for some fixed models.", "anchors": ["pkg/generators/golang/builders_generator.go: generateStructBuilderFile, generateStructBuilderSource, generateListBuilderFile, generateListBuilderSource, generateStructListBuilderSource, builderCtor, builderName, objectName, fieldType, setterType, selectorType, valueType", "pkg/generators/golang/buffer.go: Emit, Eval, Write", "pkg/generators/golang/types_calculator.go: BitMask, BitmapType, BuilderReference, ValueReference"]}
{"id": "C92", "title": "Running the code of the builders does what the builders promise", "statement": "Running the declarations that the files of the types and builders contain, in a program with any number of packages: the constructors create an empty builder in a new position of the memory; Link, ID, HREF, the setters of the attributes and Items change only that builder, in the way that the model of the builders says, and return the same builder; lists given to setters and Items are copied; Empty returns whether no attribute is set, and true for nil; and Build returns, with no error, the object or list that the model says, made only of new positions of the memory, without changing anything else, following nested builders, lists, maps and links in any package and to any depth; it panics exactly when the model says, for the nil builders inside of lists and maps.", "quantifier": "all structs and classes whose code compiles, in any number of packages that use each other, all memories that contain builders with any sharing between them, all arguments and all histories of calls", "why_tests_cant": "The code of every builder is generated, and what Build returns depends on all the builders that can be reached and on how they are shared; tests build some objects of some types.", "anchors": ["pkg/generators/golang/builders_generator.go: generateStructBuilderSource, generateListBuilderSource, generateStructListBuilderSource", "pkg/generators/golang/types_generator.go: generateStructTypeSource"]}
{"id": "C93", "title": "Running the copies of the generated builders copies everything and shares nothing", "statement": "Running the method Copy that the files of the builders contain, for builders of objects and of lists: it changes only that builder, in the way that the model of the builders says, replacing each attribute with a copy of the value of the object, creates the builders of nested objects, lists and maps in new positions of the memory, and returns the same builder; copying nil does nothing, for builders of objects, and removes the items, for builders of lists. So creating a builder, copying an object and building it gives, with no error, an object made only of new positions of the memory, without changing anything that was in the memory, that is equal to the first one except that empty maps are nil, nil elements of lists and maps are empty objects, and lists that are links have no link flag and no address and always have items.", "quantifier": "all structs and classes whose code compiles, in any number of packages that use each other, all builders with any content, and all objects of any depth, in memories with any sharing", "why_tests_cant": "The code of every builder is generated, and whether a copy shares memory with the original depends on each attribute and on the depth of the object; tests copy some objects of some types.", "anchors": ["pkg/generators/golang/builders_generator.go: generateStructBuilderSource, generateListBuilderSource, generateStructListBuilderSource"]}
{"id": "C94", "title": "The generated code of every model is a program that runs as the model of the generated code says", "statement": "Take any model that is read and any of its versions, such that everything that they use is defined and the names of types and versions can be used in Go. Then a Go program that contains the declarations that the generated files of those types contain, with perhaps other things, and where nothing is declared twice, is a program like the ones that the properties about running generated code are about: each field of each structure has the zero value of the type of its attribute, the bits of attributes in structures and builders are the same, and each name of another structure or builder used in the code of a package is that of one that exists, in the package where the code looks for it. So, for the types of every such model, running the methods of attributes gives the values of attributes, and creating a builder, copying an object and building gives a new object equal to the first one. The types that this is about are the same that the readers and writers of JSON use, when the declarations of each version are good.", "quantifier": "all models that are read, any selection of their versions, all Go programs that contain the code of their types, and all objects, of any depth and with any sharing", "why_tests_cant": "Whether the code of one type can be used with the code of the others depends on all the types of the model: lists, maps, links, enumerated types and their names; tests generate code for one model.", "anchors": ["pkg/generators/golang/types_calculator.go: ValueReference, NullableReference, Package", "pkg/generators/golang/types_generator.go: fieldType, getterType, zeroValue", "pkg/generators/golang/builders_generator.go: builderFieldType, builderSetterType", "pkg/language/reader.go: Read"]}
{"id": "C95", "title": "The files of the JSON support contain exactly the declarations that they should", "statement": "For every struct, class or list of a model, the file of its JSON support is written if and only if no error has been reported before and all the types that it refers to can be calculated. When it is written it contains, except for blank lines and indentation, exactly the package clause, the imports and four functions, with their comments: one that writes values to a writer, one that writes them to a stream, one that reads them from a source and one that reads them from an iterator. The body of the writer has the kind, identifier and link of the classes, and then each attribute, in order, with the bit that says if it is present, the name of its JSON field and the code for its type, including maps of any depth and links to lists; the body of the reader has one case for each of them, and one that ignores other fields. The imports are those of the libraries, those of the versions of the links and those of the referenced types, once each, and never that of the package itself.", "quantifier": "all the struct, class and list types, with any number of attributes, any nesting of maps, any names and annotations, and any order of the imports", "why_tests_cant": "The templates are executed for unboundedly many types and combinations of links, maps, lists and versions; tests look at the code generated for a few of them.", "anchors": ["pkg/generators/golang/json_generator.go: generateStructTypeSupport, generateStructTypeSource, generateListTypeSupport, generateListTypeSource, generateReadValue, generateWriteValue, readTypeFunc, writeTypeFunc, readRefTypeFunc, writeRefTypeFunc, marshalTypeFunc, unmarshalTypeFunc, selectorFromLinkOwner", "pkg/generators/golang/buffer.go: Emit, Eval, Import, Write"]}
{"id": "C96", "title": "Running the generated code that writes JSON sends exactly the document of the value", "statement": "When the generated functions are executed, with any Go memory that contains a value of a type of the model, the function that writes it to a stream adds to the stream exactly the document that the rules for JSON give for the value (kind, identifier and link of classes, the attributes that are present, in order, with commas only between them, the keys of the maps sorted, links to lists wrapped in an object with the items), and changes nothing else that the program can see; it panics exactly when the rules say that there is no document, because of a nil pointer. The function that writes it to a writer creates an empty stream, sends the same document to the writer, and returns an error if and only if the writer fails. The same is true for lists.", "quantifier": "all the sets of types, in any number of packages that refer to each other, including types that refer to themselves; all the values of those types, of any size, whatever their place in memory and whether their parts are shared; all the states of the writer", "why_tests_cant": "The values are unbounded and recursive, and the order of the keys of Go maps changes from one execution to another; tests write a few values.", "anchors": ["pkg/generators/golang/json_generator.go: generateStructTypeSource", "pkg/generators/golang/json_generator.go: generateListTypeSource", "pkg/generators/golang/json_generator.go: generateWriteValue"]}
{"id": "C97", "title": "Running the generated code that reads JSON gives exactly the value of the document, and never panics", "statement": "When the generated functions are executed with any document, the function that reads a value of a type from an iterator returns exactly the value that the rules for JSON give for the document (attributes found by their JSON names, whatever their order, with their bits set; the last one if repeated; unknown fields ignored; the kind, identifier and link of classes; links to lists unwrapped), built only with new positions of the memory, and leaves the iterator just after the value; if the rules reject the document then the iterator has an error. Nothing that was in the memory changes, and there is no panic whatever the document is. The function that reads from a source returns that value and no error, or an error, also if the source can't be read. The same is true for lists. A document written by the generated code is read back, by any other execution, as the same value.", "quantifier": "all the sets of types, in any number of packages that refer to each other, including types that refer to themselves, where the elements of lists and maps aren't maps; all the sequences of JSON tokens, well formed or not, of any length; all the states of the memory", "why_tests_cant": "Documents are unbounded, nested and can be truncated or wrong at any place; tests read a few documents.", "anchors": ["pkg/generators/golang/json_generator.go: generateStructTypeSource", "pkg/generators/golang/json_generator.go: generateListTypeSource", "pkg/generators/golang/json_generator.go: generateReadValue"]}
{"id": "C98", "title": "Objects of any model survive being written and read back by the generated code", "statement": "For the types of any versions of a model that is read, when the generated Go code of the types and of their JSON support is part of a Go program, calling `Marshal` with an object of a type sends the JSON document that the rules give for it to the writer, and calling `Unmarshal` with a document returns the object that the rules give for the document, or an error. In particular, what `Marshal` sends is read back by `Unmarshal` as the same object, in new positions of the memory, in any other execution. The functions that the code of a type calls are those that are generated for the types of its attributes and elements. The same is true for lists.", "quantifier": "all the sequences of model directories, all the sets of their versions, all the base packages, all the types, all the values of the types and all the states of the memory, if names can be used in Go, JSON names of the attributes of a type are different, and the elements of lists and maps have code", "why_tests_cant": "Models, their types and the objects are unbounded, and the generated code is never executed by the tests with all the models.", "anchors": ["pkg/language/reader.go: Read", "pkg/generators/golang/json_generator.go: generateStructTypeSource", "pkg/generators/golang/json_generator.go: generateListTypeSource", "pkg/generators/golang/json_generator.go: generateReadValue", "pkg/generators/golang/json_generator.go: generateWriteValue", "pkg/generators/golang/types_calculator.go: BitMask"]}
{"id": "C99", "title": "The files of the JSON support of resources contain exactly the functions that write requests and read responses", "statement": "The file that the JSON support generator writes for a resource contains, except for blank lines and indentation, exactly the package, the imports and, for each method in the order of the model, the function that writes the body of the request and the function that reads the body of the response: the value of the body for the methods that have one, pages with their items for List and Search, objects with one field per parameter for actions, and nothing for the others. It is written if and only if all the methods have the parameters that their kind requires, which the checks of the model guarantee, and the types that they refer to can be calculated; if not nothing is written and it is an error. The imports are exactly those that the methods need.", "quantifier": "all the resources, with any number of methods and parameters of any types, all the packages, all the orders of imports, and any number of errors reported before", "why_tests_cant": "Resources, methods and parameters are unbounded, and the templates call each other; tests see the files of a few models.", "anchors": ["pkg/generators/golang/json_generator.go: generateResourceSource", "pkg/generators/golang/json_generator.go: generateMethodSource", "pkg/generators/golang/json_generator.go: generateListMethodSource", "pkg/generators/golang/json_generator.go: generateActionMethodSource", "pkg/generators/golang/json_generator.go: generateReadBodyParameter", "pkg/generators/golang/json_generator.go: generateWriteBodyParameter"]}
{"id": "C100", "title": "Running the generated code of a method sends the request and stores the response that the model says", "statement": "When the functions that the JSON support generator writes for the methods of a resource are part of a Go program, calling the function that writes a request with a request that is in the memory sends to the writer exactly the JSON document that the rules of the method give for the values of its parameters, or nothing if the method has no body, and returns the error of the writer; calling the function that reads a response with a document sets exactly the fields of the response that the rules give, with scalars behind pointers and pages of objects in list objects, and leaves the other fields and the rest of the memory as they were, or returns an error exactly when the rules say so. If the source can't be read an error is returned.", "quantifier": "all the methods of all kinds with any parameters, all the programs that contain their code and that of their types, all the states of the memory with a request or a response, all the documents", "why_tests_cant": "Methods, parameters, values and documents are unbounded, and the tests never execute the generated code for all of them.", "anchors": ["pkg/generators/golang/json_generator.go: generateMethodSource", "pkg/generators/golang/json_generator.go: generateListMethodSource", "pkg/generators/golang/json_generator.go: generateSearchMethodSource", "pkg/generators/golang/json_generator.go: generatePostMethodSource", "pkg/generators/golang/json_generator.go: generateActionMethodSource", "pkg/generators/golang/json_generator.go: generateReadBodyParameter", "pkg/generators/golang/json_generator.go: generateWriteBodyParameter"]}
{"id": "C101", "title": "The JSON support of the metadata of versions is always generated, and running it writes and reads the version of the server", "statement": "The file that the JSON support generator writes for the metadata of a version is always written if no errors have been reported before, and contains, except for blank lines and indentation, exactly the package, the imports and the functions that write and read the metadata. When those functions are part of a Go program, calling the one that writes sends to the writer exactly the JSON object with the version of the server, if it has been set, and returns the error of the writer; it panics if the pointer is nil. Calling the one that reads with a document returns new metadata with what the rules give for that document, or an error exactly when the rules say so, and never changes what was in the memory. What is written is read back.", "quantifier": "all the packages, all the orders of imports, all the states of the memory, all the metadata, all the documents, and all the programs that contain the code", "why_tests_cant": "The versions, documents and states of the memory are unbounded, and the tests never execute the generated code for all of them.", "anchors": ["pkg/generators/golang/json_generator.go: generateVersionMetadataSupport", "pkg/generators/golang/json_generator.go: generateVersionMetadataSource", "pkg/generators/golang/types_generator.go: generateVersionMetadataTypeSource"]}
{"id": "C102", "title": "The generated code of the methods of every model that is read sends and receives what the rules say", "statement": "For every model that is read, and every method of its resources, when the generated code of the types, of their JSON support and of the methods is part of a Go program: calling the function that writes the request sends exactly the JSON that the rules for bodies give for the parameters, and calling the function that reads the response sets exactly the fields that the rules give for the document, returns an error exactly when the rules say so, never panics, and changes nothing else. For the methods that the checks accept, if the names of the parameters are different, the values that are whole bodies are objects or lists, so they have code that writes and reads them.", "quantifier": "all the sources, versions, resources and methods, all the requests, responses, documents and states of the memory, and all the programs that contain the code", "why_tests_cant": "Models, documents and memories are unbounded, and the tests only run the generated code for the methods of one example model.", "anchors": ["pkg/language/reader.go: Read", "pkg/language/checks.go: checkMethod", "pkg/generators/golang/json_generator.go: generateResourceSupport", "pkg/generators/golang/json_generator.go: generateMethodSource"]}
{"id": "C103", "title": "The metrics file contains a JSON document with exactly the paths that are served", "statement": "When the generator of the metrics support writes its file without errors, the file declares a variable whose value is a JSON document with exactly one reading, whose objects have their labels in order, and a sequence of labels is a path of that document exactly when it is api, the segment of a service, the segment of a version, and the segments of a chain of locators of the model, with dashes for the variable ones, optionally followed by an action. Nothing is written if there were errors before. False for models with backticks in the segments: the string ends in the middle and the file doesn't declare the variable.", "quantifier": "all the models without clashes of segments, all the services and versions, all the import paths without backticks, and all the paths", "why_tests_cant": "The segments are arbitrary texts and the trees are unbounded; the tests only use one example model, without special characters.", "anchors": ["pkg/generators/golang/metrics_generator.go: Run", "pkg/generators/golang/metrics_generator.go: resourceBranch", "pkg/generators/golang/buffer.go: Write", "pkg/generators/golang/buffer.go: removeExtraBlankLines"]}
{"id": "C104", "title": "The errors of a version become constants with their codes", "statement": "The file of the errors of a version declares exactly one constant for each error that the version declares, named like the error followed by Error, with the declared code as value and preceded by the documentation; and nothing else. (False for versions that declare two or more errors: the file isn't written and the generation fails. The theorems say exactly when it is written and what it contains.)", "quantifier": "all versions, with any number of errors with any names, codes and documentation, all packages, and all the sources with good declarations", "why_tests_cant": "The text depends on a template that is executed with the errors of the version; tests generate files for a few models, none of them with two errors.", "anchors": ["pkg/generators/golang/errors_generator.go: generateVersionErrors, generateVersionErrorsSource, errorName", "pkg/concepts/version.go: Errors", "pkg/concepts/error.go: ErrorSlice.Less", "pkg/generators/golang/buffer.go: Emit, Eval, Write"]}
{"id": "C105", "title": "The client of a service gives access to the clients of all its versions", "statement": "The file of the client of a service is written exactly if all the versions of the service have a root resource, and then it declares the client type, the function that creates it with a transport and a path, and exactly one method for each version, that returns the client of the root of that version with the same transport and with the path that results from adding the segment of the version, which is the one given with @http or the name in snake case. The packages of all the versions are imported. Different versions have different methods. (The last sentence is false.)", "quantifier": "all services, with any number of versions with any names and annotations, with or without root, all base packages, and any order of the imports", "why_tests_cant": "The text depends on a template that is executed with any number of versions; tests only generate services with one or two versions, all of them with root.", "anchors": ["pkg/generators/golang/clients_generator.go: generateServiceClient, generateServiceClientSource, versionName, clientName", "pkg/http/binding_calculator.go: VersionSegment", "pkg/generators/golang/packages_calculator.go: VersionImport, VersionSelector", "pkg/generators/golang/buffer.go: Import, Emit, Eval, Write"]}
{"id": "C106", "title": "The client of a resource has the methods and the paths of the resource", "statement": "The code of the client of a resource declares the client type, the function that creates it, exactly one method for each method of the resource, that creates a request with the transport of the client and its path followed by the segment if it is an action, exactly one method for each locator, that returns the client of the target with the path of the client followed by the identifier received as argument, for variable locators, or by the segment, and for the root the method that requests the metadata. Following locators and then calling a method gives the path that C48 says. The generation fails exactly if a locator has no target.", "quantifier": "all resources with any methods, locators, names, annotations and documentation, all graphs of resources, and all chains of locators with any identifiers", "why_tests_cant": "The text depends on a template that is executed with any number of methods and locators; tests use the generated clients of one model.", "anchors": ["pkg/generators/golang/clients_generator.go: generateResourceClientSource, clientName, methodName, locatorName, requestName", "pkg/http/binding_calculator.go: MethodSegment, LocatorSegment", "pkg/concepts/resource.go: Methods, Locators, IsRoot", "pkg/concepts/locator.go: Target, Variable"]}
{"id": "C107", "title": "The requests and responses of a method have its parameters, and send each of them in the right place", "statement": "The code of the request of a method declares a type with one field and one setter for each input parameter, in order, and the methods that add query parameters and headers and that send it. Sending adds to the query, with the name of C28, exactly the scalar parameters that have been set, if the method isn't an action, and writes the body, with the function of the JSON support for that method, exactly if there is some other input parameter; it uses the HTTP method of C26, and reads the body of the response, with the function of the JSON support, exactly if there are output parameters. The code of the response declares a type with one field and two getters for each output parameter: for scalars they return what the field points to, or the zero value, and for the rest the field. The values that are dereferenced are pointers.", "quantifier": "all resources and methods with any parameters, names, annotations, types and documentation, and all previous contents of the file", "why_tests_cant": "The text depends on templates that are executed with any number of parameters of any type; tests use the generated code of one model.", "anchors": ["pkg/generators/golang/clients_generator.go: generateRequestSource, generateResponseSource, requestName, responseName, fieldName, fieldType, setterName, setterType, getterName, getterType, writeRequestFunc, readResponseFunc", "pkg/http/binding_calculator.go: RequestParameters, RequestQueryParameters, RequestBodyParameters, ResponseParameters, QueryParameterName, Method", "pkg/generators/golang/types_calculator.go: ValueReference, NullableReference, ListReference, ZeroValue"]}
{"id": "C108", "title": "The file of the client of a resource contains the client, the types used to poll and the messages of all its methods", "statement": "The file of the client of a resource contains the client of C106, then, if there is a method called `get`, the types used to poll, and then the request and the response of each method, in order, as in C107, and nothing else. The request used to poll has one setter for each input parameter of the first method called `get`, and its response has two getters for each of its output parameters; they call the setters and getters of the request and response of that method, which are declared in the same file with the same names and types, and so are the method of the client that creates the request and the method that sends it. The file imports, once each, the packages that the code uses and those of the types of the parameters. It is written, unless a line is too long, exactly if there are no problems before, all the locators have targets, the types of all the parameters can be expressed, and the method that retrieves the object, if there is one, has output parameters; without them the generator panics, and in the rest of the cases a problem is reported and nothing is written.", "quantifier": "all resources, with any methods, parameters, locators, names, annotations and documentation", "why_tests_cant": "The file depends on all the methods, parameters and locators of the resource; tests generate the files of a few resources.", "anchors": ["pkg/generators/golang/clients_generator.go:generateResourceClient", "pkg/generators/golang/clients_generator.go:generateResourceClientSource", "pkg/generators/golang/clients_generator.go:generatePollMethodSource", "pkg/generators/golang/clients_generator.go:pollRequestName", "pkg/generators/golang/clients_generator.go:pollResponseName"]}
{"id": "C109", "title": "The files that don't depend on the model are always the same, and declare what the rest of the generated code calls", "statement": "The files of the helpers, the helpers of the JSON support, the common errors and the client of the metadata of versions are always completely written, whatever the model and the base of the import paths, with the same code except for the package and the paths of the imports, unless a problem was reported before, and then nothing is written. The functions of the helpers and the members of the package of the errors that the rest of the generated code uses are declared in them, and the two files of the package of the helpers never declare a function twice. Each of them imports, once, exactly the packages that its code uses.", "quantifier": "all bases of import paths, versions, orders of imports and numbers of previous errors", "why_tests_cant": "Generated code is only compiled after goimports fixes the imports, so tests never see what the generator itself imports, and they use one base.", "anchors": ["pkg/generators/golang/helpers_generator.go:Run", "pkg/generators/golang/json_generator.go:generateHelpers", "pkg/generators/golang/errors_generator.go:generateCommonErrors", "pkg/generators/golang/clients_generator.go:generateVersionMetadataClient", "pkg/generators/golang/clients_generator.go:generateVersionMetadataClientSource"]}
{"id": "C110", "title": "Generators are created only with everything that they need, and the commands always give it to them", "statement": "Building a generator or a calculator fails exactly when something that it needs hasn't been given to its builder, and the message names the first of the things that are missing. What is given to a builder is what the object uses. The commands report each mandatory option that is missing, once, and when none is missing they always create all their generators, in order, all of them with the same reporter and model, the directory of the options and the right calculators.", "quantifier": "all the builders, all the combinations of things given to them, and all the values of the options", "why_tests_cant": "There are hundreds of combinations of things that can be missing, and tests create the generators with everything.", "anchors": ["pkg/generators/golang/clients_generator.go:ClientsGeneratorBuilder.Build", "pkg/generators/golang/json_generator.go:JSONSupportGeneratorBuilder.Build", "pkg/generators/golang/metrics_generator.go:MetricsSupportGeneratorBuilder.Build", "pkg/generators/docs/docs_generator.go:DocsGeneratorBuilder.Build", "pkg/generators/openapi/openapi_generator.go:OpenAPIGeneratorBuilder.Build", "cmd/metamodel/generate/golang/cmd.go:run", "cmd/metamodel/generate/openapi/cmd.go:run", "cmd/metamodel/generate/docs/cmd.go:run", "cmd/metamodel/check/cmd.go:run"]}
{"id": "C111", "title": "Writing a model saves all of it, or fails without doing anything", "statement": "Writing a model fails exactly when the reporter, the model or the output directory haven't been given, with a message about the first that is missing, or when errors have been reported before, with a message that has their number; then nothing is announced or written. Otherwise every type and every resource of every version is announced once, in order, and written to the output directory, so that the model can be read back.", "quantifier": "all models, reporters with any history, and files", "why_tests_cant": "It must hold for every model and every number of previous errors; there are no tests of the writer.", "anchors": ["pkg/language/writer.go:Write", "pkg/language/writer.go:writeType", "pkg/language/writer.go:writeResource"]}
{"id": "C112", "title": "What polling and the metadata request return can be used whatever happened", "statement": "Polling returns the response and the error of the last request that was sent, and no response if the transport didn't answer or the arguments are wrong. The status, headers, error and parameters of that response, and of the response of the metadata, can always be obtained: they are those of the answer of the server, or zero values if there was no answer.", "quantifier": "all sequences of answers of the transport, deadlines, intervals, expected statuses, predicates and parameters", "why_tests_cant": "It must hold for every sequence of answers and failures, and every parameter; tests try a few of them.", "anchors": ["pkg/generators/golang/clients_generator.go:generatePollMethodSource", "pkg/generators/golang/helpers_generator.go:PollContext"]}
{"id": "C113", "title": "Files are created inside the output directory", "statement": "The object that writes a generated file can be created exactly when the reporter, the output directory, the name of the file, and for Go code the calculator of packages, have been given; the error is about the first that is missing. Its file is then inside the output directory, however its path is written, in the directory of its package and with its extension; its import path is the package inside the base package; and its templates can use, for each name, the last function that was added, or else the predefined one.", "quantifier": "all output directories, packages, files and sequences of added functions", "why_tests_cant": "It must hold for every way of writing a path, including those with repeated slashes and references to parent directories.", "anchors": ["pkg/generators/golang/buffer.go:Build", "pkg/markdown/buffer.go:Build", "pkg/generators/openapi/buffer.go:Build"]}
