# Formal model of ocm-api-metamodel: design

## What is verified and how

`/verif/lean` is a Lean 4 (4.33.0) project. It contains an executable model of the
code in `/repo`, written by reading the Go sources, and theorems about it. The code
generators in `/repo` are modelled in two ways: the decisions taken by the generator
(names, bit masks, parameter classification, paths...) are modelled directly, and the
Go code that the templates produce is modelled by its run time behaviour,
parametrised by the model (schema) for which it was generated.

Layout (`lean/Verif/`):

* `Model/*.lean` - definitions only; each cites the file and lines it models.
* `Spec/*.lean`  - small independent specifications used in the statements.
* `Lemmas/*.lean` - helper lemmas.
* `Props/*.lean` - property theorems, one file per group, each with a concrete
  `example` that meets its hypotheses, and the refutations of the properties that are
  false of the code.

Names of theorems: `cNN_...` for property CNN. A theorem that proves only part of the
property ends in `_partial`; a theorem that proves that the full property is false of
the code ends in `_refuted`.

## Conventions of the model

* Texts are `List Char` (Go strings are bytes; identifiers accepted by the lexer are
  ASCII, `ModelLexer.g4` `IDENTIFIER`, so nothing is lost for them). Case functions are
  the ASCII ones; `strings.Title`, `ToLower`, `ToUpper`, `IsLower`, `IsUpper` on non
  ASCII text are out of scope.
* A pointer that may be nil is an `Option`. A Go panic is an explicit outcome.
* A Go map is an association list plus the iteration order as an explicit parameter
  whenever the order is observable.
* Pointer identity of resources and types is modelled by identifiers in a heap.
* Errors given to the reporter are counted / collected in a list.
* JSON is modelled at the level of tokens of the jsoniter stream/iterator (object
  start, field name, comma, scalar...), not of characters.

## Trusted base

* Lean's kernel, and the axioms `propext`, `Classical.choice`, `Quot.sound`.
  `AXIOMS.md`, written by `tools/axioms.py`, lists the axioms of each theorem of
  `MANIFEST.json`. No other axioms, no `sorry`, no `native_decide`, no `bv_decide`.
  Mathlib isn't used.
* The faithfulness of the model to the Go code, by reading.
* Behaviour assumed of things outside the repository: Go's `sort.Sort` sorts and
  permutes (modelled as an insertion sort; since comparisons are strict between different
  elements the result is unique), `strings.*` functions, `text/template`, jsoniter's
  iterator and stream (token level semantics), the ANTLR runtime (the lexer takes the longest
  match and the first rule; the generated parser methods follow the grammar; the walker
  calls inner callbacks first), the file system, the network transport, the clock.

## Plan per property

| Property | Model | Proof |
|---|---|---|
| C01 | `Name.compare` as the word-wise loop | induction over words; order laws of `strings.Compare` |
| C02 | `parseUsingCase` with the chunk splitter and pair loop | induction over chunk pairs; refutation for lower case start |
| C03 | as C02 plus `camel` | induction over canonical names |
| C04 | `strings.Split`/`Join` | induction |
| C05 | sorted listing of map values under any iteration order | uniqueness of sorted permutations |
| C06 | `ErrorSlice.Less` with the shadowed nil name, panic outcome | refutation with 2 errors; partial for at most 1 |
| C07 | association map add/find | refinement to a function |
| C08 | work list of `Paths` with fuel | invariant; enumeration equals set of chains; enough fuel exists iff no loop |
| C09 | recursive loop check, well founded on unvisited resources | soundness and completeness against an inductive `Chain` |
| C10 | C08 + C09 + tree recursion | well founded recursion |
| C11-C16 | `checkX` producing lists of errors | equivalence with declarative rules |
| C17 | reporter counter, gate of `Read` and `Write` | induction over histories |
| C18-C21, C60 | state machine over declarations with heap of types | invariants by induction; permutation argument |
| C22 | `getDoc` over a comment map | equivalence with a spec on blocks; panic outcome |
| C23, C24 | direction flags, locator flags | induction |
| C25-C28 | binding calculator | case analysis, partition |
| C29 | reserved words table | finite table lifted |
| C30, C31 | bit masks as Go `int` | arithmetic on powers of two; refutation at bit 63 |
| C32-C34 | text buffer functions | induction over lines / bytes |
| C35 | package paths | injectivity on joined names; refutation |
| C36-C39 | generated reader/writer over an arbitrary schema, tokens | mutual induction over values |
| C40 | query parsing helpers | case analysis |
| C41-C45 | generated objects, builders and lists | induction over call histories |
| C46 | poll loop as a transition system with a clock | induction with measure |
| C47-C50 | generated client functions | case analysis / induction |
| C51, C52 | generated errors package | token round trip |
| C53-C56 | OpenAPI buffer and generator | well formedness by induction over nesting |
| C57, C58 | documentation generator | induction / refutation |
| C59 | path tree | induction over acyclic graph |
| C61, C62 | checks of versions without root, reports | case analysis; induction |
| C63, C64, C67 | names of requests, packages and fields | exact conditions for clashes; refutations |
| C65 | references between services: nested reader, type importer with fuel | list of changes computed in advance, invariants over it; termination by visited types |
| C66 | requests and responses of generated clients as JSON | schema of the body; round trip |
| C69-C73 | lexer and parser of the language as functions over texts and tokens | soundness and completeness for each rule of the grammar, by induction; exact set of trees that can be written |
| C74 | `strconv.Unquote`, `strconv.Atoi`, annotations | equivalence with an independent description of the literals |
| C75 | walk of the tree with the map of comments | invariant: blocks of nodes that have not been visited are intact |
| C76 | the loading of all the services and versions (`Model/Session.lean`) | invariant of the loading: the cells of the versions read before are closed under pointers and aren't changed by the next ones |
| C77 | the reader from the texts of the files: lexer, parser, walk and loading (`Model/Source.lean`) | composition of C69–C75 (a file) with C76 (all the services and versions); documentation, annotations and default values don't matter for acceptance |
| C78 | the calculators of references to Go types, their uses in objects, builders, requests and responses, and the replacement done by the buffer (`Model/GoRefs.lean`) | Go types are trees (`Spec/GoRefs.lean`) that are written depending on the package of the file; the text produced is compared with the written type for every kind of type, giving exact conditions; refutations with concrete versions |
| C79 | the `Run` methods of the Go generators and of the OpenAPI generator as writers of files, `Write` of the buffers, and the commands (`Model/Files.lean`) | where each file lives and which files a model asks for are given in `Spec/Files.lean`; induction over the list of files written, for any set of failures; the names of the files are taken apart from the end to find exactly when two are equal |
| C80 | the reporter (`Model/Reporter.lean`) and, for the accuracy of messages, the checks (`Model/Checks.lean`) | induction over the history of calls and over the format; the flaws of each category are given in `Spec/Reporter.lean` without reference to the checks, with the numbers of parameters as an inductive relation; membership of each message is equivalent to its flaw; counterexamples for Delete and for types |
| C81 | the language of templates, the Markdown buffer, the templates of the documentation, its generator and its command (`Model/Template.lean`) | the templates are parsed and executed in the model; the pages are given line by line in `Spec/Template.lean`; induction over the lists of elements, with lemmas about how texts are split in lines; the scanner of lines is followed to find what happens with lines that are too long |
| C82 | the writing and reading of dates by the generated code, with the functions of the Go `time` package that it uses (`Model/Dates.lean`) | the calendar is given by the day that follows another and the texts by the grammar of RFC 3339 in `Spec/Dates.lean`; arithmetic of the cycle of four hundred years; the parser accepts exactly the grammar; equivalences that say which dates survive; the functions are then given to the theorems of JSON, query parameters and errors |
| C83 | the names that the generators of Go code declare in the package of a version, and those used by attributes and clients (`Model/Declarations.lean`) | a table of texts before and after names in `Spec/Declarations.lean`; permutation by counting; texts before and after can be recovered from the identifiers when the names are tidy; refutations with small versions |
| C84 | the names of the fields and methods of the generated types (`Model/Members.lean`) | fields aren't exported and methods are, so they can't clash; equivalences with the names that are always there |
| C85 | the generators of Go code as sources of errors: for each file, whether something is reported while its content is generated (`Model/Outcome.lean`) | equivalences for each kind of file, combined with C79 and with the rules of C11 to C16 and C62; concrete models accepted by the reader for which nothing is generated |
| C86 | the command that generates Go code, from the directories to the written files: the model returned by `Read` as the generators see it (`Model/Whole.lean`) | invariants of the reader (memory closed, types and resources of a version only point to types of that version), combination of C76, C79 and C85; conditions on the declarations (`DeclFine`) equivalent to success |
| C87 | the checks of the reader as rules on the declarations (`Spec/Accept.lean`): kinds of references, directions, names, default values, chains of locators | each parameter of the loaded model paired with its declaration (C76), permutation of the sorted lists, C11-C16 for each method, chains of pointers turned into chains of names; three exclusive outcomes of `Read` |
| C88 | the Go types of attributes, builders and parameters as texts determined by the names written in the files (`Spec/FieldTypes.lean`), and the types calculators applied to the model that the reader loads | the cells that the names denote (C76), the names of the cells (invariant of the reader: a name of a cell is one that is written in the files of its version), the owner of each type, and C78 for each attribute and parameter; uniqueness and existence of the texts by cases |
| C89 | the buffer of the Go generators, the part of `text/template` that its templates use, and the templates of the types generator, verbatim (`Model/GoTemplate.lean`, `Model/TypesCode.lean`); the declarations as syntax trees of a small part of Go with a printer (`Spec/GoProgram.lean`, `Spec/TypesCode.lean`) | a template is compiled to lines, which is proved to preserve the lines that it writes, except for blanks; the three templates are compiled by the kernel; the lines are executed symbolically for any type and compared with the printed declarations; C33 for the blank lines |
| C90 | the meaning of the part of Go that the types use: memory with structures and arrays, panics, loops (`Spec/GoProgram.lean`); how objects, lists and metadata are stored (`Spec/TypesRun.lean`); the methods of `Model/GoTypes.lean` | the declarations of C89 are executed symbolically: for every memory that holds an object, list or metadata, calling each method gives what the model says and changes what it says; the hypothesis is that the program declares nothing twice, which the Go compiler requires (C84 says when) |
| C91 | the templates of the builders generator, verbatim (`Model/BuildersCode.lean`); the declarations of the builders of objects and of lists (`Spec/BuildersCode.lean`) | as C89: the two templates are compiled to lines by the kernel and executed symbolically, with a case for each of the forms of the types of attributes |
| C92 | programs of several packages, with the declarations of C89 and C91 executed by the Go semantics of `Spec/GoProgram.lean`; how builders and objects are stored in memory (`Spec/BuildersRun.lean`) | simulation: each call takes a memory that stores the builders of the model to one that stores those after the call of the model (`Model/Builders.lean`); for `Build`, induction on the depth with invariants of the loops over slices and maps, and frames that say which positions of the memory don't change |
| C93 | as C92, for `Copy` (`Spec/BuildersRun.lean`) | simulation by induction on the size of the object that is copied, with invariants of the loops over slices and maps that create the builders of the copies in new positions of the memory; composed with C42 and C92 for copying and building |
| C94 | the schema of types and the code of the whole heap that the reader gives (`Spec/ModelRun.lean`), zero values of Go types given their texts | invariants of the reader (every type and its elements are in the heap, with their owners) give the hypotheses of C90, C92 and C93; parsing the texts of Go types to find their zero values |
| C95 | the templates of the JSON support of types, verbatim, including the ones that write and read values and call themselves for maps (`Model/JsonCode.lean`); the declarations of the functions that write and read objects and lists (`Spec/JsonCode.lean`) | as C89: the four templates are compiled to lines by the kernel and executed symbolically; induction on the type for maps; the depth of nested templates is bounded by the type |
| C96 | as C92, with the declarations of C95: the streams of jsoniter, the writers and `time.Time.Format` are functions over a state with the tokens that have been written (`Spec/JsonRun.lean`) | simulation by induction on the size of the value that is written: each piece of code adds to the stream what `writeVal` (`Model/Json.lean`) gives, or panics; invariants of the loops over items and keys, and of the sequence of attributes with its counter |
| C97 | as C96: the iterators of jsoniter are functions over a state with the tokens that remain and whether there is an error | simulation by strong induction on the number of tokens that remain (`FormReads`): each piece of code reads what `readVal` (`Model/Json.lean`) reads, or the iterator has an error; invariants of the loops over items, keys and fields, that say what the part of the memory that is being built contains (`Listed`, `Mapped`, `LinkMem`, `ObjMem`) |
| C98 | the code of the JSON support of the types of a loaded model (`jsonOf`, `listsOf`), with the heap of `Model/Whole` | the hypotheses of C96 and C97 (`JsonRun.Whole`, `Flat`, `Proper`) are derived from the invariants of loading (C75, C94) by induction on the order of creation of the types; then C96 and C97 are applied |
| C99 | the templates of the JSON support of resources and methods, verbatim (`Model/MethodsCode.lean`); the declarations of the functions that write requests and read responses (`Spec/MethodsCode.lean`) | as C95: the templates are compiled to lines by the kernel and executed symbolically; induction on the methods and on the parameters |
| C100 | as C96 and C97, with the declarations of C99: requests and responses are structures of the memory (`Spec/MethodsRun.lean`) | the functions of C99 are executed symbolically for each kind of method; C96 and C97 give the values of parameters; an invariant of the loop over the fields of the document says what the response contains and that nothing else changes (`Mem`, `Keeps`) |
| C101 | the template of the JSON support of the metadata, verbatim (`Model/MetadataCode.lean`); its declarations (`Spec/MetadataCode.lean`); the metadata as a structure of the memory (`Spec/MetadataRun.lean`) | as C89 for the text and C96 and C97 for executing it: the loop over the fields keeps an invariant that gives the two fields of the structure |
| C102 | a program that contains the code of the methods of the resources of some versions of a model that is read (`Spec/MethodsModelRun.lean`) | composition: `c102_linked` derives the hypotheses of C100 from what C75-C88 say about loaded models (the types of the parameters belong to the version of the resource), so C100 applies; `c102_bodies` derives from the rules C11-C16 that bodies are objects or lists, if the names of the parameters are different, and `c102_repeated_refuted` shows that the condition is needed |
| C103 | the file of the metrics support: the template, the JSON encoder for maps of texts and `nil`, and the blank lines that are removed (`Model/MetricsCode.lean`); a reader of JSON documents and Go raw strings, character by character (`Spec/MetricsCode.lean`) | `c103_file` gives the outcomes and the exact text; `c103_document`: the document has one value, with the paths of the tree, in order; `c103_declares_iff`: the file declares the variable exactly when no label contains a backtick; `c103_paths_partial` composes it with C59; `c103_backtick_refuted` is a model with a backtick |
| C104 | the file of the errors of a version: the template, executed by the model of the template engine, with a listing of the errors that can panic (`Model/ErrorsCode.lean`) | `c104_none` and `c104_one`: the exact lines of the file; `c104_written_iff`: written exactly with at most one error; `c104_two_refuted`: with two or more it never is; `c104_reports`: it agrees with the model of C85; `c104_sources_partial` composes it with C76, from the declarations to the constants |
| C105 | the file of the client of a service: the template, executed by the model of the template engine, and the imports (`Model/ServiceClient.lean`) | `c105_file`: the exact lines, with one method for each version; `c105_imports` and `c105_versions_imported`: the packages of all the versions are imported; `c105_written_iff`: written exactly if all the versions have a root; `c105_reports`: it agrees with the model of C85; `c105_names`: the methods and the segments; `c105_distinct_refuted`: two versions can have the same method |
| C106 | the client of a resource: the first template of its file, executed by the model of the template engine (`Model/ResourceClient.lean`) | `c106_client`: the exact lines, with one method for each method and for each locator, and the imports; `c106_errors_iff`: it fails exactly if a locator has no target; `c106_reports`: it agrees with the model of C85; `c106_paths` and `c106_chain`: the paths that the code calculates are those of C48; `c106_shapes` |
| C107 | the requests and responses of the methods: two templates, executed by the model of the template engine (`Model/MessagesCode.lean`) | `c107_request`, `c107_response`: the exact lines; `c107_reports`: the problems are those of the model of C85; `c107_imports`; `c107_functions`: the functions that write and read the bodies are those of C97; `c107_sent`: what goes in the query and what in the body; `c107_types` and `c107_query_pointer`: the types are those of C78; `c107_query_refuted` |
| C108 | the file of the client of a resource: the template of polling, and the composition of the four templates (`Model/ClientFile.lean`) | `c108_file`: the exact lines of the file; `c108_written_iff`: when it is written; `c108_panics_iff`, `c108_reports`: the panics and problems are those of the model of C85; `c108_imports`; `c108_poll_calls`: the methods that the types used to poll call are declared in the file, with the same types |
| C109 | the files whose text doesn't depend on the model: helpers, helpers of the JSON support, common errors and client of the metadata; templates copied verbatim (`Model/Support.lean`) | `c109_file`: always written, with the lines of the specification; `c109_errors`; `c109_imports`; `c109_packages`: exactly which packages are used without being imported or the other way round, so the claim that imports match is false (`c109_exact_refuted`, `c109_exact_iff_partial`); `c109_functions`, `c109_calls`, `c109_templates`: what the rest of the generated code calls is declared, once |
| C110 | the builders of the ten generators and the seven calculators and listeners, as the checks that they do and the fields that they fill; the options of the commands and the objects that they create (`Model/Wiring.lean`) | `c110_error_iff`, `c110_ok_iff`: fails exactly without something mandatory, with a message about the first; `c110_parts_partial`: what the objects contain, with two exceptions (`c110_parts_refuted`); `c110_mandatory_settable`, `c110_optional`; `c110_go`, `c110_spec`, `c110_docs`: the commands create all their objects, with the right parts; `c110_options`, `c110_options_suffice` |
| C111 | the writer of models, with the reporter of C80 and the files as state (`Model/Writer.lean`) | `c111_error_iff`: when it fails and with what message; `c111_announces`, `c111_failed`: what it announces; `c111_disk`: files never change, so the claim that what is written can be read back is false (`c111_written_refuted`) |
| C112 | `StartContext` of polling and the getters of the responses of polling and of the metadata, with a panic as an explicit result (`Model/PollClient.lean`) | `c112_arguments`, `c112_start`, `c112_answered`: what polling returns in terms of the requests; `c112_common`, `c112_metadata_partial`, `c112_metadata_sent`, `c112_metadata_content`: what the getters return; `c112_getters_partial`: exactly when they panic, so the claim that they never do is false (`c112_getters_refuted`). What is left in a response whose body can't be read isn't modelled |
| C113 | the builders of the three kinds of buffers, with the paths of `Model/ClientPaths.lean` (`Model/Buffers.lean`) | `c113_go_error_iff`, `c113_doc_error_iff`, `c113_spec`: when they fail and with what message; `c113_go_file_partial`, `c113_doc_file_partial`, `c113_go_package_partial`: the files are inside the output directory, for any directory, if the packages don't contain the parts `.` and `..`; `c113_paths`: these are the paths that the model of the files uses; `c113_functions`: the functions for templates; `c113_service_package`, `c113_service_file_partial`: exactly which directories of services give packages inside the output directory; `c113_version_package_partial`, `c113_version_file_partial`: the same for versions, which justifies the simplification of `Go.versionPackage`; `c113_spec_file`: the files of specifications are always inside it; that the files are always inside the directory is false (`c113_inside_refuted`) |
| C68 | OpenAPI generator as calls to the buffer | equality with an independent document |

## What is modelled

| Code | Model |
|---|---|
| pkg/names | `Model/Names` |
| pkg/nomenclator | `Model/Nomenclator` |
| pkg/concepts | `Model/Concepts`, `Model/GoMap`, `Model/Methods`, `Model/Resources` |
| pkg/annotations | `Model/Binding` |
| pkg/http (binding calculator, paths) | `Model/Binding`, `Model/ClientPaths` |
| pkg/language/reader.go, checks.go, comments, names of types | `Model/Reader`, `Model/Session`, `Model/Checks`, `Model/Comments`, `Model/ClassRef` |
| pkg/language: ModelLexer.g4 and model_lexer.go, ModelParser.g4 and model_parser.go, literals and documentation of reader.go | `Model/Lexer`, `Model/Parser`, `Model/Tree` |
| pkg/reporter | `Model/Reporter`; number of errors, in `Model/Session` |
| pkg/generators/golang names, packages, buffer, types | `Model/GoNames`, `Model/GoBuffer`, `Model/GoTypes`, `Model/GoRefs`, `Model/Files`, `Model/Outcome`, `Model/Whole` |
| pkg/language/writer.go | `Model/Writer` |
| `Build` of pkg/generators/golang/buffer.go, pkg/generators/openapi/buffer.go and pkg/markdown/buffer.go | `Model/Buffers` |
| `Build` of pkg/generators/golang, pkg/generators/openapi, pkg/generators/docs, pkg/http, pkg/language/errors.go and pkg/markdown, other than those of the buffers; the options and the objects of cmd/metamodel | `Model/Wiring` |
| pkg/generators/golang: buffer.go and the templates of types_generator.go, builders_generator.go metrics_generator.go, the errors of versions in errors_generator.go, the clients of services and the types of the clients of resources, and the requests and responses of methods, in clients_generator.go and, for types and resources, json_generator.go, as text | `Model/GoTemplate`, `Model/TypesCode`, `Model/BuildersCode`, `Model/JsonCode`, `Model/MethodsCode`, `Model/MetadataCode`, `Model/MetricsCode`, `Model/ErrorsCode`, `Model/ServiceClient`, `Model/ResourceClient`, `Model/MessagesCode`, `Model/ClientFile`, `Model/Support` |
| code generated by pkg/generators/golang: types and builders | `Model/GoTypes`, `Model/Builders`; related to the generated text, executed by `Spec/GoProgram`, by C90, C92, C93 and, for whole models, C94 |
| names declared by the code generated by pkg/generators/golang | `Model/Declarations`, `Model/Members` |
| code generated by pkg/generators/golang: JSON | `Model/Json`, `Model/JsonLoop`, `Model/Bodies`, `Model/Dates`; related to the generated text, executed by `Spec/GoProgram` and `Spec/JsonRun`, by C96, C97 and, for methods and metadata, C100 and C101, and to the models that are read by C98 and C102 |
| code generated by pkg/generators/golang: clients | `Model/Clients`, `Model/PollClient`, `Model/Polling`, `Model/UrlValues`, `Model/Query` |
| code generated by pkg/generators/golang: errors package and helpers | `Model/Errors`, `Model/Query` |
| pkg/generators/openapi | `Model/OpenApi`, `Model/OpenApiBuffer` |
| pkg/generators/docs, pkg/markdown and the command that generates documentation | `Model/Docs`, `Model/Template` |

Each definition cites the lines that it models, and says what is simplified.

## What is not modelled

* What the ANTLR lexer and parser do after an error (recovery): a file with a syntax error counts as
  one error, without declarations.
* The text of the generated Go code, other than that of the types (C89), the builders (C91) and the JSON support of
  types (C95), of resources (C99) and of metadata (C101), the metrics (C103), the errors of versions (C104),
  the clients of services (C105) and the clients of resources (C106), with their requests and responses (C107)
  and polling (C108), and the files that don't depend on the model (C109): templates are modelled by the
  behaviour of the code that they produce; whether that code compiles is only considered where a property is
  about names.
* The text level of JSON (jsoniter), and the texts of floating point numbers, which are parameters
  with the properties that the theorems state as hypotheses. Dates are parameters too, and C82 gives
  their actual values; the lenient forms that `time.Parse` accepts (hours of one digit, fractions with
  a comma) are rejected by the model.
* `net/http`: requests and responses are values; `url.Values.Encode` and `path.Clean` are modelled
  at the level of pairs and of path components.
* The parsing of the command line in cmd/, other than the checks of the options (C110), the
  formatter, and errors while an open file is being written.
* Classes with references: the global map of comments is replaced by the nested reader, which changes
  the documentation of later declarations of the same file; not modelled.
* Non ASCII identifiers.

## Findings (places where the code violates the property)

All of these are theorems, in the file of `Props/` of the property.

1. `Version.Errors()` panics with two or more errors: the comparison uses a nil name (C06).
2. `Locator.SetVariable` ignores its argument (C24).
3. `ParseUsingCase` loses or merges words for some identifiers (C02).
4. A version without root, or a locator without target, crashes the checks (C61).
5. Names that are still undefined are shared by all the versions, so a declaration in one version hides
   the error in other (C18, C20).
6. Computed names of lists and maps can clash with declared names, and then the result depends on the
   order of declarations (C19, C20, C60).
7. A block of comments that starts with an empty comment crashes the reader, and comments at the end of a
   line are used as documentation of the next declaration (C22).
8. An object member with the empty name ends the object, so what follows isn't read; the kind of an
   object that has it repeated isn't the last one; lists of links lose their kind and address; dates
   lose fractions of seconds; nil items panic (C36 to C39).
9. The mask of bit 63 is negative and can't be used (C31).
10. The import of the metrics package is that of the helpers package, and different versions can have the
    same package (C35).
11. The last line of a file is lost when it isn't blank (C33).
12. Several methods can have the same verb and URL (C27), which gives OpenAPI documents with repeated
    keys (C56), and constant segments can look like variables (C55).
13. References to types of other versions in OpenAPI documents may not exist (C54).
14. `Link(false)` makes a builder build a link (C43); copying an object doesn't always give an equal
    object (C42); nil builders in lists make `Build` panic, and builders that contain themselves never
    end (C41).
15. Responses with status 400 or more and no content are treated as success (C47); identifiers that are
    empty, `.`, `..` or have slashes give the path of other resource (C48).
16. Errors: `SendPanic` answers 200; identifiers out of range panic (C52); location and details aren't
    part of the text (C51).
17. Summaries of documentation glue words; links of built-in types have no page; pages of services
    overwrite each other (C57, C58).
18. Names given with annotations aren't checked for reserved words (C29); fields of requests can clash
    (C63); packages can start with a dash (C64); JSON code for parameters `err` and `status` doesn't
    compile (C67).
19. References between services: wrong references panic or are ignored, several inputs panic, nested
    references panic, types that contain themselves never end, and the result depends on the order of
    declarations (C65).
20. Sending some requests without body panics (C66); polling that runs out of time reports no error
    (C46).
21. The grammar doesn't require the end of the file, so everything after the first token that can't
    start a declaration is ignored without errors (C72); keywords can't be used as names (C73); quotes
    can't be escaped in strings (C74); a declaration and a member in the same line exchange their
    documentation (C75).
22. Types of the generated Go code (C78): enumerated types of other versions are written without their
    package; references to versions with names of several words use the text of the name instead of
    the name of the package; versions of different services with the same name are imported with the
    same selector; setters of request parameters that are maps assign the address of the map, and
    getters of response parameters of the interface type follow a value that isn't a pointer, so the
    code doesn't compile.
23. Files of the generated Go code (C79): classes whose names differ only in the case of an initialism,
    like `ClusterID` and `ClusterId`, are different types with the same files, so the code of one of
    them is lost without errors; a class or resource called `Metadata` replaces the metadata of the
    version.
24. Messages (C80): types are never written with the names of their version and service, because the
    condition of the reporter is met by every kind of type; the error about a parameter of `Delete`
    that isn't a scalar names the method instead of the parameter, so two wrong parameters give the
    same message twice.
25. Pages of the documentation (C81): the error of the scanner of lines is ignored, so a page with a
    line of 65536 characters or more loses everything before it, including the title; tabs at the start
    of the lines of the documentation are removed, so the indentation of examples is lost; the columns
    for types and directions always contain a dash; the page of a class without attributes doesn't
    say that it has `kind`, `id` and `href`; a documentation with several lines and without dots
    breaks the table that contains it.
26. Dates (C82): documents and query parameters lose the fractions of seconds; dates of years after
    9999 or before zero are written but can't be read back; a date in a location whose offset isn't a
    number of minutes (the local mean times used before time zones) is read from documents as a
    different point in time.
27. Names of the generated packages (C83): nothing checks that derived names are different, so a class
    `Metadata`, a class `FooList` or `NewFoo` next to a class `Foo`, a class `FooClient` next to a
    resource `Foo`, an enumerated type `Foo` with a value `Bar` next to a class `FooBar`, a method `Poll`
    next to a method `Get`, or a method `BarGet` of `Foo` next to a method `Get` of `FooBar`, generate
    packages that declare the same name twice. Lists of lists, or of maps, use functions that aren't
    declared.
28. Members of the generated types (C84): attributes `Kind`, `Link`, `ID`, `HREF` of classes, attributes
    `Empty`, `Copy` and `Build`, an attribute `GetFoo` next to `Foo`, a locator with the name of a
    method, a method `Get` of the root, a locator or method `Poll` next to a method `Get`, and parameters
    `Interval`, `Status`, `Predicate` and `StartContext` of a method `Get` generate types that declare
    the same member twice.
29. Models accepted by the reader for which the Go code can't be generated (C85): attributes and parameters
    that are lists of lists, lists of maps, maps of lists or maps of maps, structs of more than 64
    attributes or classes of more than 61, and `List` methods with a second parameter named `Items`. The
    templates of the clients assume a Go toolchain where `and` is lazy (1.18), but go.mod accepts 1.17.
30. The grammar has no lists of lists, but the names of the predefined lists, like `StringList`, can be used
    in the files: `[]StringList` is read without errors, and then no Go code can be generated (C86).
31. The Go name of a type depends on how its name is written where it is first used (C88): `FOO_BAR` and
    `FooBar` are names with the same text, `foo_bar`, so they are the same type, but the name of the type is
    the one of the first use. If `FOO_BAR` is used before `struct FooBar` is declared, the generated Go type
    is `Foo_bar` instead of `FooBar`. So it also depends on the order of the files.
32. Comments of the generated types that say something else (C89): the comment of the constant of the kind of
    the nil lists has the name of the constant of the objects, and those of `SetLink` and `SetHREF` say that
    they set the items. If a line of the documentation is longer than 65536 characters the file is left
    with the imports but without the declarations.
33. The setters of the builders have the documentation of the type of the attribute, instead of that of the
    attribute (C91). For attributes that are lists of lists, or maps of lists, the generated `Copy` and `Build`
    have an empty branch: the values are lost.
34. The names of the parameters of a method aren't required to be different. An `Add` method with a scalar called
    `Body` and then a struct called `Body` is accepted, and the generated code uses the functions `MarshalBoolean` and
    the like, that don't exist (C102).
35. The tree of paths is written inside a Go raw string, and backticks aren't escaped: a segment given with `@http`
    that contains one results in a file that doesn't compile, without any error being reported (C103).
36. Since the errors of a version can't be listed if there are two or more (finding 1), the template of the file of
    errors fails: with two errors in a version the model is read without problems, and no Go code is generated, only
    the files that precede it (C85, C86, C104).
37. Two versions of a service whose names differ only in underscores, like `v1` and `v_1`, have the same package and the
    same method in the client of the service, so the package of one overwrites that of the other and the file of the client
    declares the method twice, which Go rejects. No problem is reported (C105).
38. Query parameters of the interface type generate code that isn't valid Go: the field is `interface{}`, and the code that
    sends it dereferences it, `*r.any` (`c107_query_refuted`). No problem is reported.
39. Two of the files that don't depend on the model don't import the packages that they use: the helpers of the JSON
    support use `time` and import `bytes`, which they don't use, and the common errors use `http`, `strconv` and
    `jsoniter`, and import `runtime`, which they don't use (`c109_packages`). They compile only because `goimports` is
    run afterwards.
40. The builders of the generators of the JSON support and of the metrics forget the calculator of the HTTP binding that
    they are given (`c110_parts_refuted`), and the command that generates documentation doesn't give a calculator of names
    to its generator (`c110_docs`). They work only because the methods of those calculators don't use their receivers,
    which are nil pointers.
41. The writer of models announces every type and resource, and returns without an error, but it doesn't write anything
    (`c111_disk`, `c111_written_refuted`).
42. The getters of the parameters of the response of polling, and the one of the body of the response of the metadata,
    panic when there is no response, for example because the transport failed, while those of the responses of methods
    return zero values (`c112_getters_partial`, `c112_getters_refuted`, `c112_metadata_sent`).
43. The names of the directories of services and versions aren't checked, so the package of the service in the directory
    `._.` is `..`, and its files are written outside of the output directory (`c113_inside_refuted`).

## Tests of the theorems

`seeded/LOG.jsonl` has one line per wrong program: what was edited in the model, which claim the edit
breaks, and the theorems that failed. `tools/mutate.py` runs the rounds in `seeded/rounds`.
