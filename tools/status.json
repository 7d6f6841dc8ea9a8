{
 "C02": {
  "status": "partial",
  "note": "False for some identifiers: proved exactly when it holds for alphanumeric ones."
 },
 "C06": {
  "status": "partial",
  "note": "False: listing two or more errors panics; proved for every map with at least two errors, and the listing is proved for at most one error."
 },
 "C61": {
  "status": "partial",
  "note": "False: a version without root, or a locator without target, crashes the reader; proved that checks finish for versions with a root and complete locators."
 },
 "C27": {
  "status": "partial",
  "note": "False (c27_refuted); c27_indistinguishable_iff_partial says exactly which methods share verb and URL."
 },
 "C29": {
  "status": "partial",
  "note": "Proved for the names calculator; false for names given with @go, which are used as they are."
 },
 "C35": {
  "status": "partial",
  "note": "False (c35_refuted); proved exactly when packages are equal. The import of the metrics package is that of the helpers."
 },
 "C57": {
  "status": "partial",
  "note": "False: line breaks stay when there is no dot and words are glued; the summary is characterised for every text."
 },
 "C58": {
  "status": "partial",
  "note": "False: links of built-in types have no page and pages of services overwrite each other; pages and links are characterised."
 },
 "C63": {
  "status": "partial",
  "note": "False (c63_refuted); proved when fields of requests clash and that err, status, Error and Status never clash."
 },
 "C31": {
  "status": "partial",
  "note": "False for bit 63 (c31_bit63_refuted); proved for every other bit, and exactly which types are reported."
 },
 "C33": {
  "status": "partial",
  "note": "False of a last line that isn't blank (c33_last_line_refuted); everything else proved."
 },
 "C64": {
  "status": "partial",
  "note": "False for a leading dash; proved for every other name."
 },
 "C18": {
  "status": "partial",
  "note": "Proved for one version (c18_single_version): after a successful read every name used is declared, built in, or the computed name of a list or map that is written; the converse needs that computed names don't clash. False for several versions (c18_versions_refuted)."
 },
 "C19": {
  "status": "partial",
  "note": "Proved when the computed names of lists and maps don't clash with each other or with declared names; false otherwise (c19_refuted)."
 },
 "C20": {
  "status": "partial",
  "note": "Proved for one version that every duplicate is reported and, without clashes, how many times. False for several versions (c20_versions_refuted) and exact counts are false with clashes (c20_refuted)."
 },
 "C24": {
  "status": "partial",
  "note": "Proved for the reader and for the flag itself; false for SetVariable, which ignores its argument (refuted)."
 },
 "C60": {
  "status": "partial",
  "note": "Proved when the computed names don't clash; false otherwise (c60_list_refuted, c60_map_refuted)."
 },
 "C22": {
  "status": "partial",
  "note": "The block, its text, errors and crashes are characterised for all layouts, and no comment is used twice; that each declaration gets its own block is proved when the lines where declarations start have no comments, and is false otherwise (c22_refuted); blocks that start with an empty comment crash (c22_blank_refuted)."
 },
 "C39": {
  "note": "Proved for documents without members with empty names and without repeated kinds; those two cases are refuted: an empty name ends the object, and the last kind doesn't win.",
  "status": "partial"
 },
 "C67": {
  "note": "True exactly for parameters whose private name isn't err or status; refuted for those.",
  "status": "partial"
 },
 "C66": {
  "note": "Field name clashes are the subject of C67; parameter names must be different, as otherwise the generated code doesn't compile. Sending a request without its body panics (c66_nil_body_refuted), which the property doesn't exclude.",
  "status": "proved"
 },
 "C51": {
  "status": "partial",
  "note": "Builder, getters, JSON written and read, round trip, status override and text proved for all errors; refuted: location and details aren't part of the text, nil errors and nil timestamps panic, null timestamps can't be read back."
 },
 "C52": {
  "status": "partial",
  "note": "Proved for numeric identifiers from 200 to 999 and the fixed errors; refuted for informational codes and for identifiers that aren't numeric (answered with 200); identifiers out of range panic."
 },
 "C46": {
  "status": "proved",
  "note": "For every schedule of responses and clock readings; running out of time after an unsatisfactory response reports no error, which is what the code does (c46_deadline_silent)."
 },
 "C49": {
  "status": "proved",
  "note": "For every history of requests over a memory with shared maps and arrays. Texts of dates and floating point numbers are parameters. The HTTP transport isn't modelled: it may do anything to the memory it receives, but not to the memory of the requests."
 },
 "C50": {
  "status": "proved",
  "note": "As an equivalence for every path; the root path has one empty segment (c50_root)."
 },
 "C47": {
  "status": "partial",
  "note": "Complete for statuses lower than 400, and for 400 or more with content; refuted: statuses of 400 or more without content aren't reported, the metadata request reports responses without content as errors, and responses of delete methods with output parameters aren't read."
 },
 "C48": {
  "status": "partial",
  "note": "Holds for every chain of locators when the segments and the identifiers are plain; refuted for identifiers that are empty, '.', '..' or contain slashes, which give the path of another resource (c48_id_refuted). The model of path.Join and path.Clean works on the segments between slashes."
 },
 "C53": {
  "status": "proved",
  "note": "For every sequence of calls to the buffer that is properly nested, at the level of JSON tokens; the text of the tokens and the indentation are the job of jsoniter, which isn't modelled."
 },
 "C54": {
  "status": "proved",
  "note": "For every version whose mentioned types with name belong to the version (c54_resolve), and exactly when the names mentioned are names of schemas (c54_resolve_iff); without the condition it is refuted (c54_foreign_refuted)."
 },
 "C55": {
  "status": "partial",
  "note": "Holds if the segments contain no slashes and the constant ones don't look like variables; refuted for constant segments in curly brackets (c55_constants_refuted). c55_operations shows that every method has its operation."
 },
 "C56": {
  "status": "partial",
  "note": "The statement is false in general; c56_unique_partial gives the exact condition and the other theorems give the classes of versions whose documents repeat keys."
 },
 "C68": {
  "status": "proved",
  "note": "At the level of JSON tokens; the specification of the document is Spec/OpenApi.lean."
 },
 "C41": {
  "status": "partial",
  "note": "Complete for the values of getters, for all the histories without copies to the builder. Refuted: building panics for lists or maps with nil builders, and never ends for builders that contain themselves; building succeeds exactly if there are none."
 },
 "C42": {
  "status": "partial",
  "note": "The result of copying and building is given exactly, and it is equal to the object exactly if the object has no empty maps, no nil elements and no lists of links with flag, address or no slice. Refuted in general."
 },
 "C43": {
  "status": "partial",
  "note": "Refuted: calling Link with false makes the object a link. An object is a link exactly if Link has been called."
 },
 "C44": {
  "status": "proved",
  "note": ""
 },
 "C45": {
  "status": "proved",
  "note": ""
 },
 "C65": {
  "status": "partial",
  "note": "Proved for all type graphs: what is added, what changes, owners of links in the usual situation, when it ends, and that models without references aren't affected. Refuted: references that aren't right panic or are ignored instead of being reported (c65_no_panic_refuted, c65_unknown_type), circular types never end (c65_never_ends), and the result depends on the order of declarations (c65_order_refuted, c65_use_refuted, c65_other_name_refuted)."
 },
 "C69": {
  "status": "proved",
  "note": "Grammar in Spec/Parser.lean. What the parser does after a syntax error isn't modelled."
 },
 "C70": {
  "status": "proved",
  "note": "Rules in Spec/Lexer.lean."
 },
 "C71": {
  "status": "proved",
  "note": ""
 },
 "C72": {
  "status": "partial",
  "note": "False: c72_everything_refuted. Exact description of what is ignored: c72_everything_partial, c72_ignored."
 },
 "C73": {
  "status": "partial",
  "note": "False for keywords: c73_keyword_names_refuted. c73_trees_iff is the exact set of trees."
 },
 "C74": {
  "status": "partial",
  "note": "False for strings of Go with escaped quotes (c74_go_strings_refuted); everything else is proved."
 },
 "C75": {
  "status": "partial",
  "note": "Needs that nodes start in different lines: c75_same_line_refuted."
 },
 "C76": {
  "status": "partial",
  "note": "Several directories can contribute to one version if the declarations are good after each directory. Needs also that computed names of lists and maps don't clash. Without that undefined types can go unnoticed (c18_versions_refuted, c20_versions_refuted, c60_list_refuted)."
 },
 "C77": {
  "status": "partial",
  "note": "Sufficient conditions and necessary conditions are proved, from the texts to the content of the model. Missing: the exact condition when elements share lines or names of lists clash, and the recovery of the parser after syntax errors."
 },
 "C78": {
  "status": "partial",
  "note": "The types of fields are characterised exactly (c78_field_iff), and so are the setters of requests and the getters of responses (c78_request_iff, c78_response_iff). The types of builders and parameters are proved right for enumerated types used in their own version and versions named with one word, which are the cases where the claim is true. The full claim is refuted with concrete models by c78_enum_refuted, c78_version_refuted, c78_selector_refuted, c78_items_refuted and c78_parameter_refuted."
 },
 "C79": {
  "status": "partial",
  "note": "Exact conditions for success, for the files written and for the absence of clashes. Each file has its own content only when no two names give the same file (c79_distinct_iff); refuted for classes whose names differ in the case of an initialism and for classes or resources called metadata. Names of services and versions that are usable as directories are assumed."
 },
 "C80": {
  "status": "partial",
  "note": "Streams, counter, formats and the exact messages of every category but Delete. Refuted: types are never written with the names of their owners (the condition of the code is met by all kinds), and the message about the type of a parameter of Delete names the method instead of the parameter (c80_delete_reports_iff_partial says what is reported). Messages are modelled by what they mention, not by their texts."
 },
 "C81": {
  "status": "partial",
  "note": "Exact lines of all the pages when no line is too long for the scanner, exact effect of a line that is too long, exact exit code and files. Refuted: pages with a line of 65536 characters or more lose everything before it; indentation of examples is lost; types and directions are never shown; classes without attributes don't show the attributes that all classes have; documentation without dots breaks the tables. Lines are measured in characters instead of bytes; only the part of the language of templates that the templates use is modelled."
 },
 "C82": {
  "status": "partial",
  "note": "False in general: fractions of seconds are lost in documents and query parameters, years that don't have four digits can't be read back, and offsets with seconds shift the date (all refuted with witnesses). The equivalences say exactly which dates survive in documents, query parameters and timestamps of errors. The lenient forms accepted by time.Parse (hours of one digit, fractions with a comma) aren't modelled."
 },
 "C83": {
  "status": "partial",
  "note": "Exact table of the names declared for every version. False in general (refuted with a class Metadata, names that look like derived names, constants, clients, messages, polling, annotations and lists of lists). Proved: if the names of the model don't look like derived names then each name is declared once exactly when things of the same kind have different names; the names used by attributes whose lists are of scalars or structs, and by the clients, are declared. The names used by the builders and the helpers, and the selectors of other packages, aren't part of this."
 },
 "C84": {
  "status": "partial",
  "note": "False in general (refuted with attributes, methods, locators and parameters). The equivalences say exactly when the members of each generated type are different, for names that start with a letter; the hypothesis rules out annotations that give names that aren't exported."
 },
 "C85": {
  "status": "partial",
  "note": "False in general (refuted with an attribute that is a list of lists, with a class of 62 attributes, and with a second parameter named Items). The equivalence says exactly which accepted models are generated, and c85_no_crash that none of them makes the generators crash. What the reader guarantees before the checks (FromReader) is a hypothesis, proved for the models that the reader returns in C86."
 },
 "C86": {
  "status": "partial",
  "note": "False in general (refuted with an attribute whose type is a list of the predefined list StringList, which the reader accepts and the generators don't). For readable directories with good declarations (the hypotheses of C76) and usable names, c86_sources_partial says exactly which declarations make the command succeed; what is left as a property of the model, and not of the files, is that the checks accept it. Without those hypotheses c86_generate_iff says when it succeeds in terms of the model, and c86_no_crash and c86_rejected what happens otherwise."
 },
 "C87": {
  "status": "partial",
  "note": "Proved for readable sources with good declarations (as in C76) where the parameters for paging of a method aren't declared twice; when they are, only the first of them after an unstable sort is checked, so the result isn't determined by the source."
 },
 "C88": {
  "status": "partial",
  "note": "False in general: the name of a type is the one of its first use, which can be written in another way (refuted). Proved when all the uses of the name of a declared type are the same name as in the declaration, for readable sources with good declarations (as in C76) without @ref, whose Go names and the names of the versions have no dots. Attributes that are links to lists of things that aren't objects, and items that aren't lists of objects, have no Go type: c88_exists_iff says which ones have it."
 },
 "C89": {
  "status": "partial",
  "note": "False for the types that use all the 64 bits: the mask of the last attribute is a negative number (c31_bit63_refuted). Proved for all the others: what is in the file, except for blank lines and blanks at the start and end of lines, when it is written, and which packages it imports. The file is truncated if a line of the code has 65536 characters or more."
 },
 "C90": {
  "status": "proved",
  "note": "For the declarations that C89 proves to be in the files. The hypothesis is that the code compiles: nothing is declared twice (C84 says when that happens). The functions given to Each and Range can have any state, but they don't change the list while it is visited. The methods of the model that other properties are about are therefore those of the generated text."
 },
 "C91": {
  "status": "partial",
  "note": "False for the types that use all the 64 bits: the mask of the last attribute is a negative number (c31_bit63_refuted). Proved for all the others: what is in the file, except for blank lines and blanks at the start and end of lines, when it is written, and which packages it imports. The file is truncated if a line of the code has 65536 characters or more."
 },
 "C92": {
  "status": "proved",
  "note": "For the declarations that C89 and C91 prove to be in the files. The hypotheses are that the code compiles (nothing is declared twice, fields have the zero values of their types) and that the memory contains the builders of the model, which is true of the empty memory and after each call. Build is related to the recursion of the model with its limit of calls: for builders that contain themselves nothing is said. The call Copy is the subject of C93."
 },
 "C93": {
  "status": "proved",
  "note": "For the declarations that C89 and C91 prove to be in the files, with the hypotheses of C92. The object that is copied can share memory with other objects and with the builders, but it isn't the builder itself. The objects are trees, so an object that contains itself isn't copied; running its Copy wouldn't end. c93_clone adds the hypothesis that the elements of lists and maps are scalars, structs or classes, which C42 needs."
 },
 "C94": {
  "status": "proved",
  "note": "c94_loaded, c94_program and c94_whole compose what is read with C89, C91, C92 and C93. Packages are identified by their names, not by their import paths, so a selection of versions where two services have a version with the same name is one program only if the names of the types are different; each service can be taken alone. Models with references to classes of other models (@ref) are not covered by c94_loaded, but by c94_whole if the types are where the code expects them: the zero value of an enumerated type of another version is written without its package, so Placed excludes it."
 },
 "C95": {
  "status": "partial",
  "note": "False for the types that use all the 64 bits: the mask of the last attribute is a negative number (c31_bit63_refuted). Proved for all the others: what is in the files of structs, classes and lists, except for blank lines and blanks at the start and end of lines, when they are written, and which packages they import. The files are truncated if a line of the code has 65536 characters or more."
 },
 "C96": {
  "status": "proved",
  "note": "The program is any one that contains the declarations of C89, C91 and C95 for its types and is accepted by the compiler as to repeated names. The jsoniter stream is modelled by the list of tokens that have been written; calls are executed with a limit for calls inside of calls, and any limit bigger than the size of the value gives this result."
 },
 "C97": {
  "status": "proved",
  "note": "The program is any one that contains the declarations of C89, C91 and C95 for its types and is accepted by the compiler as to repeated names. The jsoniter iterator is modelled by the list of tokens that remain and by whether it has an error; how bytes are split into tokens isn't modelled. The elements of lists and maps aren't maps (Flat): no code is generated for the others (C85), and it would use the variable item for two things. Calls and loops are executed with limits, and any limits bigger than the length of the document give this result. c97_round_trip needs the hypotheses of C38."
 },
 "C98": {
  "status": "proved",
  "note": "Composition of C75-C88 (what is loaded), C89, C91 and C95 (the code) and C96 and C97 (what it does). The conditions on names (GoodVersions, GoodNames, GoodJson, GoodTags) are needed because the generators accept models whose code doesn't compile or mixes attributes, see the findings. GoodJson excludes lists of lists and lists and maps of maps, and links to lists of scalars."
 },
 "C99": {
  "status": "proved",
  "note": "The JSON support files of resources, with templates copied verbatim. Blank lines and indentation aren't compared, because the files are formatted later. c99_accepted uses C11-C16 for the checks. A file is also reported as wrong, although it is written, if a line of its code has 65536 characters or more."
 },
 "C100": {
  "status": "proved",
  "note": "For the code of C99, with the semantics of C96 and C97. The parameters obtained by a method have different names in Go (otherwise they are one field). A parameter of interface type that contains nil can't be distinguished from one without value. When the model says that the code of a method doesn't compile (no body, items that aren't a list, or a body whose type has no Marshal function) nothing is claimed about running it; the checks and C85 say when that happens. Calls and loops are executed with limits, and any limits bigger than the size of the values or the length of the document give this result."
 },
 "C101": {
  "status": "proved",
  "note": "The template is copied verbatim. The semantics of the libraries are those of C96 and C97. The reading is stated for loops whose limit is bigger than the length of the document."
 },
 "C102": {
  "status": "proved",
  "note": "Composition of C98, C99 and C100 for the resources of models that are read. The bodies must be objects or lists, which c102_bodies derives from the rules of the checks when the names of the parameters are different; c102_repeated_refuted shows an accepted method where they aren't. The conditions on names are those of C98, and that the Go names of the fields of a response are different."
 },
 "C103": {
  "status": "partial",
  "note": "Proved for all the trees whose labels have no backticks; c103_declares_iff says that with one the file never declares the variable, and c103_backtick_refuted gives a model. Partial only because it is false in general. The encoder of the standard library is modelled for the values that are used; texts are lists of characters, so bytes that aren't UTF-8 aren't considered."
 },
 "C104": {
  "status": "partial",
  "note": "False for versions with two or more errors: c104_two_refuted proves that the file is never written for them. Proved for the rest; c104_sources_partial is for sources with good declarations."
 },
 "C105": {
  "status": "partial",
  "note": "The part that says that the methods are different is false: c105_distinct_refuted has two versions with the same method. The rest is proved for all the services whose versions have usable names."
 },
 "C106": {
  "status": "proved",
  "note": "For the part of the file that declares the client; the requests and responses that follow aren't in this model."
 },
 "C107": {
  "status": "partial",
  "note": "The lines, problems, imports and functions are proved for all methods. That the query parameters that are dereferenced are pointers is false for the interface type (c107_query_refuted), and proved for the rest of the parameters to which C78 applies."
 },
 "C108": {
  "status": "proved",
  "note": "The lines and imports of the file, when it is written, the problems and panics, and that what polling calls is declared, for all resources."
 },
 "C109": {
  "status": "partial",
  "note": "Everything is proved except that the imports are those that the code uses, which is false for two of the four files: c109_packages says exactly what is missing and what isn't used. The uses of a package are found in the text of the lines, without comments nor strings, among the fifteen packages that the generators use."
 },
 "C110": {
  "status": "partial",
  "note": "Everything is proved except that what is given to a builder is in the object, which is false for the binding calculator of two generators: c110_parts_partial says what the objects contain."
 },
 "C111": {
  "status": "partial",
  "note": "When it fails, with what messages, and what it announces are proved. That the model is written to the files is false: nothing is written."
 },
 "C112": {
  "status": "partial",
  "note": "What polling returns, and what the getters return or when they panic, are proved. That they never panic is false: the getters of parameters and of the metadata panic when there is no response. What is left in a response whose body can't be read isn't modelled."
 },
 "C113": {
  "status": "partial",
  "note": "When buffers are created and what their files, packages and functions are is proved. That the files are inside the output directory is proved for packages without the parts . and .., and is false otherwise."
 }
}