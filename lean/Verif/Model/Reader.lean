import Verif.Model.Checks

/-!
# The reader: `pkg/language/reader.go`

The functions of this file take the declarations of each file. The lexer and the parser generated by
ANTLR are in `Verif.Model.Lexer` and `Verif.Model.Parser`, and `Verif.Model.Tree` gives the
declarations of the syntax tree. The callbacks of the reader are called when the nodes of the tree are left, so the children of a node are always processed before the
node itself, and from left to right.

The text of the documentation comments (`getDoc`) is modelled in `Verif.Model.Comments`; here the
declarations carry the result. What the reader does for classes that have a reference to a class of
other service (`@ref`) is in `Verif.Model.ClassRef`.
-/

namespace Verif

/-! ## Syntax tree -/

/-- `typeReference`, pkg/language/ModelParser.g4:83-100. -/
inductive TypeExpr
  | plain (name : Text)
  | list (element : Text)
  | map (index element : Text)
deriving DecidableEq, Repr

/-- `structMemberDecl`, pkg/language/ModelParser.g4:73-76. -/
structure MemberDecl where
  name : Text
  ref : TypeExpr
  link : Bool := false
  doc : Text := []
  annotations : List Annotation := []
deriving DecidableEq, Repr

/-- `enumMemberDecl`, pkg/language/ModelParser.g4:54-57. -/
structure ValueDecl where
  name : Text
  doc : Text := []
  annotations : List Annotation := []
deriving DecidableEq, Repr

/-- `parameterDirection`, pkg/language/ModelParser.g4:133-136. -/
inductive Direction
  | input
  | output
deriving DecidableEq, Repr

/-- `methodParameterDecl`, pkg/language/ModelParser.g4:124-131. -/
structure ParameterDecl where
  name : Text
  ref : TypeExpr
  directions : List Direction := []
  dflt : Option Literal := none
  doc : Text := []
  annotations : List Annotation := []
deriving DecidableEq, Repr

/-- `methodDecl`, pkg/language/ModelParser.g4:113-118. -/
structure MethodDecl where
  name : Text
  parameters : List ParameterDecl := []
  doc : Text := []
  annotations : List Annotation := []
deriving DecidableEq, Repr

/-- `locatorMemberDecl`, pkg/language/ModelParser.g4:145-156. -/
inductive LocatorMember
  | target (resource : Text)
  | variableName (name : Text)
deriving DecidableEq, Repr

/-- `locatorDecl`, pkg/language/ModelParser.g4:138-143. -/
structure LocatorDecl where
  name : Text
  members : List LocatorMember := []
  doc : Text := []
  annotations : List Annotation := []
deriving DecidableEq, Repr

/-- `resourceMemberDecl`, pkg/language/ModelParser.g4:108-111. -/
inductive ResourceMember
  | method (m : MethodDecl)
  | locator (l : LocatorDecl)
deriving DecidableEq, Repr

/-- `declaration`, pkg/language/ModelParser.g4:35-45. The codes of an error are the texts of the
integer literals. -/
inductive Decl
  | enum (name : Text) (doc : Text) (annotations : List Annotation) (values : List ValueDecl)
  | class (name : Text) (doc : Text) (annotations : List Annotation) (members : List MemberDecl)
  | struct (name : Text) (doc : Text) (annotations : List Annotation) (members : List MemberDecl)
  | resource (name : Text) (doc : Text) (annotations : List Annotation)
      (members : List ResourceMember)
  | error (name : Text) (doc : Text) (annotations : List Annotation) (codes : List Text)
deriving DecidableEq, Repr

/-! ## State -/

/-- The errors that the reader sends to the reporter. -/
inductive ReadProblem
  | typeDefined (name : Name)
  | resourceDefined (name : Name)
  | errorDefined (name : Name)
  | undefinedType (id : TypeId)
  | undefinedResource (id : ResId)
  | noTarget (locator : Name)
  | badCode (text : Text)
  | check (p : Problem)
  | syntaxError
  | noDirectory
  | badFile
deriving DecidableEq, Repr

/-- `Reader`, pkg/language/reader.go:42-60, and the version that is being loaded (`r.version`):
its types are `table.types`, and the memory of types is `table.heap`. The index of undefined
errors is omitted because nothing adds to it. `problems` are the errors sent to the reporter. -/
structure Reader where
  table : TypeTable
  graph : Graph := []
  resources : GoMap ResId := []
  errors : GoMap ErrorConcept := []
  undefinedTypes : GoMap TypeId := []
  undefinedResources : GoMap ResId := []
  problems : List ReadProblem := []
deriving DecidableEq, Repr

namespace Reader

/-- `ExitIdentifier`, pkg/language/reader.go:340-344. -/
def identifier (text : Text) : Name := parseUsingCase text

/-- `r.reporter.Errorf`. -/
def report (r : Reader) (p : ReadProblem) : Reader := { r with problems := r.problems ++ [p] }

/-- `isUndefinedType`, pkg/language/reader.go:1012-1016. -/
def isUndefinedType (r : Reader) (name : Name) : Bool := (r.undefinedTypes.find name.toText).isSome

/-- `addUndefinedType`, pkg/language/reader.go:1018-1021. -/
def addUndefinedType (r : Reader) (name : Name) (id : TypeId) : Reader :=
  { r with undefinedTypes := r.undefinedTypes.insert name.toText id }

/-- `removeUndefinedType`, pkg/language/reader.go:1023-1026. -/
def removeUndefinedType (r : Reader) (name : Name) : Reader :=
  { r with undefinedTypes := r.undefinedTypes.delete name.toText }

/-- `isUndefinedResource`, pkg/language/reader.go:1028-1032. -/
def isUndefinedResource (r : Reader) (name : Name) : Bool :=
  (r.undefinedResources.find name.toText).isSome

/-- `addUndefinedResource`, pkg/language/reader.go:1034-1037. -/
def addUndefinedResource (r : Reader) (name : Name) (id : ResId) : Reader :=
  { r with undefinedResources := r.undefinedResources.insert name.toText id }

/-- `removeUndefinedResource`, pkg/language/reader.go:1039-1042. -/
def removeUndefinedResource (r : Reader) (name : Name) : Reader :=
  { r with undefinedResources := r.undefinedResources.delete name.toText }

/-- `NewType` with the given properties, followed by `AddType`. -/
def newType (r : Reader) (cell : TypeCell) : Reader × TypeId :=
  let (table, id) := r.table.newType cell
  ({ r with table := table }, id)

/-! ## References to types -/

/-- The part of the three callbacks for references to types that finds a type, or else creates a
new one that is only partially defined: pkg/language/reader.go:616-623, 632-639, 659-666 and
667-674. -/
def findOrCreateType (r : Reader) (name : Name) : Reader × TypeId :=
  match r.table.findType name with
  | some id => (r, id)
  | none =>
    let (r, id) := r.newType { name := name }
    (r.addUndefinedType name id, id)

/-- The part of the callbacks for lists and maps that finds the type with the calculated name, or
else creates it: pkg/language/reader.go:643-650 and 678-686. -/
def findOrCreateWith (r : Reader) (cell : TypeCell) : Reader × TypeId :=
  match r.table.findType cell.name with
  | some id => (r, id)
  | none => r.newType cell

/-- `ExitPlainTypeReference`, pkg/language/reader.go:614-627. -/
def plainRef (r : Reader) (name : Text) : Reader × TypeId :=
  r.findOrCreateType (identifier name)

/-- `ExitListTypeReference`, pkg/language/reader.go:629-654. -/
def listRef (r : Reader) (element : Text) : Reader × TypeId :=
  let (r, elementType) := r.findOrCreateType (identifier element)
  r.findOrCreateWith
    { name := Name.cat [identifier element, Nom.list]
      kind := .list
      element := some elementType }

/-- `ExitMapTypeReference`, pkg/language/reader.go:656-690. -/
def mapRef (r : Reader) (index element : Text) : Reader × TypeId :=
  let (r, indexType) := r.findOrCreateType (identifier index)
  let (r, elementType) := r.findOrCreateType (identifier element)
  r.findOrCreateWith
    { name := Name.cat [identifier index, identifier element, Nom.map]
      kind := .map
      index := some indexType
      element := some elementType }

/-- `ExitTypeReference`, pkg/language/reader.go:600-612. -/
def typeRef (r : Reader) : TypeExpr → Reader × TypeId
  | .plain name => r.plainRef name
  | .list element => r.listRef element
  | .map index element => r.mapRef index element

/-! ## Declarations of types -/

/-- Runs a callback for each child, from left to right, and collects the results. -/
def forChildren {α β : Type} (f : Reader → α → Reader × β) (r : Reader) :
    List α → Reader × List β
  | [] => (r, [])
  | x :: xs =>
    let (r, y) := f r x
    let (r, ys) := forChildren f r xs
    (r, y :: ys)

/-- `ExitEnumMemberDecl`, pkg/language/reader.go:381-397. -/
def enumMember (v : ValueDecl) : EnumValue :=
  { name := identifier v.name, doc := v.doc, annotations := v.annotations }

/-- `ExitStructMemberDecl` and `ExitAttributeKind`, pkg/language/reader.go:571-598. -/
def structMember (r : Reader) (m : MemberDecl) : Reader × Attribute :=
  let (r, typ) := r.typeRef m.ref
  (r, { name := identifier m.name, typ := typ, link := m.link, doc := m.doc
        annotations := m.annotations })

/-- The start of the three callbacks for declarations of types, pkg/language/reader.go:347-361,
400-414 and 537-551. The result is nil when the type is already defined. -/
def declareType (r : Reader) (kind : Kind) (name : Name) : Reader × Option TypeId :=
  match r.table.findType name with
  | none =>
    let (r, id) := r.newType { name := name, kind := kind }
    (r, some id)
  | some id =>
    if r.isUndefinedType name then
      let heap := r.table.heap.update id fun c => { c with kind := kind }
      let r := { r with table := { r.table with heap := heap } }
      (r.removeUndefinedType name, some id)
    else (r.report (.typeDefined name), none)

/-- The rest of the three callbacks for declarations of types, pkg/language/reader.go:363-378,
416-431 and 553-568: sets the documentation, adds the annotations and adds the values or the
attributes. -/
def completeType (r : Reader) (id : TypeId) (doc : Text) (annotations : List Annotation)
    (values : List EnumValue) (attributes : List Attribute) : Reader :=
  let heap := r.table.heap.update id fun c =>
    { c with
      doc := if doc ≠ [] then doc else c.doc
      annotations := c.annotations ++ annotations
      values := (values.map some).foldl (addMember EnumValue.name) c.values
      attributes := (attributes.map some).foldl (addMember Attribute.name) c.attributes }
  { r with table := { r.table with heap := heap } }

/-- `ExitEnumDecl`, pkg/language/reader.go:346-379, after the callbacks of the members. -/
def enumDecl (r : Reader) (name doc : Text) (annotations : List Annotation)
    (values : List ValueDecl) : Reader :=
  match r.declareType .enum (identifier name) with
  | (r, none) => r
  | (r, some id) => r.completeType id doc annotations (values.map enumMember) []

/-- `ExitClassDecl`, pkg/language/reader.go:399-431, and `ExitStructDecl`, lines 536-569, after
the callbacks of the members. The part of `ExitClassDecl` for references, lines 433-438, is in
`Verif.Model.ClassRef`. -/
def structDecl (r : Reader) (kind : Kind) (name doc : Text) (annotations : List Annotation)
    (members : List MemberDecl) : Reader :=
  let (r, attributes) := forChildren structMember r members
  match r.declareType kind (identifier name) with
  | (r, none) => r
  | (r, some id) => r.completeType id doc annotations [] attributes

/-! ## Declarations of resources -/

/-- `NewResource` with the given name, followed by `AddResource`, pkg/concepts/version.go:173-178. -/
def newResource (r : Reader) (name : Name) : Reader × ResId :=
  ({ r with
     graph := r.graph ++ [{ name := name }]
     resources := r.resources.insert name.toText r.graph.length }, r.graph.length)

/-- `ExitResourceReference`, pkg/language/reader.go:692-702. -/
def resourceRef (r : Reader) (name : Text) : Reader × ResId :=
  match r.resources.find (identifier name).toText with
  | some id => (r, id)
  | none =>
    let (r, id) := r.newResource (identifier name)
    (r.addUndefinedResource (identifier name) id, id)

/-- The direction flags of a parameter, pkg/language/reader.go:804-817. -/
def setDirections (p : Parameter) (directions : List Direction) : Parameter :=
  if directions.length > 0 then
    directions.foldl
      (fun p d =>
        match d with
        | .input => { p with isIn := true }
        | .output => { p with isOut := true })
      p
  else { p with isOut := true }

/-- `ExitMethodParameterDecl`, pkg/language/reader.go:789-827. The kind of the type is not known
yet, it is set by `resolveKinds`. -/
def methodParameter (r : Reader) (p : ParameterDecl) : Reader × Parameter :=
  let (r, typ) := r.typeRef p.ref
  (r, setDirections
        { name := identifier p.name, typ := { id := typ, kind := .undefined }, dflt := p.dflt
          doc := p.doc, annotations := p.annotations } p.directions)

/-- `ExitMethodDecl`, pkg/language/reader.go:753-780. -/
def methodDecl (r : Reader) (m : MethodDecl) : Reader × Method :=
  let (r, parameters) := forChildren methodParameter r m.parameters
  (r, { name := identifier m.name, doc := m.doc, annotations := m.annotations
        parameters := (parameters.map some).foldl (addMember Parameter.name) [] })

/-- The result of a member of a locator: a resource or a name. -/
inductive LocatorResult
  | resource (id : ResId)
  | name (n : Name)
deriving DecidableEq, Repr

/-- `ExitLocatorMemberDecl`, `ExitLocatorTargetDecl` and `ExitLocatorVariableDecl`,
pkg/language/reader.go:865-882. -/
def locatorMember (r : Reader) : LocatorMember → Reader × LocatorResult
  | .target resource =>
    let (r, id) := r.resourceRef resource
    (r, .resource id)
  | .variableName name => (r, .name (identifier name))

/-- The loop over the members of a locator, pkg/language/reader.go:846-853. -/
def setMembers (l : Locator) (members : List LocatorResult) : Locator :=
  members.foldl
    (fun l m =>
      match m with
      | .name _ => l.setVariable true
      | .resource id => { l with target := some id })
    l

/-- `ExitLocatorDecl`, pkg/language/reader.go:829-863. The owner is set later by `AddLocator`. -/
def locatorDecl (r : Reader) (l : LocatorDecl) : Reader × Locator :=
  let (r, members) := forChildren locatorMember r l.members
  let locator := setMembers
    { name := identifier l.name, owner := 0, doc := l.doc, annotations := l.annotations } members
  if locator.target.isNone then (r.report (.noTarget locator.name), locator) else (r, locator)

/-- The result of a member of a resource. -/
inductive ResourceResult
  | method (m : Method)
  | locator (l : Locator)
deriving DecidableEq, Repr

/-- `ExitResourceMemberDecl`, pkg/language/reader.go:704-713. -/
def resourceMember (r : Reader) : ResourceMember → Reader × ResourceResult
  | .method m =>
    let (r, m) := r.methodDecl m
    (r, .method m)
  | .locator l =>
    let (r, l) := r.locatorDecl l
    (r, .locator l)

/-- The loop over the members of a resource, pkg/language/reader.go:742-749, with `AddMethod` and
`AddLocator`, pkg/concepts/resource.go:57-63 and 103-109. -/
def addMembers (id : ResId) (res : Resource) (members : List ResourceResult) : Resource :=
  members.foldl
    (fun res m =>
      match m with
      | .method m => { res with methods := addMember Method.name res.methods (some m) }
      | .locator l =>
        { res with
          locators := addMember Locator.name res.locators (some { l with owner := id }) })
    res

/-- `ExitResourceDecl`, pkg/language/reader.go:715-728. The result is nil when the resource is
already defined. -/
def declareResource (r : Reader) (name : Name) : Reader × Option ResId :=
  match r.resources.find name.toText with
  | none =>
    let (r, id) := r.newResource name
    (r, some id)
  | some id =>
    if r.isUndefinedResource name then (r.removeUndefinedResource name, some id)
    else (r.report (.resourceDefined name), none)

/-- `ExitResourceDecl`, pkg/language/reader.go:715-751, after the callbacks of the members. -/
def resourceDecl (r : Reader) (name doc : Text) (annotations : List Annotation)
    (members : List ResourceMember) : Reader :=
  let (r, members) := forChildren resourceMember r members
  match r.declareResource (identifier name) with
  | (r, none) => r
  | (r, some id) =>
    { r with
      graph := r.graph.modify id fun res =>
        addMembers id
          { res with
            doc := if doc ≠ [] then doc else res.doc
            annotations := res.annotations ++ annotations } members }

/-! ## Declarations of errors -/

/-- The largest `int`. -/
def maxInt : Nat := 9223372036854775807

/-- The value of a sequence of decimal digits. -/
def digitsValue (text : Text) : Nat := text.foldl (fun n c => 10 * n + (c.toNat - '0'.toNat)) 0

/-- `strconv.Atoi` for a sequence of decimal digits: the value, and whether it fits in an `int`. If
it doesn't the value is the largest `int`. -/
def atoi (text : Text) : Int × Bool :=
  if digitsValue text ≤ maxInt then (digitsValue text, true) else (maxInt, false)

/-- `ExitErrorCodeDecl`, pkg/language/reader.go:927-934. -/
def errorCode (r : Reader) (text : Text) : Reader × Int :=
  match atoi text with
  | (code, true) => (r, code)
  | (code, false) => (r.report (.badCode text), code)

/-- `ExitErrorDecl`, pkg/language/reader.go:884-918, after the callbacks of the members. Nothing
adds to the index of undefined errors, so that case is omitted. -/
def errorDecl (r : Reader) (name doc : Text) (annotations : List Annotation) (codes : List Text) :
    Reader :=
  let (r, codes) := forChildren errorCode r codes
  match r.errors.find (identifier name).toText with
  | none =>
    let err := ErrorConcept.new.setName (identifier name)
    let err :=
      { err with
        doc := if doc ≠ [] then doc else err.doc
        annotations := err.annotations ++ annotations }
    let err := codes.foldl (fun (e : ErrorConcept) code => { e with code := code }) err
    { r with errors := r.errors.insert (identifier name).toText err }
  | some _ => r.report (.errorDefined (identifier name))

/-! ## Files and versions -/

/-- A declaration: the callbacks of its node and of all the nodes below. -/
def decl (r : Reader) : Decl → Reader
  | .enum name doc annotations values => r.enumDecl name doc annotations values
  | .class name doc annotations members => r.structDecl .class name doc annotations members
  | .struct name doc annotations members => r.structDecl .struct name doc annotations members
  | .resource name doc annotations members => r.resourceDecl name doc annotations members
  | .error name doc annotations codes => r.errorDecl name doc annotations codes

/-- The declarations of a file, in order. -/
def decls (r : Reader) (ds : List Decl) : Reader := ds.foldl decl r

/-- The files of a version, in the order of the directory: the loop of
pkg/language/reader.go:289-300 for readable files without syntax errors. -/
def files (r : Reader) (fs : List (List Decl)) : Reader := fs.foldl decls r

/-- A new reader that starts to load a new version, pkg/language/reader.go:106-112 and
273-279. -/
def fresh : Reader := { table := TypeTable.newVersion [] 0 }

/-- The errors for the names that are still undefined, pkg/language/reader.go:121-130. The order
is arbitrary in the Go code, because it is the iteration order of maps. -/
def reportUndefined (r : Reader) : Reader :=
  { r with
    problems := r.problems ++ (r.undefinedTypes.values.map ReadProblem.undefinedType) ++
      (r.undefinedResources.values.map ReadProblem.undefinedResource) }

/-- The name of the type that a pointer points to. -/
def typeName (heap : Heap) (id : TypeId) : Name :=
  match heap[id]? with
  | none => []
  | some cell => cell.name

/-- The body of the loop that creates list types, pkg/language/reader.go:136-146. -/
def addListType (t : TypeTable) (id : TypeId) : TypeTable :=
  match t.heap[id]? with
  | none => t
  | some cell =>
    if cell.kind = .list then t
    else
      let name := Name.cat [cell.name, Nom.list]
      match t.findType name with
      | some _ => t
      | none => (t.newType { name := name, kind := .list, element := some id }).1

/-- The loop over the sorted types of a version, pkg/language/reader.go:135-147. -/
def addListTypes (t : TypeTable) : TypeTable :=
  (listing (typeName t.heap) t.types).foldl addListType t

/-- `Parameter.Type().Kind()` for all the parameters: pointers are followed when the model is
complete. -/
def resolveParameter (heap : Heap) (p : Parameter) : Parameter :=
  match heap[p.typ.id]? with
  | none => p
  | some cell => { p with typ := { id := p.typ.id, kind := cell.kind } }

/-- The same for the methods of a resource. -/
def resolveResource (heap : Heap) (res : Resource) : Resource :=
  { res with
    methods := res.methods.map fun m =>
      { m with parameters := m.parameters.map (resolveParameter heap) } }

/-- The same for all the resources. -/
def resolveKinds (heap : Heap) (g : Graph) : Graph := g.map (resolveResource heap)

end Reader

end Verif
