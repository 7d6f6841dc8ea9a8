import Verif.Model.Session

/-!
# Classes that refer to classes of other services

Model of the part of pkg/language/reader.go for classes that have a `ref` annotation: lines 433-438
and 441-534. The reader loads the referenced service with another reader, that shares the memory and
the reporter, and adds the referenced type, and the types that it needs, to the version.

The functions that load directories and files are the same of `Verif.Model.Session`, except that they
can panic or never end. The nested reader has no inputs, so it panics if it finds another
reference. Loading files also replaces the global map of comments (line 308), so the documentation of
what follows the class in the same file isn't the one of the tree; that isn't modelled.
-/

namespace Verif

namespace ClassRef

/-! ## Adding the referenced types -/

/-- `existing != nil && existing.ExplicitDeclared()`, for the type of the version with the name of the
given type, pkg/language/reader.go:507-508, 513-514 and 528-529. -/
def explicitName (t : TypeTable) (id : TypeId) : Bool :=
  match t.findType (Reader.typeName t.heap id) with
  | none => false
  | some existing =>
    match t.heap[existing]? with
    | none => false
    | some cell => cell.explicitDeclared

/-- `SetOwner`, pkg/concepts/type.go:101-103. -/
def setOwner (t : TypeTable) (id : TypeId) (owner : Option VersionId) : TypeTable :=
  { t with heap := t.heap.update id fun c => { c with owner := owner } }

/-- `SetExplicitDeclared(true)`, pkg/concepts/type.go:91-93. -/
def setExplicit (t : TypeTable) (id : TypeId) : TypeTable :=
  { t with heap := t.heap.update id fun c => { c with explicitDeclared := true } }

/-- `SetLinkOwner`, pkg/concepts/attribute.go:35-37, for an attribute of a type given by its
position. -/
def setLinkOwner (t : TypeTable) (id : TypeId) (position : Nat) (owner : Option VersionId) :
    TypeTable :=
  { t with
    heap := t.heap.update id fun c =>
      { c with attributes := c.attributes.modify position fun a => { a with linkOwner := owner } } }

/-- `attribute.Type().IsList() || attribute.Type().IsMap()`, and the element. -/
def elementOf (h : Heap) (id : TypeId) : Option TypeId :=
  match h[id]? with
  | none => none
  | some cell => if cell.isList || cell.isMap then cell.element else none

/-- `Owner`, pkg/concepts/type.go:96-98. -/
def ownerOf (h : Heap) (id : TypeId) : Option VersionId :=
  match h[id]? with
  | none => none
  | some cell => cell.owner

/-- The part of the loop over the attributes for links, pkg/language/reader.go:503-521. -/
def importLink (t : TypeTable) (id : TypeId) (position : Nat) (a : Attribute) : TypeTable :=
  if explicitName t a.typ then setOwner t a.typ (some t.version)
  else
    match elementOf t.heap a.typ with
    | some element =>
      if explicitName t element then
        setOwner (setOwner t a.typ (some t.version)) element (some t.version)
      else setLinkOwner t id position (ownerOf t.heap a.typ)
    | none => setLinkOwner t id position (ownerOf t.heap a.typ)

/-- The end of `recursivelyAddTypeToVersion`, pkg/language/reader.go:528-532. -/
def importSelf (t : TypeTable) (id : TypeId) : TypeTable :=
  (if explicitName t id then setExplicit t id else t).addType id

/-- `IsBasicType`, pkg/concepts/type.go:179-185. -/
def isBasicType (h : Heap) (id : TypeId) : Bool :=
  match h[id]? with
  | none => false
  | some cell => cell.kind == .scalar || cell.kind == .interface

/-- The attributes of a type. -/
def attributesOf (h : Heap) (id : TypeId) : List Attribute :=
  match h[id]? with
  | none => []
  | some cell => cell.attributes

/-- The body of the loop over the attributes of a type, pkg/language/reader.go:500-526. The argument
is the recursive call. -/
def importAttribute (recur : TypeTable → TypeId → Run TypeTable) (id : TypeId) (t : TypeTable)
    (position : Nat) (a : Attribute) : Run TypeTable :=
  if a.link then .done (importLink t id position a)
  else
    match elementOf t.heap a.typ with
    | some element => recur (t.addType a.typ) element
    | none => recur t a.typ

/-- The loop over the attributes of a type. -/
def importAttributes (recur : TypeTable → TypeId → Run TypeTable) (id : TypeId) :
    TypeTable → Nat → List Attribute → Run TypeTable
  | t, _, [] => .done t
  | t, position, a :: as =>
    (importAttribute recur id t position a).bind fun t =>
      importAttributes recur id t (position + 1) as

/-- `recursivelyAddTypeToVersion`, pkg/language/reader.go:494-534, for the types of the current
version; the argument `currType` isn't used by the code. The number bounds the depth of the
recursion. -/
def importType : Nat → TypeTable → TypeId → Run TypeTable
  | 0, _, _ => .outOfFuel
  | fuel + 1, t, id =>
    if isBasicType t.heap id then .done t
    else
      (importAttributes (importType fuel) id t 0 (attributesOf t.heap id)).bind fun t =>
        .done (importSelf t id)

/-! ## The class that has the reference -/

/-- The body of the inner loop of `removeLinkedAttributes`, pkg/language/reader.go:446-457, for an
attribute given by its position. The comparison of line 446 compares pointers to names: they are equal
only if they are of the same type. -/
def unlinkAttribute (typ : TypeId) (owner : TypeId) (t : TypeTable) (e : Attribute × Nat) : TypeTable :=
  let t :=
    if e.1.typ = typ then setExplicit (setLinkOwner t owner e.2 none) e.1.typ else t
  match elementOf t.heap e.1.typ with
  | none => t
  | some element =>
    if (Reader.typeName t.heap element).toText = (Reader.typeName t.heap typ).toText then
      setOwner (setExplicit (setExplicit (setLinkOwner t owner e.2 none) e.1.typ) element) element
        (ownerOf t.heap typ)
    else t

/-- `removeLinkedAttributes`, pkg/language/reader.go:441-460. -/
def unlinkAttributes (typ : TypeId) (t : TypeTable) : TypeTable :=
  (listing (Reader.typeName t.heap) t.types).foldl
    (fun t owner => (attributesOf t.heap owner).zipIdx.foldl (unlinkAttribute typ owner) t) t

/-! ## Loading directories and files -/

/-- The state of the callbacks, and the number of versions created. -/
structure RefReader where
  reader : Reader
  created : Nat
deriving DecidableEq, Repr

/-- What is done for a class with a reference: its type and the path. -/
abbrev Handler := RefReader → TypeId → Text → Run RefReader

/-- Runs an action for each element, in order. -/
def foldRun {σ α : Type} (f : σ → α → Run σ) (s : σ) : List α → Run σ
  | [] => .done s
  | x :: xs => (f s x).bind fun s => foldRun f s xs

/-- `ExitClassDecl`, pkg/language/reader.go:399-439, after the callbacks of the members. -/
def classDecl (h : Handler) (s : RefReader) (name doc : Text) (annotations : List Annotation)
    (members : List MemberDecl) : Run RefReader :=
  let (r, attributes) := Reader.forChildren Reader.structMember s.reader members
  match r.declareType .class (Reader.identifier name) with
  | (r, none) => .done { s with reader := r }
  | (r, some id) =>
    let r := r.completeType id doc annotations [] attributes
    let path :=
      match r.table.heap[id]? with
      | none => []
      | some cell => referencePath cell.annotations
    if path = [] then .done { s with reader := r }
    else
      let table := unlinkAttributes id (setExplicit r.table id)
      h { s with reader := { r with table := table } } id path

/-- A declaration: the callbacks of its node and of all the nodes below. -/
def decl (h : Handler) (s : RefReader) (d : Decl) : Run RefReader :=
  match d with
  | .class name doc annotations members => classDecl h s name doc annotations members
  | d => .done { s with reader := s.reader.decl d }

/-- `loadFile`, like `Session.loadFile`. -/
def loadFile (h : Handler) (s : RefReader) (f : SourceFile) : Run RefReader :=
  if !f.regular then .done s
  else if !f.readable then .done { s with reader := s.reader.report .badFile }
  else
    let r := (List.replicate f.syntaxErrors ReadProblem.syntaxError).foldl Reader.report s.reader
    foldRun (decl h) { s with reader := r } f.decls

/-- `loadVersion`, like `Session.loadVersion`. -/
def loadVersion (h : Handler) (service : Text) (s : Session) (d : SourceVersion) : Run Session :=
  if !d.isDir then .done s
  else
    match d.status with
    | .good =>
      let (s, v) := s.findOrCreateVersion service (parseUsingSeparator d.name '_')
      (foldRun (loadFile h) { reader := s.enter v, created := s.created } d.files).bind fun r =>
        .done (({ s with created := r.created } : Session).leave service v r.reader)
    | _ => .done (Session.loadVersion service s d)

/-- `loadService`, like `Session.loadService`. -/
def loadService (h : Handler) (s : Session) (d : SourceService) : Run Session :=
  if !d.isDir then .done s
  else
    match d.status with
    | .good =>
      let name := parseUsingSeparator d.name '_'
      foldRun (loadVersion h name.toText) (s.findOrCreateService name) d.versions
    | _ => .done (Session.loadService s d)

/-- `loadModel`, like `Session.loadModel`. -/
def loadModel (h : Handler) (s : Session) (d : SourceModel) : Run Session :=
  match d.status with
  | .good => foldRun (loadService h) s d.services
  | _ => .done (Session.loadModel s d)

/-! ## References -/

/-- What the nested reader sees in the directory of a service of the model. The names `""`, `"."` and
`".."`, that are other directories, aren't modelled. -/
def serviceDirectory (d : SourceModel) (name : Text) : SourceService :=
  match d.services.find? fun s => s.name == name with
  | none => { name := name, status := .missing }
  | some s => if s.isDir then s else { s with isDir := true, status := .notDirectory }

/-- `strings.TrimPrefix(path, "/")`. -/
def trimSlash : Text → Text
  | '/' :: rest => rest
  | path => path

/-- The nested reader, pkg/language/reader.go:474-481: it has its own model and indexes of undefined
names, and shares the memory and the reporter. -/
def nested (s : RefReader) : Session :=
  { created := s.created
    heap := s.reader.table.heap
    graph := s.reader.graph
    problems := s.reader.problems }

/-- The reader after the nested one. -/
def resume (s : RefReader) (n : Session) : RefReader :=
  { reader :=
      { s.reader with
        table := { s.reader.table with heap := n.heap }
        graph := n.graph
        problems := n.problems }
    created := n.created }

/-- What the nested reader does if it finds a reference: `r.inputs[0]` panics. -/
def nestedHandler : Handler := fun _ _ _ => .panic

/-- The end of `handleClassRef`, pkg/language/reader.go:485-490. The method `FindType` of a nil
version and the method `FindVersion` of a nil service panic. -/
def importNamed (fuel : Nat) (s : RefReader) (n : Session) (service version typ : Text) :
    Run RefReader :=
  match n.services.find (parseUsingSeparator service '_').toText with
  | none => .panic
  | some loaded =>
    match loaded.versions.find (parseUsingSeparator version '_').toText with
    | none => .panic
    | some v =>
      let s := resume s n
      match v.types.find (parseUsingSeparator typ '_').toText with
      | none => .done s
      | some id =>
        (importType fuel s.reader.table id).bind fun table =>
          .done { s with reader := { s.reader with table := table } }

/-- `handleClassRef`, pkg/language/reader.go:462-491. It panics if there isn't exactly one input, or
if the path has less than three components. -/
def handleClassRef (inputs : List SourceModel) (fuel : Nat) : Handler := fun s _ path =>
  match inputs with
  | [input] =>
    match splitOn '/' (trimSlash path) with
    | service :: version :: typ :: _ =>
      (loadService nestedHandler (nested s) (serviceDirectory input service)).bind fun n =>
        importNamed fuel s n service version typ
    | _ => .panic
  | _ => .panic

/-- The model before the checks, pkg/language/reader.go:106-149, like `Session.load`. -/
def load (inputs : List SourceModel) (fuel : Nat) : Run Session :=
  (foldRun (loadModel (handleClassRef inputs fuel)) {} inputs).bind fun s =>
    let s := s.reportUndefined.complete
    .done { s with graph := Reader.resolveKinds s.heap s.graph }

/-- `Read`, pkg/language/reader.go:99-169, like `Session.read`. -/
def read (prior : Option Nat) (inputs : List SourceModel) (fuel : Nat) : Run Session.ReadOutcome :=
  match prior with
  | none => .done { result := .error t!"parameter 'reporter' is mandatory", errors := 0 }
  | some prior =>
    (load inputs fuel).bind fun s =>
    (Check.checkModel s.graph fuel (s.versions.map s.versionView)).bind fun messages =>
      let errors := prior + s.problems.length + (messages.filter Message.isError).length
      if errors > 0 then .done { result := .error (Session.errorText errors), errors := errors }
      else .done { result := .model s, errors := errors }

end ClassRef

end Verif
