import Verif.Model.Reader
import Verif.Spec.Listing

/-!
Specification for the properties of the reader: what a list of declarations declares and mentions,
and the content of a version described without pointers.
-/

namespace Verif

/-! ## What declarations declare and mention -/

/-- The key of a name written in a source file. -/
def keyOf (text : Text) : Text := (parseUsingCase text).toText

/-- The key of the type that a reference should denote. -/
def TypeExpr.key : TypeExpr → Text
  | .plain name => keyOf name
  | .list element => keyOf element ++ t!"_list"
  | .map index element => keyOf index ++ t!"_" ++ keyOf element ++ t!"_map"

/-- The names that a reference mentions. -/
def TypeExpr.names : TypeExpr → List Text
  | .plain name => [name]
  | .list element => [element]
  | .map index element => [index, element]

/-- The keys that a reference mentions. -/
def TypeExpr.mentions (e : TypeExpr) : List Text := e.names.map keyOf

/-- The reference is a list or a map. -/
def TypeExpr.isDerived : TypeExpr → Bool
  | .plain _ => false
  | .list _ => true
  | .map _ _ => true

/-- The references to types inside a member of a resource. -/
def ResourceMember.typeRefs : ResourceMember → List TypeExpr
  | .method m => m.parameters.map (·.ref)
  | .locator _ => []

/-- The references to types inside a declaration. -/
def Decl.typeRefs : Decl → List TypeExpr
  | .enum _ _ _ _ => []
  | .class _ _ _ members => members.map (·.ref)
  | .struct _ _ _ members => members.map (·.ref)
  | .resource _ _ _ members => members.flatMap ResourceMember.typeRefs
  | .error _ _ _ _ => []

/-- The type that a declaration declares. -/
def Decl.declaredType : Decl → Option (Text × Kind)
  | .enum name _ _ _ => some (keyOf name, .enum)
  | .class name _ _ _ => some (keyOf name, .class)
  | .struct name _ _ _ => some (keyOf name, .struct)
  | .resource _ _ _ _ => none
  | .error _ _ _ _ => none

/-- The annotations of the type that a declaration declares. -/
def Decl.typeAnnotations : Decl → List Annotation
  | .enum _ _ as _ => as
  | .class _ _ as _ => as
  | .struct _ _ as _ => as
  | _ => []

/-- The resource that a declaration declares. -/
def Decl.declaredResource : Decl → Option Text
  | .resource name _ _ _ => some (keyOf name)
  | _ => none

/-- The error that a declaration declares. -/
def Decl.declaredError : Decl → Option Text
  | .error name _ _ _ => some (keyOf name)
  | _ => none

/-- The targets mentioned by a locator. -/
def LocatorDecl.targets (l : LocatorDecl) : List Text :=
  l.members.filterMap fun m =>
    match m with
    | .target resource => some (keyOf resource)
    | .variableName _ => none

/-- The targets mentioned by a declaration. -/
def Decl.targets : Decl → List Text
  | .resource _ _ _ members =>
    members.flatMap fun m =>
      match m with
      | .method _ => []
      | .locator l => l.targets
  | _ => []

/-- All the references to types. -/
def refsOf (ds : List Decl) : List TypeExpr := ds.flatMap Decl.typeRefs

/-- All the keys mentioned in references to types. -/
def mentionedTypes (ds : List Decl) : List Text := (refsOf ds).flatMap TypeExpr.mentions

/-- The keys of the declared types, in order and with repetitions. -/
def declaredTypes (ds : List Decl) : List Text := ds.filterMap fun d => d.declaredType.map Prod.fst

/-- The keys of the lists and maps referenced. -/
def derivedTypes (ds : List Decl) : List Text :=
  ((refsOf ds).filter TypeExpr.isDerived).map TypeExpr.key

/-- The keys of the declared resources, in order and with repetitions. -/
def declaredResources (ds : List Decl) : List Text := ds.filterMap Decl.declaredResource

/-- The keys of the resources mentioned as targets. -/
def mentionedResources (ds : List Decl) : List Text := ds.flatMap Decl.targets

/-- The keys of the declared errors, in order and with repetitions. -/
def declaredErrors (ds : List Decl) : List Text := ds.filterMap Decl.declaredError

/-- The keys and kinds of the types that every version has, apart from their lists. -/
def builtinScalars : List (Text × Kind) :=
  [(t!"boolean", .scalar), (t!"integer", .scalar), (t!"long", .scalar), (t!"float", .scalar),
   (t!"string", .scalar), (t!"date", .scalar), (t!"interface", .interface)]

/-- The keys of the types that every version has. -/
def builtinKeys : List Text :=
  builtinScalars.map Prod.fst ++ builtinScalars.map fun b => b.1 ++ t!"_list"

/-- The name that a declaration declares as a type. -/
def Decl.typeName : Decl → Option Name
  | .enum name _ _ _ => some (parseUsingCase name)
  | .class name _ _ _ => some (parseUsingCase name)
  | .struct name _ _ _ => some (parseUsingCase name)
  | .resource _ _ _ _ => none
  | .error _ _ _ _ => none

/-- The name that a declaration declares as a resource. -/
def Decl.resourceName : Decl → Option Name
  | .resource name _ _ _ => some (parseUsingCase name)
  | _ => none

/-- The name that a declaration declares as an error. -/
def Decl.errorName : Decl → Option Name
  | .error name _ _ _ => some (parseUsingCase name)
  | _ => none

/-- The names of the list whose key is already used when they are reached: either it is one of the
keys used from the start, or it is the key of a previous name. -/
def repeated (used : List Text) : List Name → List Name
  | [] => []
  | n :: ns =>
    if n.toText ∈ used then n :: repeated used ns else repeated (n.toText :: used) ns

/-- The locators of a declaration. -/
def Decl.locators : Decl → List LocatorDecl
  | .resource _ _ _ members => members.filterMap fun m =>
    match m with
    | .method _ => none
    | .locator l => some l
  | _ => []

/-- The texts of the codes of a declaration. -/
def Decl.codes : Decl → List Text
  | .error _ _ _ codes => codes
  | _ => []

/-- The grammar guarantees that identifiers aren't empty. -/
def WellNamed (ds : List Decl) : Prop := ∀ e ∈ refsOf ds, ∀ n ∈ e.names, n ≠ []

/-- The keys calculated for lists and maps don't clash: they are different from the keys of the
types written by the user, and different lists and maps have different keys. -/
structure NoNameClash (ds : List Decl) : Prop where
  notDeclared : ∀ k ∈ derivedTypes ds, k ∉ declaredTypes ds
  notMentioned : ∀ k ∈ derivedTypes ds, k ∉ builtinKeys → k ∉ mentionedTypes ds
  distinct : ∀ e ∈ refsOf ds, ∀ f ∈ refsOf ds, e.isDerived = true → f.isDerived = true →
    e.key = f.key → e.mentions = f.mentions

/-! ## Content of a version without pointers -/

/-- An attribute, with the key of its type. -/
structure AttributeView where
  name : Name
  typ : Text
  link : Bool
  linkOwner : Option VersionId
  doc : Text
  annotations : List Annotation
deriving DecidableEq, Repr

/-- A type, with keys instead of pointers. -/
structure TypeView where
  kind : Kind
  owner : Option VersionId
  attributes : List AttributeView
  values : List EnumValue
  element : Option Text
  index : Option Text
  explicitDeclared : Bool
  doc : Text
  annotations : List Annotation
deriving DecidableEq, Repr

/-- A parameter, with the key of its type. -/
structure ParameterView where
  name : Name
  typ : Text
  isIn : Bool
  isOut : Bool
  dflt : Option Literal
  doc : Text
  annotations : List Annotation
deriving DecidableEq, Repr

/-- A method. -/
structure MethodView where
  name : Name
  parameters : List ParameterView
  doc : Text
  annotations : List Annotation
deriving DecidableEq, Repr

/-- A locator, with the keys of its owner and its target. -/
structure LocatorView where
  name : Name
  owner : Text
  target : Option Text
  isVariable : Bool
  doc : Text
  annotations : List Annotation
deriving DecidableEq, Repr

/-- A resource. -/
structure ResourceView where
  methods : List MethodView
  locators : List LocatorView
  doc : Text
  annotations : List Annotation
deriving DecidableEq, Repr

namespace View

/-- The key of the type that a pointer points to. -/
def typeKey (heap : Heap) (id : TypeId) : Text :=
  match heap[id]? with
  | none => []
  | some cell => cell.name.toText

/-- The key of the resource that a pointer points to. -/
def resourceKey (g : Graph) (id : ResId) : Text :=
  match g[id]? with
  | none => []
  | some res => res.name.toText

/-- An attribute without pointers. -/
def ofAttribute (heap : Heap) (a : Attribute) : AttributeView :=
  { name := a.name, typ := typeKey heap a.typ, link := a.link, linkOwner := a.linkOwner
    doc := a.doc, annotations := a.annotations }

/-- A type without pointers. -/
def ofCell (heap : Heap) (c : TypeCell) : TypeView :=
  { kind := c.kind, owner := c.owner, attributes := c.attributes.map (ofAttribute heap)
    values := c.values, element := c.element.map (typeKey heap)
    index := c.index.map (typeKey heap), explicitDeclared := c.explicitDeclared, doc := c.doc
    annotations := c.annotations }

/-- A parameter without pointers. -/
def ofParameter (heap : Heap) (p : Parameter) : ParameterView :=
  { name := p.name, typ := typeKey heap p.typ.id, isIn := p.isIn, isOut := p.isOut, dflt := p.dflt
    doc := p.doc, annotations := p.annotations }

/-- A method without pointers. -/
def ofMethod (heap : Heap) (m : Method) : MethodView :=
  { name := m.name, parameters := m.parameters.map (ofParameter heap), doc := m.doc
    annotations := m.annotations }

/-- A locator without pointers. -/
def ofLocator (g : Graph) (l : Locator) : LocatorView :=
  { name := l.name, owner := resourceKey g l.owner, target := l.target.map (resourceKey g)
    isVariable := l.isVariable, doc := l.doc, annotations := l.annotations }

/-- A resource without pointers. -/
def ofResource (heap : Heap) (g : Graph) (r : Resource) : ResourceView :=
  { methods := r.methods.map (ofMethod heap), locators := r.locators.map (ofLocator g)
    doc := r.doc, annotations := r.annotations }

end View

/-- The type of the version with the given key, without pointers. -/
def Reader.typeView (r : Reader) (key : Text) : Option TypeView :=
  (r.table.types.find key).bind fun id => r.table.heap[id]?.map (View.ofCell r.table.heap)

/-- The resource of the version with the given key, without pointers. -/
def Reader.resourceView (r : Reader) (key : Text) : Option ResourceView :=
  (r.resources.find key).bind fun id => r.graph[id]?.map (View.ofResource r.table.heap r.graph)

/-! ## What a version should contain -/

/-- The attribute that a member describes. -/
def MemberDecl.view (m : MemberDecl) : AttributeView :=
  { name := parseUsingCase m.name, typ := m.ref.key, link := m.link, linkOwner := none
    doc := m.doc, annotations := m.annotations }

/-- The value that a member of an enumerated type describes. -/
def ValueDecl.view (v : ValueDecl) : EnumValue :=
  { name := parseUsingCase v.name, doc := v.doc, annotations := v.annotations }

/-- A type of which only the name is known. -/
def TypeView.unknown (owner : VersionId) : TypeView :=
  { kind := .undefined, owner := some owner, attributes := [], values := [], element := none
    index := none, explicitDeclared := false, doc := [], annotations := [] }

/-- The type that a declaration describes: the given key, the kind, the documentation, the
annotations, and the values or the attributes sorted by name. -/
def Decl.Describes (owner : VersionId) : Decl → Text → TypeView → Prop
  | .enum name doc annotations values, key, v =>
    key = keyOf name ∧ ∃ sorted, IsSortOf EnumValue.name sorted (values.map ValueDecl.view) ∧
      v = { TypeView.unknown owner with
            kind := .enum, doc := doc, annotations := annotations, values := sorted }
  | .class name doc annotations members, key, v =>
    key = keyOf name ∧
    ∃ sorted, IsSortOf AttributeView.name sorted (members.map MemberDecl.view) ∧
      v = { TypeView.unknown owner with
            kind := .class, doc := doc, annotations := annotations, attributes := sorted }
  | .struct name doc annotations members, key, v =>
    key = keyOf name ∧
    ∃ sorted, IsSortOf AttributeView.name sorted (members.map MemberDecl.view) ∧
      v = { TypeView.unknown owner with
            kind := .struct, doc := doc, annotations := annotations, attributes := sorted }
  | .resource _ _ _ _, _, _ => False
  | .error _ _ _ _, _, _ => False

/-- The list or map that a reference describes. -/
def TypeExpr.derivedView (owner : VersionId) : TypeExpr → Option TypeView
  | .plain _ => none
  | .list element =>
    some { TypeView.unknown owner with kind := .list, element := some (keyOf element) }
  | .map index element =>
    some { TypeView.unknown owner with
           kind := .map, index := some (keyOf index), element := some (keyOf element) }

/-- A parameter is input if the direction is listed. -/
def ParameterDecl.isIn (p : ParameterDecl) : Bool := p.directions.contains .input

/-- A parameter is output if the direction is listed, or if no direction is listed. -/
def ParameterDecl.isOut (p : ParameterDecl) : Bool :=
  p.directions.isEmpty || p.directions.contains .output

/-- The parameter that a declaration describes. -/
def ParameterDecl.view (p : ParameterDecl) : ParameterView :=
  { name := parseUsingCase p.name, typ := p.ref.key, isIn := p.isIn, isOut := p.isOut
    dflt := p.dflt, doc := p.doc, annotations := p.annotations }

/-- The locator declares a variable. -/
def LocatorDecl.hasVariable (l : LocatorDecl) : Bool :=
  l.members.any fun m =>
    match m with
    | .target _ => false
    | .variableName _ => true

/-- The locator that a declaration of a resource with the given key describes. -/
def LocatorDecl.view (owner : Text) (l : LocatorDecl) : LocatorView :=
  { name := parseUsingCase l.name, owner := owner, target := l.targets.getLast?
    isVariable := l.hasVariable, doc := l.doc, annotations := l.annotations }

/-- The methods declared by the members of a resource. -/
def methodDecls (members : List ResourceMember) : List MethodDecl :=
  members.filterMap fun m =>
    match m with
    | .method m => some m
    | .locator _ => none

/-- The locators declared by the members of a resource. -/
def locatorDecls (members : List ResourceMember) : List LocatorDecl :=
  members.filterMap fun m =>
    match m with
    | .method _ => none
    | .locator l => some l

/-- Two lists with the same length whose elements are related one by one. -/
inductive All2 {α β : Type} (R : α → β → Prop) : List α → List β → Prop
  | nil : All2 R [] []
  | cons {x y xs ys} : R x y → All2 R xs ys → All2 R (x :: xs) (y :: ys)

/-- The method that a declaration describes: the parameters are sorted by name. -/
def MethodDecl.Describes (m : MethodDecl) (v : MethodView) : Prop :=
  v.name = parseUsingCase m.name ∧ v.doc = m.doc ∧ v.annotations = m.annotations ∧
  IsSortOf ParameterView.name v.parameters (m.parameters.map ParameterDecl.view)

/-- The resource that a declaration describes: the methods and the locators are sorted by name. -/
def Decl.DescribesResource : Decl → Text → ResourceView → Prop
  | .resource name doc annotations members, key, v =>
    key = keyOf name ∧ v.doc = doc ∧ v.annotations = annotations ∧
    (∃ methods, All2 MethodDecl.Describes (methodDecls members) methods ∧
      IsSortOf MethodView.name v.methods methods) ∧
    IsSortOf LocatorView.name v.locators ((locatorDecls members).map (LocatorDecl.view key))
  | _, _, _ => False

/-- The types that every version has: the scalars, the interface, and the lists of those. -/
def BuiltinView (owner : VersionId) (key : Text) (v : TypeView) : Prop :=
  ∃ b ∈ builtinScalars,
    (key = b.1 ∧ v = { TypeView.unknown owner with kind := b.2 }) ∨
    (key = b.1 ++ t!"_list" ∧
      v = { TypeView.unknown owner with kind := .list, element := some b.1 })

/-- Declarations that should be accepted: no name is declared twice, all the names that are used
are declared or are names of built-in types, locators have a target and the codes of errors fit in
an `int`. -/
structure Acceptable (ds : List Decl) : Prop where
  distinctTypes : (declaredTypes ds).Nodup
  notBuiltin : ∀ k ∈ declaredTypes ds, k ∉ builtinKeys
  knownTypes : ∀ k ∈ mentionedTypes ds, k ∈ builtinKeys ∨ k ∈ declaredTypes ds
  distinctResources : (declaredResources ds).Nodup
  knownResources : ∀ k ∈ mentionedResources ds, k ∈ declaredResources ds
  distinctErrors : (declaredErrors ds).Nodup
  targets : ∀ d ∈ ds, ∀ l ∈ d.locators, l.targets ≠ []
  codes : ∀ d ∈ ds, ∀ c ∈ d.codes, (c.foldl (fun n c => 10 * n + (c.toNat - 48)) 0) < 2 ^ 63

/-- The names reported as already defined types. -/
def ReadProblem.typeDefinedName : ReadProblem → Option Name
  | .typeDefined n => some n
  | _ => none

/-- The names reported as already defined resources. -/
def ReadProblem.resourceDefinedName : ReadProblem → Option Name
  | .resourceDefined n => some n
  | _ => none

/-- The names reported as already defined errors. -/
def ReadProblem.errorDefinedName : ReadProblem → Option Name
  | .errorDefined n => some n
  | _ => none

/-- How many of the problems of some kind are about the given key. -/
def countFor (about : ReadProblem → Option Name) (key : Text) (ps : List ReadProblem) : Nat :=
  ((ps.filterMap about).map Name.toText).count key

/-- Each type of a table is stored with its name as key. -/
def TypesNamed (t : TypeTable) : Prop :=
  ∀ k id, t.types.find k = some id → ∃ c, t.heap[id]? = some c ∧ c.name.toText = k

end Verif
