import Verif.Model.Resources

/-!
# Checks of the reader: `pkg/language/checks.go`

The reporter is modelled by the list of messages that it receives, in order. The texts of messages
are replaced by constructors that carry what the texts mention.
-/

namespace Verif

/-- Messages sent to the reporter by the checks. -/
inductive Problem
  | noRoot
  | unknownCategory (m : Name)
  | wrongType (p : Name) (kind : Kind)
  | wrongCount (m : Name) (count : Nat)
  | wrongDirection (p : Name)
  | wrongName (p : Name)
  | missing (m p : Name)
  | notInteger (p : Name)
  | wrongDefault (p : Name) (dflt : Int)
  | incompatibleDefault (p : Name)
  | loop (locators : List Locator)
deriving DecidableEq, Repr

/-- A message: `Errorf` or `Warnf` (pkg/reporter/reporter.go). The informative messages of
pkg/language/checks.go:638-655 that follow a loop error are omitted. -/
inductive Message
  | error (p : Problem)
  | warning (p : Problem)
deriving DecidableEq, Repr

/-- Whether the message is an error. -/
def Message.isError : Message → Bool
  | .error _ => true
  | .warning _ => false

/-- The pointers returned by `Boolean`, `IntegerType` and `StringType`,
pkg/concepts/version.go:117-134, for the version of the method. -/
structure Builtins where
  boolean : Option TypeId
  integer : Option TypeId
  string : Option TypeId
deriving DecidableEq, Repr

/-- Calculation of those pointers, pkg/concepts/version.go:117-134. -/
def TypeTable.builtins (t : TypeTable) : Builtins :=
  { boolean := t.findType Nom.boolean
    integer := t.findType Nom.integer
    string := t.findType Nom.string }

namespace Check

/-- A loop that reports a problem for each parameter that satisfies a condition. -/
def forParams (ps : List Parameter) (bad : Parameter → Bool) (problem : Parameter → Problem) :
    List Message :=
  (ps.filter bad).map fun p => .error (problem p)

/-- A check that reports one problem. -/
def reportIf (bad : Bool) (problem : Problem) : List Message :=
  if bad then [.error problem] else []

/-- `checkRequestParameter`, pkg/language/checks.go:530-562. -/
def requestParameter (b : Builtins) (m : Method) (name : Name) (dflt : Int) : List Message :=
  match m.getParameter name with
  | none => [.warning (.missing m.name name)]
  | some p =>
    reportIf (decide (some p.typ.id ≠ b.integer)) (.notInteger p.name) ++
    reportIf (!p.isIn || !p.isOut) (.wrongDirection p.name) ++
    reportIf (decide (p.dflt ≠ some (.int dflt))) (.wrongDefault p.name dflt)

/-- `checkResponseParameter`, pkg/language/checks.go:564-590. -/
def responseParameter (b : Builtins) (m : Method) (name : Name) : List Message :=
  match m.getParameter name with
  | none => [.warning (.missing m.name name)]
  | some p =>
    reportIf (decide (some p.typ.id ≠ b.integer)) (.notInteger p.name) ++
    reportIf (p.isIn || !p.isOut) (.wrongDirection p.name)

/-- Equality of two names, in the order used by the checks: `nomenclator.Body.Equals(...)`. -/
def sameName (a b : Name) : Bool := Name.equals (some a) (some b)

/-- `checkAdd`, pkg/language/checks.go:93-138. -/
def checkAdd (m : Method) : List Message :=
  let structs := m.parameters.filter fun p => p.typ.isStruct
  forParams m.parameters (fun p => !p.typ.isScalar && !p.typ.isStruct)
    (fun p => .wrongType p.name p.typ.kind) ++
  reportIf (structs.length != 1) (.wrongCount m.name structs.length) ++
  forParams structs (fun p => !p.isIn || !p.isOut) (fun p => .wrongDirection p.name) ++
  forParams structs (fun p => !sameName Nom.body p.name) (fun p => .wrongName p.name)

/-- `checkDelete`, pkg/language/checks.go:140-157. -/
def checkDelete (m : Method) : List Message :=
  forParams m.parameters (fun p => !p.typ.isScalar) (fun p => .wrongType m.name p.typ.kind) ++
  forParams m.parameters (fun p => !p.isIn || p.isOut) (fun p => .wrongDirection p.name)

/-- `checkGet`, pkg/language/checks.go:159-213. -/
def checkGet (m : Method) : List Message :=
  let structs := m.parameters.filter fun p => p.typ.isStruct
  forParams m.parameters (fun p => !p.typ.isScalar && !p.typ.isStruct)
    (fun p => .wrongType p.name p.typ.kind) ++
  reportIf (structs.length != 1) (.wrongCount m.name structs.length) ++
  forParams m.parameters (fun p => p.typ.isScalar && (!p.isIn || p.isOut))
    (fun p => .wrongDirection p.name) ++
  forParams structs (fun p => !p.isOut || p.isIn) (fun p => .wrongDirection p.name) ++
  forParams structs (fun p => !sameName Nom.body p.name) (fun p => .wrongName p.name)

/-- `checkList`, pkg/language/checks.go:215-273. -/
def checkList (b : Builtins) (m : Method) : List Message :=
  let lists := m.parameters.filter fun p => p.typ.isList
  forParams m.parameters (fun p => !p.typ.isScalar && !p.typ.isList)
    (fun p => .wrongType p.name p.typ.kind) ++
  reportIf (lists.length != 1) (.wrongCount m.name lists.length) ++
  requestParameter b m Nom.page 1 ++
  requestParameter b m Nom.size 100 ++
  responseParameter b m Nom.total ++
  reportIf (m.getParameter Nom.items).isNone (.missing m.name Nom.items) ++
  forParams lists (fun p => p.isIn || !p.isOut) (fun p => .wrongDirection p.name) ++
  forParams lists (fun p => !sameName Nom.items p.name) (fun p => .wrongName p.name)

/-- `checkPost`, pkg/language/checks.go:275-319. -/
def checkPost (m : Method) : List Message :=
  let ins := m.parameters.filter fun p => p.isIn
  let outs := m.parameters.filter fun p => p.isOut
  reportIf (decide (ins.length > 1)) (.wrongCount m.name ins.length) ++
  forParams ins (fun p => !p.typ.isStruct) (fun p => .wrongType p.name p.typ.kind) ++
  reportIf (outs.length != 1) (.wrongCount m.name outs.length) ++
  forParams outs (fun p => !p.typ.isStruct) (fun p => .wrongType p.name p.typ.kind)

/-- `checkSearch`, pkg/language/checks.go:321-434. The two checks of the last loop are done one
after the other for each body; the model runs two loops, which changes only the order of the
messages. -/
def checkSearch (b : Builtins) (m : Method) : List Message :=
  let ins := m.parameters.filter fun p => p.isIn
  let outs := m.parameters.filter fun p => p.isOut
  let lists := m.parameters.filter fun p => p.typ.isList
  let bodies := m.parameters.filter fun p => p.typ.isStruct && p.isIn
  forParams outs (fun p => !p.typ.isScalar && !p.typ.isList)
    (fun p => .wrongType p.name p.typ.kind) ++
  forParams ins (fun p => !p.typ.isScalar && !p.typ.isStruct)
    (fun p => .wrongType p.name p.typ.kind) ++
  reportIf (lists.length != 1) (.wrongCount m.name lists.length) ++
  requestParameter b m Nom.page 1 ++
  requestParameter b m Nom.size 100 ++
  responseParameter b m Nom.total ++
  reportIf (m.getParameter Nom.items).isNone (.missing m.name Nom.items) ++
  forParams lists (fun p => p.isIn || !p.isOut) (fun p => .wrongDirection p.name) ++
  forParams lists (fun p => !sameName Nom.items p.name) (fun p => .wrongName p.name) ++
  reportIf (bodies.length != 1) (.wrongCount m.name bodies.length) ++
  forParams bodies (fun p => p.isOut || !p.isIn) (fun p => .wrongDirection p.name) ++
  forParams bodies (fun p => !sameName Nom.body p.name) (fun p => .wrongName p.name)

/-- `checkUpdate`, pkg/language/checks.go:436-493. -/
def checkUpdate (m : Method) : List Message :=
  let bodies := m.parameters.filter fun p => p.typ.isStruct || p.typ.isList
  forParams m.parameters (fun p => !p.typ.isScalar && !p.typ.isStruct && !p.typ.isList)
    (fun p => .wrongType p.name p.typ.kind) ++
  reportIf (bodies.length != 1) (.wrongCount m.name bodies.length) ++
  forParams m.parameters (fun p => p.typ.isScalar && (!p.isIn || p.isOut))
    (fun p => .wrongDirection p.name) ++
  forParams bodies (fun p => !p.isIn || !p.isOut) (fun p => .wrongDirection p.name) ++
  forParams bodies (fun p => !sameName Nom.body p.name) (fun p => .wrongName p.name)

/-- `checkAction`, pkg/language/checks.go:495-497. -/
def checkAction (_ : Method) : List Message := []

/-- The pointer to the type that a default value must have, pkg/language/checks.go:506-512. -/
def typeOfDefault (b : Builtins) : Literal → Option TypeId
  | .bool _ => b.boolean
  | .int _ => b.integer
  | .str _ => b.string

/-- `checkParameter`, pkg/language/checks.go:499-528. The default case of the switch can't happen
because the reader only produces those three types of literals. -/
def checkParameter (b : Builtins) (p : Parameter) : List Message :=
  match p.dflt with
  | none => []
  | some value =>
    match typeOfDefault b value with
    | none => []
    | some t => reportIf (decide (t ≠ p.typ.id)) (.incompatibleDefault p.name)

/-- `checkMethod`, pkg/language/checks.go:60-91. -/
def checkMethod (b : Builtins) (m : Method) : List Message :=
  (if m.isAdd then checkAdd m
   else if m.isDelete || m.isAsyncDelete then checkDelete m
   else if m.isGet then checkGet m
   else if m.isList then checkList b m
   else if m.isPost then checkPost m
   else if m.isSearch then checkSearch b m
   else if m.isUpdate || m.isAsyncUpdate then checkUpdate m
   else if m.isAction then checkAction m
   else [.error (.unknownCategory m.name)]) ++
  m.parameters.flatMap (checkParameter b)

/-- `checkResource`, pkg/language/checks.go:54-58. -/
def checkResource (b : Builtins) (r : Resource) : List Message := r.methods.flatMap (checkMethod b)

/-- What the checks use of a version: the built-in types, the root and the (sorted) resources. -/
structure VersionView where
  builtins : Builtins
  root : Option ResId
  resources : List ResId
deriving DecidableEq, Repr

/-- `checkVersion`, pkg/language/checks.go:39-52. -/
def checkVersion (g : Graph) (fuel : Nat) (v : VersionView) : Run (List Message) :=
  let first := reportIf v.root.isNone .noRoot
  let second := v.resources.flatMap fun r =>
    match g[r]? with
    | none => []
    | some resource => checkResource v.builtins resource
  (checkLocatorLoops g fuel v.root).bind fun loops =>
    .done (first ++ second ++ loops.map fun l => .error (.loop l))

/-- `checkModel` and `checkService`, pkg/language/checks.go:26-37, for the sorted versions of the
sorted services. -/
def checkModel (g : Graph) (fuel : Nat) : List VersionView → Run (List Message)
  | [] => .done []
  | v :: vs =>
    (checkVersion g fuel v).bind fun a => (checkModel g fuel vs).bind fun b => .done (a ++ b)

end Check

end Verif
