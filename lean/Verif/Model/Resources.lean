import Verif.Model.Binding

/-!
# The graph of resources

Model of the loop check (`pkg/language/checks.go`), of the enumeration of paths
(`pkg/concepts/version.go`) and of the tree of paths of the metrics generator
(`pkg/generators/golang/metrics_generator.go`). These functions may not terminate or panic in the
Go code, so the model takes an amount of fuel and has explicit outcomes.
-/

namespace Verif

/-- The result of a computation that may not terminate, or panic. -/
inductive Run (α : Type)
  | outOfFuel
  | panic
  | done (a : α)
deriving DecidableEq, Repr

/-- Sequential composition. -/
def Run.bind {α β : Type} (r : Run α) (f : α → Run β) : Run β :=
  match r with
  | .outOfFuel => .outOfFuel
  | .panic => .panic
  | .done a => f a

/-- The memory where resources live. -/
abbrev Graph := List Resource

/-- `Locators`, pkg/concepts/resource.go:76-78, through a pointer. A pointer outside of the memory
can't happen. -/
def Graph.locators (g : Graph) (r : ResId) : List Locator :=
  match g[r]? with
  | none => []
  | some res => res.locators

/-- `Methods`, pkg/concepts/resource.go:52-54, through a pointer. -/
def Graph.methods (g : Graph) (r : ResId) : List Method :=
  match g[r]? with
  | none => []
  | some res => res.methods

/-- The loop of pkg/language/checks.go:605-610 that looks, backwards, for a locator defined in the
resource that is the target of the last locator. The path is reversed, last locator first, and the
result is the part of the path that forms the loop, in the same order. -/
def findLoop (target : Option ResId) : List Locator → Option (List Locator)
  | [] => none
  | l :: ls =>
    if some l.owner = target then some [l]
    else
      match findLoop target ls with
      | none => none
      | some loop => some (l :: loop)

/-- Runs an action for each element, in order, and concatenates the results. -/
def forEach {α β : Type} (f : α → Run (List β)) : List α → Run (List β)
  | [] => .done []
  | x :: xs => (f x).bind fun ys => (forEach f xs).bind fun zs => .done (ys ++ zs)

/-- `checkLocatorPathLoops`, pkg/language/checks.go:599-620. The path is reversed: last locator
first. The result is the list of loops reported, each from the first to the last locator. -/
def checkPathLoops (g : Graph) : Nat → List Locator → Run (List (List Locator))
  | 0, _ => .outOfFuel
  | _ + 1, [] => .panic
  | fuel + 1, last :: before =>
    match findLoop last.target (last :: before) with
    | some loop => .done [loop.reverse]
    | none =>
      match last.target with
      | none => .panic
      | some target =>
        forEach (fun next => checkPathLoops g fuel (next :: last :: before)) (g.locators target)

/-- `checkLocatorLoops`, pkg/language/checks.go:592-597. A nil root makes it panic. -/
def checkLocatorLoops (g : Graph) (fuel : Nat) (root : Option ResId) :
    Run (List (List Locator)) :=
  match root with
  | none => .panic
  | some root => forEach (fun l => checkPathLoops g fuel [l]) (g.locators root)

/-- The loop of `Paths`, pkg/concepts/version.go:243-263. -/
def pathsLoop (g : Graph) : Nat → List (List Locator) → List (List Locator) →
    Run (List (List Locator))
  | _, [], results => .done results
  | 0, _ :: _, _ => .outOfFuel
  | fuel + 1, current :: pending, results =>
    let results := results ++ [current]
    match current.getLast? with
    | none => .panic
    | some last =>
      match last.target with
      | none => .panic
      | some target =>
        pathsLoop g fuel (pending ++ (g.locators target).map fun l => current ++ [l]) results

/-- `Paths`, pkg/concepts/version.go:230-266. -/
def paths (g : Graph) (fuel : Nat) (root : Option ResId) : Run (List (List Locator)) :=
  match root with
  | none => .panic
  | some root => pathsLoop g fuel ((g.locators root).map fun l => [l]) []

/-- The tree of paths: `nil`, or a map from labels to trees. -/
inductive PathTree
  | none
  | branch (children : List (Text × PathTree))

/-- `branch[label] = value`. -/
def setBranch (children : List (Text × PathTree)) (label : Text) (value : PathTree) :
    List (Text × PathTree) :=
  GoMap.insert children label value

/-- The label of a locator, pkg/generators/golang/metrics_generator.go:213-216. -/
def locatorLabel (l : Locator) : Text :=
  if l.isVariable then t!"-" else Binding.locatorSegment l

/-- The loops that fill a branch, pkg/generators/golang/metrics_generator.go:158-167 and 212-219:
the branch of each element is calculated and stored with its label. -/
def addBranches {α : Type} (label : α → Text) (branchOf : α → Run PathTree) :
    List α → List (Text × PathTree) → Run (List (Text × PathTree))
  | [], children => .done children
  | x :: xs, children =>
    (branchOf x).bind fun b => addBranches label branchOf xs (setBranch children (label x) b)

/-- `resourceBranch`, pkg/generators/golang/metrics_generator.go:192-221. -/
def resourceBranch (g : Graph) : Nat → Option ResId → Run PathTree
  | 0, _ => .outOfFuel
  | _ + 1, none => .panic
  | fuel + 1, some r =>
    let locators := g.locators r
    let actions := (g.methods r).filter Method.isAction
    if locators.length = 0 ∧ actions.length = 0 then .done .none
    else
      let children := actions.foldl
        (fun children a => setBranch children (Binding.methodSegment a) .none) []
      (addBranches locatorLabel (fun l => resourceBranch g fuel l.target) locators children).bind
        fun children => .done (.branch children)

/-- What the metrics generator uses of a version: its URL segment and its root. -/
structure VersionRoot where
  segment : Text
  root : Option ResId

/-- What the metrics generator uses of a service: its URL segment and its versions. -/
structure ServiceRoots where
  segment : Text
  versions : List VersionRoot

/-- The tree built by `Run`, pkg/generators/golang/metrics_generator.go:156-171. -/
def metricsTree (g : Graph) (fuel : Nat) (services : List ServiceRoots) : Run PathTree :=
  (addBranches ServiceRoots.segment
    (fun service =>
      (addBranches VersionRoot.segment (fun version => resourceBranch g fuel version.root)
        service.versions []).bind fun children => .done (.branch children))
    services []).bind fun api => .done (.branch [(t!"api", .branch api)])

end Verif
