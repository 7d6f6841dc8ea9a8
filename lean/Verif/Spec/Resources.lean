import Verif.Model.Resources

/-! Specification: chains of locators and loops. -/

namespace Verif

/-- `Chain g r ls t`: following the locators `ls`, one after the other, goes from resource `r` to
resource `t`. -/
inductive Chain (g : Graph) : ResId → List Locator → ResId → Prop
  | nil (r : ResId) : Chain g r [] r
  | cons {r m t : ResId} {l : Locator} {ls : List Locator} :
      l ∈ g.locators r → l.target = some m → Chain g m ls t → Chain g r (l :: ls) t

/-- The resources visited when following a chain from a resource. -/
def visited (r : ResId) (ls : List Locator) : List ResId := r :: ls.filterMap Locator.target

/-- Some chain of locators starting at the root visits the same resource twice. -/
def HasLoop (g : Graph) (root : ResId) : Prop :=
  ∃ ls t, Chain g root ls t ∧ ¬ (visited root ls).Nodup

/-- What the reader guarantees when it reports no error: each locator is owned by the resource
that contains it, and its target exists. -/
def WellFormed (g : Graph) : Prop :=
  ∀ r l, l ∈ g.locators r → l.owner = r ∧ ∃ t, l.target = some t ∧ t < g.length

/-- `p` is a branch of the tree. -/
def PathTree.Has : PathTree → List Text → Prop
  | _, [] => True
  | .none, _ :: _ => False
  | .branch children, x :: p => ∃ t, GoMap.find children x = some t ∧ PathTree.Has t p

/-- The URL segment of a locator in the tree of metrics: variables are replaced by a dash. -/
def urlLabel (l : Locator) : Text :=
  match l.isVariable with
  | true => t!"-"
  | false => Binding.locatorSegment l

/-- The path, from the root of a version, of a chain of locators optionally followed by an
action. -/
def IsServedPath (g : Graph) (root : ResId) (p : List Text) : Prop :=
  ∃ ls t, Chain g root ls t ∧
    (p = ls.map urlLabel ∨
      ∃ a ∈ g.methods t, a.isAction = true ∧ p = ls.map urlLabel ++ [Binding.methodSegment a])

/-- The labels used inside a resource are all different. -/
def NoClash (g : Graph) : Prop :=
  ∀ r, ((g.locators r).map urlLabel ++
    ((g.methods r).filter Method.isAction).map Binding.methodSegment).Nodup

end Verif
