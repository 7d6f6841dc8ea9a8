import Verif.Model.Polling

/-! Specification of path segments and polling. -/

namespace Verif

namespace GoHelpers

/-- The text `core` is what remains of the path when the slashes at both ends are removed. -/
def Trimmed (path core : Text) : Prop :=
  ∃ a b, path = List.replicate a '/' ++ core ++ List.replicate b '/' ∧
    core.head? ≠ some '/' ∧ core.getLast? ≠ some '/'

variable {ρ ε : Type}

/-- The time when the task returns in an iteration: tasks run one after the other, separated by the
interval. -/
def returnTime (interval start : Int) (rounds : Nat → Round ρ ε) : Nat → Int
  | 0 => start + (rounds 0).elapsed
  | k + 1 => returnTime interval start rounds k + interval + (rounds k).late + (rounds (k + 1)).elapsed

/-- A communication error: there is no status. -/
def CommunicationError (r : Round ρ ε) : Prop := r.err ≠ none ∧ r.status = 0

/-- The status is one of the expected ones, 200 if there is none, and there is an object that
satisfies the predicates, if there are predicates. -/
def Satisfied (statuses : List Int) (predicates : List (ρ → Bool)) (r : Round ρ ε) : Prop :=
  (r.status ∈ statuses ∨ (statuses = [] ∧ r.status = 200)) ∧
  (predicates = [] ∨ ∃ o, r.result = some o ∧ ∀ p ∈ predicates, p o = true)

end GoHelpers

end Verif
