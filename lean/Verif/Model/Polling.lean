import Verif.Model.Text

/-!
# Helpers: path segments and polling

Model of the code generated by pkg/generators/golang/helpers_generator.go:211-298.
-/

namespace Verif

namespace GoHelpers

/-! ## Path segments -/

/-- The first loop of `Segments`, pkg/generators/golang/helpers_generator.go:213-215. -/
def dropLeading : Text → Text
  | [] => []
  | c :: path => if c = '/' then dropLeading path else c :: path

/-- The second loop of `Segments`, pkg/generators/golang/helpers_generator.go:216-218. -/
def dropTrailing (path : Text) : Text :=
  if h : path.getLast? = some '/' then dropTrailing path.dropLast else path
termination_by path.length
decreasing_by
  cases path with
  | nil => simp at h
  | cons c path => simp

/-- `Segments`, pkg/generators/golang/helpers_generator.go:212-220. -/
def segments (path : Text) : List Text := splitOn '/' (dropTrailing (dropLeading path))

/-! ## Polling -/

/-- `evalStatus`, pkg/generators/golang/helpers_generator.go:277-284. -/
def evalStatus (expected : List Int) (actual : Int) : Bool :=
  match expected with
  | [] => false
  | current :: rest => if actual = current then true else evalStatus rest actual

/-- The loop of `evalPredicates`, pkg/generators/golang/helpers_generator.go:291-295. -/
def allPredicates {ρ : Type} (object : ρ) : List (ρ → Bool) → Bool
  | [] => true
  | predicate :: rest => if !predicate object then false else allPredicates object rest

/-- `evalPredicates`, pkg/generators/golang/helpers_generator.go:287-297. The predicates don't have
side effects. -/
def evalPredicates {ρ : Type} (predicates : List (ρ → Bool)) (object : Option ρ) : Bool :=
  match object with
  | none => if predicates.length > 0 then false else true
  | some object => allPredicates object predicates

/-- What happens in one iteration of the loop: what the task returns, how long it takes, and how much
longer than requested the call to `time.Sleep` takes. -/
structure Round (ρ ε : Type) where
  status : Int
  result : Option ρ
  err : Option ε
  elapsed : Int
  late : Int

/-- The result of `PollContext`: one of the errors for wrong arguments, or what the last execution of
the task returned, with the number of executions and the time when it returned. -/
inductive Polled (ρ ε : Type)
  | noDeadline
  | badInterval
  | returned (result : Option ρ) (err : Option ε) (executions : Nat) (finish : Int)

/-- The loop of `PollContext`, pkg/generators/golang/helpers_generator.go:248-273, from the iteration
with the given number and the given time: nothing if it needs more iterations than the first
argument. Times and durations are integers without limits. -/
def pollLoop {ρ ε : Type} (interval deadline : Int) (statuses : List Int)
    (predicates : List (ρ → Bool)) (rounds : Nat → Round ρ ε) :
    Nat → Nat → Int → Option (Polled ρ ε)
  | 0, _, _ => none
  | fuel + 1, number, now =>
    let round := rounds number
    let now := now + round.elapsed
    if round.err.isSome ∧ round.status = 0 then
      some (.returned round.result round.err (number + 1) now)
    else if evalStatus statuses round.status && evalPredicates predicates round.result then
      some (.returned round.result round.err (number + 1) now)
    else if now + interval > deadline then
      some (.returned round.result round.err (number + 1) now)
    else
      pollLoop interval deadline statuses predicates rounds fuel (number + 1)
        (now + (interval + round.late))

/-- `PollContext`, pkg/generators/golang/helpers_generator.go:224-276. The first argument limits the
number of iterations, and the last one is the time when it is called. -/
def pollContext {ρ ε : Type} (fuel : Nat) (deadline : Option Int) (interval : Int)
    (statuses : List Int) (predicates : List (ρ → Bool)) (rounds : Nat → Round ρ ε) (now : Int) :
    Option (Polled ρ ε) :=
  match deadline with
  | none => some .noDeadline
  | some deadline =>
    if interval ≤ 0 then some .badInterval
    else
      let statuses := if statuses.length = 0 then [200] else statuses
      pollLoop interval deadline statuses predicates rounds fuel 0 now

end GoHelpers

end Verif
