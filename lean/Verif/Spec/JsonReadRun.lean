import Verif.Spec.JsonRun

/-!
# What it means to run the generated code that reads JSON
-/

namespace Verif.JsonRun

open GoJson (Val Schema Shape)
open GoProgram
open BuildersRun (Code Holds Valid)

/-- What something that has a limit for the number of steps gives when the limit is big enough. -/
def Settles {α : Type} (p : Nat → α) (a : α) : Prop := ∃ F, ∀ f, F ≤ f → p f = a

/-- The elements of lists and maps aren't maps: the code that reads them would use the variable `item` for two
things. -/
def Flat (S : Schema) : Prop :=
  ∀ ty e f, S e = .map f → S ty ≠ .map e ∧ ∀ n, S ty ≠ .list n e

/-- Nothing that was in the memory has changed. -/
structure Grows (s t : State Val Library) : Prop where
  structs : ∀ (a : Nat) fs, s.structs[a]? = some fs → t.structs[a]? = some fs
  arrays : ∀ (a : Nat) xs, s.arrays[a]? = some xs → t.arrays[a]? = some xs
  maps : ∀ (a : Nat) m, s.maps[a]? = some m → t.maps[a]? = some m

/-- What a call of a function that reads from the iterator does: nothing that was in the memory changes, and it
returns a value that uses only new positions of the memory, or the iterator has an error. -/
def Obtains (S : Schema) (U : TypeId → Code) (s : State Val Library) (ty : TypeId)
    (r : Res (List (Value Val) × State Val Library)) : Option (Val × List Tok) → Prop
  | some (v, rest) => ∃ t y, r = .ok ([y], t) ∧ t.vars = s.vars ∧ Grows s t ∧
      t.user = { s.user with input := rest } ∧ Holds S U (fun l => ¬ Valid s l) t ty v y
  | none => ∃ t y rest, r = .ok ([y], t) ∧ t.vars = s.vars ∧ Grows s t ∧
      t.user = { s.user with input := rest, failed := true }

/-- What a call of a function that creates an iterator and reads does: nothing that was in the memory changes, and it
returns a value that uses only new positions of the memory and no error, or an error. -/
def Receives (S : Schema) (U : TypeId → Code) (s : State Val Library) (ty : TypeId)
    (r : Res (List (Value Val) × State Val Library)) : Option Val → Prop
  | some v => ∃ t y, r = .ok ([y, .nil], t) ∧ t.vars = s.vars ∧ Grows s t ∧
      t.user.out = s.user.out ∧ t.user.sent = s.user.sent ∧ Holds S U (fun l => ¬ Valid s l) t ty v y
  | none => ∃ t y, r = .ok ([y, .error []], t) ∧ t.vars = s.vars ∧ Grows s t ∧
      t.user.out = s.user.out ∧ t.user.sent = s.user.sent

end Verif.JsonRun
