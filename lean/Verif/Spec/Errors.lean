import Verif.Spec.Bodies
import Verif.Spec.Query
import Verif.Model.Errors

/-! Specification of the generated error type. -/

namespace Verif

namespace GoError

open GoJson

/-- The value and the flag that a getter returns after calls that set values or not: the last one
set. -/
def lastSet {α : Type} (pick : Setter → Option α) (zero : α) (calls : List Setter) : α × Bool :=
  match calls.reverse.findSome? pick with
  | some v => (v, true)
  | none => (zero, false)

/-- The calls don't copy other errors. -/
def NoCopy (calls : List Setter) : Prop := ∀ c ∈ calls, ∀ o, c ≠ .copy o

/-- All the getters of two errors return the same. -/
structure SameError (a b : ErrorObject) : Prop where
  status : getStatus (some a) = getStatus (some b)
  id : getID (some a) = getID (some b)
  href : getHREF (some a) = getHREF (some b)
  code : getCode (some a) = getCode (some b)
  reason : getReason (some a) = getReason (some b)
  operationID : getOperationID (some a) = getOperationID (some b)
  details : getDetails (some a) = getDetails (some b)
  timestamp : getTimestamp (some a) = getTimestamp (some b)

/-- The member for an attribute. -/
def memberFor {α : Type} (name : Text) (got : α × Bool) (value : α → List Tok) :
    List (Text × List Tok) :=
  if got.2 then [(name, value got.1)] else []

/-- The members of the JSON object for an error: the kind and the attributes that have a value. -/
def errorMembers (N : Instant → Text) (e : ErrorObject) : List (Text × List Tok) :=
  [(t!"kind", [.str t!"Error"])]
    ++ memberFor t!"status" (getStatus (some e)) (fun v => [.num (intText v)])
    ++ memberFor t!"id" (getID (some e)) (fun v => [.str v])
    ++ memberFor t!"href" (getHREF (some e)) (fun v => [.str v])
    ++ memberFor t!"code" (getCode (some e)) (fun v => [.str v])
    ++ memberFor t!"reason" (getReason (some e)) (fun v => [.str v])
    ++ memberFor t!"operation_id" (getOperationID (some e)) (fun v => [.str v])
    ++ memberFor t!"details" (getDetails (some e)) (fun v => v.tokens)
    ++ memberFor t!"timestamp" (getTimestamp (some e)) (fun v =>
        match v with
        | none => [.null]
        | some d => [.str (N d)])

/-- A JSON value that is a text, or null, which counts as the empty text. -/
def TextMeans (j : Json) (v : Text) : Prop := j = .str v ∨ (j = .null ∧ v = [])

/-- A JSON number that is an integer of 64 bits. -/
def IntMeans (j : Json) (v : Int) : Prop := ∃ t, j = .num t ∧ parseInt64 t = some v

/-- A JSON text that is a date. -/
def DateMeans (D : DateParser) (j : Json) (v : Option Instant) : Prop :=
  ∃ t d, TextMeans j t ∧ D t = some d ∧ v = some d

/-- The getter returns the value of the last member with the name, if there is one. -/
def Holds {α : Type} (ms : List (Text × Json)) (name : Text) (means : Json → α → Prop) (zero : α)
    (got : α × Bool) : Prop :=
  (∀ j, LastMember ms name j → ∃ v, means j v ∧ got = (v, true)) ∧
  ((∀ m ∈ ms, m.1 ≠ name) → got = (zero, false))

/-- The member isn't valid. -/
def BadMember (D : DateParser) (m : Text × Json) : Prop :=
  (m.1 = t!"status" ∧ ¬ ∃ v, IntMeans m.2 v) ∨
  (m.1 ∈ [t!"id", t!"href", t!"code", t!"reason", t!"operation_id"] ∧ ¬ ∃ v, TextMeans m.2 v) ∨
  (m.1 = t!"timestamp" ∧ ¬ ∃ v, DateMeans D m.2 v)

/-- Phrases separated by commas, except the last two, that are separated by `and`. -/
def sentence : List Text → Text
  | [] => []
  | [a] => a
  | [a, b] => a ++ t!" and " ++ b
  | a :: rest => a ++ t!", " ++ sentence rest

/-- The phrase for an attribute. -/
def phraseFor {α : Type} (got : α × Bool) (text : α → Text) : List Text :=
  if got.2 then [text got.1] else []

/-- The phrases of the text of an error. -/
def phrases (e : ErrorObject) : List Text :=
  phraseFor (getStatus (some e)) (fun v => t!"status is " ++ intText v)
    ++ phraseFor (getID (some e)) (fun v => t!"identifier is '" ++ v ++ t!"'")
    ++ phraseFor (getCode (some e)) (fun v => t!"code is '" ++ v ++ t!"'")
    ++ phraseFor (getTimestamp (some e)) (fun v =>
        t!"at '" ++ (match v with | none => [] | some d => d.text) ++ t!"'")
    ++ phraseFor (getOperationID (some e)) (fun v => t!"operation identifier is '" ++ v ++ t!"'")

end GoError

end Verif
