import Verif.Spec.Digits
import Verif.Model.Query

/-! Specification of the parsing of query parameters. -/

namespace Verif

namespace GoQuery

/-- The integer that a decimal literal, perhaps with one of the two signs, represents. -/
inductive Denotes : Text → Int → Prop
  | plain {ds : Text} {n : Nat} : numeral 10 ds = some n → Denotes ds n
  | plus {ds : Text} {n : Nat} : numeral 10 ds = some n → Denotes ('+' :: ds) n
  | minus {ds : Text} {n : Nat} : numeral 10 ds = some n → Denotes ('-' :: ds) (-n)

/-- The texts accepted as true and false. -/
def trueTexts : List Text := [t!"1", t!"t", t!"T", t!"true", t!"TRUE", t!"True"]
def falseTexts : List Text := [t!"0", t!"f", t!"F", t!"false", t!"FALSE", t!"False"]

/-- The text is valid for the type and has that value. -/
inductive Means (C : Codecs) : GoJson.Shape → Text → GoJson.Val → Prop
  | integer {s : Text} {i : Int} : Denotes s i → -2 ^ 63 ≤ i → i < 2 ^ 63 →
      Means C .integer s (.int i)
  | float {s t : Text} : C.float s = some t → Means C .float s (.float t)
  | string {s : Text} : Means C .string s (.str s)
  | yes {s : Text} : s ∈ trueTexts → Means C .boolean s (.bool true)
  | no {s : Text} : s ∈ falseTexts → Means C .boolean s (.bool false)
  | date {s : Text} {d : GoJson.Instant} : C.date s = some d → Means C .date s (.date d)

/-- The types of the parameters that can be parsed. -/
def parsable : List GoJson.Shape := [.integer, .float, .string, .boolean, .date]

end GoQuery

end Verif
