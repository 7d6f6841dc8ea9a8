import Verif.Model.Json

/-!
# Query parameters

Model of the functions that the JSON generator writes to the `helpers` package in order to parse
query parameters, pkg/generators/golang/json_generator.go:284-430, and of the code generated by
`generateReadQueryParameter`, lines 1264-1297.
-/

namespace Verif

namespace GoQuery

open GoJson
open Reader (digitsValue maxInt)

/-- `url.Values` (Go standard library). -/
abbrev Values := GoMap (List Text)

/-- `query[parameterName]` for a map of slices: nothing is the empty slice. -/
def Values.get (query : Values) (name : Text) : List Text := (query.find name).getD []

/-- The results of the functions: `nil, nil`, a pointer to a value, or an error; the error says
how many values there were or which one isn't valid. -/
inductive Parsed
  | absent
  | value (v : Val)
  | repeated (count : Nat)
  | malformed (text : Text)

/-- The digits of `strconv.ParseInt(value, 10, 64)` (Go standard library), after the sign; the
limit is the greatest absolute value that is valid. -/
def parseDigits (limit : Nat) (ds : Text) : Option Nat :=
  if ds ≠ [] ∧ ds.all Char.isDigit ∧ digitsValue ds ≤ limit then some (digitsValue ds) else none

/-- `strconv.ParseInt(value, 10, 64)` (Go standard library). -/
def parseInt : Text → Option Int
  | '-' :: ds => (parseDigits (maxInt + 1) ds).map fun (n : Nat) => -(n : Int)
  | '+' :: ds => (parseDigits maxInt ds).map fun (n : Nat) => (n : Int)
  | ds => (parseDigits maxInt ds).map fun (n : Nat) => (n : Int)

/-- `strconv.ParseBool` (Go standard library). -/
def parseBool (s : Text) : Option Bool :=
  if s = t!"1" ∨ s = t!"t" ∨ s = t!"T" ∨ s = t!"true" ∨ s = t!"TRUE" ∨ s = t!"True" then some true
  else if s = t!"0" ∨ s = t!"f" ∨ s = t!"F" ∨ s = t!"false" ∨ s = t!"FALSE" ∨ s = t!"False" then
    some false
  else none

/-- The common structure of the five functions: the first checks, and then the parsing of the only
value. `ParseInteger`, pkg/generators/golang/json_generator.go:311-335, `ParseFloat`, lines
339-362, `ParseString`, lines 365-379, `ParseBoolean`, lines 383-406, and `ParseDate`, lines
410-433. -/
def parseParameter (parse : Text → Option Val) (query : Values) (name : Text) : Parsed :=
  match query.get name with
  | [] => .absent
  | [value] =>
    match parse value with
    | some v => .value v
    | none => .malformed value
  | values => .repeated values.length

/-- The functions of the Go standard library that aren't modelled: `strconv.ParseFloat` and
`time.Parse(time.RFC3339, ...)`. -/
structure Codecs where
  float : Text → Option Text
  date : DateParser

/-- The parsing that each function does. -/
def parserFor (C : Codecs) : Shape → Option (Text → Option Val)
  | .integer => some fun s => (parseInt s).map .int
  | .float => some fun s => (C.float s).map .float
  | .string => some fun s => some (.str s)
  | .boolean => some fun s => (parseBool s).map .bool
  | .date => some fun s => (C.date s).map .date
  | _ => none

/-- The result of compiling and running generated code. -/
inductive Ran (α : Type)
  | result (a : α)
  | doesNotCompile

/-- The value of the expression of `defaultValue`, pkg/generators/golang/json_generator.go:1657-1675,
as argument of `NewInteger`, `NewFloat`, `NewString`, `NewBoolean` or `NewDate`, lines 284-308: a
constant that isn't of the type of the parameter doesn't compile. An integer constant is also a
floating point constant. -/
def defaultFor : Shape → Literal → Option Val
  | .integer, .int i => some (.int i)
  | .float, .int i => some (.float (intText i))
  | .string, .str s => some (.str s)
  | .boolean, .bool b => some (.bool b)
  | _, _ => none

/-- The code generated by `generateReadQueryParameter`,
pkg/generators/golang/json_generator.go:1264-1297, for a parameter with the given type: the name of
the function is the one of the type, and there are functions only for five types. -/
def readQueryParameter (C : Codecs) (shape : Shape) (tag : Text) (dflt : Option Literal)
    (query : Values) : Ran Parsed :=
  match parserFor C shape with
  | none => .doesNotCompile
  | some parse =>
    match dflt with
    | none => .result (parseParameter parse query tag)
    | some literal =>
      match defaultFor shape literal with
      | none => .doesNotCompile
      | some v =>
        match parseParameter parse query tag with
        | .absent => .result (.value v)
        | r => .result r

end GoQuery

end Verif
