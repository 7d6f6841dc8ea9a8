import Verif.Model.Concepts

/-!
# The reporter: `pkg/reporter/reporter.go`

Streams are the texts written so far. Formats use only the verb `%s`, whose arguments are texts: that
is what the arguments become once the reporter replaces them.
-/

namespace Verif.Report

/-- A reporter, pkg/reporter/reporter.go:36-40. -/
structure Reporter where
  out : Text
  err : Text
  errors : Nat
deriving DecidableEq, Repr

/-- A new reporter, pkg/reporter/reporter.go:62-80. -/
def new : Reporter := { out := [], err := [], errors := 0 }

/-- `fqn`, pkg/reporter/reporter.go:158-165. -/
def fqn (names : List Name) : Text := joinText t!"." (names.map Name.camel)

/-- Arguments of the messages: elements of the model, with the names of their owners, names, and other
texts. -/
inductive Arg where
  | service (s : Name)
  | version (s v : Name)
  | resource (s v r : Name)
  | type (kind : Kind) (s v t : Name)
  | attribute (s v t a : Name)
  | method (s v r m : Name)
  | locator (s v r l : Name)
  | parameter (s v r m p : Name)
  | named (n : Name)
  | name (n : Name)
  | text (t : Text)
deriving DecidableEq, Repr

/-- The replacement of arguments done by `printf`, pkg/reporter/reporter.go:107-152. -/
def argText : Arg → Text
  | .service s => fqn [s]
  | .version s v => fqn [s, v]
  | .resource s v r => fqn [s, v, r]
  | .type k s v t => if k.isScalar || k != .enum then t.camel else fqn [s, v, t]
  | .attribute s v t a => fqn [s, v, t, a]
  | .method s v r m => fqn [s, v, r, m]
  | .locator s v r l => fqn [s, v, r, l]
  | .parameter s v r m p => fqn [s, v, r, m, p]
  | .named n => fqn [n]
  | .name n => n.camel
  | .text t => t

/-- The arguments left by `fmt.Sprintf` at the end, separated by commas. -/
def extras : List Text → Text
  | [] => []
  | [a] => t!"string=" ++ a
  | a :: b :: as => t!"string=" ++ a ++ t!", " ++ extras (b :: as)

/-- `fmt.Sprintf` for formats that only use `%s`, used in pkg/reporter/reporter.go:155. -/
def sprintf : Text → List Text → Text
  | '%' :: 's' :: rest, a :: as => a ++ sprintf rest as
  | '%' :: 's' :: rest, [] => t!"%!s(MISSING)" ++ sprintf rest []
  | c :: rest, as => c :: sprintf rest as
  | [], [] => []
  | [], a :: as => t!"%!(EXTRA " ++ extras (a :: as) ++ t!")"

/-- `printf`, pkg/reporter/reporter.go:104-156. -/
def printf (format : Text) (args : List Arg) : Text := sprintf format (args.map argText)

/-- pkg/reporter/reporter.go:174. -/
def infoPrefix : Text := t!"\x1b[0;32mI:\x1b[m "
/-- pkg/reporter/reporter.go:175. -/
def warnPrefix : Text := t!"\x1b[0;33mW:\x1b[m "
/-- pkg/reporter/reporter.go:176. -/
def errorPrefix : Text := t!"\x1b[0;31mE:\x1b[m "

/-- `Infof`, pkg/reporter/reporter.go:83-86. -/
def infof (r : Reporter) (format : Text) (args : List Arg) : Reporter :=
  { r with out := r.out ++ infoPrefix ++ printf format args ++ t!"\n" }

/-- `Warnf`, pkg/reporter/reporter.go:89-92. -/
def warnf (r : Reporter) (format : Text) (args : List Arg) : Reporter :=
  { r with out := r.out ++ warnPrefix ++ printf format args ++ t!"\n" }

/-- `Errorf`, pkg/reporter/reporter.go:97-102: the reporter and the error returned. -/
def errorf (r : Reporter) (format : Text) (args : List Arg) : Reporter × Text :=
  let message := printf format args
  ({ r with err := r.err ++ errorPrefix ++ message ++ t!"\n", errors := r.errors + 1 }, message)

/-- A call to one of the methods of the reporter. -/
inductive Call where
  | info (format : Text) (args : List Arg)
  | warn (format : Text) (args : List Arg)
  | error (format : Text) (args : List Arg)
deriving DecidableEq, Repr

/-- The effect of a call. -/
def call (r : Reporter) : Call → Reporter
  | .info f as => infof r f as
  | .warn f as => warnf r f as
  | .error f as => (errorf r f as).1

/-- The effect of a history of calls. -/
def calls (r : Reporter) (cs : List Call) : Reporter := cs.foldl call r

end Verif.Report
