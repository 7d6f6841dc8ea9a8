import Verif.Model.TypesCode
import Verif.Model.Declarations

/-!
# The file of the errors of a version

Model of the part of `pkg/generators/golang/errors_generator.go` that writes the errors of the versions. The template is
the same text that is in the Go code.
-/

namespace Verif.ErrorsCode

open GoTemplate GoFile

/-- The objects used in the template: versions, with their map of errors, errors and codes. -/
inductive Obj where
  | version (errors : GoMap ErrorConcept)
  | error (e : ErrorConcept)
  | code (n : Int)

/-- The methods of the objects: pkg/concepts/version.go:193-203, pkg/concepts/documented.go:27-30 and
pkg/concepts/error.go:49-52. When the method panics the template engine (Go standard library) returns an error. -/
def member : Obj → Text → Option (Value Obj)
  | .version m, f =>
    if f = t!"Errors" then
      match errorsListing m with
      | .panic => none
      | .value l => some (.list (l.map .error))
    else none
  | .error e, f =>
    if f = t!"Doc" then some (.text e.doc)
    else if f = t!"Code" then some (.obj (.code e.code))
    else none
  | .code _, _ => none

/-- How objects are printed: codes are decimal numbers. -/
def shown : Obj → Option Text
  | .code n => some (intText n)
  | _ => none

/-- The functions of the buffer, pkg/generators/golang/buffer.go:127, and of the generator,
pkg/generators/golang/errors_generator.go:741 and 777-779. Only those that the template uses. The name of an error that
doesn't have one makes `errorName` panic. -/
def functions (f : Text) : Option (List (Value Obj) → Option (Value Obj × List Effect)) :=
  if f = t!"lineComment" then
    some fun
      | [.text t] => some (.text (GoBuffer.lineComment t), [])
      | _ => none
  else if f = t!"errorName" then
    some fun
      | [.obj (.error e)] => e.supportName.map fun n => (.text (Decls.errorName n), [])
      | _ => none
  else none

/-- What the template can use. -/
def env : Env Obj := { member := member, shown := shown, functions := functions }

/-- The template, pkg/generators/golang/errors_generator.go:758-767. -/
def errorsTemplate : Text :=
  List.flatten [
    t!"\n",
    t!"\t\t{{ if .Version.Errors }}\n",
    t!"\t\t\tconst (\n",
    t!"\t\t\t\t{{ range .Version.Errors }}\n",
    t!"\t\t\t\t\t{{ lineComment .Doc }}\n",
    t!"\t\t\t\t\t{{ errorName . }} = {{ .Code }}\n",
    t!"\t\t\t\t{{ end }}\n",
    t!"\t\t\t)\n",
    t!"\t\t{{ end }}\n",
    t!"\t\t"]

/-- `generateVersionErrorsSource`, pkg/generators/golang/errors_generator.go:757-771. -/
def errorsSource (errors : GoMap ErrorConcept) (b : Buffer) : Buffer :=
  b.emit env errorsTemplate [(t!"Version", .version errors)]

/-- `generateVersionErrors`, pkg/generators/golang/errors_generator.go:727-755, given the import path of the package of
the version, its errors, the problems reported before and the order of the imports. -/
def errorsFile (pkg : Text) (errors : GoMap ErrorConcept) (problems : Nat) (order : List (Text × Text)) :
    Option Text × Bool :=
  (errorsSource errors { pkg := pkg, errors := problems }).write order

end Verif.ErrorsCode
