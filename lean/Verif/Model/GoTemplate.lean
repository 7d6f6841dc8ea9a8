import Verif.Model.Template
import Verif.Model.GoRefs

/-!
# Templates of the generators of Go code

Model of the part of `text/template` (Go standard library) used by the templates of the generators of Go
code, and of the buffer in `pkg/generators/golang/buffer.go`. It has more actions than the one used by the
templates of the documentation, in `Verif.Model.Template`: variables, the other branch of conditions,
loops with the position of the elements, functions with several arguments, and calls inside of arguments.
-/

namespace Verif.GoTemplate

open Template (Piece)

/-- Nodes of the tree of a template. Expressions are lists of words. -/
inductive Node where
  | text (t : Text)
  | print (e : List Text)
  | set (x : Text) (e : List Text)
  | branch (e : List Text) (yes no : List Node)
  | range (e : List Text) (body : List Node)

/-- Actions that have been opened and not yet closed, with the nodes that precede them. The flag of the
branches is for those started with `else if`, which are closed together with the one that contains
them. -/
inductive Open where
  | yes (e : List Text) (before : List Node) (chained : Bool)
  | no (e : List Text) (yes before : List Node) (chained : Bool)
  | range (e : List Text) (before : List Node)

/-- The `end` action: the nodes, reversed, after closing the last action that was opened. -/
def close : List Node → List Open → Option (List Node × List Open)
  | _, [] => none
  | nodes, .yes e before chained :: stack =>
    let node := Node.branch e nodes.reverse []
    if chained then close (node :: before) stack else some (node :: before, stack)
  | nodes, .no e yes before chained :: stack =>
    let node := Node.branch e yes nodes.reverse
    if chained then close (node :: before) stack else some (node :: before, stack)
  | nodes, .range e before :: stack => some (.range e nodes.reverse :: before, stack)

/-- Builds the tree. -/
def tree : List Piece → List Node → List Open → Option (List Node)
  | [], nodes, [] => some nodes.reverse
  | [], _, _ :: _ => none
  | .text t :: rest, nodes, stack => tree rest (.text t :: nodes) stack
  | .action [] :: _, _, _ => none
  | .action (w :: ws) :: rest, nodes, stack =>
    if w = t!"end" then
      match close nodes stack with
      | some (nodes, stack) => tree rest nodes stack
      | none => none
    else if w = t!"else" then
      match stack with
      | .yes e before chained :: stack =>
        match ws with
        | [] => tree rest [] (.no e nodes.reverse before chained :: stack)
        | _ :: condition =>
          tree rest [] (.yes condition [] true :: .no e nodes.reverse before chained :: stack)
      | _ => none
    else if w = t!"if" then tree rest [] (.yes ws nodes false :: stack)
    else if w = t!"range" then tree rest [] (.range ws nodes :: stack)
    else
      match ws with
      | op :: e => if op = t!":=" then tree rest (.set w e :: nodes) stack
        else tree rest (.print (w :: ws) :: nodes) stack
      | [] => tree rest (.print [w] :: nodes) stack

/-- `Parse` (Go standard library). -/
def parse (template : Text) : Option (List Node) :=
  (Template.split false [] template).bind fun ts => tree (Template.pieces false ts) [] []

/-- Values. `obj` are the objects of the program, and `args` is the map with the arguments of the
template. -/
inductive Value (α : Type) where
  | text (t : Text)
  | flag (b : Bool)
  | nat (n : Nat)
  | obj (a : α)
  | list (as : List α)
  | args (l : List (Text × α))

/-- What happens when a function is called, in addition to calculating the result: imports that are added
to the buffer, with the selector, and errors that are reported. -/
inductive Effect where
  | imports (path selector : Text)
  | error
deriving DecidableEq, Repr

/-- What the templates can use: the methods of the objects, how objects are printed, and the
functions. The arguments of the templates are objects too: `inject` says which value they are. -/
structure Env (α : Type) where
  member : α → Text → Option (Value α)
  shown : α → Option Text
  functions : Text → Option (List (Value α) → Option (Value α × List Effect))
  inject : α → Value α := .obj

section

variable {α : Type}

/-- The condition of `if` and `not` (Go standard library). -/
def Value.truth : Value α → Bool
  | .text t => !t.isEmpty
  | .flag b => b
  | .nat n => n ≠ 0
  | .obj _ => true
  | .list as => !as.isEmpty
  | .args l => !l.isEmpty

/-- A field or method of a value. -/
def Value.member (E : Env α) (name : Text) : Value α → Option (Value α)
  | .obj a => E.member a name
  | .args l => (l.lookup name).map E.inject
  | _ => none

/-- An argument: a text, without spaces or escapes, a condition, the number one, or a dot or a variable, and the
members that follow. Other numbers aren't used. -/
def operand (E : Env α) (dot : Value α) (vars : List (Text × Value α)) (w : Text) : Option (Value α) :=
  if t!"\"".isPrefixOf w then some (.text (w.drop 1).dropLast)
  else if w = t!"false" then some (.flag false)
  else if w = t!"1" then some (.nat 1)
  else
    match splitOn '.' w with
    | [] => none
    | first :: path =>
      (path.filter (· ≠ [])).foldl (fun v name => v.bind (Value.member E name))
        (if first = [] then some dot else vars.lookup first)

/-- `print` (Go standard library), for texts. -/
def concat : List (Value α) → Option Text
  | [] => some []
  | .text t :: vs => (concat vs).map (t ++ ·)
  | _ => none

/-- The functions of the environment, and those of the Go standard library: `len` is for lists, `lt` for
numbers and `print` for texts. -/
def function (E : Env α) (name : Text) : Option (List (Value α) → Option (Value α × List Effect)) :=
  if name = t!"not" then
    some fun
      | [v] => some (.flag !v.truth, [])
      | _ => none
  else if name = t!"len" then
    some fun
      | [.list as] => some (.nat as.length, [])
      | _ => none
  else if name = t!"lt" then
    some fun
      | [.nat a, .nat b] => some (.flag (a < b), [])
      | _ => none
  else if name = t!"print" then some fun vs => (concat vs).map fun t => (.text t, [])
  else E.functions name

/-- The value of a function with its arguments, for an expression in parentheses. Only for functions that
have no effects. -/
def inner (E : Env α) (dot : Value α) (vars : List (Text × Value α)) : List Text → Option (Value α)
  | [] => none
  | w :: ws =>
    ((function E w).bind fun f => (ws.mapM (operand E dot vars)).bind f).bind fun r =>
      if r.2 = [] then some r.1 else none

/-- The arguments of a function. The first argument contains the words of an expression in parentheses that
hasn't been closed, reversed. -/
def arguments (E : Env α) (dot : Value α) (vars : List (Text × Value α)) :
    Option (List Text) → List Text → Option (List (Value α))
  | none, [] => some []
  | some _, [] => none
  | none, w :: ws =>
    if t!"(".isPrefixOf w then arguments E dot vars (some [w.drop 1]) ws
    else (operand E dot vars w).bind fun v => (arguments E dot vars none ws).map (v :: ·)
  | some pending, w :: ws =>
    if t!")".isSuffixOf w then
      (inner E dot vars (w.dropLast :: pending).reverse).bind fun v => (arguments E dot vars none ws).map (v :: ·)
    else arguments E dot vars (some (w :: pending)) ws

/-- The value of an expression: an argument, or a function with its arguments. -/
def eval (E : Env α) (dot : Value α) (vars : List (Text × Value α)) :
    List Text → Option (Value α × List Effect)
  | [] => none
  | w :: ws =>
    if t!".".isPrefixOf w || t!"$".isPrefixOf w then
      match ws with
      | [] => (operand E dot vars w).map fun v => (v, [])
      | _ => none
    else (function E w).bind fun f => (arguments E dot vars none ws).bind f

/-- How a value is printed. -/
def Value.print (E : Env α) : Value α → Option Text
  | .text t => some t
  | .obj a => E.shown a
  | _ => none

/-- The text of an action that prints an expression. -/
def printed (E : Env α) (dot : Value α) (vars : List (Text × Value α)) (e : List Text) :
    Option (Text × List Effect) :=
  (eval E dot vars e).bind fun (v, fx) => (v.print E).map fun t => (t, fx)

/-- Two results, one after the other. -/
def andThen {β : Type} (a b : Option (List β × List Effect)) : Option (List β × List Effect) :=
  a.bind fun (x, fx) => b.map fun (y, fy) => (x ++ y, fx ++ fy)

/-- Effects that precede a result. -/
def after {β : Type} (fx : List Effect) (a : Option (β × List Effect)) : Option (β × List Effect) :=
  a.map fun (x, fy) => (x, fx ++ fy)

/-- The results for the elements of a list, one after the other. -/
def each {β : Type} (f : α → Option (List β × List Effect)) : List α → Option (List β × List Effect)
  | [] => some ([], [])
  | a :: as => andThen (f a) (each f as)

/-- The expression of a loop, `$i, $v := e` or `e`. -/
def rangeValue : List Text → List Text
  | i :: v :: op :: e => if op = t!":=" then e else i :: v :: op :: e
  | e => e

/-- The variables of a loop, given an element and its position. -/
def rangeVars : List Text → α × Nat → List (Text × Value α)
  | i :: v :: op :: _, (a, n) => if op = t!":=" then [(v, .obj a), (i.dropLast, .nat n)] else []
  | _, _ => []

mutual
/-- `Execute` (Go standard library) for a node: the text produced and the effects, if there are no
errors. -/
def Node.run (E : Env α) (dot : Value α) (vars : List (Text × Value α)) :
    Node → Option (Text × List Effect)
  | .text t => some (t, [])
  | .print e => printed E dot vars e
  | .set _ e => (eval E dot vars e).map fun (_, fx) => ([], fx)
  | .branch e yes no =>
    (eval E dot vars e).bind fun (v, fx) =>
      after fx (if v.truth then runNodes E dot vars yes else runNodes E dot vars no)
  | .range e body =>
    (eval E dot vars (rangeValue e)).bind fun (v, fx) =>
      match v with
      | .list as => after fx (each (fun p => runNodes E (.obj p.1) (rangeVars e p ++ vars) body) as.zipIdx)
      | _ => none
/-- `Execute` (Go standard library) for a list of nodes. The variables can be used till the end of the
list. -/
def runNodes (E : Env α) (dot : Value α) (vars : List (Text × Value α)) :
    List Node → Option (Text × List Effect)
  | [] => some ([], [])
  | .set x e :: ns =>
    (eval E dot vars e).bind fun (v, fx) => after fx (runNodes E dot ((x, v) :: vars) ns)
  | n :: ns => andThen (n.run E dot vars) (runNodes E dot vars ns)
end

end

end Verif.GoTemplate
