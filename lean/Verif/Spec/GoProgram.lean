import Verif.Spec.GoCode
import Verif.Model.Binding
import Verif.Model.GoMap

/-!
# A part of the Go language

The part of the Go language used by the generated types, builders and JSON support: its syntax, how it is written, and
what it does.
-/

namespace Verif.GoProgram

/-! ## Syntax -/

/-- Expressions. -/
inductive Expr where
  | var (x : Text)
  | nil
  | false
  | str (t : Text)
  | int (i : Int)
  /-- The floating point number zero. -/
  | float
  /-- The zero value of a structure that isn't defined in the program. -/
  | composite (typ : Text)
  | convert (typ : Text) (e : Expr)
  | field (e : Expr) (f : Text)
  | index (e i : Expr)
  | len (e : Expr)
  | make (typ : Text) (n : Expr)
  | call (f : Text) (args : List Expr)
  /-- A pointer to a new structure, `&T{}`. -/
  | address (typ : Text)
  /-- A pointer to a new structure, `new(T)`. -/
  | new (typ : Text)
  /-- A new map, `T{}`. -/
  | emptyMap (typ : Text)
  /-- A new map, `make(T)`. -/
  | makeMap (typ : Text)
  /-- A function of the program that has no parameters. -/
  | construct (f : Text)
  /-- A method of a pointer to the given type, that isn't written. -/
  | method (typ : Text) (e : Expr) (name : Text) (args : List Expr)
  /-- Something that the functions that are given to the program know. -/
  | read (f : Text)
  /-- A function of the program. -/
  | apply (f : Text) (args : List Expr)
  /-- The value of a key of a map, whose elements have the given type. -/
  | lookup (typ : Text) (e k : Expr)
  /-- A new slice without elements, `T{}`. -/
  | emptySlice (typ : Text)
  | append (e item : Expr)
  /-- The text of a date. -/
  | format (e layout : Expr)
  /-- What a pointer to a variable points to, `*e`. -/
  | deref (e : Expr)
  /-- A pointer to a variable that isn't changed later, `&x`. -/
  | ref (x : Text)
  | not (e : Expr)
  | bitAnd (a b : Expr)
  | bitClear (a b : Expr)
  | eq (a b : Expr)
  | ne (a b : Expr)
  | lt (a b : Expr)
  | ge (a b : Expr)
  | gt (a b : Expr)
  | and (a b : Expr)
  | or (a b : Expr)

/-- Statements. -/
inductive Stmt where
  /-- Returns the values of the expressions, or those of the named results if there are none. -/
  | ret (es : List Expr)
  | branch (e : Expr) (yes no : List Stmt)
  | assign (target e : Expr)
  /-- The same, written with two spaces. -/
  | assignWide (target e : Expr)
  /-- `target |= e` -/
  | orAssign (target e : Expr)
  /-- `target &^= e` -/
  | clearAssign (target e : Expr)
  /-- Assigns the two results of a method without parameters of a pointer to the given type, that isn't
  written. -/
  | assignBoth (first second : Expr) (typ : Text) (e : Expr) (name : Text)
  /-- Assigns the two results of a function of the program. -/
  | assignPair (first second : Expr) (f : Text) (args : List Expr)
  /-- Assigns a pointer to a new structure with a value in one of its fields. -/
  | assignNew (target : Expr) (typ f : Text) (e : Expr)
  /-- `x := e` -/
  | define (x : Text) (e : Expr)
  | var (x typ : Text)
  | copy (target source : Expr)
  | range (index item : Text) (e : Expr) (body : List Stmt)
  /-- The same for the keys and values of a map. -/
  | rangeMap (key item : Text) (e : Expr) (body : List Stmt)
  | stop
  /-- `x++` -/
  | increment (x : Text)
  /-- `x := e;` -/
  | defineEnd (x : Text) (e : Expr)
  /-- Calls a function that is given to the program. -/
  | perform (f : Text) (args : List Expr)
  /-- Calls a function that is given to the program and that assigns a value to a variable, `f(&x)`. -/
  | fill (f x : Text)
  /-- Calls a function of the program. -/
  | apply (f : Text) (args : List Expr)
  /-- Calls a method of a pointer to the given type, that isn't written. -/
  | invoke (typ : Text) (e : Expr) (name : Text) (args : List Expr)
  /-- `x, y := f(args)`, for a function that is given to the program. -/
  | defineBoth (x y f : Text) (args : List Expr)
  /-- `for { body }` -/
  | forever (body : List Stmt)
  /-- `for e { body }` -/
  | while (e : Expr) (body : List Stmt)
  /-- `for key := range e { body }` -/
  | rangeKeys (key : Text) (e : Expr) (body : List Stmt)
  /-- `sort.Strings(e)` -/
  | sort (e : Expr)
  | switch (e : Expr) (cases : List Stmt)
  /-- A case of a `switch`. -/
  | case (label : Text) (body : List Stmt)
  /-- The default case of a `switch`. -/
  | default (body : List Stmt)

/-- Functions. Those that aren't methods have an empty receiver and an empty type. -/
structure Func where
  receiver : Text := []
  typ : Text := []
  name : Text
  params : List (Text × Text) := []
  /-- The types of the results, with their names if they have them. -/
  results : List (Text × Text)
  body : List Stmt

/-- Declarations. The numbers are those of the spaces between the name and the type of the fields of
structures, and before the name of structures: they don't have a meaning. -/
inductive Declaration where
  | const (x : Text) (value : Text)
  | consts (typ : Text) (values : List (Text × Text × Text))
  | scalar (x typ : Text)
  | struct (gap : Nat) (x : Text) (fields : List (Text × Nat × Text))
  | func (f : Func)

/-! ## How it is written -/

/-- The precedence of the operators, from the Go specification; seven is for the other expressions. -/
def Expr.level : Expr → Nat
  | .or _ _ => 1
  | .and _ _ => 2
  | .eq _ _ => 3
  | .ne _ _ => 3
  | .lt _ _ => 3
  | .ge _ _ => 3
  | .gt _ _ => 3
  | .bitAnd _ _ => 5
  | .bitClear _ _ => 5
  | .not _ => 6
  | .deref _ => 6
  | .ref _ => 6
  | _ => 7

/-- Adds parentheses. -/
def paren (b : Bool) (t : Text) : Text := if b then t!"(" ++ t ++ t!")" else t

mutual
/-- The text of an expression that is an operand of an operator of the given precedence. -/
def Expr.text (p : Nat) : Expr → Text
  | .var x => x
  | .nil => t!"nil"
  | .false => t!"false"
  | .str t => t!"\"" ++ t ++ t!"\""
  | .int i => intText i
  | .float => t!"0.0"
  | .composite typ => typ ++ t!"{}"
  | .convert typ e => typ ++ t!"(" ++ e.text 0 ++ t!")"
  | .field e f => e.text 7 ++ t!"." ++ f
  | .index e i => e.text 7 ++ t!"[" ++ i.text 0 ++ t!"]"
  | .len e => t!"len(" ++ e.text 0 ++ t!")"
  | .make typ n => t!"make(" ++ typ ++ t!", " ++ n.text 0 ++ t!")"
  | .call f args => f ++ t!"(" ++ argsText args ++ t!")"
  | .address typ => t!"&" ++ typ ++ t!"{}"
  | .new typ => t!"new(" ++ typ ++ t!")"
  | .emptyMap typ => typ ++ t!"{}"
  | .makeMap typ => t!"make(" ++ typ ++ t!")"
  | .construct f => f ++ t!"()"
  | .method _ e name args => e.text 7 ++ t!"." ++ name ++ t!"(" ++ argsText args ++ t!")"
  | .read f => f
  | .apply f args => f ++ t!"(" ++ argsText args ++ t!")"
  | .lookup _ e k => e.text 7 ++ t!"[" ++ k.text 0 ++ t!"]"
  | .emptySlice typ => typ ++ t!"{}"
  | .append e item => t!"append(" ++ e.text 0 ++ t!", " ++ item.text 0 ++ t!")"
  | .format e layout => t!"(" ++ e.text 0 ++ t!").Format(" ++ layout.text 0 ++ t!")"
  | .deref e => paren (6 < p) (t!"*" ++ e.text 6)
  | .ref x => paren (6 < p) (t!"&" ++ x)
  | .not e => paren (6 < p) (t!"!" ++ e.text 6)
  | .bitAnd a b => paren (5 < p) (a.text 5 ++ t!"&" ++ b.text 6)
  | .bitClear a b => paren (5 < p) (a.text 5 ++ t!"&^" ++ b.text 6)
  | .eq a b => paren (3 < p) (a.text 3 ++ t!" == " ++ b.text 4)
  | .ne a b => paren (3 < p) (a.text 3 ++ t!" != " ++ b.text 4)
  | .lt a b => paren (3 < p) (a.text 3 ++ t!" < " ++ b.text 4)
  | .ge a b => paren (3 < p) (a.text 3 ++ t!" >= " ++ b.text 4)
  | .gt a b => paren (3 < p) (a.text 3 ++ t!" > " ++ b.text 4)
  | .and a b => paren (2 < p) (a.text 2 ++ t!" && " ++ b.text 3)
  | .or a b => paren (1 < p) (a.text 1 ++ t!" || " ++ b.text 2)
/-- The text of a list of expressions. -/
def argsText : List Expr → Text
  | [] => []
  | [e] => e.text 0
  | e :: es => e.text 0 ++ t!", " ++ argsText es
end

mutual
/-- The lines of a statement. -/
def Stmt.lines : Stmt → List Text
  | .ret [] => [t!"return"]
  | .ret (e :: es) => [t!"return " ++ argsText (e :: es)]
  | .branch e yes [] => (t!"if " ++ e.text 0 ++ t!" {") :: (blockLines yes ++ [t!"}"])
  | .branch e yes (n :: no) =>
    (t!"if " ++ e.text 0 ++ t!" {") ::
      (blockLines yes ++ t!"} else {" :: (blockLines (n :: no) ++ [t!"}"]))
  | .assign target e => [target.text 0 ++ t!" = " ++ e.text 0]
  | .assignWide target e => [target.text 0 ++ t!"  = " ++ e.text 0]
  | .orAssign target e => [target.text 0 ++ t!" |= " ++ e.text 0]
  | .clearAssign target e => [target.text 0 ++ t!" &^= " ++ e.text 0]
  | .assignBoth first second _ e name =>
    [first.text 0 ++ t!", " ++ second.text 0 ++ t!" = " ++ e.text 7 ++ t!"." ++ name ++ t!"()"]
  | .assignPair first second f args =>
    [first.text 0 ++ t!", " ++ second.text 0 ++ t!" = " ++ f ++ t!"(" ++ argsText args ++ t!")"]
  | .assignNew target typ f e =>
    [target.text 0 ++ t!" = &" ++ typ ++ t!"{", f ++ t!": " ++ e.text 0 ++ t!",", t!"}"]
  | .define x e => [x ++ t!" := " ++ e.text 0]
  | .var x typ => [t!"var " ++ x ++ t!" " ++ typ]
  | .copy target source => [t!"copy(" ++ target.text 0 ++ t!", " ++ source.text 0 ++ t!")"]
  | .range index item e body =>
    (t!"for " ++ index ++ t!", " ++ item ++ t!" := range " ++ e.text 0 ++ t!" {") ::
      (blockLines body ++ [t!"}"])
  | .rangeMap key item e body =>
    (t!"for " ++ key ++ t!", " ++ item ++ t!" := range " ++ e.text 0 ++ t!" {") ::
      (blockLines body ++ [t!"}"])
  | .stop => [t!"break"]
  | .increment x => [x ++ t!"++"]
  | .defineEnd x e => [x ++ t!" := " ++ e.text 0 ++ t!";"]
  | .perform f args => [f ++ t!"(" ++ argsText args ++ t!")"]
  | .fill f x => [f ++ t!"(&" ++ x ++ t!")"]
  | .apply f args => [f ++ t!"(" ++ argsText args ++ t!")"]
  | .invoke _ e name args => [e.text 7 ++ t!"." ++ name ++ t!"(" ++ argsText args ++ t!")"]
  | .defineBoth x y f args => [x ++ t!", " ++ y ++ t!" := " ++ f ++ t!"(" ++ argsText args ++ t!")"]
  | .forever body => t!"for {" :: (blockLines body ++ [t!"}"])
  | .while e body => (t!"for " ++ e.text 0 ++ t!" {") :: (blockLines body ++ [t!"}"])
  | .rangeKeys key e body =>
    (t!"for " ++ key ++ t!" := range " ++ e.text 0 ++ t!" {") :: (blockLines body ++ [t!"}"])
  | .sort e => [t!"sort.Strings(" ++ e.text 0 ++ t!")"]
  | .switch e cases => (t!"switch " ++ e.text 0 ++ t!" {") :: (blockLines cases ++ [t!"}"])
  | .case label body => (t!"case \"" ++ label ++ t!"\":") :: blockLines body
  | .default body => t!"default:" :: blockLines body
/-- The lines of a list of statements. -/
def blockLines : List Stmt → List Text
  | [] => []
  | s :: ss => s.lines ++ blockLines ss
end

/-- The text of a list of names and types. -/
def paramsText : List (Text × Text) → Text
  | [] => []
  | [(x, t)] => x ++ t!" " ++ t
  | (x, t) :: ps => x ++ t!" " ++ t ++ t!", " ++ paramsText ps

/-- The text of the results of a function. -/
def resultsText : List (Text × Text) → Text
  | [] => []
  | [([], t)] => t ++ t!" "
  | ps => t!"(" ++ paramsText ps ++ t!") "

/-- The line where a function starts. -/
def Func.header (f : Func) : Text :=
  (if f.receiver = [] then t!"func " else t!"func (" ++ f.receiver ++ t!" *" ++ f.typ ++ t!") ") ++ f.name ++
    t!"(" ++ paramsText f.params ++ t!") " ++ resultsText f.results ++ t!"{"

/-- Some spaces. -/
def spaces (n : Nat) : Text := List.replicate n ' '

/-- The lines of a declaration. -/
def Declaration.lines : Declaration → List Text
  | .const x value => [t!"const " ++ x ++ t!" = \"" ++ value ++ t!"\""]
  | .consts typ values =>
    t!"const (" ::
      ((values.flatMap fun v => [v.1, v.2.1 ++ t!" " ++ typ ++ t!" = \"" ++ v.2.2 ++ t!"\""]) ++ [t!")"])
  | .scalar x typ => [t!"type " ++ x ++ t!" " ++ typ]
  | .struct gap x fields =>
    (t!"type" ++ spaces gap ++ x ++ t!" struct {") ::
      ((fields.map fun f => f.1 ++ spaces f.2.1 ++ f.2.2) ++ [t!"}"])
  | .func f => f.header :: (blockLines f.body ++ [t!"}"])

/-! ## What it does -/

/-- Values. Pointers, slices and maps are the positions of the structures, arrays and maps they refer to; pointers to
variables refer to structures that have one field without name. The values
of the types that the programs don't look into are those of `δ`. -/
inductive Value (δ : Type) where
  | nil
  | bool (b : Bool)
  | int (i : Int)
  | str (t : Text)
  | error (t : Text)
  | pointer (a : Nat)
  | slice (a : Nat)
  | map (a : Nat)
  | other (d : δ)

/-- The memory, the variables and the state of the functions that are given to the program. New variables
are added at the start. -/
structure State (δ σ : Type) where
  structs : List (List (Text × Value δ)) := []
  arrays : List (List (Value δ)) := []
  maps : List (GoMap (Value δ)) := []
  vars : List (Text × Value δ) := []
  user : σ

/-- The results of executing something: a value, a panic, nothing if the program isn't correct, or nothing if
there are too many calls inside of calls, or too many steps of a loop. -/
inductive Res (α : Type) where
  | ok (a : α)
  | panic
  | wrong
  | outOfFuel

/-- What is done after something. -/
def Res.bind {α β : Type} (r : Res α) (f : α → Res β) : Res β :=
  match r with
  | .ok a => f a
  | .panic => .panic
  | .wrong => .wrong
  | .outOfFuel => .outOfFuel

/-- What there is outside of the code that is executed: the constants, the zero values of the types, the
functions that variables contain, the fields of new structures, the functions and methods of the
program, the functions that return two values, and the limit for the steps of the loops that have no end. -/
structure World (δ σ : Type) where
  consts : Text → Option Text
  zero : Text → Value δ
  funcs : Text → Option (List (Value δ) → σ → Value δ × σ)
  structs : Text → Option (List (Text × Value δ)) := fun _ => none
  constructors : Text → State δ σ → Res (List (Value δ) × State δ σ) := fun _ _ => .wrong
  methods : Text → Text → Value δ → List (Value δ) → State δ σ → Res (List (Value δ) × State δ σ) :=
    fun _ _ _ _ _ => .wrong
  apply : Text → List (Value δ) → State δ σ → Res (List (Value δ) × State δ σ) := fun _ _ _ => .wrong
  pairs : Text → Option (List (Value δ) → σ → (Value δ × Value δ) × σ) := fun _ => none
  limit : Nat := 0

section

variable {δ σ : Type}

/-- Changes a value in a list of names and values, if the name is there. -/
def update {α : Type} (x : Text) (v : α) : List (Text × α) → Option (List (Text × α))
  | [] => none
  | (y, w) :: rest => if y = x then some ((y, v) :: rest) else (update x v rest).map ((y, w) :: ·)

/-- The elements of a slice, or the values of a map. -/
def State.elements (s : State δ σ) : Value δ → Option (List (Value δ))
  | .nil => some []
  | .slice a => s.arrays[a]?
  | .map a => (s.maps[a]?).map fun m => m.map Prod.snd
  | _ => none

/-- The entries of a map. -/
def State.entries (s : State δ σ) : Value δ → Option (GoMap (Value δ))
  | .nil => some []
  | .map a => s.maps[a]?
  | _ => none

/-- A field of the structure that a pointer points to. -/
def State.field (s : State δ σ) (f : Text) : Value δ → Res (Value δ)
  | .nil => .panic
  | .pointer a =>
    match (s.structs[a]?).bind fun fields => fields.lookup f with
    | some v => .ok v
    | none => .wrong
  | _ => .wrong

/-- Whether two values are equal, for the values that the programs compare. -/
def equal : Value δ → Value δ → Option Bool
  | .nil, .nil => some true
  | .pointer _, .nil => some false
  | .slice _, .nil => some false
  | .map _, .nil => some false
  | .error _, .nil => some false
  | .other _, .nil => some false
  | .int i, .int j => some (i == j)
  | .str t, .str u => some (t == u)
  | _, _ => none

/-- What isn't there isn't correct. -/
def Res.ofOption {α : Type} : Option α → Res α
  | some a => .ok a
  | none => .wrong

/-- An operation with the bits of two integers that aren't negative. -/
def bits (f : Nat → Nat → Nat) : Value δ → Value δ → Res (Value δ)
  | .int (.ofNat a), .int (.ofNat b) => .ok (.int (f a b))
  | _, _ => .wrong

/-- A comparison of two integers. -/
def compare (f : Int → Int → Bool) : Value δ → Value δ → Res (Value δ)
  | .int a, .int b => .ok (.bool (f a b))
  | _, _ => .wrong

/-- The element of a list in a position. -/
def element (items : List (Value δ)) : Value δ → Res (Value δ)
  | .int (.ofNat i) =>
    match items[i]? with
    | some v => .ok v
    | none => .panic
  | .int (.negSucc _) => .panic
  | _ => .wrong

/-- Allocates a new structure. -/
def alloc (w : World δ σ) (typ : Text) (s : State δ σ) : Res (Value δ × State δ σ) :=
  match w.structs typ with
  | some fields => .ok (.pointer s.structs.length, { s with structs := s.structs ++ [fields] })
  | none => .wrong

/-- Allocates a new map. -/
def allocMap (s : State δ σ) : Res (Value δ × State δ σ) :=
  .ok (.map s.maps.length, { s with maps := s.maps ++ [[]] })

/-- The result of a function that returns one value. -/
def single (r : Res (List (Value δ) × State δ σ)) : Res (Value δ × State δ σ) :=
  r.bind fun (vs, s) =>
    match vs with
    | [v] => .ok (v, s)
    | _ => .wrong

/-- The value of a key of a map: the zero value if the key isn't in the map. -/
def valueOf (s : State δ σ) (zero : Value δ) : Value δ → Value δ → Res (Value δ)
  | .map a, .str k => (Res.ofOption s.maps[a]?).bind fun m => .ok ((m.find k).getD zero)
  | .nil, .str _ => .ok zero
  | _, _ => .wrong

/-- Allocates a new slice. -/
def allocSlice (items : List (Value δ)) (s : State δ σ) : Res (Value δ × State δ σ) :=
  .ok (.slice s.arrays.length, { s with arrays := s.arrays ++ [items] })

/-- The result of a function that is given to the program. -/
def given (w : World δ σ) (f : Text) (vs : List (Value δ)) (s : State δ σ) : Res (Value δ × State δ σ) :=
  match w.funcs f with
  | some g => .ok ((g vs s.user).1, { s with user := (g vs s.user).2 })
  | none => .wrong

mutual
/-- The value of an expression. -/
def Expr.eval (w : World δ σ) : Expr → State δ σ → Res (Value δ × State δ σ)
  | .var x, s =>
    match s.vars.lookup x with
    | some v => .ok (v, s)
    | none =>
      match w.consts x with
      | some t => .ok (.str t, s)
      | none => .wrong
  | .nil, s => .ok (.nil, s)
  | .false, s => .ok (.bool false, s)
  | .str t, s => .ok (.str t, s)
  | .int i, s => .ok (.int i, s)
  | .float, s => .ok (w.zero t!"float64", s)
  | .composite typ, s => .ok (w.zero typ, s)
  | .convert _ e, s => e.eval w s
  | .field e f, s => (e.eval w s).bind fun (v, s) => (s.field f v).bind fun v => .ok (v, s)
  | .index e i, s =>
    (e.eval w s).bind fun (v, s) => (i.eval w s).bind fun (j, s) =>
      (Res.ofOption (s.elements v)).bind fun items => (element items j).bind fun v => .ok (v, s)
  | .len e, s =>
    (e.eval w s).bind fun (v, s) =>
      (Res.ofOption (s.elements v)).bind fun items => .ok (.int items.length, s)
  | .make _ n, s =>
    (n.eval w s).bind fun (v, s) =>
      match v with
      | .int (.ofNat n) =>
        .ok (.slice s.arrays.length, { s with arrays := s.arrays ++ [List.replicate n .nil] })
      | .int (.negSucc _) => .panic
      | _ => .wrong
  | .call f args, s =>
    (evalArgs w args s).bind fun (vs, s) =>
      match w.funcs f with
      | some g => .ok ((g vs s.user).1, { s with user := (g vs s.user).2 })
      | none => .wrong
  | .address typ, s => alloc w typ s
  | .new typ, s => alloc w typ s
  | .emptyMap _, s => allocMap s
  | .makeMap _, s => allocMap s
  | .construct f, s => single (w.constructors f s)
  | .method typ e name args, s =>
    (e.eval w s).bind fun (v, s) => (evalArgs w args s).bind fun (vs, s) =>
      single (w.methods typ name v vs s)
  | .read f, s => given w f [] s
  | .apply f args, s => (evalArgs w args s).bind fun (vs, s) => single (w.apply f vs s)
  | .lookup typ e k, s =>
    (e.eval w s).bind fun (v, s) => (k.eval w s).bind fun (k, s) =>
      (valueOf s (w.zero typ) v k).bind fun v => .ok (v, s)
  | .emptySlice _, s => allocSlice [] s
  | .append e item, s =>
    (e.eval w s).bind fun (v, s) => (item.eval w s).bind fun (x, s) =>
      (Res.ofOption (s.elements v)).bind fun items => allocSlice (items ++ [x]) s
  | .format e layout, s =>
    (e.eval w s).bind fun (v, s) => (layout.eval w s).bind fun (l, s) => given w t!"time.Time.Format" [v, l] s
  | .deref e, s => (e.eval w s).bind fun (v, s) => (s.field [] v).bind fun v => .ok (v, s)
  | .ref x, s =>
    (Res.ofOption (s.vars.lookup x)).bind fun v =>
      .ok (.pointer s.structs.length, { s with structs := s.structs ++ [[([], v)]] })
  | .not e, s =>
    (e.eval w s).bind fun (v, s) =>
      match v with
      | .bool b => .ok (.bool !b, s)
      | _ => .wrong
  | .bitAnd a b, s =>
    (a.eval w s).bind fun (x, s) => (b.eval w s).bind fun (y, s) =>
      (bits Nat.land x y).bind fun v => .ok (v, s)
  | .bitClear a b, s =>
    (a.eval w s).bind fun (x, s) => (b.eval w s).bind fun (y, s) =>
      (bits (fun x y => x - Nat.land x y) x y).bind fun v => .ok (v, s)
  | .eq a b, s =>
    (a.eval w s).bind fun (x, s) => (b.eval w s).bind fun (y, s) =>
      (Res.ofOption (equal x y)).bind fun r => .ok (.bool r, s)
  | .ne a b, s =>
    (a.eval w s).bind fun (x, s) => (b.eval w s).bind fun (y, s) =>
      (Res.ofOption (equal x y)).bind fun r => .ok (.bool !r, s)
  | .lt a b, s =>
    (a.eval w s).bind fun (x, s) => (b.eval w s).bind fun (y, s) =>
      (compare (fun i j => decide (i < j)) x y).bind fun v => .ok (v, s)
  | .ge a b, s =>
    (a.eval w s).bind fun (x, s) => (b.eval w s).bind fun (y, s) =>
      (compare (fun i j => decide (i ≥ j)) x y).bind fun v => .ok (v, s)
  | .gt a b, s =>
    (a.eval w s).bind fun (x, s) => (b.eval w s).bind fun (y, s) =>
      (compare (fun i j => decide (i > j)) x y).bind fun v => .ok (v, s)
  | .and a b, s =>
    (a.eval w s).bind fun (x, s) =>
      match x with
      | .bool true => b.eval w s
      | .bool false => .ok (.bool false, s)
      | _ => .wrong
  | .or a b, s =>
    (a.eval w s).bind fun (x, s) =>
      match x with
      | .bool false => b.eval w s
      | .bool true => .ok (.bool true, s)
      | _ => .wrong
/-- The values of the arguments of a function. -/
def evalArgs (w : World δ σ) : List Expr → State δ σ → Res (List (Value δ) × State δ σ)
  | [], s => .ok ([], s)
  | e :: es, s =>
    (e.eval w s).bind fun (v, s) => (evalArgs w es s).bind fun (vs, s) => .ok (v :: vs, s)
end

/-- How a statement ends. -/
inductive Flow (δ : Type) where
  | next
  | stop
  | ret (vs : List (Value δ))

/-- The body of a loop for the elements of a list, with their positions. -/
def loop (body : Nat → Value δ → State δ σ → Res (Flow δ × State δ σ)) :
    Nat → List (Value δ) → State δ σ → Res (Flow δ × State δ σ)
  | _, [], s => .ok (.next, s)
  | k, v :: vs, s =>
    (body k v s).bind fun (flow, s) =>
      match flow with
      | .next => loop body (k + 1) vs s
      | .stop => .ok (.next, s)
      | .ret vs => .ok (.ret vs, s)

/-- The variables after a block: those that are declared in it can't be used. -/
def leave (before : State δ σ) (r : Flow δ × State δ σ) : Flow δ × State δ σ :=
  (r.1, { r.2 with vars := r.2.vars.drop (r.2.vars.length - before.vars.length) })

/-- The body of a loop for the entries of a map. The order isn't defined by the language: here it is that of
the list. -/
def loopMap (body : Text → Value δ → State δ σ → Res (Flow δ × State δ σ)) :
    GoMap (Value δ) → State δ σ → Res (Flow δ × State δ σ)
  | [], s => .ok (.next, s)
  | (k, v) :: vs, s =>
    (body k v s).bind fun (flow, s) =>
      match flow with
      | .next => loopMap body vs s
      | .stop => .ok (.next, s)
      | .ret vs => .ok (.ret vs, s)

/-- The body of a loop that has no end, while a condition holds. -/
def loopWhile (condition : State δ σ → Res (Value δ × State δ σ))
    (body : State δ σ → Res (Flow δ × State δ σ)) : Nat → State δ σ → Res (Flow δ × State δ σ)
  | 0, _ => .outOfFuel
  | k + 1, s =>
    (condition s).bind fun (v, s) =>
      match v with
      | .bool true =>
        (body s).bind fun (flow, s) =>
          match flow with
          | .next => loopWhile condition body k s
          | .stop => .ok (.next, s)
          | .ret vs => .ok (.ret vs, s)
      | .bool false => .ok (.next, s)
      | _ => .wrong

/-- The body of a loop for the keys of a map. -/
def loopKeys (body : Text → State δ σ → Res (Flow δ × State δ σ)) :
    List Text → State δ σ → Res (Flow δ × State δ σ)
  | [], s => .ok (.next, s)
  | k :: ks, s =>
    (body k s).bind fun (flow, s) =>
      match flow with
      | .next => loopKeys body ks s
      | .stop => .ok (.next, s)
      | .ret vs => .ok (.ret vs, s)

/-- The texts that some values are. -/
def texts : List (Value δ) → Option (List Text)
  | [] => some []
  | .str t :: vs => (texts vs).map (t :: ·)
  | _ => none

/-- Puts a text in a list of texts in increasing order, comparing them byte by byte. -/
def insertText (t : Text) : List Text → List Text
  | [] => [t]
  | u :: us => if compareText t u < 0 then t :: u :: us else u :: insertText t us

/-- Some texts in increasing order. -/
def sortTexts (ts : List Text) : List Text := ts.foldl (fun acc t => insertText t acc) []

/-- How a `switch` ends: it isn't known to those that contain it if it ended with a `break`. -/
def unstop (r : Flow δ × State δ σ) : Flow δ × State δ σ :=
  match r.1 with
  | .stop => (.next, r.2)
  | _ => r

/-- Puts a value in a position of a slice, or in a key of a map. -/
def put (s : State δ σ) (v : Value δ) : Value δ → Value δ → Res (State δ σ)
  | .slice a, .int (.ofNat i) =>
    (Res.ofOption s.arrays[a]?).bind fun items =>
      if i < items.length then .ok { s with arrays := s.arrays.set a (items.set i v) } else .panic
  | .slice _, .int (.negSucc _) => .panic
  | .nil, .int _ => .panic
  | .map a, .str k =>
    (Res.ofOption s.maps[a]?).bind fun m => .ok { s with maps := s.maps.set a (m.insert k v) }
  | .nil, .str _ => .panic
  | _, _ => .wrong

/-- Assigns a value to a variable, to a field, to a position of a slice or to a key of a map. -/
def assign (w : World δ σ) (v : Value δ) : Expr → State δ σ → Res (State δ σ)
  | .var x, s =>
    (Res.ofOption (update x v s.vars)).bind fun vars => .ok { s with vars := vars }
  | .field e f, s =>
    (e.eval w s).bind fun (p, s) =>
      match p with
      | .nil => .panic
      | .pointer a =>
        (Res.ofOption ((s.structs[a]?).bind (update f v))).bind fun fields =>
          .ok { s with structs := s.structs.set a fields }
      | _ => .wrong
  | .index e i, s =>
    (e.eval w s).bind fun (p, s) => (i.eval w s).bind fun (j, s) => put s v p j
  | _, _ => .wrong

mutual
/-- Executes a statement of a function with those named results. -/
def Stmt.exec (w : World δ σ) (results : List Text) : Stmt → State δ σ → Res (Flow δ × State δ σ)
  | .ret [], s =>
    (Res.ofOption (results.mapM fun x => s.vars.lookup x)).bind fun vs => .ok (.ret vs, s)
  | .ret (e :: es), s => (evalArgs w (e :: es) s).bind fun (vs, s) => .ok (.ret vs, s)
  | .branch e yes no, s =>
    (e.eval w s).bind fun (v, s) =>
      match v with
      | .bool true => (execBlock w results yes s).bind fun r => .ok (leave s r)
      | .bool false => (execBlock w results no s).bind fun r => .ok (leave s r)
      | _ => .wrong
  | .assign target e, s =>
    (e.eval w s).bind fun (v, s) => (assign w v target s).bind fun s => .ok (.next, s)
  | .assignWide target e, s =>
    (e.eval w s).bind fun (v, s) => (assign w v target s).bind fun s => .ok (.next, s)
  | .orAssign target e, s =>
    (target.eval w s).bind fun (x, s) => (e.eval w s).bind fun (y, s) =>
      (bits Nat.lor x y).bind fun v => (assign w v target s).bind fun s => .ok (.next, s)
  | .clearAssign target e, s =>
    (target.eval w s).bind fun (x, s) => (e.eval w s).bind fun (y, s) =>
      (bits (fun x y => x - Nat.land x y) x y).bind fun v =>
        (assign w v target s).bind fun s => .ok (.next, s)
  | .assignBoth first second typ e name, s =>
    (e.eval w s).bind fun (v, s) => (w.methods typ name v [] s).bind fun (vs, s) =>
      match vs with
      | [a, b] =>
        (assign w a first s).bind fun s => (assign w b second s).bind fun s => .ok (.next, s)
      | _ => .wrong
  | .assignPair first second f args, s =>
    (evalArgs w args s).bind fun (vs, s) => (w.apply f vs s).bind fun (vs, s) =>
      match vs with
      | [a, b] =>
        (assign w a first s).bind fun s => (assign w b second s).bind fun s => .ok (.next, s)
      | _ => .wrong
  | .assignNew target typ f e, s =>
    (e.eval w s).bind fun (v, s) => (Res.ofOption ((w.structs typ).bind (update f v))).bind fun fields =>
      (assign w (.pointer s.structs.length) target { s with structs := s.structs ++ [fields] }).bind fun s =>
        .ok (.next, s)
  | .define x e, s => (e.eval w s).bind fun (v, s) => .ok (.next, { s with vars := (x, v) :: s.vars })
  | .var x typ, s => .ok (.next, { s with vars := (x, w.zero typ) :: s.vars })
  | .copy target source, s =>
    (target.eval w s).bind fun (t, s) => (source.eval w s).bind fun (u, s) =>
      (Res.ofOption (s.elements u)).bind fun items =>
        match t with
        | .slice a =>
          (Res.ofOption s.arrays[a]?).bind fun old =>
            let new := items.take old.length ++ old.drop items.length
            .ok (.next, { s with arrays := s.arrays.set a new })
        | .nil => .ok (.next, s)
        | _ => .wrong
  | .range index item e body, s =>
    (e.eval w s).bind fun (v, s) =>
      (Res.ofOption (s.elements v)).bind fun items =>
        loop (fun k v s =>
          (execBlock w results body { s with vars := (item, v) :: (index, .int k) :: s.vars }).bind
            fun r => .ok (leave s r)) 0 items s
  | .rangeMap key item e body, s =>
    (e.eval w s).bind fun (v, s) =>
      (Res.ofOption (s.entries v)).bind fun entries =>
        loopMap (fun k v s =>
          (execBlock w results body { s with vars := (item, v) :: (key, .str k) :: s.vars }).bind
            fun r => .ok (leave s r)) entries s
  | .stop, s => .ok (.stop, s)
  | .increment x, s =>
    (Res.ofOption (s.vars.lookup x)).bind fun v =>
      match v with
      | .int i => (assign w (.int (i + 1)) (.var x) s).bind fun s => .ok (.next, s)
      | _ => .wrong
  | .defineEnd x e, s => (e.eval w s).bind fun (v, s) => .ok (.next, { s with vars := (x, v) :: s.vars })
  | .perform f args, s =>
    (evalArgs w args s).bind fun (vs, s) => (given w f vs s).bind fun (_, s) => .ok (.next, s)
  | .fill f x, s =>
    (given w f [] s).bind fun (v, s) => (assign w v (.var x) s).bind fun s => .ok (.next, s)
  | .apply f args, s =>
    (evalArgs w args s).bind fun (vs, s) => (w.apply f vs s).bind fun (_, s) => .ok (.next, s)
  | .invoke typ e name args, s =>
    (e.eval w s).bind fun (v, s) => (evalArgs w args s).bind fun (vs, s) =>
      (w.methods typ name v vs s).bind fun (_, s) => .ok (.next, s)
  | .defineBoth x y f args, s =>
    (evalArgs w args s).bind fun (vs, s) =>
      match w.pairs f with
      | some g =>
        let r := g vs s.user
        .ok (.next, { s with vars := (y, r.1.2) :: (x, r.1.1) :: s.vars, user := r.2 })
      | none => .wrong
  | .forever body, s =>
    loopWhile (fun s => .ok (.bool true, s))
      (fun s => (execBlock w results body s).bind fun r => .ok (leave s r)) w.limit s
  | .while e body, s =>
    loopWhile (fun s => e.eval w s)
      (fun s => (execBlock w results body s).bind fun r => .ok (leave s r)) w.limit s
  | .rangeKeys key e body, s =>
    (e.eval w s).bind fun (v, s) =>
      (Res.ofOption (s.entries v)).bind fun entries =>
        loopKeys (fun k s =>
          (execBlock w results body { s with vars := (key, .str k) :: s.vars }).bind
            fun r => .ok (leave s r)) (entries.map Prod.fst) s
  | .sort e, s =>
    (e.eval w s).bind fun (v, s) =>
      match v with
      | .slice a =>
        (Res.ofOption s.arrays[a]?).bind fun items =>
          (Res.ofOption (texts items)).bind fun ts =>
            .ok (.next, { s with arrays := s.arrays.set a ((sortTexts ts).map .str) })
      | .nil => .ok (.next, s)
      | _ => .wrong
  | .switch e cases, s =>
    (e.eval w s).bind fun (v, s) =>
      match v with
      | .str t => (execCases w results t cases s).bind fun r => .ok (unstop (leave s r))
      | _ => .wrong
  | .case _ _, _ => .wrong
  | .default _, _ => .wrong
/-- Executes the case of a `switch` for a text. The default case is the last one. -/
def execCases (w : World δ σ) (results : List Text) (t : Text) :
    List Stmt → State δ σ → Res (Flow δ × State δ σ)
  | [], s => .ok (.next, s)
  | .case label body :: cs, s => if label = t then execBlock w results body s else execCases w results t cs s
  | .default body :: _, s => execBlock w results body s
  | _ :: _, _ => .wrong
/-- Executes some statements. -/
def execBlock (w : World δ σ) (results : List Text) :
    List Stmt → State δ σ → Res (Flow δ × State δ σ)
  | [], s => .ok (.next, s)
  | c :: cs, s =>
    (c.exec w results s).bind fun (flow, s) =>
      match flow with
      | .next => execBlock w results cs s
      | flow => .ok (flow, s)
end

/-- Calls a function: the values that it returns, and the memory and the state afterwards. -/
def Func.call (w : World δ σ) (f : Func) (receiver : Value δ) (args : List (Value δ))
    (s : State δ σ) : Res (List (Value δ) × State δ σ) :=
  let names := f.results.map Prod.fst
  let vars := (f.receiver, receiver) :: ((f.params.map Prod.fst).zip args ++
    f.results.map fun r => (r.1, w.zero r.2))
  (execBlock w names f.body { s with vars := vars }).bind fun (flow, t) =>
    match flow with
    | .ret vs => .ok (vs, { t with vars := s.vars })
    | _ => if f.results = [] then .ok ([], { t with vars := s.vars }) else .wrong

/-- The constants of a program. -/
def constant (p : List Declaration) (x : Text) : Option Text :=
  p.findSome? fun
    | .const y value => if y = x then some value else none
    | _ => none

/-- The functions of a program with that name and receiver. -/
def method (p : List Declaration) (typ name : Text) : Option Func :=
  p.findSome? fun
    | .func f => if f.typ = typ ∧ f.name = name then some f else none
    | _ => none

/-- Calls a method of a program. -/
def call (p : List Declaration) (zero : Text → Value δ) (funcs : Text → Option (List (Value δ) → σ → Value δ × σ))
    (typ name : Text) (receiver : Value δ) (args : List (Value δ)) (s : State δ σ) :
    Res (List (Value δ) × State δ σ) :=
  match method p typ name with
  | some f => f.call { consts := constant p, zero := zero, funcs := funcs } receiver args s
  | none => .wrong

end

end Verif.GoProgram
