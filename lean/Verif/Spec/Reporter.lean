import Verif.Model.Reporter
import Verif.Spec.Checks

/-!
# Specification of the messages

What the reporter writes, and the flaws of a method that the checks should report.
-/

namespace Verif

namespace Report

/-- Texts with other texts in the middle: the first text, then each argument followed by a text. -/
def interleave (first : Text) : List (Text × Text) → Text
  | [] => first
  | (a, t) :: rest => first ++ a ++ interleave t rest

/-- The full name of an element: the names of its owners and its own, in camel case and separated by
dots. -/
def fullName (names : List Name) : Text := List.intercalate ['.'] (names.map Name.camel)

/-- The names of the owners of an element and its own. -/
def namesOf : Arg → List Name
  | .service s => [s]
  | .version s v => [s, v]
  | .resource s v r => [s, v, r]
  | .type _ s v t => [s, v, t]
  | .attribute s v t a => [s, v, t, a]
  | .method s v r m => [s, v, r, m]
  | .locator s v r l => [s, v, r, l]
  | .parameter s v r m p => [s, v, r, m, p]
  | .named n => [n]
  | .name n => [n]
  | .text _ => []

/-- The line that a call writes to the error stream. -/
def errorLine : Call → Text
  | .error f as => t!"\x1b[0;31mE:\x1b[m " ++ printf f as ++ t!"\n"
  | _ => []

/-- The line that a call writes to the output stream. -/
def outLine : Call → Text
  | .info f as => t!"\x1b[0;32mI:\x1b[m " ++ printf f as ++ t!"\n"
  | .warn f as => t!"\x1b[0;33mW:\x1b[m " ++ printf f as ++ t!"\n"
  | _ => []

end Report

/-- Number of elements of a list with a property. -/
inductive Counts {α : Type} (P : α → Prop) : List α → Nat → Prop
  | nil : Counts P [] 0
  | yes {x l n} : P x → Counts P l n → Counts P (x :: l) (n + 1)
  | no {x l n} : ¬ P x → Counts P l n → Counts P (x :: l) n

namespace Flaw

open Rule

/-- There is a parameter with that name and property. -/
def Param (m : Method) (name : Name) (P : Parameter → Prop) : Prop :=
  ∃ p ∈ m.parameters, p.name = name ∧ P p

/-- The first parameter with that name has the property. -/
def FirstParam (m : Method) (name : Name) (P : Parameter → Prop) : Prop :=
  ∃ before p after, m.parameters = before ++ p :: after ∧ p.name = name ∧
    (∀ q ∈ before, q.name ≠ name) ∧ P p

/-- There is a parameter with that name, of that kind, and with that property. -/
def ParamOf (m : Method) (name : Name) (k : Kind) (P : Parameter → Prop) : Prop :=
  Param m name fun p => p.typ.kind = k ∧ P p

/-- The default value of a parameter isn't of its type. -/
def Default (b : Builtins) (m : Method) : Problem → Prop
  | .incompatibleDefault p => Param m p fun q => ¬ DefaultFits b q
  | _ => False

/-- Flaws of `Add`. -/
def Add (m : Method) : Problem → Prop
  | .wrongType p k => ParamOf m p k fun q => ¬ (Scalar q ∨ Struct q)
  | .wrongCount n c => n = m.name ∧ Counts Struct m.parameters c ∧ c ≠ 1
  | .wrongDirection p => Param m p fun q => Struct q ∧ ¬ InOut q
  | .wrongName p => Param m p fun q => Struct q ∧ q.name ≠ Nom.body
  | _ => False

/-- Flaws of `Delete`. -/
def Delete (m : Method) : Problem → Prop
  | .wrongType p k => ParamOf m p k fun q => ¬ Scalar q
  | .wrongDirection p => Param m p fun q => ¬ OnlyIn q
  | _ => False

/-- Flaws of `Get`. -/
def Get (m : Method) : Problem → Prop
  | .wrongType p k => ParamOf m p k fun q => ¬ (Scalar q ∨ Struct q)
  | .wrongCount n c => n = m.name ∧ Counts Struct m.parameters c ∧ c ≠ 1
  | .wrongDirection p =>
    Param m p fun q => (Scalar q ∧ ¬ OnlyIn q) ∨ (Struct q ∧ ¬ OnlyOut q)
  | .wrongName p => Param m p fun q => Struct q ∧ q.name ≠ Nom.body
  | _ => False

/-- Flaws of the parameters used for paging. -/
def Paging (b : Builtins) (m : Method) : Problem → Prop
  | .notInteger p => p ∈ [Nom.page, Nom.size, Nom.total] ∧
      FirstParam m p fun q => b.integer ≠ some q.typ.id
  | .wrongDirection p =>
    (p ∈ [Nom.page, Nom.size] ∧ FirstParam m p fun q => ¬ InOut q) ∨
    (p = Nom.total ∧ FirstParam m p fun q => ¬ OnlyOut q)
  | .wrongDefault p d => (p = Nom.page ∧ d = 1 ∨ p = Nom.size ∧ d = 100) ∧
      FirstParam m p fun q => q.dflt ≠ some (.int d)
  | _ => False

/-- Flaws of `List`. -/
def List (m : Method) : Problem → Prop
  | .wrongType p k => ParamOf m p k fun q => ¬ (Scalar q ∨ IsList q)
  | .wrongCount n c => n = m.name ∧ Counts IsList m.parameters c ∧ c ≠ 1
  | .missing n p => n = m.name ∧ p = Nom.items ∧ ∀ q ∈ m.parameters, q.name ≠ Nom.items
  | .wrongDirection p => Param m p fun q => IsList q ∧ ¬ OnlyOut q
  | .wrongName p => Param m p fun q => IsList q ∧ q.name ≠ Nom.items
  | _ => False

/-- Flaws of `Post`. -/
def Post (m : Method) : Problem → Prop
  | .wrongType p k => ParamOf m p k fun q => (q.isIn = true ∨ q.isOut = true) ∧ ¬ Struct q
  | .wrongCount n c => n = m.name ∧
      ((Counts (fun q => q.isIn = true) m.parameters c ∧ c > 1) ∨
       (Counts (fun q => q.isOut = true) m.parameters c ∧ c ≠ 1))
  | _ => False

/-- Flaws of `Search`. -/
def Search (m : Method) : Problem → Prop
  | .wrongType p k => ParamOf m p k fun q =>
      (q.isOut = true ∧ ¬ (Scalar q ∨ IsList q)) ∨ (q.isIn = true ∧ ¬ (Scalar q ∨ Struct q))
  | .wrongCount n c => n = m.name ∧
      ((Counts IsList m.parameters c ∧ c ≠ 1) ∨
       (Counts (fun q => Struct q ∧ q.isIn = true) m.parameters c ∧ c ≠ 1))
  | .missing n p => n = m.name ∧ p = Nom.items ∧ ∀ q ∈ m.parameters, q.name ≠ Nom.items
  | .wrongDirection p => Param m p fun q =>
      (IsList q ∧ ¬ OnlyOut q) ∨ ((Struct q ∧ q.isIn = true) ∧ ¬ OnlyIn q)
  | .wrongName p => Param m p fun q =>
      (IsList q ∧ q.name ≠ Nom.items) ∨ ((Struct q ∧ q.isIn = true) ∧ q.name ≠ Nom.body)
  | _ => False

/-- Flaws of `Update`. -/
def Update (m : Method) : Problem → Prop
  | .wrongType p k => ParamOf m p k fun q => ¬ (Scalar q ∨ Struct q ∨ IsList q)
  | .wrongCount n c => n = m.name ∧
      Counts (fun q => Struct q ∨ IsList q) m.parameters c ∧ c ≠ 1
  | .wrongDirection p => Param m p fun q =>
      (Scalar q ∧ ¬ OnlyIn q) ∨ ((Struct q ∨ IsList q) ∧ ¬ InOut q)
  | .wrongName p => Param m p fun q => (Struct q ∨ IsList q) ∧ q.name ≠ Nom.body
  | _ => False

end Flaw

end Verif
