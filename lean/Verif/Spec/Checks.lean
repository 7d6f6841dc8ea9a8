import Verif.Model.Checks

/-! Specification: the rules that the parameters of methods must satisfy. -/

namespace Verif

/-- There is exactly one position of the list whose element satisfies the condition. -/
def ExactlyOne {α : Type} (P : α → Prop) (l : List α) : Prop :=
  ∃ before x after, l = before ++ x :: after ∧ P x ∧ (∀ y ∈ before, ¬ P y) ∧ ∀ y ∈ after, ¬ P y

/-- No two positions of the list satisfy the condition. -/
def AtMostOne {α : Type} (P : α → Prop) (l : List α) : Prop := ExactlyOne P l ∨ ∀ x ∈ l, ¬ P x

namespace Rule

/-- Scalars, enums and the built-in interface type. -/
def Scalar (p : Parameter) : Prop :=
  p.typ.kind = .scalar ∨ p.typ.kind = .enum ∨ p.typ.kind = .interface

/-- Structs and classes. -/
def Struct (p : Parameter) : Prop := p.typ.kind = .struct ∨ p.typ.kind = .class

/-- Lists. -/
def IsList (p : Parameter) : Prop := p.typ.kind = .list

/-- Direction is `in`. -/
def OnlyIn (p : Parameter) : Prop := p.isIn = true ∧ p.isOut = false
/-- Direction is `out`. -/
def OnlyOut (p : Parameter) : Prop := p.isIn = false ∧ p.isOut = true
/-- Direction is `in out`. -/
def InOut (p : Parameter) : Prop := p.isIn = true ∧ p.isOut = true

/-- The default value, if any, is of the type of the parameter. -/
def DefaultFits (b : Builtins) (p : Parameter) : Prop :=
  (∀ v, p.dflt = some (.bool v) → b.boolean = some p.typ.id) ∧
  (∀ v, p.dflt = some (.int v) → b.integer = some p.typ.id) ∧
  (∀ v, p.dflt = some (.str v) → b.string = some p.typ.id)

/-- Rules for `Add`. -/
structure Add (m : Method) : Prop where
  types : ∀ p ∈ m.parameters, Scalar p ∨ Struct p
  one : ExactlyOne Struct m.parameters
  body : ∀ p ∈ m.parameters, Struct p → InOut p ∧ p.name = Nom.body

/-- Rules for `Delete` and `AsyncDelete`. -/
structure Delete (m : Method) : Prop where
  types : ∀ p ∈ m.parameters, Scalar p
  directions : ∀ p ∈ m.parameters, OnlyIn p

/-- Rules for `Get`. -/
structure Get (m : Method) : Prop where
  types : ∀ p ∈ m.parameters, Scalar p ∨ Struct p
  one : ExactlyOne Struct m.parameters
  scalars : ∀ p ∈ m.parameters, Scalar p → OnlyIn p
  body : ∀ p ∈ m.parameters, Struct p → OnlyOut p ∧ p.name = Nom.body

/-- The first parameter with the given name, if any, satisfies the condition. -/
def First (m : Method) (name : Name) (P : Parameter → Prop) : Prop :=
  ∀ before p after, m.parameters = before ++ p :: after → p.name = name →
    (∀ q ∈ before, q.name ≠ name) → P p

/-- Rules for the parameters used for paging. -/
structure Paging (b : Builtins) (m : Method) : Prop where
  page : First m Nom.page fun p => b.integer = some p.typ.id ∧ InOut p ∧ p.dflt = some (.int 1)
  size : First m Nom.size fun p => b.integer = some p.typ.id ∧ InOut p ∧ p.dflt = some (.int 100)
  total : First m Nom.total fun p => b.integer = some p.typ.id ∧ OnlyOut p

/-- Rules for `List`. -/
structure List (b : Builtins) (m : Method) : Prop where
  types : ∀ p ∈ m.parameters, Scalar p ∨ IsList p
  one : ExactlyOne IsList m.parameters
  items : ∀ p ∈ m.parameters, IsList p → OnlyOut p ∧ p.name = Nom.items
  paging : Paging b m

/-- Rules for `Search`. -/
structure Search (b : Builtins) (m : Method) : Prop where
  outs : ∀ p ∈ m.parameters, p.isOut = true → Scalar p ∨ IsList p
  ins : ∀ p ∈ m.parameters, p.isIn = true → Scalar p ∨ Struct p
  oneItems : ExactlyOne IsList m.parameters
  items : ∀ p ∈ m.parameters, IsList p → OnlyOut p ∧ p.name = Nom.items
  oneBody : ExactlyOne (fun p => Struct p ∧ p.isIn = true) m.parameters
  body : ∀ p ∈ m.parameters, Struct p → p.isIn = true → OnlyIn p ∧ p.name = Nom.body
  paging : Paging b m

/-- Rules for `Post`. -/
structure Post (m : Method) : Prop where
  oneIn : AtMostOne (fun p => p.isIn = true) m.parameters
  oneOut : ExactlyOne (fun p => p.isOut = true) m.parameters
  types : ∀ p ∈ m.parameters, p.isIn = true ∨ p.isOut = true → Struct p

/-- Rules for `Update` and `AsyncUpdate`. -/
structure Update (m : Method) : Prop where
  types : ∀ p ∈ m.parameters, Scalar p ∨ Struct p ∨ IsList p
  one : ExactlyOne (fun p => Struct p ∨ IsList p) m.parameters
  scalars : ∀ p ∈ m.parameters, Scalar p → OnlyIn p
  body : ∀ p ∈ m.parameters, Struct p ∨ IsList p → InOut p ∧ p.name = Nom.body

end Rule

/-- A method is accepted if checking it reports no error (warnings are fine). -/
def Accepted (messages : List Message) : Prop := ∀ p, Message.error p ∉ messages

end Verif
