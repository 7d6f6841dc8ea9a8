import Verif.Model.GoMap

/-! Specification of sorted listings. -/

namespace Verif

/-- What `sort.Sort` guarantees: the result has the same elements and no element is preceded by
one that is greater. Nothing is said about the relative order of elements with the same name. -/
def IsSortOf {α : Type} (nameOf : α → Name) (result input : List α) : Prop :=
  result.Perm input ∧
  result.Pairwise fun a b => ¬ ((nameOf b).map Word.text < (nameOf a).map Word.text)

/-- Elements in strictly increasing lexicographical order of the texts of the words of their
names. -/
def StrictlySorted {α : Type} (nameOf : α → Name) (l : List α) : Prop :=
  l.Pairwise fun a b => (nameOf a).map Word.text < (nameOf b).map Word.text

/-- Entries of a map of concepts: keys are the names, and they aren't repeated. -/
structure ConceptMap {α : Type} (nameOf : α → Name) (m : GoMap α) : Prop where
  nodup : (m.map Prod.fst).Nodup
  named : ∀ e ∈ m, e.1 = (nameOf e.2).toText

end Verif
