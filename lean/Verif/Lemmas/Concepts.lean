import Verif.Lemmas.GoMap
import Verif.Model.Concepts

/-! Helper lemmas about the table of types. -/

namespace Verif

theorem modify_length_append {α : Type} (l : List α) (a : α) (f : α → α) :
    (l ++ [a]).modify l.length f = l ++ [f a] := by
  induction l with
  | nil => simp
  | cons x l ih => simp [ih]

theorem TypeTable.newType_eq (t : TypeTable) (cell : TypeCell) :
    t.newType cell =
      ({ version := t.version
         heap := t.heap ++ [{ cell with owner := some t.version }]
         types := t.types.insert cell.name.toText t.heap.length }, t.heap.length) := by
  simp [TypeTable.newType, Heap.alloc, TypeTable.addType, Heap.update, modify_length_append]

/-- The cells of the types of a new version, when the heap has `n` cells. -/
def builtinCells (v : VersionId) (n : Nat) : List TypeCell :=
  let pair (i : Nat) (kind : Kind) (name : Name) : List TypeCell :=
    [{ name := name, kind := kind, owner := some v },
     { name := Name.cat [name, Nom.list], kind := .list, element := some (n + i), owner := some v }]
  pair 0 .scalar Nom.boolean ++ pair 2 .scalar Nom.integer ++ pair 4 .scalar Nom.long ++
  pair 6 .scalar Nom.float ++ pair 8 .scalar Nom.string ++ pair 10 .scalar Nom.date ++
  pair 12 .interface Nom.interface

/-- The table of types of a new version, when the heap has `n` cells. -/
def builtinTable (n : Nat) : GoMap TypeId :=
  [(t!"boolean", n), (t!"boolean_list", n + 1), (t!"integer", n + 2), (t!"integer_list", n + 3),
   (t!"long", n + 4), (t!"long_list", n + 5), (t!"float", n + 6), (t!"float_list", n + 7),
   (t!"string", n + 8), (t!"string_list", n + 9), (t!"date", n + 10), (t!"date_list", n + 11),
   (t!"interface", n + 12), (t!"interface_list", n + 13)]

theorem newVersion_eq (heap : Heap) (v : VersionId) :
    TypeTable.newVersion heap v =
      { version := v
        heap := heap ++ builtinCells v heap.length
        types := builtinTable heap.length } := by
  simp only [TypeTable.newVersion, TypeTable.addBuiltin, TypeTable.newType_eq,
    List.length_append, List.length_cons, List.length_nil, List.append_assoc,
    Nat.reduceAdd]
  rfl

end Verif
