import Verif.Model.Json

/-! Specification of well formed JSON and of the objects that survive a round trip. -/

namespace Verif

/-! ## The grammar of JSON (RFC 8259), on tokens -/

mutual
/-- A value. -/
inductive IsValue : List Tok → Prop
  | null : IsValue [.null]
  | bool (b : Bool) : IsValue [.bool b]
  | num (t : Text) : IsValue [.num t]
  | str (s : Text) : IsValue [.str s]
  | emptyArray : IsValue [.arrayStart, .arrayEnd]
  | array {ts : List Tok} : IsItems ts → IsValue ([.arrayStart] ++ ts ++ [.arrayEnd])
  | emptyObject : IsValue [.objectStart, .objectEnd]
  | object {ts : List Tok} : IsMembers ts → IsValue ([.objectStart] ++ ts ++ [.objectEnd])
/-- One or more values separated by commas. -/
inductive IsItems : List Tok → Prop
  | one {ts : List Tok} : IsValue ts → IsItems ts
  | more {ts us : List Tok} : IsValue ts → IsItems us → IsItems (ts ++ [.comma] ++ us)
/-- One or more members separated by commas. -/
inductive IsMembers : List Tok → Prop
  | one {ts : List Tok} (k : Text) : IsValue ts → IsMembers ([.str k, .colon] ++ ts)
  | more {ts us : List Tok} (k : Text) : IsValue ts → IsMembers us →
      IsMembers ([.str k, .colon] ++ ts ++ [.comma] ++ us)
end

/-- The members of an object, separated by commas. -/
def membersTokens : List (Text × List Tok) → List Tok
  | [] => []
  | [(k, ts)] => [.str k, .colon] ++ ts
  | (k, ts) :: m :: ms => [.str k, .colon] ++ ts ++ [.comma] ++ membersTokens (m :: ms)

/-- The object with the given members. -/
def objectTokens (ms : List (Text × List Tok)) : List Tok :=
  [.objectStart] ++ membersTokens ms ++ [.objectEnd]

mutual
/-- No object inside the document has a member with an empty name. -/
def Json.NamedMembers : Json → Prop
  | .arr items => Json.NamedItems items
  | .obj members => Json.NamedList members
  | _ => True
/-- Items. -/
def Json.NamedItems : List Json → Prop
  | [] => True
  | j :: js => j.NamedMembers ∧ Json.NamedItems js
/-- Members. -/
def Json.NamedList : List (Text × Json) → Prop
  | [] => True
  | (k, j) :: ms => k ≠ [] ∧ j.NamedMembers ∧ Json.NamedList ms
end

namespace GoJson

/-- The conditions for the code generated for the attributes of a type to compile and to keep
attributes apart: different JSON names (the cases of a `switch` must be different), which aren't
empty and in classes aren't those of the kind, the identifier and the address; and a different bit
for each, after those of the kind, the identifier and the address in classes. -/
structure ProperAttributes (isClass : Bool) (as : List AttrShape) : Prop where
  tags : as.Pairwise fun a b => a.tag ≠ b.tag
  named : ∀ a ∈ as, a.tag ≠ []
  reserved : isClass = true →
    ∀ a ∈ as, a.tag ≠ t!"kind" ∧ a.tag ≠ t!"id" ∧ a.tag ≠ t!"href"
  bits : as.Pairwise fun a b => a.bit ≠ b.bit
  free : isClass = true → ∀ a ∈ as, 3 ≤ a.bit

/-- All the types of the schema are proper. -/
def Proper (S : Schema) : Prop :=
  ∀ ty isClass name as, S ty = .struct isClass name as → ProperAttributes isClass as

mutual
/-- The values of a type that survive a round trip. There is no nil; integers are those of 64
bits; dates are those that reading gives for their own text; the bits that are set are those of
things that the object has, and what hasn't a bit has the zero value; maps have their keys in order
(a representation of the Go map, which has no order) and none is empty; lists that are links carry
neither the link flag nor the address. -/
def Normal (D : DateParser) (S : Schema) (ty : TypeId) (link : Bool) : Val → Prop
  | .nil => False
  | .bool _ => S ty = .boolean
  | .int i => (S ty = .integer ∨ S ty = .long) ∧ -2 ^ 63 ≤ i ∧ i < 2 ^ 63
  | .float _ => S ty = .float
  | .str _ => S ty = .string ∨ S ty = .enum
  | .date d => S ty = .date ∧ D d.text = some d
  | .iface _ => S ty = .interface
  | .obj bitmap id href fields =>
    ∃ isClass name as, S ty = .struct isClass name as ∧
      (bitmap.testBit 1 = true ∧ isClass = true ∨ id = []) ∧
      (bitmap.testBit 2 = true ∧ isClass = true ∨ href = []) ∧
      (∀ b, bitmap.testBit b = true → (isClass = true ∧ b < 3) ∨ ∃ a ∈ as, a.bit = b) ∧
      NormalFields D S bitmap as fields
  | .list items => ∃ name element, S ty = .list name element ∧ link = false ∧
      NormalItems D S element items
  | .linkList l href items => ∃ name element, S ty = .list name element ∧ link = true ∧
      l = false ∧ href = [] ∧ Normal D S ty false items
  | .map entries => ∃ element, S ty = .map element ∧
      entries.Pairwise (fun a b => compareText a.1 b.1 < 0) ∧
      NormalEntries D S element entries
/-- The fields of an object. -/
def NormalFields (D : DateParser) (S : Schema) (bitmap : Nat) : List AttrShape → List Val → Prop
  | [], [] => True
  | a :: as, v :: vs =>
    (if bitmap.testBit a.bit then Normal D S a.typ a.link v else v = zero (S a.typ)) ∧
      NormalFields D S bitmap as vs
  | _, _ => False
/-- The items of a list. -/
def NormalItems (D : DateParser) (S : Schema) (element : TypeId) : List Val → Prop
  | [] => True
  | v :: vs => Normal D S element false v ∧ NormalItems D S element vs
/-- The entries of a map. -/
def NormalEntries (D : DateParser) (S : Schema) (element : TypeId) : List (Text × Val) → Prop
  | [] => True
  | (k, v) :: es => k ≠ [] ∧ Normal D S element false v ∧ NormalEntries D S element es
end

end GoJson

end Verif
