import Verif.Model.Builders
import Verif.Spec.GoTypes
import Verif.Spec.Json

/-! Specification of the builders. -/

namespace Verif

namespace GoBuilder

open GoJson

/-! ## Histories -/

/-- The builder or map that a call changes. -/
def Call.target : Call → Option Ref
  | .new _ | .newList _ | .newMap _ => none
  | .link r _ | .id r _ | .href r _ | .set r _ _ | .items r _ | .put r _ _ | .copy r _
  | .copyList r _ => some r

/-- The value given to the setter of an attribute of a builder the last time that it was called. -/
def lastSet (r : Ref) (i : Nat) (calls : List Call) : Option BVal :=
  (calls.filterMap fun
    | .set q j v => if q = r ∧ j = i then some v else none
    | _ => none).getLast?

/-- The identifier given to a builder the last time. -/
def lastID (r : Ref) (calls : List Call) : Option Text :=
  (calls.filterMap fun
    | .id q v => if q = r then some v else none
    | _ => none).getLast?

/-- The address given to a builder the last time. -/
def lastHREF (r : Ref) (calls : List Call) : Option Text :=
  (calls.filterMap fun
    | .href q v => if q = r then some v else none
    | _ => none).getLast?

/-- The items given to a builder of lists the last time. -/
def lastItems (r : Ref) (calls : List Call) : Option BVal :=
  (calls.filterMap fun
    | .items q v => if q = r then some v else none
    | _ => none).getLast?

/-- No list is copied to the builder. -/
def NoCopyList (r : Ref) (calls : List Call) : Prop := ∀ list, Call.copyList r list ∉ calls

/-- No object is copied to the builder. -/
def NoCopy (r : Ref) (calls : List Call) : Prop := ∀ object, Call.copy r object ∉ calls

/-! ## The values that builders give -/

/-- An element of a list or of a map gives a value: scalars are the value, and for builders it is
what they build. -/
def ElementGives (S : Schema) (mem : Mem) (fuel : Nat) (ty : TypeId) (x : BVal) (v : Val) : Prop :=
  if (S ty).isScalar then x = .scalar v
  else ∃ b, x = .ref b ∧ build S mem fuel b = .done v

/-- What was given to the setter of an attribute gives a value: for builders it is what they build,
for slices and maps it is the slice or the map of what the elements give, and no slice is an empty
slice. -/
def Gives (S : Schema) (mem : Mem) (fuel : Nat) (a : AttrShape) (x : BVal) (v : Val) : Prop :=
  match S a.typ with
  | .list _ element =>
    if a.link then
      (x = .nil ∧ v = .nil) ∨ ∃ b, x = .ref b ∧ buildList S mem fuel b = .done v
    else
      ∃ xs vs, (x = .list xs ∨ (x = .nil ∧ xs = [])) ∧ v = .list vs ∧ xs.length = vs.length ∧
        ∀ (n : Nat) x v, xs[n]? = some x → vs[n]? = some v → ElementGives S mem fuel element x v
  | .map element =>
    ∃ m e xs vs, x = .ref m ∧ mem[m]? = some (.map e xs) ∧ v = .map vs ∧
      xs.length = vs.length ∧
      ∀ (n : Nat) k x k' v, xs[n]? = some (k, x) → vs[n]? = some (k', v) →
        k' = k ∧ ElementGives S mem fuel element x v
  | _ => ElementGives S mem fuel a.typ x v

/-- Giving that value to the setter of the attribute removes the attribute: nil for objects and
maps. -/
def Removes (S : Schema) (a : AttrShape) (x : BVal) : Prop :=
  x = .nil ∧ ((∃ c n as, S a.typ = .struct c n as) ∨ ∃ e, S a.typ = .map e)

/-- The elements of lists and maps are scalars or objects. -/
def SimpleElements (S : Schema) : Prop :=
  ∀ ty element, ((∃ n, S ty = .list n element) ∨ S ty = .map element) →
    (S element).isScalar = true ∨ ∃ c n as, S element = .struct c n as

/-! ## Copies -/

/-- The object that has nothing. -/
def emptyObject (S : Schema) (ty : TypeId) : Val :=
  match S ty with
  | .struct _ _ as => .obj 0 [] [] (as.map fun a => zero (S a.typ))
  | _ => .nil

mutual
/-- What is obtained copying an object and building the copy. Empty maps become nil, the items of lists
that are nil become empty objects, and lists that are links lose the link flag and the address and
always have a slice of items. -/
def rebuilt (S : Schema) (ty : TypeId) : Val → Val
  | .obj bitmap id href fields =>
    match S ty with
    | .struct _ _ as => .obj bitmap id href (rebuiltFields S as fields)
    | _ => .nil
  | .list items =>
    match S ty with
    | .list _ element => .list (rebuiltItems S element items)
    | _ => .nil
  | .linkList _ _ (.list items) =>
    match S ty with
    | .list _ element => .linkList false [] (.list (rebuiltItems S element items))
    | _ => .nil
  | .linkList _ _ _ => .linkList false [] (.list [])
  | .map [] => .nil
  | .map (e :: es) =>
    match S ty with
    | .map element => .map (rebuiltEntries S element (e :: es))
    | _ => .nil
  | v => v
/-- The fields of an object. -/
def rebuiltFields (S : Schema) : List AttrShape → List Val → List Val
  | a :: as, v :: vs => rebuilt S a.typ v :: rebuiltFields S as vs
  | _, _ => []
/-- The items of a list. -/
def rebuiltItems (S : Schema) (element : TypeId) : List Val → List Val
  | [] => []
  | v :: vs =>
    (if v.isNil then emptyObject S element else rebuilt S element v) :: rebuiltItems S element vs
/-- The entries of a map. -/
def rebuiltEntries (S : Schema) (element : TypeId) : List (Text × Val) → List (Text × Val)
  | [] => []
  | (k, v) :: es =>
    (k, if v.isNil then emptyObject S element else rebuilt S element v) ::
      rebuiltEntries S element es
end

mutual
/-- Nothing inside the value is an empty map, a nil element of a list or of a map, or a list that is
a link and has the link flag, an address or no slice of items. -/
def Plain : Val → Prop
  | .obj _ _ _ fields => PlainFields fields
  | .list items => PlainItems items
  | .linkList link href (.list items) => link = false ∧ href = [] ∧ PlainItems items
  | .linkList _ _ _ => False
  | .map [] => False
  | .map (e :: es) => PlainEntries (e :: es)
  | _ => True
/-- The fields of an object. -/
def PlainFields : List Val → Prop
  | [] => True
  | v :: vs => Plain v ∧ PlainFields vs
/-- The items of a list. -/
def PlainItems : List Val → Prop
  | [] => True
  | v :: vs => v.isNil = false ∧ Plain v ∧ PlainItems vs
/-- The entries of a map. -/
def PlainEntries : List (Text × Val) → Prop
  | [] => True
  | (_, v) :: es => v.isNil = false ∧ Plain v ∧ PlainEntries es
end

/-! ## Builders that can be built -/

/-- A builder, or nil, is used by a field: it is the builder of an object or an element of a list or
of a map of builders. -/
inductive Uses (mem : Mem) : BVal → BVal → Prop
  | object {r : Ref} {ty bitmap id href fields} : mem[r]? = some (.builder ty bitmap id href fields) →
      Uses mem (.ref r) (.ref r)
  | slice {items : List BVal} {x : BVal} : x ∈ items → (∀ v, x ≠ .scalar v) → Uses mem (.list items) x
  | list {r : Ref} {ty : TypeId} {items : List BVal} {x : BVal} :
      mem[r]? = some (.listBuilder ty (.list items)) → x ∈ items → Uses mem (.ref r) x
  | map {r : Ref} {e : TypeId} {entries : GoMap BVal} {k : Text} {x : BVal} :
      mem[r]? = some (.map e entries) → (k, x) ∈ entries → (∀ v, x ≠ .scalar v) →
      Uses mem (.ref r) x

/-- All that a builder uses, directly or not, are builders that aren't nil, and following them always
ends. -/
inductive Sound (mem : Mem) : Ref → Prop
  | mk {r : Ref} {ty bitmap id href fields} : mem[r]? = some (.builder ty bitmap id href fields) →
      (∀ f ∈ fields, ∀ x, Uses mem f x → ∃ q, x = .ref q) →
      (∀ f ∈ fields, ∀ q, Uses mem f (.ref q) → Sound mem q) → Sound mem r

end GoBuilder

end Verif
