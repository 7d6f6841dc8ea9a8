import Verif.Model.Json

/-!
# The generated types

Model of the code emitted by `generateStructTypeSource`, pkg/generators/golang/types_generator.go:301:
the methods of objects and lists. Receivers are values of the model of the JSON support code, where
the nil pointer is `nil`. The nil interface is `.iface .null`.
-/

namespace Verif

namespace GoTypes

open GoJson

/-- The bitmap of an object; the conditions `o != nil && o.bitmap_&mask != 0` are false for nil. -/
def hasBit (bit : Nat) : Val → Bool
  | .obj bitmap _ _ _ => bitmap.testBit bit
  | _ => false

/-! ## Objects -/

/-- `Kind`, pkg/generators/golang/types_generator.go:353-361, for the Go name of the type; the
constants are those of lines 308-318. -/
def kind (name : Text) (o : Val) : Text :=
  if o.isNil then name ++ t!"Nil"
  else if hasBit 0 o then name ++ t!"Link"
  else name

/-- `Link`, pkg/generators/golang/types_generator.go:364-366. -/
def link (o : Val) : Bool := hasBit 0 o

/-- `ID`, pkg/generators/golang/types_generator.go:369-374. -/
def id : Val → Text
  | .obj bitmap id _ _ => if bitmap.testBit 1 then id else []
  | _ => []

/-- `GetID`, pkg/generators/golang/types_generator.go:378-384. -/
def getID : Val → Text × Bool
  | .obj bitmap id _ _ => if bitmap.testBit 1 then (id, true) else ([], false)
  | _ => ([], false)

/-- `HREF`, pkg/generators/golang/types_generator.go:387-392. -/
def href : Val → Text
  | .obj bitmap _ href _ => if bitmap.testBit 2 then href else []
  | _ => []

/-- `GetHREF`, pkg/generators/golang/types_generator.go:396-402. -/
def getHREF : Val → Text × Bool
  | .obj bitmap _ href _ => if bitmap.testBit 2 then (href, true) else ([], false)
  | _ => ([], false)

/-- `Empty`, pkg/generators/golang/types_generator.go:406-412: `bitmap_&^1 == 0` for classes. -/
def empty (isClass : Bool) : Val → Bool
  | .obj bitmap _ _ _ => if isClass then bitmap / 2 * 2 == 0 else bitmap == 0
  | _ => true

/-- The getter of an attribute, pkg/generators/golang/types_generator.go:425-430, for the position of
the attribute. -/
def get (S : Schema) (i : Nat) (a : AttrShape) : Val → Val
  | .obj bitmap _ _ fields =>
    if bitmap.testBit a.bit then fields.getD i .nil else zero (S a.typ)
  | _ => zero (S a.typ)

/-- The getter of an attribute with a flag, pkg/generators/golang/types_generator.go:436-442. -/
def getOk (S : Schema) (i : Nat) (a : AttrShape) : Val → Val × Bool
  | .obj bitmap _ _ fields =>
    if bitmap.testBit a.bit then (fields.getD i .nil, true) else (zero (S a.typ), false)
  | _ => (zero (S a.typ), false)

/-! ## Lists -/

/-- The structure of the lists of objects, pkg/generators/golang/types_generator.go:457-461. The items
are pointers to objects. -/
structure ObjectList where
  href : Text := []
  link : Bool := false
  items : Option (List Val) := none

namespace ObjectList

/-- The items of a slice; the nil slice has none. -/
def elements (l : ObjectList) : List Val := l.items.getD []

/-- `Kind`, pkg/generators/golang/types_generator.go:466-474, for the Go name of the list. -/
def kind (name : Text) : Option ObjectList → Text
  | none => name ++ t!"Nil"
  | some l => if l.link then name ++ t!"Link" else name

/-- `Link`, pkg/generators/golang/types_generator.go:477-479. -/
def isLink : Option ObjectList → Bool
  | none => false
  | some l => l.link

/-- `HREF`, pkg/generators/golang/types_generator.go:482-487. -/
def address : Option ObjectList → Text
  | none => []
  | some l => l.href

/-- `GetHREF`, pkg/generators/golang/types_generator.go:491-497. -/
def getAddress : Option ObjectList → Text × Bool
  | none => ([], false)
  | some l => if l.href ≠ [] then (l.href, true) else ([], false)

/-- `Len`, pkg/generators/golang/types_generator.go:501-506. -/
def len : Option ObjectList → Int
  | none => 0
  | some l => l.elements.length

/-- `SetLink`, pkg/generators/golang/types_generator.go:509-511; nothing for the panic of nil. -/
def setLink (link : Bool) : Option ObjectList → Option ObjectList
  | none => none
  | some l => some { l with link := link }

/-- `SetHREF`, pkg/generators/golang/types_generator.go:514-516. -/
def setHREF (href : Text) : Option ObjectList → Option ObjectList
  | none => none
  | some l => some { l with href := href }

/-- `SetItems`, pkg/generators/golang/types_generator.go:519-521. -/
def setItems (items : Option (List Val)) : Option ObjectList → Option ObjectList
  | none => none
  | some l => some { l with items := items }

/-- `Items`, pkg/generators/golang/types_generator.go:524-529. -/
def getItems : Option ObjectList → Option (List Val)
  | none => none
  | some l => l.items

/-- `Empty`, pkg/generators/golang/types_generator.go:532-534. -/
def empty : Option ObjectList → Bool
  | none => true
  | some l => l.elements.length == 0

/-- `Get`, pkg/generators/golang/types_generator.go:538-543. -/
def get (i : Int) : Option ObjectList → Val
  | none => .nil
  | some l =>
    if i < 0 ∨ i ≥ l.elements.length then .nil else l.elements.getD i.toNat .nil

/-- `Slice`, pkg/generators/golang/types_generator.go:551-560. -/
def slice : Option ObjectList → List Val
  | none => []
  | some l => l.elements

/-- The loop of `Each`, for a function that changes a state. -/
def eachLoop {σ : Type} (f : Val → σ → Bool × σ) (s : σ) : List Val → σ
  | [] => s
  | item :: items =>
    match f item s with
    | (true, s) => eachLoop f s items
    | (false, s) => s

/-- `Each`, pkg/generators/golang/types_generator.go:565-574. -/
def each {σ : Type} (f : Val → σ → Bool × σ) (s : σ) : Option ObjectList → σ
  | none => s
  | some l => eachLoop f s l.elements

/-- The loop of `Range`. -/
def rangeLoop {σ : Type} (f : Nat → Val → σ → Bool × σ) (s : σ) (index : Nat) : List Val → σ
  | [] => s
  | item :: items =>
    match f index item s with
    | (true, s) => rangeLoop f s (index + 1) items
    | (false, s) => s

/-- `Range`, pkg/generators/golang/types_generator.go:579-588. -/
def range {σ : Type} (f : Nat → Val → σ → Bool × σ) (s : σ) : Option ObjectList → σ
  | none => s
  | some l => rangeLoop f s 0 l.elements

end ObjectList

/-! ## Metadata -/

/-- `Metadata`, pkg/generators/golang/types_generator.go:218-221. -/
structure Metadata where
  bitmap : Nat := 0
  serverVersion : Text := []

/-- `ServerVersion`, pkg/generators/golang/types_generator.go:224-229. -/
def Metadata.getVersion : Option Metadata → Text
  | none => []
  | some m => if m.bitmap.testBit 0 then m.serverVersion else []

/-- `GetServerVersion`, pkg/generators/golang/types_generator.go:233-239. -/
def Metadata.getVersionOk : Option Metadata → Text × Bool
  | none => ([], false)
  | some m => if m.bitmap.testBit 0 then (m.serverVersion, true) else ([], false)

end GoTypes

end Verif
