import Verif.Model.GoTypes

/-! Specification of the accessors of objects and lists. -/

namespace Verif

namespace GoTypes

open GoJson

/-- The state of the caller after a function has been called for the first items of a list, with
their positions. -/
def visited {σ : Type} (f : Nat → Val → σ → Bool × σ) (s : σ) (items : List Val) (n : Nat) : σ :=
  (items.take n).zipIdx.foldl (fun s e => (f e.2 e.1 s).2) s

/-- A function called for the items of a list in order, until it returns false, leaves that state:
it is called for the first `n` items, it returns true for all of them but the last one, and they are
all the items unless it returns false for the last one. -/
def Visits {σ : Type} (f : Nat → Val → σ → Bool × σ) (s : σ) (items : List Val) (final : σ) : Prop :=
  ∃ n, n ≤ items.length ∧ final = visited f s items n ∧
    (∀ k item, k + 1 < n → items[k]? = some item → (f k item (visited f s items k)).1 = true) ∧
    (∀ item, 0 < n → items[n - 1]? = some item →
      ((f (n - 1) item (visited f s items (n - 1))).1 = true → n = items.length)) ∧
    (n = 0 → items = [])

/-- An attribute, the identifier or the address of an object of the type has a value. -/
def HasValue (isClass : Bool) (as : List AttrShape) (bitmap : Nat) : Prop :=
  (∃ a ∈ as, bitmap.testBit a.bit = true) ∨
    (isClass = true ∧ (bitmap.testBit 1 = true ∨ bitmap.testBit 2 = true))

/-- The bits that are set mean something: the link flag, the identifier, the address and the
attributes. -/
def Meaningful (isClass : Bool) (as : List AttrShape) (bitmap : Nat) : Prop :=
  ∀ b, bitmap.testBit b = true → (isClass = true ∧ b < 3) ∨ ∃ a ∈ as, a.bit = b

end GoTypes

end Verif
