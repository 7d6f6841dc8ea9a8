import Verif.Model.ClassRef
import Verif.Spec.ClassRef

/-! The types that are added for a reference: the sequence of changes doesn't depend on the state. -/

namespace Verif

namespace ClassRef

open View (typeKey)

theorem typeName_key (h : Heap) (id : TypeId) : (Reader.typeName h id).toText = typeKey h id := by
  unfold Reader.typeName typeKey
  cases h[id]? <;> rfl

theorem elementOf_iff (h : Heap) (id e : TypeId) :
    elementOf h id = some e ↔ Collection h id e := by
  unfold elementOf Collection
  cases hc : h[id]? with
  | none => simp
  | some c =>
    have hk : (c.isList || c.isMap) = true ↔ c.kind = .list ∨ c.kind = .map := by
      simp [TypeCell.isList, TypeCell.isMap]
    simp only [Option.some.injEq, exists_eq_left']
    by_cases h' : (c.isList || c.isMap) = true
    · rw [if_pos h']; simp [hk.mp h']
    · rw [if_neg h']; simp [mt hk.mpr h']

theorem elementOf_none (h : Heap) (id : TypeId) :
    elementOf h id = none ↔ ∀ e, ¬ Collection h id e := by
  constructor
  · intro hn e hc
    rw [← elementOf_iff h id e, hn] at hc; cases hc
  · intro hn
    cases he : elementOf h id with
    | none => rfl
    | some e => exact absurd ((elementOf_iff h id e).mp he) (hn e)

/-! ### Only the core matters -/

section
variable {h h' : Heap} (hs : SameTypes h h')
include hs

theorem same_cell (id : TypeId) : (h'[id]? = none ∧ h[id]? = none) ∨
    ∃ c' c, h'[id]? = some c' ∧ h[id]? = some c ∧ cellCore c' = cellCore c := by
  have := congrArg (fun l => l[id]?) hs
  simp only [List.getElem?_map] at this
  cases h1 : h'[id]? with
  | none =>
    cases h2 : h[id]? with
    | none => exact Or.inl ⟨rfl, rfl⟩
    | some c => rw [h1, h2] at this; simp at this
  | some c' =>
    cases h2 : h[id]? with
    | none => rw [h1, h2] at this; simp at this
    | some c => rw [h1, h2] at this; simp at this; exact Or.inr ⟨c', c, rfl, rfl, this⟩

theorem same_kind (id : TypeId) : isBasicType h' id = isBasicType h id := by
  unfold isBasicType
  rcases same_cell hs id with ⟨h1, h2⟩ | ⟨c', c, h1, h2, hc⟩ <;> rw [h1, h2]
  have := congrArg TypeCell.kind hc; simp only [cellCore] at this; simp [this]

theorem same_name (id : TypeId) : Reader.typeName h' id = Reader.typeName h id := by
  unfold Reader.typeName
  rcases same_cell hs id with ⟨h1, h2⟩ | ⟨c', c, h1, h2, hc⟩ <;> rw [h1, h2]
  have := congrArg TypeCell.name hc; simpa only [cellCore] using this

theorem same_key (id : TypeId) : typeKey h' id = typeKey h id := by
  rw [← typeName_key, ← typeName_key, same_name hs]

theorem same_element (id : TypeId) : elementOf h' id = elementOf h id := by
  unfold elementOf TypeCell.isList TypeCell.isMap
  rcases same_cell hs id with ⟨h1, h2⟩ | ⟨c', c, h1, h2, hc⟩ <;> rw [h1, h2]
  have hk := congrArg TypeCell.kind hc
  have he := congrArg TypeCell.element hc
  simp only [cellCore] at hk he; simp [hk, he]

theorem same_attributes (id : TypeId) :
    (attributesOf h' id).map attributeCore = (attributesOf h id).map attributeCore := by
  unfold attributesOf
  rcases same_cell hs id with ⟨h1, h2⟩ | ⟨c', c, h1, h2, hc⟩ <;> rw [h1, h2]
  have := congrArg TypeCell.attributes hc; simpa only [cellCore] using this

theorem same_length : h'.length = h.length := by
  have := congrArg List.length hs
  simpa [SameTypes] using this

end

theorem SameTypes.refl (h : Heap) : SameTypes h h := rfl

theorem SameTypes.trans {a b c : Heap} (h : SameTypes a b) (h' : SameTypes b c) : SameTypes a c :=
  Eq.trans h' h

theorem sameTypes_update (h : Heap) (id : TypeId) (f : TypeCell → TypeCell)
    (hf : ∀ c, cellCore (f c) = cellCore c) : SameTypes h (h.update id f) := by
  unfold SameTypes Heap.update
  apply List.ext_getElem?
  intro i
  simp only [List.getElem?_map, List.getElem?_modify]
  cases h[i]? with
  | none => rfl
  | some c => by_cases hi : id = i <;> simp [hi, hf]

theorem modify_core (as : List Attribute) (p : Nat) (o : Option VersionId) :
    (as.modify p fun a => { a with linkOwner := o }).map attributeCore = as.map attributeCore := by
  apply List.ext_getElem?
  intro i
  simp only [List.getElem?_map, List.getElem?_modify]
  cases as[i]? with
  | none => rfl
  | some a => by_cases hi : p = i <;> simp [hi, attributeCore]

/-! ### Events -/

/-- The changes that adding a type does. -/
inductive Event
  | link (owner : TypeId) (position : Nat) (typ : TypeId)
  | add (typ : TypeId)
  | self (typ : TypeId)

/-- The effect of each change. -/
def perform (t : TypeTable) : Event → TypeTable
  | .link y p x => importLink t y p { name := [], typ := x }
  | .add x => t.addType x
  | .self x => importSelf t x

/-- The changes for an attribute. -/
def attributeEvents (recur : TypeId → Option (List Event)) (h : Heap) (id : TypeId) (p : Nat)
    (a : Attribute) : Option (List Event) :=
  if a.link then some [.link id p a.typ]
  else
    match elementOf h a.typ with
    | some e => (recur e).map (.add a.typ :: ·)
    | none => recur a.typ

/-- The changes for the attributes of a type. -/
def attributesEvents (recur : TypeId → Option (List Event)) (h : Heap) (id : TypeId) :
    Nat → List Attribute → Option (List Event)
  | _, [] => some []
  | p, a :: as =>
    match attributeEvents recur h id p a with
    | none => none
    | some es =>
      match attributesEvents recur h id (p + 1) as with
      | none => none
      | some fs => some (es ++ fs)

/-- The changes for a type. -/
def events : Nat → Heap → TypeId → Option (List Event)
  | 0, _, _ => none
  | fuel + 1, h, id =>
    if isBasicType h id then some []
    else (attributesEvents (events fuel h) h id 0 (attributesOf h id)).map (· ++ [.self id])

theorem importLink_typ (t : TypeTable) (id : TypeId) (p : Nat) (a : Attribute) :
    importLink t id p a = importLink t id p { name := [], typ := a.typ } := rfl

theorem setOwner_same (t : TypeTable) (x : TypeId) (o : Option VersionId) :
    SameTypes t.heap (setOwner t x o).heap := sameTypes_update _ _ _ fun _ => rfl

theorem setExplicit_same (t : TypeTable) (x : TypeId) :
    SameTypes t.heap (setExplicit t x).heap := sameTypes_update _ _ _ fun _ => rfl

theorem setLinkOwner_same (t : TypeTable) (x : TypeId) (p : Nat) (o : Option VersionId) :
    SameTypes t.heap (setLinkOwner t x p o).heap :=
  sameTypes_update _ _ _ fun c => by simp only [cellCore, modify_core]

theorem addType_same (t : TypeTable) (x : TypeId) : SameTypes t.heap (t.addType x).heap := by
  unfold TypeTable.addType
  split
  · exact SameTypes.refl _
  · exact sameTypes_update _ _ _ fun _ => rfl

theorem perform_same (t : TypeTable) (e : Event) : SameTypes t.heap (perform t e).heap := by
  cases e with
  | link y p x =>
    simp only [perform, importLink]
    split
    · exact setOwner_same _ _ _
    · split
      · split
        · exact (setOwner_same _ _ _).trans (setOwner_same _ _ _)
        · exact setLinkOwner_same _ _ _ _
      · exact setLinkOwner_same _ _ _ _
  | add x => exact addType_same _ _
  | self x =>
    simp only [perform, importSelf]
    split
    · exact (setExplicit_same _ _).trans (addType_same _ _)
    · exact addType_same _ _

theorem performs_same (es : List Event) : ∀ (t : TypeTable),
    SameTypes t.heap (es.foldl perform t).heap := by
  induction es with
  | nil => intro t; exact SameTypes.refl _
  | cons e es ih => intro t; exact (perform_same t e).trans (ih _)

/-- The result of the changes, if they are known. -/
def outcome (t : TypeTable) : Option (List Event) → Run TypeTable
  | none => .outOfFuel
  | some es => .done (es.foldl perform t)

theorem importAttributes_events (recur : TypeTable → TypeId → Run TypeTable)
    (recur' : TypeId → Option (List Event)) (h : Heap) (id : TypeId)
    (hr : ∀ t x, SameTypes h t.heap → recur t x = outcome t (recur' x)) (as : List Attribute) :
    ∀ (t : TypeTable) (p : Nat) (as' : List Attribute), SameTypes h t.heap →
      as'.map attributeCore = as.map attributeCore →
      importAttributes recur id t p as' = outcome t (attributesEvents recur' h id p as) := by
  induction as with
  | nil =>
    intro t p as' _ ha
    cases as' with
    | nil => rfl
    | cons _ _ => simp at ha
  | cons a as ih =>
    intro t p as' hs ha
    cases as' with
    | nil => simp at ha
    | cons a' as' =>
      simp only [List.map_cons, List.cons.injEq] at ha
      have hl : a'.link = a.link := by have := congrArg Attribute.link ha.1; simpa [attributeCore] using this
      have ht : a'.typ = a.typ := by have := congrArg Attribute.typ ha.1; simpa [attributeCore] using this
      have hone : importAttribute recur id t p a' = outcome t (attributeEvents recur' h id p a) := by
        unfold importAttribute attributeEvents
        rw [hl, ht, same_element hs]
        by_cases hk : a.link = true
        · rw [if_pos hk, if_pos hk, importLink_typ, ht]; rfl
        · rw [if_neg hk, if_neg hk]
          cases elementOf h a.typ with
          | none => exact hr _ _ hs
          | some e =>
            dsimp only
            rw [hr _ _ (hs.trans (addType_same _ _))]
            cases recur' e <;> rfl
      unfold importAttributes attributesEvents
      rw [hone]
      cases attributeEvents recur' h id p a with
      | none => rfl
      | some es =>
        simp only [outcome, Run.bind]
        rw [ih _ _ _ (hs.trans (performs_same _ _)) ha.2]
        cases attributesEvents recur' h id (p + 1) as with
        | none => rfl
        | some fs => simp only [outcome, List.foldl_append]

theorem importType_events (fuel : Nat) : ∀ (h : Heap) (t : TypeTable) (id : TypeId),
    SameTypes h t.heap → importType fuel t id = outcome t (events fuel h id) := by
  induction fuel with
  | zero => intro h t id _; rfl
  | succ fuel ih =>
    intro h t id hs
    unfold importType events
    rw [same_kind hs]
    by_cases hb : isBasicType h id = true
    · rw [if_pos hb, if_pos hb]; rfl
    · rw [if_neg hb, if_neg hb, importAttributes_events (importType fuel) (events fuel h) h id
        (fun t x hs => ih h t x hs) (attributesOf h id) t 0 _ hs (same_attributes hs id)]
      cases attributesEvents (events fuel h) h id 0 (attributesOf h id) with
      | none => rfl
      | some es => simp only [outcome, Option.map_some, Run.bind, List.foldl_append, List.foldl_cons,
          List.foldl_nil, perform]

end ClassRef

end Verif
