import Verif.Spec.Builders

/-! Copying objects and building the copies. -/

namespace Verif

namespace GoBuilder

open GoJson

/-- The cells of a memory added after another are those of a third memory. -/
def Agree (mem mem' m : Mem) : Prop :=
  ∀ i, mem.length ≤ i → i < mem'.length → m[i]? = mem'[i]?

theorem Agree.left {mem mem1 mem2 m : Mem} {extra : List Cell} (h : Agree mem mem2 m)
    (e : mem2 = mem1 ++ extra) : Agree mem mem1 m := by
  intro i h1 h2
  rw [h i h1 (by rw [e, List.length_append]; omega), e, List.getElem?_append_left h2]

theorem Agree.right {mem mem1 mem2 m : Mem} {extra : List Cell} (h : Agree mem mem2 m)
    (e : mem1 = mem ++ extra) : Agree mem1 mem2 m := by
  intro i h1 h2
  exact h i (by rw [e, List.length_append] at h1; omega) h2

theorem Agree.last {mem mem1 m : Mem} {c : Cell} (h : Agree mem (mem1 ++ [c]) m)
    (hl : mem.length ≤ mem1.length) : m[mem1.length]? = some c := by
  rw [h mem1.length hl (by simp)]
  simp

theorem extend_snoc {mem mem1 : Mem} (c : Cell) (h : ∃ extra, mem1 = mem ++ extra) :
    ∃ extra, mem1 ++ [c] = mem ++ extra := by
  obtain ⟨extra, rfl⟩ := h
  exact ⟨extra ++ [c], by rw [List.append_assoc]⟩

/-- Holds for all the numbers that are large enough. -/
def Eventually (P : Nat → Prop) : Prop := ∃ n, ∀ fuel, n ≤ fuel → P fuel

theorem Eventually.and {P Q : Nat → Prop} (hp : Eventually P) (hq : Eventually Q) :
    Eventually fun n => P n ∧ Q n := by
  obtain ⟨a, ha⟩ := hp
  obtain ⟨b, hb⟩ := hq
  exact ⟨max a b, fun fuel h => ⟨ha fuel (by omega), hb fuel (by omega)⟩⟩

theorem Eventually.mono {P Q : Nat → Prop} (hp : Eventually P) (h : ∀ n, P n → Q n) :
    Eventually Q := by
  obtain ⟨a, ha⟩ := hp
  exact ⟨a, fun fuel hf => h fuel (ha fuel hf)⟩

theorem Eventually.always {P : Nat → Prop} (h : ∀ n, P n) : Eventually P := ⟨0, fun n _ => h n⟩

theorem Eventually.succ {P Q : Nat → Prop} (hp : Eventually P) (h : ∀ n, P n → Q (n + 1)) :
    Eventually Q := by
  obtain ⟨a, ha⟩ := hp
  refine ⟨a + 1, fun fuel hf => ?_⟩
  obtain ⟨k, rfl⟩ : ∃ k, fuel = k + 1 := ⟨fuel - 1, by omega⟩
  exact h k (ha k (by omega))

/-- The result of copying to a new builder. -/
def NewCopy (S : Schema) (mem : Mem) (r : Mem × BVal) (v : Val) : Prop :=
  (∃ extra, r.1 = mem ++ extra) ∧
  ∃ q, r.2 = .ref q ∧ mem.length ≤ q ∧
    ∀ m, Agree mem r.1 m → Eventually fun fuel => build S m fuel q = .done v

/-- The result of copying a field. -/
def FieldCopy (S : Schema) (ty : TypeId) (link : Bool) (mem : Mem) (r : Mem × BVal) (v : Val) :
    Prop :=
  (∃ extra, r.1 = mem ++ extra) ∧
  ∀ m, Agree mem r.1 m →
    Eventually fun fuel => buildField (build S m fuel) S m ty link r.2 = .done v

theorem buildFields_zero (S : Schema) (b : Ref → Run Val) (m : Mem) (as : List AttrShape) :
    buildFields b S m as (as.map (zeroField S)) = .done (as.map fun a => zero (S a.typ)) := by
  induction as with
  | nil => rfl
  | cons a as ih =>
    have h : buildField b S m a.typ a.link (zeroField S a) = .done (zero (S a.typ)) := by
      unfold buildField zeroField
      cases S a.typ <;> rfl
    simp only [List.map_cons, buildFields, h, ih, Run.bind]

theorem newBuilder_copy (S : Schema) (ty : TypeId) (mem : Mem) (c : Bool) (n : Text)
    (as : List AttrShape) (hS : S ty = .struct c n as) :
    NewCopy S mem (mem ++ [newBuilder S ty as], .ref mem.length) (emptyObject S ty) := by
  refine ⟨⟨_, rfl⟩, _, rfl, Nat.le_refl _, ?_⟩
  intro m hm
  have hc := hm.last (Nat.le_refl _)
  refine ⟨1, ?_⟩
  rintro (_ | fuel) hf
  · omega
  · simp only [build, hc, newBuilder, hS, emptyObject, buildFields_zero, Run.bind]
    simp

/-- What the fields of a copied object build. -/
def FieldsCopy (S : Schema) (as : List AttrShape) (mem : Mem) (r : Mem × List BVal)
    (vs : List Val) : Prop :=
  (∃ extra, r.1 = mem ++ extra) ∧ r.2.length = as.length ∧
  ∀ m, Agree mem r.1 m →
    Eventually fun fuel => buildFields (build S m fuel) S m as r.2 = .done vs

/-- What the items of a copied list build. -/
def ItemsCopy (S : Schema) (mem : Mem) (r : Mem × List BVal) (vs : List Val) : Prop :=
  (∃ extra, r.1 = mem ++ extra) ∧
  ∀ m, Agree mem r.1 m →
    Eventually fun fuel => mapRun (buildRef (build S m fuel)) r.2 = .done vs

/-- The construction of an entry. -/
def buildEntry (f : BVal → Run Val) (e : Text × BVal) : Run (Text × Val) :=
  (f e.2).bind fun v => .done (e.1, v)

/-- What the entries of a copied map build. -/
def EntriesCopy (S : Schema) (mem : Mem) (r : Mem × GoMap BVal) (vs : List (Text × Val)) : Prop :=
  (∃ extra, r.1 = mem ++ extra) ∧
  ∀ m, Agree mem r.1 m →
    Eventually fun fuel => mapRun (buildEntry (buildRef (build S m fuel))) r.2 = .done vs

theorem object_copy (S : Schema) (ty : TypeId) (mem : Mem) (c : Bool) (n : Text)
    (as : List AttrShape) (hS : S ty = .struct c n as) (bitmap : Nat) (id href : Text)
    (r : Mem × List BVal) (vs : List Val) (hid : c = true ∨ (id = [] ∧ href = []))
    (h : FieldsCopy S as mem r vs) :
    NewCopy S mem (allocCopy ty c bitmap id href r) (.obj bitmap id href vs) := by
  obtain ⟨⟨extra, he⟩, -, hb⟩ := h
  refine ⟨extend_snoc _ ⟨extra, he⟩, r.1.length, rfl, ?_, ?_⟩
  · rw [he]; simp
  · intro m hm
    have hc := hm.last (by rw [he]; simp)
    apply (hb m (Agree.left hm rfl)).succ
    intro fuel hf
    simp only [build, hc, hS, hf, Run.bind]
    rcases hid with rfl | ⟨rfl, rfl⟩
    · rfl
    · simp

theorem mapRun_scalar (vs : List Val) : mapRun scalarOf (vs.map .scalar) = .done vs := by
  induction vs with
  | nil => rfl
  | cons v vs ih => simp only [List.map_cons, mapRun, scalarOf, Run.bind, ih]

theorem mapRun_scalarEntries (vs : List (Text × Val)) :
    mapRun (buildEntry scalarOf) (vs.map fun e => (e.1, .scalar e.2)) = .done vs := by
  induction vs with
  | nil => rfl
  | cons v vs ih => simp only [List.map_cons, mapRun, buildEntry, scalarOf, Run.bind] at ih ⊢; rw [ih]

theorem rebuilt_scalar (S : Schema) (ty : TypeId) (v : Val) (hs : (S ty).isScalar = true)
    (ht : typed S ty false v = true) : rebuilt S ty v = v ∧ v.isNil = false := by
  cases v with
  | nil =>
    simp only [typed] at ht
    cases h : S ty <;> simp [h, Shape.isScalar] at ht hs
  | obj =>
    simp only [typed] at ht
    cases h : S ty <;> simp [h, Shape.isScalar] at ht hs
  | list =>
    simp only [typed] at ht
    cases h : S ty <;> simp [h, Shape.isScalar] at ht hs
  | linkList l h items =>
    cases items <;> simp only [typed] at ht <;>
      cases h : S ty <;> simp [h, Shape.isScalar] at ht hs
  | map es =>
    simp only [typed] at ht
    cases h : S ty <;> simp [h, Shape.isScalar] at ht hs
  | _ => simp [rebuilt, Val.isNil]

theorem rebuiltItems_scalar (S : Schema) (e : TypeId) (vs : List Val) (hs : (S e).isScalar = true)
    (ht : typedItems S e vs = true) : rebuiltItems S e vs = vs := by
  induction vs with
  | nil => simp [rebuiltItems]
  | cons v vs ih =>
    simp only [typedItems, Bool.and_eq_true] at ht
    obtain ⟨h1, h2⟩ := rebuilt_scalar S e v hs ht.1
    simp only [rebuiltItems, h1, h2, ih ht.2]
    simp

theorem rebuiltEntries_scalar (S : Schema) (e : TypeId) (vs : List (Text × Val))
    (hs : (S e).isScalar = true) (ht : typedEntries S e vs = true) : rebuiltEntries S e vs = vs := by
  induction vs with
  | nil => simp [rebuiltEntries]
  | cons v vs ih =>
    obtain ⟨k, v⟩ := v
    simp only [typedEntries, Bool.and_eq_true] at ht
    obtain ⟨h1, h2⟩ := rebuilt_scalar S e v hs ht.1
    simp only [rebuiltEntries, h1, h2, ih ht.2]
    simp

theorem scalar_field (S : Schema) (ty : TypeId) (link : Bool) (old : BVal) (mem : Mem) (v : Val)
    (hs : (S ty).isScalar = true) :
    FieldCopy S ty link mem (mem, .scalar v) v := by
  refine ⟨⟨[], by simp⟩, fun m _ => Eventually.always fun fuel => ?_⟩
  unfold buildField
  cases h : S ty <;> simp_all [Shape.isScalar, scalarOf]

theorem scalarFits_isScalar (s : Shape) (v : Val) (h : scalarFits s v = true) : s.isScalar = true := by
  cases s <;> cases v <;> simp [scalarFits, Shape.isScalar] at *

mutual
theorem copyNew_ok (S : Schema) (hE : SimpleElements S) (ty : TypeId) (mem : Mem) (c : Bool)
    (n : Text) (as : List AttrShape) (hS : S ty = .struct c n as) (v : Val)
    (ht : typed S ty false v = true) :
    NewCopy S mem (copyNew S ty mem v) (if v.isNil then emptyObject S ty else rebuilt S ty v) := by
  cases v with
  | obj bitmap id href fields =>
    simp only [typed, hS, Bool.and_eq_true, Bool.or_eq_true] at ht
    have hf := copyFields_ok S hE as (as.map (zeroField S)) mem fields ht.2 (by simp)
    have hr : rebuilt S ty (.obj bitmap id href fields) =
        .obj bitmap id href (rebuiltFields S as fields) := by simp [rebuilt, hS]
    simp only [copyNew, hS, Val.isNil, Bool.false_eq_true, if_false, hr]
    apply object_copy S ty mem c n as hS _ _ _ _ _ _ hf
    rcases ht.1 with h | h
    · exact .inl h
    · exact .inr ⟨by simpa using h.1, by simpa using h.2⟩
  | nil =>
    simp only [copyNew, hS, Val.isNil, if_true]
    exact newBuilder_copy S ty mem c n as hS
  | linkList l h items =>
    exfalso
    cases items <;> simp [typed, hS] at ht
  | _ =>
    exfalso
    simp [typed, hS, scalarFits] at ht
theorem copyField_ok (S : Schema) (hE : SimpleElements S) (ty : TypeId) (link : Bool) (old : BVal)
    (mem : Mem) (v : Val) (ht : typed S ty link v = true) :
    FieldCopy S ty link mem (copyField S ty link old mem v) (rebuilt S ty v) := by
  cases v with
  | nil =>
    simp only [typed] at ht
    have : rebuilt S ty .nil = .nil := by simp [rebuilt]
    rw [this]
    cases hS : S ty <;> simp [hS] at ht <;> simp only [copyField, hS] <;>
      refine ⟨⟨[], by simp⟩, fun m _ => Eventually.always fun fuel => ?_⟩ <;>
      simp [buildField, hS, BVal.isNil]
  | obj bitmap id href fields =>
    simp only [typed] at ht
    cases hS : S ty <;> simp [hS] at ht
    case struct c n as =>
      have hf := copyFields_ok S hE as (as.map (zeroField S)) mem fields ht.2 (by simp)
      have hr : rebuilt S ty (.obj bitmap id href fields) =
          .obj bitmap id href (rebuiltFields S as fields) := by simp [rebuilt, hS]
      have hc := object_copy S ty mem c n as hS bitmap id href _ _ ht.1 hf
      simp only [copyField, hS, hr]
      obtain ⟨h1, q, hq, -, hb⟩ := hc
      refine ⟨h1, fun m hm => (hb m hm).mono ?_⟩
      intro fuel hf
      rw [hq]
      simp [buildField, hS, BVal.isNil, buildRef, hf]
  | list items =>
    simp only [typed] at ht
    cases hS : S ty <;> simp [hS] at ht
    case list n element =>
      obtain ⟨rfl, ht⟩ := ht
      have hr : rebuilt S ty (.list items) = .list (rebuiltItems S element items) := by
        simp [rebuilt, hS]
      rw [hr]
      rcases hE ty element (.inl ⟨n, hS⟩) with hs | ⟨c, n', as, hs⟩
      · have hi := rebuiltItems_scalar S element items hs ht
        have e : copyField S ty false old mem (.list items) =
            (mem, .list (items.map .scalar)) := by
          simp only [copyField, hS]
          cases h : S element <;> simp_all [Shape.isScalar]
        rw [e, hi]
        refine ⟨⟨[], by simp⟩, fun m _ => Eventually.always fun fuel => ?_⟩
        have hm := mapRun_scalar items
        simp only [buildField, hS]
        cases h : S element <;> simp_all [Shape.isScalar, BVal.isNil, Run.bind]
      · obtain ⟨h1, hb⟩ := copyItems_ok S hE element mem c n' as hs items ht
        simp only [copyField, hS, hs]
        refine ⟨h1, fun m hm => (hb m hm).mono ?_⟩
        intro fuel hf
        simp only [buildField, hS, hs, BVal.isNil, Bool.false_eq_true, if_false]
        rw [hf]
        rfl
  | linkList l h items =>
    cases items with
    | list items =>
      simp only [typed] at ht
      cases hS : S ty <;> simp [hS] at ht
      case list n element =>
        cases hs : S element <;> simp [hs] at ht
        case struct c n' as =>
          obtain ⟨rfl, ht⟩ := ht
          have hr : rebuilt S ty (.linkList l h (.list items)) =
              .linkList false [] (.list (rebuiltItems S element items)) := by
            simp [rebuilt, hS]
          rw [hr]
          obtain ⟨⟨extra, he⟩, hb⟩ := copyItems_ok S hE element mem c n' as hs items ht
          simp only [copyField, hS, if_true]
          refine ⟨extend_snoc _ ⟨extra, he⟩, fun m hm => ?_⟩
          have hc := hm.last (by rw [he]; simp)
          apply (hb m (Agree.left hm rfl)).mono
          intro fuel hf
          simp only [buildField, hS, BVal.isNil, Bool.false_eq_true, if_false, if_true, hc,
            buildItems]
          rw [hf]
          rfl
    | nil =>
      simp only [typed] at ht
      cases hS : S ty <;> simp [hS] at ht
      case list n element =>
        have hl : link = true := by
          cases hs : S element <;> simp [hs] at ht
          exact ht
        subst hl
        have hr : rebuilt S ty (.linkList l h .nil) = .linkList false [] (.list []) := by
          simp [rebuilt]
        rw [hr]
        simp only [copyField, hS, if_true]
        refine ⟨⟨[_], rfl⟩, fun m hm => Eventually.always fun fuel => ?_⟩
        have hc := hm.last (Nat.le_refl _)
        simp only [buildField, hS, BVal.isNil, Bool.false_eq_true, if_false, if_true, hc,
          buildItems]
    | _ => simp [typed] at ht
  | map es =>
    cases es with
    | nil =>
      simp only [typed] at ht
      cases hS : S ty <;> simp [hS] at ht
      case map element =>
        have hr : rebuilt S ty (.map []) = .nil := by simp [rebuilt]
        rw [hr]
        simp only [copyField, hS]
        refine ⟨⟨[], by simp⟩, fun m _ => Eventually.always fun fuel => ?_⟩
        simp [buildField, hS]
    | cons e es =>
      simp only [typed] at ht
      cases hS : S ty <;> simp [hS] at ht
      case map element =>
        have hr : rebuilt S ty (.map (e :: es)) = .map (rebuiltEntries S element (e :: es)) := by
          simp [rebuilt, hS]
        rw [hr]
        rcases hE ty element (.inr hS) with hs | ⟨c, n', as, hs⟩
        · have hi := rebuiltEntries_scalar S element (e :: es) hs ht
          have ec : copyField S ty link old mem (.map (e :: es)) =
              (mem ++ [.map element ((e :: es).map fun e => (e.1, .scalar e.2))],
                .ref mem.length) := by
            simp only [copyField, hS]
            cases h : S element <;> simp_all [Shape.isScalar]
          rw [ec, hi]
          refine ⟨⟨[_], rfl⟩, fun m hm => Eventually.always fun fuel => ?_⟩
          have hc := hm.last (Nat.le_refl _)
          have hm := mapRun_scalarEntries (e :: es)
          unfold buildField
          simp only [hS, hc]
          have hg : (S element).isScalar = true → (match S element with
              | .struct _ _ _ => False
              | _ => True) := by
            cases S element <;> simp [Shape.isScalar]
          have := hg hs
          split
          · rename_i h
            simp [h] at this
          · rw [if_pos hs]
            exact (congrArg (Run.bind · fun entries => Run.done (Val.map entries)) hm)
        · obtain ⟨⟨extra, he⟩, hb⟩ := copyEntries_ok S hE element mem c n' as hs (e :: es) ht
          simp only [copyField, hS, hs]
          refine ⟨extend_snoc _ ⟨extra, he⟩, fun m hm => ?_⟩
          have hc := hm.last (by rw [he]; simp)
          apply (hb m (Agree.left hm rfl)).mono
          intro fuel hf
          simp only [buildField, hS, hc, hs]
          exact (congrArg (Run.bind · fun entries => Run.done (Val.map entries)) hf)
  | _ =>
    have hs := scalarFits_isScalar (S ty) _ (by simpa [typed] using ht)
    simp only [copyField, hs, if_true, rebuilt]
    exact scalar_field S ty link old mem _ hs
theorem copyFields_ok (S : Schema) (hE : SimpleElements S) (as : List AttrShape) (olds : List BVal)
    (mem : Mem) (vs : List Val) (ht : typedFields S as vs = true) (hl : olds.length = as.length) :
    FieldsCopy S as mem (copyFields S mem as olds vs) (rebuiltFields S as vs) := by
  match as, olds, vs with
  | [], olds, [] =>
    simp only [copyFields, rebuiltFields]
    exact ⟨⟨[], by simp⟩, rfl, fun m _ => Eventually.always fun fuel => rfl⟩
  | [], olds, v :: vs => simp [typedFields] at ht
  | a :: as, olds, [] => simp [typedFields] at ht
  | a :: as, [], v :: vs => simp at hl
  | a :: as, old :: olds, v :: vs =>
    simp only [typedFields, Bool.and_eq_true] at ht
    obtain ⟨⟨e1, he1⟩, hb1⟩ := copyField_ok S hE a.typ a.link old mem v ht.1
    obtain ⟨⟨e2, he2⟩, hl2, hb2⟩ := copyFields_ok S hE as olds
      (copyField S a.typ a.link old mem v).1 vs ht.2 (by simpa using hl)
    simp only [copyFields, rebuiltFields]
    refine ⟨⟨e1 ++ e2, by rw [he2, he1, List.append_assoc]⟩, by simp [hl2], fun m hm => ?_⟩
    apply ((hb1 m (Agree.left hm he2)).and (hb2 m (Agree.right hm he1))).mono
    rintro fuel ⟨h1, h2⟩
    simp only [buildFields, h1, h2, Run.bind]
theorem copyItems_ok (S : Schema) (hE : SimpleElements S) (element : TypeId) (mem : Mem) (c : Bool)
    (n : Text) (as : List AttrShape) (hS : S element = .struct c n as) (vs : List Val)
    (ht : typedItems S element vs = true) :
    ItemsCopy S mem (copyItems S element mem vs) (rebuiltItems S element vs) := by
  match vs with
  | [] =>
    simp only [copyItems, rebuiltItems]
    exact ⟨⟨[], by simp⟩, fun m _ => Eventually.always fun fuel => rfl⟩
  | v :: vs =>
    simp only [typedItems, Bool.and_eq_true] at ht
    obtain ⟨⟨e1, he1⟩, q, hq, -, hb1⟩ := copyNew_ok S hE element mem c n as hS v ht.1
    obtain ⟨⟨e2, he2⟩, hb2⟩ := copyItems_ok S hE element
      (copyNew S element mem v).1 c n as hS vs ht.2
    simp only [copyItems, rebuiltItems]
    refine ⟨⟨e1 ++ e2, by rw [he2, he1, List.append_assoc]⟩, fun m hm => ?_⟩
    apply ((hb1 m (Agree.left hm he2)).and (hb2 m (Agree.right hm he1))).mono
    rintro fuel ⟨h1, h2⟩
    simp only [mapRun, hq, buildRef, h1, h2, Run.bind]
theorem copyEntries_ok (S : Schema) (hE : SimpleElements S) (element : TypeId) (mem : Mem) (c : Bool)
    (n : Text) (as : List AttrShape) (hS : S element = .struct c n as) (vs : List (Text × Val))
    (ht : typedEntries S element vs = true) :
    EntriesCopy S mem (copyEntries S element mem vs) (rebuiltEntries S element vs) := by
  match vs with
  | [] =>
    simp only [copyEntries, rebuiltEntries]
    exact ⟨⟨[], by simp⟩, fun m _ => Eventually.always fun fuel => rfl⟩
  | (k, v) :: vs =>
    simp only [typedEntries, Bool.and_eq_true] at ht
    obtain ⟨⟨e1, he1⟩, q, hq, -, hb1⟩ := copyNew_ok S hE element mem c n as hS v ht.1
    obtain ⟨⟨e2, he2⟩, hb2⟩ := copyEntries_ok S hE element
      (copyNew S element mem v).1 c n as hS vs ht.2
    simp only [copyEntries, rebuiltEntries]
    refine ⟨⟨e1 ++ e2, by rw [he2, he1, List.append_assoc]⟩, fun m hm => ?_⟩
    apply ((hb1 m (Agree.left hm he2)).and (hb2 m (Agree.right hm he1))).mono
    rintro fuel ⟨h1, h2⟩
    simp only [mapRun, buildEntry, hq, buildRef, h1, Run.bind]
    rw [h2]
end

end GoBuilder

end Verif
