import Verif.Lemmas.BuilderCopy

/-! The effect of sequences of calls on one builder. -/

namespace Verif

namespace GoBuilder

open GoJson

/-! ## Bitmaps -/

theorem testBit_setOne (n a b : Nat) : (n ||| 2 ^ a).testBit b = (n.testBit b || decide (a = b)) := by
  rw [Nat.testBit_or, Nat.testBit_two_pow]

theorem testBit_clearBit (n a b : Nat) :
    (clearBit n a).testBit b = (n.testBit b && !decide (a = b)) := by
  unfold clearBit
  rw [Nat.testBit_xor, Nat.testBit_and, Nat.testBit_two_pow]
  cases n.testBit b <;> cases decide (a = b) <;> rfl

theorem setBitmap_other (S : Schema) (a : AttrShape) (v : BVal) (n b : Nat) (h : a.bit ≠ b) :
    (setBitmap S a v n).testBit b = n.testBit b := by
  have hd : decide (a.bit = b) = false := by simp [h]
  unfold setBitmap
  split
  · rw [testBit_setOne, hd, Bool.or_false]
  · split
    · rw [testBit_setOne, hd, Bool.or_false]
    · split
      · rw [testBit_setOne, hd, Bool.or_false]
      · rw [testBit_clearBit, hd, Bool.not_false, Bool.and_true]

theorem isNil_iff (v : BVal) : v.isNil = true ↔ v = .nil := by
  cases v <;> simp [BVal.isNil]

theorem setBitmap_same (S : Schema) (a : AttrShape) (v : BVal) (n : Nat) (ho : S a.typ ≠ .other) :
    (setBitmap S a v n).testBit a.bit = true ↔ ¬ Removes S a v := by
  unfold setBitmap Removes
  cases h : S a.typ <;>
    simp_all [Shape.isScalar, testBit_setOne] <;>
    (cases hv : v.isNil <;> simp_all [isNil_iff, testBit_setOne, testBit_clearBit]) <;>
    (intro hn; rw [hn] at hv; simp [BVal.isNil] at hv)

/-! ## One call -/


/-- Copies don't change what there was in the memory. -/
theorem getElem?_of_extends {mem mem' : Mem} (h : ∃ extra, mem' = mem ++ extra) (r : Ref) (c : Cell)
    (hc : mem[r]? = some c) : mem'[r]? = some c := by
  obtain ⟨extra, rfl⟩ := h
  have hl : r < mem.length := by
    rcases Nat.lt_or_ge r mem.length with h | h
    · exact h
    · rw [List.getElem?_eq_none h] at hc
      exact absurd hc (by simp)
  rw [List.getElem?_append_left hl, hc]

mutual
theorem copyNew_grows (S : Schema) (ty : TypeId) (mem : Mem) (v : Val) :
    ∃ extra, (copyNew S ty mem v).1 = mem ++ extra := by
  cases v with
  | obj bitmap id href fields =>
    simp only [copyNew]
    split
    · exact extend_snoc _ (copyFields_grows S mem _ _ fields)
    · exact ⟨[], by simp⟩
  | _ =>
    simp only [copyNew]
    split
    · exact ⟨[_], rfl⟩
    · exact ⟨[], by simp⟩
theorem copyField_grows (S : Schema) (ty : TypeId) (link : Bool) (old : BVal) (mem : Mem) (v : Val) :
    ∃ extra, (copyField S ty link old mem v).1 = mem ++ extra := by
  cases v with
  | obj bitmap id href fields =>
    simp only [copyField]
    split
    · exact extend_snoc _ (copyFields_grows S mem _ _ fields)
    · exact ⟨[], by simp⟩
  | list items =>
    simp only [copyField]
    split
    · split
      · exact ⟨[], by simp⟩
      · split
        · exact copyItems_grows S _ mem items
        · split <;> exact ⟨[], by simp⟩
    · exact ⟨[], by simp⟩
  | linkList l h items =>
    cases items with
    | list items =>
      simp only [copyField]
      split
      · split
        · exact extend_snoc _ (copyItems_grows S _ mem items)
        · exact ⟨[], by simp⟩
      · exact ⟨[], by simp⟩
    | _ =>
      simp only [copyField]
      split
      · split
        · exact ⟨[_], rfl⟩
        · exact ⟨[], by simp⟩
      · exact ⟨[], by simp⟩
  | map es =>
    cases es with
    | nil =>
      simp only [copyField]
      split <;> exact ⟨[], by simp⟩
    | cons e es =>
      simp only [copyField]
      split
      · split
        · exact extend_snoc _ (copyEntries_grows S _ mem (e :: es))
        · split
          · exact ⟨[_], rfl⟩
          · exact ⟨[], by simp⟩
      · exact ⟨[], by simp⟩
  | nil =>
    simp only [copyField]
    split <;> exact ⟨[], by simp⟩
  | _ =>
    simp only [copyField]
    split <;> exact ⟨[], by simp⟩
theorem copyFields_grows (S : Schema) (mem : Mem) (as : List AttrShape) (olds : List BVal)
    (vs : List Val) : ∃ extra, (copyFields S mem as olds vs).1 = mem ++ extra := by
  match as, olds, vs with
  | a :: as, old :: olds, v :: vs =>
    obtain ⟨e1, h1⟩ := copyField_grows S a.typ a.link old mem v
    obtain ⟨e2, h2⟩ := copyFields_grows S (copyField S a.typ a.link old mem v).1 as olds vs
    simp only [copyFields]
    exact ⟨e1 ++ e2, by rw [h2, h1, List.append_assoc]⟩
  | [], olds, vs => simp only [copyFields]; exact ⟨[], by simp⟩
  | a :: as, [], vs => simp only [copyFields]; exact ⟨[], by simp⟩
  | a :: as, old :: olds, [] => simp only [copyFields]; exact ⟨[], by simp⟩
theorem copyItems_grows (S : Schema) (element : TypeId) (mem : Mem) (vs : List Val) :
    ∃ extra, (copyItems S element mem vs).1 = mem ++ extra := by
  match vs with
  | [] => simp only [copyItems]; exact ⟨[], by simp⟩
  | v :: vs =>
    obtain ⟨e1, h1⟩ := copyNew_grows S element mem v
    obtain ⟨e2, h2⟩ := copyItems_grows S element (copyNew S element mem v).1 vs
    simp only [copyItems]
    exact ⟨e1 ++ e2, by rw [h2, h1, List.append_assoc]⟩
theorem copyEntries_grows (S : Schema) (element : TypeId) (mem : Mem) (vs : List (Text × Val)) :
    ∃ extra, (copyEntries S element mem vs).1 = mem ++ extra := by
  match vs with
  | [] => simp only [copyEntries]; exact ⟨[], by simp⟩
  | (k, v) :: vs =>
    obtain ⟨e1, h1⟩ := copyNew_grows S element mem v
    obtain ⟨e2, h2⟩ := copyEntries_grows S element (copyNew S element mem v).1 vs
    simp only [copyEntries]
    exact ⟨e1 ++ e2, by rw [h2, h1, List.append_assoc]⟩
end

/-- Calls don't change the other builders. -/
theorem exec_other (S : Schema) (mem mem' : Mem) (c : Call) (q : Ref) (cell : Cell)
    (h : exec S mem c = some mem') (hq : mem[q]? = some cell) (ht : c.target ≠ some q) :
    mem'[q]? = some cell := by
  have hset : ∀ (m : Mem) (r : Ref) (x : Cell), r ≠ q → m[q]? = some cell →
      (m.set r x)[q]? = some cell := by
    intro m r x hr hm
    rw [List.getElem?_set_ne hr, hm]
  cases c with
  | new ty =>
    simp only [exec] at h
    split at h
    · cases h
      exact getElem?_of_extends ⟨_, rfl⟩ q cell hq
    · cases h
  | newList ty =>
    simp only [exec] at h
    split at h
    · split at h
      · cases h
        exact getElem?_of_extends ⟨_, rfl⟩ q cell hq
      · cases h
    · cases h
  | newMap e =>
    simp only [exec] at h
    cases h
    exact getElem?_of_extends ⟨_, rfl⟩ q cell hq
  | link r v =>
    have hr : r ≠ q := fun e => ht (by simp [Call.target, e])
    simp only [exec] at h
    split at h
    · split at h
      · cases h
        exact hset _ _ _ hr hq
      · cases h
    · cases h
  | id r v =>
    have hr : r ≠ q := fun e => ht (by simp [Call.target, e])
    simp only [exec] at h
    split at h
    · split at h
      · cases h
        exact hset _ _ _ hr hq
      · cases h
    · cases h
  | href r v =>
    have hr : r ≠ q := fun e => ht (by simp [Call.target, e])
    simp only [exec] at h
    split at h
    · split at h
      · cases h
        exact hset _ _ _ hr hq
      · cases h
    · cases h
  | set r i v =>
    have hr : r ≠ q := fun e => ht (by simp [Call.target, e])
    simp only [exec] at h
    split at h
    · split at h
      · split at h
        · split at h
          · cases h
            exact hset _ _ _ hr hq
          · cases h
        · cases h
      · cases h
    · cases h
  | items r v =>
    have hr : r ≠ q := fun e => ht (by simp [Call.target, e])
    simp only [exec] at h
    split at h
    · split at h
      · cases h
        exact hset _ _ _ hr hq
      · cases h
    · cases h
  | put r k v =>
    have hr : r ≠ q := fun e => ht (by simp [Call.target, e])
    simp only [exec] at h
    split at h
    · split at h
      · cases h
        exact hset _ _ _ hr hq
      · cases h
    · cases h
  | copy r o =>
    have hr : r ≠ q := fun e => ht (by simp [Call.target, e])
    simp only [exec] at h
    split at h
    · split at h
      · unfold copy at h
        split at h
        · split at h
          · split at h
            · cases h
              exact hset _ _ _ hr (getElem?_of_extends (copyFields_grows ..) q cell hq)
            · cases h
          · cases h
        · cases h
          exact hq
      · cases h
    · cases h
  | copyList r o =>
    have hr : r ≠ q := fun e => ht (by simp [Call.target, e])
    simp only [exec] at h
    split at h
    · split at h
      · unfold copyList at h
        split at h
        · split at h
          · split at h
            · cases h
              exact hset _ _ _ hr (getElem?_of_extends (copyItems_grows ..) q cell hq)
            · cases h
              exact hset _ _ _ hr hq
          · cases h
        · cases h
      · cases h
    · cases h

/-! ## Histories -/

theorem getLast?_cons' {α : Type} (a : α) (l : List α) :
    (a :: l).getLast? = some (l.getLast?.getD a) := List.getLast?_cons

theorem lastSet_cons (r : Ref) (i : Nat) (c : Call) (cs : List Call) :
    lastSet r i (c :: cs) =
      match lastSet r i cs with
      | some v => some v
      | none => match c with
        | .set q j v => if q = r ∧ j = i then some v else none
        | _ => none := by
  unfold lastSet
  rw [List.filterMap_cons]
  cases c with
  | set q j v =>
    by_cases h : q = r ∧ j = i
    · simp only [if_pos h, getLast?_cons']
      generalize (List.filterMap _ cs).getLast? = o
      cases o <;> rfl
    · simp only [if_neg h]
      split <;> simp_all
  | _ => simp only []; split <;> simp_all

theorem lastID_cons (r : Ref) (c : Call) (cs : List Call) :
    lastID r (c :: cs) =
      match lastID r cs with
      | some v => some v
      | none => match c with
        | .id q v => if q = r then some v else none
        | _ => none := by
  unfold lastID
  rw [List.filterMap_cons]
  cases c with
  | id q v =>
    by_cases h : q = r
    · simp only [if_pos h, getLast?_cons']
      generalize (List.filterMap _ cs).getLast? = o
      cases o <;> rfl
    · simp only [if_neg h]
      split <;> simp_all
  | _ => simp only []; split <;> simp_all

theorem lastHREF_cons (r : Ref) (c : Call) (cs : List Call) :
    lastHREF r (c :: cs) =
      match lastHREF r cs with
      | some v => some v
      | none => match c with
        | .href q v => if q = r then some v else none
        | _ => none := by
  unfold lastHREF
  rw [List.filterMap_cons]
  cases c with
  | href q v =>
    by_cases h : q = r
    · simp only [if_pos h, getLast?_cons']
      generalize (List.filterMap _ cs).getLast? = o
      cases o <;> rfl
    · simp only [if_neg h]
      split <;> simp_all
  | _ => simp only []; split <;> simp_all

/-- A consequence of the types: the setter of the attribute accepts the value. -/
structure Accepts (S : Schema) (a : AttrShape) (v : BVal) : Prop where
  known : S a.typ ≠ .other
  slice : ∀ n e, S a.typ = .list n e → a.link = false → v = .nil ∨ ∃ xs, v = .list xs

/-- What one call leaves in a builder. -/
structure Step (S : Schema) (r : Ref) (c : Call) (as : List AttrShape) (isClass : Bool)
    (bm : Nat) (i h : Text) (fs : List BVal) (bm' : Nat) (i' h' : Text) (fs' : List BVal) : Prop where
  length : fs'.length = fs.length
  fields : ∀ n a, as[n]? = some a →
    (∀ v, c = .set r n v → Accepts S a v ∧ (n < fs.length → fs'[n]? = some (stored S a v)) ∧
      (bm'.testBit a.bit = true ↔ ¬ Removes S a v)) ∧
    ((∀ v, c ≠ .set r n v) → fs'[n]? = fs[n]? ∧ bm'.testBit a.bit = bm.testBit a.bit)
  ident : (∀ v, c = .id r v → i' = v ∧ bm'.testBit 1 = true) ∧
    ((∀ v, c ≠ .id r v) → i' = i ∧ (isClass = true → bm'.testBit 1 = bm.testBit 1))
  address : (∀ v, c = .href r v → h' = v ∧ bm'.testBit 2 = true) ∧
    ((∀ v, c ≠ .href r v) → h' = h ∧ (isClass = true → bm'.testBit 2 = bm.testBit 2))
  linked : isClass = true → (bm'.testBit 0 = true ↔ bm.testBit 0 = true ∨ ∃ v, c = .link r v)
  bits : ∀ b, bm'.testBit b = true →
    bm.testBit b = true ∨ (isClass = true ∧ b < 3) ∨ ∃ a ∈ as, a.bit = b

theorem Step.refl (S : Schema) (r : Ref) (c : Call) (as : List AttrShape) (isClass : Bool)
    (bm : Nat) (i h : Text) (fs : List BVal) (h1 : ∀ n v, c ≠ .set r n v) (h2 : ∀ v, c ≠ .id r v)
    (h3 : ∀ v, c ≠ .href r v) (h4 : ∀ v, c ≠ .link r v) :
    Step S r c as isClass bm i h fs bm i h fs where
  length := rfl
  fields n a ha := ⟨fun v hv => absurd hv (h1 n v), fun _ => ⟨rfl, rfl⟩⟩
  ident := ⟨fun v hv => absurd hv (h2 v), fun _ => ⟨rfl, fun _ => rfl⟩⟩
  address := ⟨fun v hv => absurd hv (h3 v), fun _ => ⟨rfl, fun _ => rfl⟩⟩
  linked _ := ⟨fun hb => .inl hb, fun hb => hb.elim (·) (fun ⟨v, hv⟩ => absurd hv (h4 v))⟩
  bits b hb := .inl hb

theorem getElem?_set_self' {m : Mem} {r : Ref} {c : Cell} (x : Cell) (h : m[r]? = some c) :
    (m.set r x)[r]? = some x := by
  have hl : r < m.length := by
    rcases Nat.lt_or_ge r m.length with h' | h'
    · exact h'
    · rw [List.getElem?_eq_none h'] at h
      exact absurd h (by simp)
  rw [List.getElem?_set_self hl]

theorem bits_ne {as : List AttrShape} (hp : as.Pairwise fun a b => a.bit ≠ b.bit) {n m : Nat}
    {a b : AttrShape} (ha : as[n]? = some a) (hb : as[m]? = some b) (hne : n ≠ m) :
    a.bit ≠ b.bit := by
  rw [List.pairwise_iff_getElem] at hp
  obtain ⟨hn, rfl⟩ := List.getElem?_eq_some_iff.mp ha
  obtain ⟨hm, rfl⟩ := List.getElem?_eq_some_iff.mp hb
  rcases Nat.lt_or_ge n m with h | h
  · exact hp n m hn hm h
  · exact fun e => hp m n hm hn (by omega) e.symm

theorem exec_step (S : Schema) (mem mem' : Mem) (c : Call) (r : Ref) (ty : TypeId) (bm : Nat)
    (i h : Text) (fs : List BVal) (isClass : Bool) (n : Text) (as : List AttrShape)
    (hS : S ty = .struct isClass n as) (hp : ProperAttributes isClass as)
    (he : exec S mem c = some mem') (hr : mem[r]? = some (.builder ty bm i h fs))
    (hc : ∀ o, c ≠ .copy r o) :
    ∃ bm' i' h' fs', mem'[r]? = some (.builder ty bm' i' h' fs') ∧
      Step S r c as isClass bm i h fs bm' i' h' fs' := by
  by_cases ht : c.target = some r
  · cases c with
    | link q v =>
      simp only [Call.target, Option.some.injEq] at ht
      subst ht
      simp only [exec, hr, hS] at he
      cases isClass with
      | false => cases he
      | true =>
        cases he
        refine ⟨_, _, _, _, getElem?_set_self' _ hr, ?_⟩
        have h1 : (1 : Nat) = 2 ^ 0 := rfl
        constructor
        · rfl
        · intro m a ha
          refine ⟨by simp, fun _ => ⟨rfl, ?_⟩⟩
          have := hp.free rfl a (List.mem_of_getElem? ha)
          rw [h1, testBit_setOne]
          simp
          omega
        · exact ⟨by simp, fun _ => ⟨rfl, fun _ => by rw [h1, testBit_setOne]; simp⟩⟩
        · exact ⟨by simp, fun _ => ⟨rfl, fun _ => by rw [h1, testBit_setOne]; simp⟩⟩
        · intro _
          rw [h1, testBit_setOne]
          simp
        · intro b hb
          rw [h1, testBit_setOne] at hb
          simp at hb
          rcases hb with hb | hb
          · exact .inl hb
          · exact .inr (.inl ⟨rfl, by omega⟩)
    | id q v =>
      simp only [Call.target, Option.some.injEq] at ht
      subst ht
      simp only [exec, hr, hS] at he
      cases isClass with
      | false => cases he
      | true =>
        cases he
        refine ⟨_, _, _, _, getElem?_set_self' _ hr, ?_⟩
        have h1 : (2 : Nat) = 2 ^ 1 := rfl
        constructor
        · rfl
        · intro m a ha
          refine ⟨by simp, fun _ => ⟨rfl, ?_⟩⟩
          have := hp.free rfl a (List.mem_of_getElem? ha)
          rw [h1, testBit_setOne]
          simp
          omega
        · refine ⟨?_, fun hn => absurd rfl (hn v)⟩
          intro w hw
          cases hw
          exact ⟨rfl, by rw [h1, testBit_setOne]; simp⟩
        · exact ⟨by simp, fun _ => ⟨rfl, fun _ => by rw [h1, testBit_setOne]; simp⟩⟩
        · intro _
          rw [h1, testBit_setOne]
          simp
        · intro b hb
          rw [h1, testBit_setOne] at hb
          simp at hb
          rcases hb with hb | hb
          · exact .inl hb
          · exact .inr (.inl ⟨rfl, by omega⟩)
    | href q v =>
      simp only [Call.target, Option.some.injEq] at ht
      subst ht
      simp only [exec, hr, hS] at he
      cases isClass with
      | false => cases he
      | true =>
        cases he
        refine ⟨_, _, _, _, getElem?_set_self' _ hr, ?_⟩
        have h1 : (4 : Nat) = 2 ^ 2 := rfl
        constructor
        · rfl
        · intro m a ha
          refine ⟨by simp, fun _ => ⟨rfl, ?_⟩⟩
          have := hp.free rfl a (List.mem_of_getElem? ha)
          rw [h1, testBit_setOne]
          simp
          omega
        · exact ⟨by simp, fun _ => ⟨rfl, fun _ => by rw [h1, testBit_setOne]; simp⟩⟩
        · refine ⟨?_, fun hn => absurd rfl (hn v)⟩
          intro w hw
          cases hw
          exact ⟨rfl, by rw [h1, testBit_setOne]; simp⟩
        · intro _
          rw [h1, testBit_setOne]
          simp
        · intro b hb
          rw [h1, testBit_setOne] at hb
          simp at hb
          rcases hb with hb | hb
          · exact .inl hb
          · exact .inr (.inl ⟨rfl, by omega⟩)
    | set q j v =>
      simp only [Call.target, Option.some.injEq] at ht
      subst ht
      simp only [exec, hr, hS] at he
      split at he
      · rename_i a ha
        split at he
        · rename_i hf
          cases he
          have ho : S a.typ ≠ .other := by
            intro e
            unfold fits at hf
            cases v <;> simp [elementFits, e, scalarFits] at hf
          have hacc : Accepts S a v := by
            refine ⟨ho, ?_⟩
            intro n e hl hk
            unfold fits at hf
            cases v with
            | nil => exact .inl rfl
            | list xs => exact .inr ⟨xs, rfl⟩
            | scalar w => simp [hl, elementFits, scalarFits] at hf
            | ref q =>
              simp only [hl, hk, Bool.false_and] at hf
              split at hf <;> exact absurd hf (by simp)
          have hfree : isClass = true → ∀ b, b < 3 → a.bit ≠ b := by
            intro hcl b hb
            have := hp.free hcl a (List.mem_of_getElem? ha)
            omega
          refine ⟨_, _, _, _, getElem?_set_self' _ hr, ?_⟩
          constructor
          · simp
          · intro m b hb
            refine ⟨?_, ?_⟩
            · intro w hw
              cases hw
              rw [ha] at hb
              cases hb
              refine ⟨hacc, ?_, setBitmap_same S a v bm ho⟩
              intro hl
              rw [List.getElem?_set_self hl]
            · intro hw
              have hjm : j ≠ m := by
                rintro rfl
                exact hw v rfl
              exact ⟨by rw [List.getElem?_set_ne hjm],
                setBitmap_other S a v bm b.bit (bits_ne hp.bits ha hb hjm)⟩
          · exact ⟨by simp, fun _ => ⟨rfl, fun hcl => setBitmap_other _ _ _ _ _ (hfree hcl 1 (by omega))⟩⟩
          · exact ⟨by simp, fun _ => ⟨rfl, fun hcl => setBitmap_other _ _ _ _ _ (hfree hcl 2 (by omega))⟩⟩
          · intro hcl
            rw [setBitmap_other _ _ _ _ _ (hfree hcl 0 (by omega))]
            simp
          · intro b hb
            by_cases hab : a.bit = b
            · exact .inr (.inr ⟨a, List.mem_of_getElem? ha, hab⟩)
            · rw [setBitmap_other _ _ _ _ _ hab] at hb
              exact .inl hb
        · cases he
      · cases he
    | items q v =>
      simp only [Call.target, Option.some.injEq] at ht
      subst ht
      simp [exec, hr] at he
    | put q k v =>
      simp only [Call.target, Option.some.injEq] at ht
      subst ht
      simp [exec, hr] at he
    | copy q o =>
      simp only [Call.target, Option.some.injEq] at ht
      subst ht
      exact absurd rfl (hc o)
    | copyList q o =>
      simp only [Call.target, Option.some.injEq] at ht
      subst ht
      simp [exec, hr] at he
    | _ => simp [Call.target] at ht
  · refine ⟨bm, i, h, fs, exec_other S mem mem' c r _ he hr ht, Step.refl _ _ _ _ _ _ _ _ _ ?_ ?_ ?_ ?_⟩
    all_goals
      intros
      rintro rfl
      exact ht rfl

/-- What a sequence of calls leaves in a builder. -/
structure After (S : Schema) (r : Ref) (cs : List Call) (as : List AttrShape) (isClass : Bool)
    (bm : Nat) (i h : Text) (fs : List BVal) (bm' : Nat) (i' h' : Text) (fs' : List BVal) : Prop where
  length : fs'.length = fs.length
  set : ∀ n a, as[n]? = some a → ∀ v, lastSet r n cs = some v →
    Accepts S a v ∧ (n < fs.length → fs'[n]? = some (stored S a v)) ∧
      (bm'.testBit a.bit = true ↔ ¬ Removes S a v)
  unset : ∀ n a, as[n]? = some a → lastSet r n cs = none →
    fs'[n]? = fs[n]? ∧ bm'.testBit a.bit = bm.testBit a.bit
  ident : (∀ v, lastID r cs = some v → i' = v ∧ bm'.testBit 1 = true) ∧
    (lastID r cs = none → i' = i ∧ (isClass = true → bm'.testBit 1 = bm.testBit 1))
  address : (∀ v, lastHREF r cs = some v → h' = v ∧ bm'.testBit 2 = true) ∧
    (lastHREF r cs = none → h' = h ∧ (isClass = true → bm'.testBit 2 = bm.testBit 2))
  linked : isClass = true →
    (bm'.testBit 0 = true ↔ bm.testBit 0 = true ∨ ∃ v, Call.link r v ∈ cs)
  bits : ∀ b, bm'.testBit b = true →
    bm.testBit b = true ∨ (isClass = true ∧ b < 3) ∨ ∃ a ∈ as, a.bit = b

theorem execAll_after (S : Schema) (cs : List Call) (mem mem' : Mem) (r : Ref) (ty : TypeId)
    (bm : Nat) (i h : Text) (fs : List BVal) (isClass : Bool) (n : Text) (as : List AttrShape)
    (hS : S ty = .struct isClass n as) (hp : ProperAttributes isClass as)
    (he : execAll S mem cs = some mem') (hr : mem[r]? = some (.builder ty bm i h fs))
    (hc : NoCopy r cs) :
    ∃ bm' i' h' fs', mem'[r]? = some (.builder ty bm' i' h' fs') ∧
      After S r cs as isClass bm i h fs bm' i' h' fs' := by
  induction cs generalizing mem bm i h fs with
  | nil =>
    simp only [execAll] at he
    cases he
    refine ⟨bm, i, h, fs, hr, ?_⟩
    constructor
    · rfl
    · intro n a _ v hv
      simp [lastSet] at hv
    · intro n a _ _
      exact ⟨rfl, rfl⟩
    · exact ⟨by intro v hv; simp [lastID] at hv, fun _ => ⟨rfl, fun _ => rfl⟩⟩
    · exact ⟨by intro v hv; simp [lastHREF] at hv, fun _ => ⟨rfl, fun _ => rfl⟩⟩
    · intro _
      simp
    · intro b hb
      exact .inl hb
  | cons c cs ih =>
    simp only [execAll] at he
    split at he
    · cases he
    · rename_i mem1 he1
      obtain ⟨bm1, i1, h1, fs1, hr1, st⟩ := exec_step S mem mem1 c r ty bm i h fs isClass n as hS hp
        he1 hr (fun o e => hc o (by simp [e]))
      obtain ⟨bm2, i2, h2, fs2, hr2, af⟩ := ih mem1 bm1 i1 h1 fs1 he hr1
        (fun o ho => hc o (List.mem_cons_of_mem _ ho))
      refine ⟨bm2, i2, h2, fs2, hr2, ?_⟩
      constructor
      · rw [af.length, st.length]
      · intro m a ha v hv
        rw [lastSet_cons] at hv
        cases hl : lastSet r m cs with
        | some w =>
          rw [hl] at hv
          cases hv
          have := af.set m a ha v hl
          rw [st.length] at this
          exact this
        | none =>
          rw [hl] at hv
          have hset : c = .set r m v := by
            cases c <;> simp at hv ⊢
            obtain ⟨⟨a1, a2⟩, a3⟩ := hv
            exact ⟨a1, a2, a3⟩
          obtain ⟨u1, u2⟩ := af.unset m a ha hl
          obtain ⟨s1, s2, s3⟩ := (st.fields m a ha).1 v hset
          refine ⟨s1, ?_, ?_⟩
          · intro hlt
            rw [u1, s2 hlt]
          · rw [u2, s3]
      · intro m a ha hv
        rw [lastSet_cons] at hv
        cases hl : lastSet r m cs with
        | some w =>
          rw [hl] at hv
          cases hv
        | none =>
          rw [hl] at hv
          obtain ⟨u1, u2⟩ := af.unset m a ha hl
          have hns : ∀ v, c ≠ .set r m v := by
            rintro v rfl
            simp at hv
          obtain ⟨s1, s2⟩ := (st.fields m a ha).2 hns
          exact ⟨by rw [u1, s1], by rw [u2, s2]⟩
      · refine ⟨?_, ?_⟩
        · intro v hv
          rw [lastID_cons] at hv
          cases hl : lastID r cs with
          | some w =>
            rw [hl] at hv
            cases hv
            exact af.ident.1 v hl
          | none =>
            rw [hl] at hv
            have hset : c = .id r v := by
              cases c <;> simp at hv ⊢
              exact hv
            have hcl : isClass = true := by
              cases isClass with
              | true => rfl
              | false =>
                rw [hset] at he1
                simp [exec, hr, hS] at he1
            obtain ⟨u1, u2⟩ := af.ident.2 hl
            obtain ⟨s1, s2⟩ := st.ident.1 v hset
            exact ⟨by rw [u1, s1], by rw [u2 hcl, s2]⟩
        · intro hv
          rw [lastID_cons] at hv
          cases hl : lastID r cs with
          | some w =>
            rw [hl] at hv
            cases hv
          | none =>
            rw [hl] at hv
            have hns : ∀ v, c ≠ .id r v := by
              rintro v rfl
              simp at hv
            obtain ⟨u1, u2⟩ := af.ident.2 hl
            obtain ⟨s1, s2⟩ := st.ident.2 hns
            exact ⟨by rw [u1, s1], fun hcl => by rw [u2 hcl, s2 hcl]⟩
      · refine ⟨?_, ?_⟩
        · intro v hv
          rw [lastHREF_cons] at hv
          cases hl : lastHREF r cs with
          | some w =>
            rw [hl] at hv
            cases hv
            exact af.address.1 v hl
          | none =>
            rw [hl] at hv
            have hset : c = .href r v := by
              cases c <;> simp at hv ⊢
              exact hv
            have hcl : isClass = true := by
              cases isClass with
              | true => rfl
              | false =>
                rw [hset] at he1
                simp [exec, hr, hS] at he1
            obtain ⟨u1, u2⟩ := af.address.2 hl
            obtain ⟨s1, s2⟩ := st.address.1 v hset
            exact ⟨by rw [u1, s1], by rw [u2 hcl, s2]⟩
        · intro hv
          rw [lastHREF_cons] at hv
          cases hl : lastHREF r cs with
          | some w =>
            rw [hl] at hv
            cases hv
          | none =>
            rw [hl] at hv
            have hns : ∀ v, c ≠ .href r v := by
              rintro v rfl
              simp at hv
            obtain ⟨u1, u2⟩ := af.address.2 hl
            obtain ⟨s1, s2⟩ := st.address.2 hns
            exact ⟨by rw [u1, s1], fun hcl => by rw [u2 hcl, s2 hcl]⟩
      · intro hcl
        rw [af.linked hcl, st.linked hcl]
        constructor
        · rintro ((h | ⟨v, rfl⟩) | ⟨v, hv⟩)
          · exact .inl h
          · exact .inr ⟨v, by simp⟩
          · exact .inr ⟨v, List.mem_cons_of_mem _ hv⟩
        · rintro (h | ⟨v, hv⟩)
          · exact .inl (.inl h)
          · rcases List.mem_cons.mp hv with e | hv
            · exact .inl (.inr ⟨v, e.symm⟩)
            · exact .inr ⟨v, hv⟩
      · intro b hb
        rcases af.bits b hb with h | h
        · exact st.bits b h
        · exact .inr h

end GoBuilder

end Verif
