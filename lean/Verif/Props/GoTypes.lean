import Verif.Spec.GoTypes
import Verif.Spec.Json

/-! Properties of the generated types: objects and lists. -/

namespace Verif

namespace GoTypes

open GoJson

/-! ## C44: empty objects -/

theorem half_eq_zero (n : Nat) : n / 2 * 2 = 0 ↔ ∀ b, 0 < b → n.testBit b = false := by
  constructor
  · intro h b hb
    have h2 : n < 2 := by omega
    apply Nat.testBit_lt_two_pow
    calc n < 2 := h2
      _ = 2 ^ 1 := rfl
      _ ≤ 2 ^ b := Nat.pow_le_pow_right (by omega) hb
  · intro h
    have h0 : n / 2 = 0 := by
      apply Nat.eq_of_testBit_eq
      intro i
      have := h (i + 1) (by omega)
      rw [Nat.testBit_succ] at this
      rw [this, Nat.zero_testBit]
    omega

theorem eq_zero_iff_bits (n : Nat) : n = 0 ↔ ∀ b, n.testBit b = false := by
  constructor
  · rintro rfl b
    exact Nat.zero_testBit b
  · intro h
    apply Nat.eq_of_testBit_eq
    intro i
    rw [h i, Nat.zero_testBit]

/-- C44: an object is empty exactly if it is nil or none of its attributes has a value, nor the
identifier, nor the address; being a link doesn't count. -/
theorem c44_empty (isClass : Bool) (as : List AttrShape) (bitmap : Nat) (i h : Text)
    (fields : List Val) (hp : ProperAttributes isClass as) (hm : Meaningful isClass as bitmap) :
    (GoTypes.empty isClass (.obj bitmap i h fields) = true ↔ ¬ HasValue isClass as bitmap) ∧
    GoTypes.empty isClass .nil = true := by
  refine ⟨?_, rfl⟩
  cases isClass with
  | true =>
    simp only [GoTypes.empty, if_true, beq_iff_eq, half_eq_zero, HasValue, true_and]
    constructor
    · intro hz hv
      rcases hv with ⟨a, ha, hb⟩ | hb | hb
      · have := hp.free rfl a ha
        rw [hz a.bit (by omega)] at hb
        exact absurd hb (by simp)
      · rw [hz 1 (by omega)] at hb
        exact absurd hb (by simp)
      · rw [hz 2 (by omega)] at hb
        exact absurd hb (by simp)
    · intro hv b hb
      apply Bool.eq_false_iff.mpr
      intro ht
      apply hv
      rcases hm b ht with ⟨-, h3⟩ | ⟨a, ha, rfl⟩
      · right
        have : b = 1 ∨ b = 2 := by omega
        rcases this with rfl | rfl
        · exact .inl ht
        · exact .inr ht
      · exact .inl ⟨a, ha, ht⟩
  | false =>
    simp only [GoTypes.empty, Bool.false_eq_true, if_false, beq_iff_eq, eq_zero_iff_bits, HasValue,
      false_and, or_false]
    constructor
    · rintro hz ⟨a, ha, hb⟩
      rw [hz] at hb
      exact absurd hb (by simp)
    · intro hv b
      apply Bool.eq_false_iff.mpr
      intro ht
      rcases hm b ht with ⟨h, -⟩ | ⟨a, ha, rfl⟩
      · exact absurd h (by simp)
      · exact hv ⟨a, ha, ht⟩

/-- A link with an identifier isn't empty; a link without it is. -/
example : Meaningful true [{ tag := t!"name", typ := 4, bit := 3 }] 3 ∧
    GoTypes.empty true (.obj 3 t!"123" [] [.str []]) = false ∧
    GoTypes.empty true (.obj 1 [] [] [.str []]) = true ∧
    GoTypes.empty true (.obj 9 [] [] [.str []]) = false ∧
    GoTypes.empty false (.obj 1 [] [] [.str t!"x"]) = false := by
  refine ⟨?_, rfl, rfl, rfl, rfl⟩
  intro b hb
  left
  refine ⟨rfl, ?_⟩
  apply Decidable.byContradiction
  intro h
  have : Nat.testBit 3 b = false := by
    apply Nat.testBit_lt_two_pow
    calc 3 < 2 ^ 3 := by decide
      _ ≤ 2 ^ b := Nat.pow_le_pow_right (by omega) (by omega)
  rw [this] at hb
  exact absurd hb (by simp)

/-! ## Accessors of objects -/

/-- C44: what the accessors that aren't those of attributes say about an object that isn't nil: the
kind is the name of the type, with `Link` after it for links, and the identifier and the address are
given, and reported as present, only if they have been set. -/
theorem c44_header (name : Text) (bitmap : Nat) (i h : Text) (fields : List Val) :
    kind name (.obj bitmap i h fields) =
      name ++ (if bitmap.testBit 0 = true then t!"Link" else []) ∧
    (link (.obj bitmap i h fields) = true ↔ bitmap.testBit 0 = true) ∧
    getID (.obj bitmap i h fields) = (if bitmap.testBit 1 = true then (i, true) else ([], false)) ∧
    getHREF (.obj bitmap i h fields) =
      (if bitmap.testBit 2 = true then (h, true) else ([], false)) ∧
    GoTypes.id (.obj bitmap i h fields) = (getID (.obj bitmap i h fields)).1 ∧
    href (.obj bitmap i h fields) = (getHREF (.obj bitmap i h fields)).1 := by
  refine ⟨?_, by simp [link, hasBit], rfl, rfl, ?_, ?_⟩
  · simp only [kind, Val.isNil, hasBit, Bool.false_eq_true, if_false]
    split <;> simp_all
  · simp only [GoTypes.id, getID]
    split <;> rfl
  · simp only [href, getHREF]
    split <;> rfl

/-- C44: the nil object has no identifier, no address, no attributes and it isn't a link; its kind is
the name followed by `Nil`. -/
theorem c44_nil (S : Schema) (name : Text) (n : Nat) (a : AttrShape) :
    kind name .nil = name ++ t!"Nil" ∧ link .nil = false ∧ getID .nil = ([], false) ∧
    getHREF .nil = ([], false) ∧ GoTypes.id .nil = [] ∧ href .nil = [] ∧
    GoTypes.get S n a .nil = zero (S a.typ) ∧ getOk S n a .nil = (zero (S a.typ), false) :=
  ⟨rfl, rfl, rfl, rfl, rfl, rfl, rfl, rfl⟩

/-- C41, C44: the getters of attributes. -/
theorem c41_getters (S : Schema) (n : Nat) (a : AttrShape) (bitmap : Nat) (i h : Text)
    (fields : List Val) (v : Val) (hv : fields[n]? = some v) :
    getOk S n a (.obj bitmap i h fields) =
      (if bitmap.testBit a.bit = true then (v, true) else (zero (S a.typ), false)) ∧
    GoTypes.get S n a (.obj bitmap i h fields) = (getOk S n a (.obj bitmap i h fields)).1 := by
  have e : fields.getD n .nil = v := by rw [List.getD_eq_getElem?_getD, hv]; rfl
  simp only [getOk, GoTypes.get, e]
  refine ⟨trivial, ?_⟩
  split <;> rfl

example : kind t!"Cluster" (.obj 3 t!"123" [] []) = t!"ClusterLink" ∧
    kind t!"Cluster" (.obj 2 t!"123" [] []) = t!"Cluster" ∧
    getID (.obj 3 t!"123" [] []) = (t!"123", true) ∧ getHREF (.obj 3 t!"123" t!"x" []) = ([], false) :=
  ⟨by decide, by decide, rfl, rfl⟩

/-! ## C45: lists -/

theorem eachLoop_eq_rangeLoop {σ : Type} (f : Val → σ → Bool × σ) (items : List Val) (s : σ) (i : Nat) :
    ObjectList.eachLoop f s items = ObjectList.rangeLoop (fun _ => f) s i items := by
  induction items generalizing s i with
  | nil => rfl
  | cons x xs ih =>
    simp only [ObjectList.eachLoop, ObjectList.rangeLoop]
    split
    · exact ih _ _
    · rfl

theorem visited_succ {σ : Type} (f : Nat → Val → σ → Bool × σ) (s : σ) (items : List Val) (n : Nat)
    (item : Val) (h : items[n]? = some item) :
    visited f s items (n + 1) = (f n item (visited f s items n)).2 := by
  have hl : n < items.length := by
    rcases Nat.lt_or_ge n items.length with h' | h'
    · exact h'
    · rw [List.getElem?_eq_none h'] at h
      exact absurd h (by simp)
  unfold visited
  rw [List.take_add_one, h]
  rw [List.zipIdx_append, List.foldl_append]
  simp [List.length_take, Nat.min_eq_left (Nat.le_of_lt hl)]

theorem rangeLoop_visits {σ : Type} (f : Nat → Val → σ → Bool × σ) (s : σ) (all : List Val) (m : Nat) :
    ∀ (pre post : List Val), all = pre ++ post → pre.length = m →
      (∀ k item, k < m → all[k]? = some item → (f k item (visited f s all k)).1 = true) →
      Visits f s all (ObjectList.rangeLoop f (visited f s all m) m post) := by
  intro pre post
  induction post generalizing m pre with
  | nil =>
    intro hall hlen hacc
    refine ⟨m, ?_, rfl, ?_, ?_, ?_⟩
    · rw [hall]; simp [hlen]
    · intro k item hk h
      exact hacc k item (by omega) h
    · intro _ _ _ _
      rw [hall]; simp [hlen]
    · intro hm
      rw [hall]
      have : pre = [] := List.eq_nil_of_length_eq_zero (by omega)
      rw [this]; rfl
  | cons x xs ih =>
    intro hall hlen hacc
    have hx : all[m]? = some x := by
      rw [hall, List.getElem?_append_right (by omega), hlen]
      simp
    simp only [ObjectList.rangeLoop]
    have hv := visited_succ f s all m x hx
    cases hf : f m x (visited f s all m) with
    | mk b s' =>
      rw [hf] at hv
      cases b with
      | true =>
        simp only
        have hv' : s' = visited f s all (m + 1) := hv.symm
        rw [hv']
        apply ih (m + 1) (pre ++ [x])
        · rw [hall]; simp
        · simp [hlen]
        · intro k item hk h
          by_cases hkm : k < m
          · exact hacc k item hkm h
          · have : k = m := by omega
            subst this
            rw [hx] at h
            cases h
            rw [hf]
      | false =>
        simp only
        refine ⟨m + 1, ?_, hv.symm, ?_, ?_, ?_⟩
        · rw [hall]; simp [hlen]
        · intro k item hk h
          exact hacc k item (by omega) h
        · intro item _ hi ht
          rw [Nat.add_sub_cancel] at hi ht
          rw [hx] at hi
          cases hi
          rw [hf] at ht
          exact absurd ht (by simp)
        · intro h
          omega

/-- C45: the length, the items, the emptiness and the copy of a list. The nil list has no items. -/
theorem c45_items (l : ObjectList) :
    ObjectList.getItems (some l) = l.items ∧
    ObjectList.len (some l) = (l.items.getD []).length ∧
    ObjectList.slice (some l) = l.items.getD [] ∧
    (ObjectList.empty (some l) = true ↔ l.items.getD [] = []) ∧
    ObjectList.getItems none = none ∧ ObjectList.len none = 0 ∧ ObjectList.slice none = [] ∧
    ObjectList.empty none = true := by
  refine ⟨rfl, rfl, rfl, ?_, rfl, rfl, rfl, rfl⟩
  simp [ObjectList.empty, ObjectList.elements]

/-- C45: getting by index gives that item, and nil for all the indexes that are out of range. -/
theorem c45_get (l : ObjectList) (i : Int) :
    (∀ item, 0 ≤ i → (l.items.getD [])[i.toNat]? = some item →
      ObjectList.get i (some l) = item) ∧
    (i < 0 ∨ (l.items.getD []).length ≤ i → ObjectList.get i (some l) = .nil) ∧
    ObjectList.get i none = .nil := by
  refine ⟨?_, ?_, rfl⟩
  · intro item hi h
    have hl : i.toNat < (l.items.getD []).length := by
      rcases Nat.lt_or_ge i.toNat (l.items.getD []).length with h' | h'
      · exact h'
      · rw [List.getElem?_eq_none h'] at h
        exact absurd h (by simp)
    have hn : ¬ (i < 0 ∨ i ≥ l.elements.length) := by
      unfold ObjectList.elements
      omega
    unfold ObjectList.get
    simp only [if_neg hn]
    unfold ObjectList.elements
    rw [List.getD_eq_getElem?_getD, h]
    rfl
  · intro h
    have hn : i < 0 ∨ i ≥ l.elements.length := by
      unfold ObjectList.elements
      omega
    unfold ObjectList.get
    simp only [if_pos hn]

/-- C45: iterating calls the function for the items in order, with their positions, and stops at the
first one for which it returns false. Nothing is called for the nil list. -/
theorem c45_iterate {σ : Type} (l : ObjectList) (s : σ) :
    (∀ f : Nat → Val → σ → Bool × σ,
      Visits f s (l.items.getD []) (ObjectList.range f s (some l)) ∧
      ObjectList.range f s none = s) ∧
    (∀ f : Val → σ → Bool × σ,
      Visits (fun _ => f) s (l.items.getD []) (ObjectList.each f s (some l)) ∧
      ObjectList.each f s none = s) := by
  refine ⟨fun f => ⟨?_, rfl⟩, fun f => ⟨?_, rfl⟩⟩
  · exact rangeLoop_visits f s l.elements 0 [] l.elements rfl rfl (by intro k _ h; omega)
  · simp only [ObjectList.each]
    rw [eachLoop_eq_rangeLoop f l.elements s 0]
    exact rangeLoop_visits (fun _ => f) s l.elements 0 [] l.elements rfl rfl (by intro k _ h; omega)

/-- C45: there is only one final state like that. -/
theorem c45_iterate_unique {σ : Type} (f : Nat → Val → σ → Bool × σ) (s : σ) (items : List Val)
    (a b : σ) (ha : Visits f s items a) (hb : Visits f s items b) : a = b := by
  obtain ⟨n, hn, rfl, h1, h2, h3⟩ := ha
  obtain ⟨m, hm, rfl, k1, k2, k3⟩ := hb
  have key : ∀ n m : Nat, n ≤ items.length → m ≤ items.length →
      (∀ item, 0 < n → items[n - 1]? = some item →
        ((f (n - 1) item (visited f s items (n - 1))).1 = true → n = items.length)) →
      (n = 0 → items = []) →
      (∀ k item, k + 1 < m → items[k]? = some item → (f k item (visited f s items k)).1 = true) →
      ¬ n < m := by
    intro n m hn hm h2 h3 k1 hlt
    rcases Nat.eq_zero_or_pos n with h0 | h0
    · have := h3 h0
      rw [this] at hm
      simp at hm
      omega
    · have hl : n - 1 < items.length := by omega
      have := h2 (items[n - 1]) h0 (List.getElem?_eq_getElem hl)
        (k1 (n - 1) _ (by omega) (List.getElem?_eq_getElem hl))
      omega
  have e : n = m := by
    have a1 := key n m hn hm h2 h3 k1
    have a2 := key m n hm hn k2 k3 h1
    omega
  rw [e]

/-- C45: the rest of the accessors of lists, and the setters. -/
theorem c45_header (name href : Text) (link : Bool) (items : Option (List Val)) (l : ObjectList) :
    ObjectList.kind name (some l) = name ++ (if l.link = true then t!"Link" else []) ∧
    ObjectList.isLink (some l) = l.link ∧
    ObjectList.address (some l) = l.href ∧
    ObjectList.getAddress (some l) = (l.href, decide (l.href ≠ [])) ∧
    ObjectList.kind name none = name ++ t!"Nil" ∧ ObjectList.isLink none = false ∧
    ObjectList.address none = [] ∧ ObjectList.getAddress none = ([], false) ∧
    ObjectList.setLink link (some l) = some ⟨l.href, link, l.items⟩ ∧
    ObjectList.setHREF href (some l) = some ⟨href, l.link, l.items⟩ ∧
    ObjectList.setItems items (some l) = some ⟨l.href, l.link, items⟩ := by
  refine ⟨?_, rfl, rfl, ?_, rfl, rfl, rfl, rfl, rfl, rfl, rfl⟩
  · simp only [ObjectList.kind]
    split <;> simp_all
  · simp only [ObjectList.getAddress]
    split
    · simp_all
    · rename_i h
      have : l.href = [] := Decidable.byContradiction h
      rw [this]
      simp

/-- A list with three items, and a function that counts and stops at the second. -/
example : ObjectList.get (-1) (some { items := some [.int 1, .int 2, .int 3] }) = .nil ∧
    ObjectList.get 2 (some { items := some [.int 1, .int 2, .int 3] }) = .int 3 ∧
    ObjectList.get 3 (some { items := some [.int 1, .int 2, .int 3] }) = .nil ∧
    ObjectList.range (fun i _ (s : List Nat) => (i != 1, s ++ [i])) []
      (some { items := some [.int 1, .int 2, .int 3] }) = [0, 1] ∧
    ObjectList.each (fun _ (s : Nat) => (true, s + 1)) 0
      (some { items := some [.int 1, .int 2, .int 3] }) = 3 :=
  ⟨rfl, rfl, rfl, rfl, rfl⟩

/-- C45: the version of the server in the metadata. -/
theorem c45_metadata (m : Metadata) :
    Metadata.getVersionOk (some m) =
      (if m.bitmap.testBit 0 = true then (m.serverVersion, true) else ([], false)) ∧
    Metadata.getVersion (some m) = (Metadata.getVersionOk (some m)).1 ∧
    Metadata.getVersionOk none = ([], false) ∧ Metadata.getVersion none = [] := by
  refine ⟨rfl, ?_, rfl, rfl⟩
  simp only [Metadata.getVersion, Metadata.getVersionOk]
  split <;> rfl

end GoTypes

end Verif
