import Verif.Lemmas.BuilderBuild
import Verif.Lemmas.GoMap

/-! The memory is always consistent with the types. -/

namespace Verif

namespace GoBuilder

open GoJson

/-- The Go type of a cell. -/
inductive Tag
  | builder (ty : TypeId)
  | listBuilder (ty : TypeId)
  | map (element : TypeId)

def Cell.tag : Cell → Tag
  | .builder ty _ _ _ _ => .builder ty
  | .listBuilder ty _ => .listBuilder ty
  | .map e _ => .map e

/-- Cells keep their type. -/
def Keeps (mem mem' : Mem) : Prop :=
  ∀ (r : Nat) c, mem[r]? = some c → ∃ c', mem'[r]? = some c' ∧ c'.tag = c.tag

theorem Keeps.refl (mem : Mem) : Keeps mem mem := fun _ c h => ⟨c, h, rfl⟩

theorem Keeps.trans {a b c : Mem} (h1 : Keeps a b) (h2 : Keeps b c) : Keeps a c := by
  intro r x hx
  obtain ⟨y, hy, e1⟩ := h1 r x hx
  obtain ⟨z, hz, e2⟩ := h2 r y hy
  exact ⟨z, hz, by rw [e2, e1]⟩

theorem Keeps.of_extends {mem mem' : Mem} (h : ∃ extra, mem' = mem ++ extra) : Keeps mem mem' :=
  fun r c hc => ⟨c, getElem?_of_extends h r c hc, rfl⟩

theorem Keeps.of_set {mem : Mem} {r : Ref} {c c' : Cell} (h : mem[r]? = some c) (ht : c'.tag = c.tag) :
    Keeps mem (mem.set r c') := by
  intro q x hx
  by_cases hq : r = q
  · subst hq
    rw [h] at hx
    cases hx
    exact ⟨c', getElem?_set_self' _ h, ht⟩
  · exact ⟨x, by rw [List.getElem?_set_ne hq, hx], rfl⟩

theorem elementFits_mono {S : Schema} {mem mem' : Mem} {ty : TypeId} {v : BVal} (hk : Keeps mem mem')
    (h : elementFits S mem ty v = true) : elementFits S mem' ty v = true := by
  unfold elementFits at h ⊢
  cases hS : S ty <;> cases v <;> simp only [hS] at h ⊢ <;> try exact h
  rename_i r
  split at h
  · rename_i hc
    obtain ⟨c', hc', ht⟩ := hk r _ hc
    cases c' <;> simp [Cell.tag] at ht
    subst ht
    simp only [hc']
    exact h
  · exact absurd h (by simp)

theorem fits_mono {S : Schema} {mem mem' : Mem} {ty : TypeId} {link : Bool} {v : BVal}
    (hk : Keeps mem mem') (h : fits S mem ty link v = true) : fits S mem' ty link v = true := by
  unfold fits at h ⊢
  cases hS : S ty <;> cases v <;> simp only [hS] at h ⊢ <;>
    first
    | exact h
    | exact elementFits_mono hk h
    | skip
  · rename_i r
    split at h
    · rename_i hc
      obtain ⟨c', hc', ht⟩ := hk r _ hc
      cases c' <;> simp [Cell.tag] at ht
      subst ht
      simp only [hc']
      exact h
    · exact absurd h (by simp)
  · simp only [Bool.and_eq_true, List.all_eq_true] at h ⊢
    exact ⟨h.1, fun x hx => elementFits_mono hk (h.2 x hx)⟩
  · rename_i r
    split at h
    · rename_i hc
      obtain ⟨c', hc', ht⟩ := hk r _ hc
      cases c' <;> simp [Cell.tag] at ht
      subst ht
      simp only [hc']
      exact h
    · exact absurd h (by simp)

/-- A field has a value of its type. -/
def FieldOk (S : Schema) (mem : Mem) (a : AttrShape) (f : BVal) : Prop :=
  fits S mem a.typ a.link f = true ∨ (f = .nil ∧ (S a.typ).isScalar = false)

theorem FieldOk.mono {S : Schema} {mem mem' : Mem} {a : AttrShape} {f : BVal} (hk : Keeps mem mem')
    (h : FieldOk S mem a f) : FieldOk S mem' a f :=
  h.imp (fits_mono hk) (·)

/-- Fields have values of their types. -/
def FieldsOk (S : Schema) (mem : Mem) : List AttrShape → List BVal → Prop
  | [], [] => True
  | a :: as, f :: fs => FieldOk S mem a f ∧ FieldsOk S mem as fs
  | _, _ => False

theorem FieldsOk.mono {S : Schema} {mem mem' : Mem} (hk : Keeps mem mem') :
    ∀ {as : List AttrShape} {fs : List BVal}, FieldsOk S mem as fs → FieldsOk S mem' as fs
  | [], [], _ => trivial
  | a :: as, f :: fs, h => ⟨h.1.mono hk, FieldsOk.mono hk h.2⟩
  | [], _ :: _, h => h.elim
  | _ :: _, [], h => h.elim

theorem FieldsOk.length {S : Schema} {mem : Mem} :
    ∀ {as : List AttrShape} {fs : List BVal}, FieldsOk S mem as fs → fs.length = as.length
  | [], [], _ => rfl
  | a :: as, f :: fs, h => by simp [FieldsOk.length h.2]
  | [], _ :: _, h => h.elim
  | _ :: _, [], h => h.elim

theorem FieldsOk.get {S : Schema} {mem : Mem} :
    ∀ {as : List AttrShape} {fs : List BVal}, FieldsOk S mem as fs →
      ∀ (n : Nat) a f, as[n]? = some a → fs[n]? = some f → FieldOk S mem a f
  | [], [], _, n, a, f, ha, _ => by simp at ha
  | a :: as, f :: fs, h, n, a', f', ha, hf => by
    cases n with
    | zero =>
      simp at ha hf
      subst ha
      subst hf
      exact h.1
    | succ n => exact FieldsOk.get h.2 n a' f' (by simpa using ha) (by simpa using hf)
  | [], _ :: _, h, _, _, _, _, _ => h.elim
  | _ :: _, [], h, _, _, _, _, _ => h.elim

theorem FieldsOk.set {S : Schema} {mem : Mem} :
    ∀ {as : List AttrShape} {fs : List BVal}, FieldsOk S mem as fs →
      ∀ (n : Nat) a f, as[n]? = some a → FieldOk S mem a f → FieldsOk S mem as (fs.set n f)
  | [], [], _, n, a, f, ha, _ => by simp at ha
  | a :: as, f :: fs, h, n, a', f', ha, hf => by
    cases n with
    | zero =>
      simp at ha
      subst ha
      exact ⟨hf, h.2⟩
    | succ n => exact ⟨h.1, FieldsOk.set h.2 n a' f' (by simpa using ha) hf⟩
  | [], _ :: _, h, _, _, _, _, _ => h.elim
  | _ :: _, [], h, _, _, _, _, _ => h.elim

/-- The contents of a cell have the types of the cell. -/
def CellOk (S : Schema) (mem : Mem) : Cell → Prop
  | .builder ty _ _ _ fields => ∃ c n as, S ty = .struct c n as ∧ FieldsOk S mem as fields
  | .listBuilder ty items => (∃ n e, S ty = .list n e ∧ ∃ c n as, S e = .struct c n as) ∧
      fits S mem ty false items = true
  | .map element entries => ∀ e ∈ entries, elementFits S mem element e.2 = true

theorem CellOk.mono {S : Schema} {mem mem' : Mem} {c : Cell} (hk : Keeps mem mem')
    (h : CellOk S mem c) : CellOk S mem' c := by
  cases c with
  | builder ty bm i hr fs =>
    obtain ⟨c, n, as, h1, h2⟩ := h
    exact ⟨c, n, as, h1, h2.mono hk⟩
  | listBuilder ty items => exact ⟨h.1, fits_mono hk h.2⟩
  | map e es => exact fun x hx => elementFits_mono hk (h x hx)

/-- All the cells are correct. -/
def MemOk (S : Schema) (mem : Mem) : Prop := ∀ c ∈ mem, CellOk S mem c

theorem MemOk.nil (S : Schema) : MemOk S [] := fun _ h => absurd h (by simp)

theorem MemOk.snoc {S : Schema} {mem : Mem} {c : Cell} (h : MemOk S mem)
    (hc : CellOk S mem c) : MemOk S (mem ++ [c]) := by
  have hk : Keeps mem (mem ++ [c]) := Keeps.of_extends ⟨_, rfl⟩
  intro x hx
  rcases List.mem_append.mp hx with hx | hx
  · exact (h x hx).mono hk
  · simp at hx
    subst hx
    exact hc.mono hk

theorem MemOk.set {S : Schema} {mem : Mem} {r : Ref} {c c' : Cell} (h : MemOk S mem)
    (hr : mem[r]? = some c) (ht : c'.tag = c.tag) (hc : CellOk S mem c') : MemOk S (mem.set r c') := by
  have hk := Keeps.of_set hr ht
  intro x hx
  rcases List.mem_or_eq_of_mem_set hx with hx | rfl
  · exact (h x hx).mono hk
  · exact hc.mono hk

theorem MemOk.get {S : Schema} {mem : Mem} {r : Ref} {c : Cell} (h : MemOk S mem)
    (hr : mem[r]? = some c) : CellOk S mem c := h c (List.mem_of_getElem? hr)

theorem scalarFits_zero (s : Shape) (h : s.isScalar = true) : scalarFits s (zero s) = true := by
  cases s <;> simp [Shape.isScalar, scalarFits, zero] at *

theorem fits_scalar (S : Schema) (mem : Mem) (ty : TypeId) (link : Bool) (v : Val)
    (h : scalarFits (S ty) v = true) : fits S mem ty link (.scalar v) = true := by
  unfold fits
  cases hS : S ty <;> simp only [hS, elementFits] at h ⊢ <;> first | exact h | (simp [scalarFits] at h)

theorem fieldsOk_zero (S : Schema) (mem : Mem) (as : List AttrShape) :
    FieldsOk S mem as (as.map (zeroField S)) := by
  induction as with
  | nil => trivial
  | cons a as ih =>
    refine ⟨?_, ih⟩
    unfold zeroField FieldOk
    cases h : (S a.typ).isScalar with
    | true =>
      rw [if_pos rfl]
      exact .inl (fits_scalar S mem _ _ _ (scalarFits_zero _ h))
    | false =>
      rw [if_neg (by simp)]
      exact .inr ⟨rfl, rfl⟩

theorem elementFits_last (S : Schema) (mem : Mem) (ty : TypeId) (bm : Nat) (i h : Text)
    (fs : List BVal) (c : Bool) (n : Text) (as : List AttrShape) (hS : S ty = .struct c n as) :
    elementFits S (mem ++ [.builder ty bm i h fs]) ty (.ref mem.length) = true := by
  simp [elementFits, hS]

theorem typed_scalar (S : Schema) (ty : TypeId) (mem : Mem) (v : Val) (hs : (S ty).isScalar = true)
    (ht : typed S ty false v = true) : elementFits S mem ty (.scalar v) = true := by
  have hf : scalarFits (S ty) v = true := by
    cases v with
    | nil =>
      simp only [typed] at ht
      cases h : S ty <;> simp [h, Shape.isScalar] at ht hs
    | obj =>
      simp only [typed] at ht
      cases h : S ty <;> simp [h, Shape.isScalar] at ht hs
    | list =>
      simp only [typed] at ht
      cases h : S ty <;> simp [h, Shape.isScalar] at ht hs
    | linkList l h items =>
      cases items <;> simp only [typed] at ht <;>
        cases h : S ty <;> simp [h, Shape.isScalar] at ht hs
    | map es =>
      simp only [typed] at ht
      cases h : S ty <;> simp [h, Shape.isScalar] at ht hs
    | _ => simpa [typed] using ht
  unfold elementFits
  cases h : S ty <;> simp only [h] at hf ⊢ <;> first | exact hf | (simp [h, Shape.isScalar] at hs)

theorem typedItems_scalar (S : Schema) (element : TypeId) (mem : Mem) (vs : List Val)
    (hs : (S element).isScalar = true) (ht : typedItems S element vs = true) :
    ∀ v ∈ vs, elementFits S mem element (.scalar v) = true := by
  induction vs with
  | nil => simp
  | cons v vs ih =>
    simp only [typedItems, Bool.and_eq_true] at ht
    intro x hx
    rcases List.mem_cons.mp hx with rfl | hx
    · exact typed_scalar S element mem x hs ht.1
    · exact ih ht.2 x hx

theorem typedEntries_scalar (S : Schema) (element : TypeId) (mem : Mem) (vs : List (Text × Val))
    (hs : (S element).isScalar = true) (ht : typedEntries S element vs = true) :
    ∀ v ∈ vs, elementFits S mem element (.scalar v.2) = true := by
  induction vs with
  | nil => simp
  | cons v vs ih =>
    obtain ⟨k, v⟩ := v
    simp only [typedEntries, Bool.and_eq_true] at ht
    intro x hx
    rcases List.mem_cons.mp hx with rfl | hx
    · exact typed_scalar S element mem v hs ht.1
    · exact ih ht.2 x hx

mutual
theorem copyNew_types (S : Schema) (ty : TypeId) (mem : Mem) (c : Bool) (n : Text)
    (as : List AttrShape) (hS : S ty = .struct c n as) (v : Val) (ht : typed S ty false v = true)
    (hm : MemOk S mem) :
    MemOk S (copyNew S ty mem v).1 ∧
      elementFits S (copyNew S ty mem v).1 ty (copyNew S ty mem v).2 = true := by
  cases v with
  | obj bitmap id href fields =>
    simp only [typed, hS, Bool.and_eq_true] at ht
    obtain ⟨h1, h2⟩ := copyFields_types S mem as (as.map (zeroField S)) fields ht.2 hm
      (fieldsOk_zero S mem as)
    simp only [copyNew, hS, allocCopy]
    exact ⟨h1.snoc ⟨c, n, as, hS, h2⟩, elementFits_last S _ ty _ _ _ _ c n as hS⟩
  | nil =>
    simp only [copyNew, hS]
    exact ⟨hm.snoc ⟨c, n, as, hS, fieldsOk_zero S mem as⟩, elementFits_last S _ ty _ _ _ _ c n as hS⟩
  | linkList l h items =>
    exfalso
    cases items <;> simp [typed, hS] at ht
  | _ =>
    exfalso
    simp [typed, hS, scalarFits] at ht
theorem copyField_types (S : Schema) (a : AttrShape) (old : BVal) (mem : Mem) (v : Val)
    (ht : typed S a.typ a.link v = true) (hm : MemOk S mem) (hold : FieldOk S mem a old) :
    MemOk S (copyField S a.typ a.link old mem v).1 ∧
      FieldOk S (copyField S a.typ a.link old mem v).1 a (copyField S a.typ a.link old mem v).2 := by
  cases v with
  | nil =>
    simp only [typed] at ht
    cases hS : S a.typ <;> simp [hS] at ht <;> simp only [copyField, hS] <;>
      exact ⟨hm, .inr ⟨rfl, by simp [hS, Shape.isScalar]⟩⟩
  | obj bitmap id href fields =>
    simp only [typed] at ht
    cases hS : S a.typ <;> simp [hS] at ht
    case struct c n as =>
      obtain ⟨h1, h2⟩ := copyFields_types S mem as (as.map (zeroField S)) fields ht.2 hm
        (fieldsOk_zero S mem as)
      simp only [copyField, hS, allocCopy]
      refine ⟨h1.snoc ⟨c, n, as, hS, h2⟩, .inl ?_⟩
      have := elementFits_last S (copyFields S mem as (as.map (zeroField S)) fields).1 a.typ bitmap
        (if c = true then id else []) (if c = true then href else [])
        (copyFields S mem as (as.map (zeroField S)) fields).2 c n as hS
      unfold fits
      simp only [hS]
      exact this
  | list items =>
    simp only [typed] at ht
    cases hS : S a.typ <;> simp [hS] at ht
    case list n element =>
      simp only [copyField, hS, ht.1, Bool.false_eq_true, if_false]
      split
      · rename_i c n' as hs
        obtain ⟨h1, h2⟩ := copyItems_types S element mem c n' as hs items ht.2 hm
        refine ⟨h1, .inl ?_⟩
        unfold fits
        simp only [hS, ht.1, Bool.not_false, Bool.true_and, List.all_eq_true]
        exact h2
      · split
        · rename_i hs
          refine ⟨hm, .inl ?_⟩
          unfold fits
          simp only [hS, ht.1, Bool.not_false, Bool.true_and, List.all_eq_true, List.mem_map]
          rintro x ⟨v, hv, rfl⟩
          exact typedItems_scalar S element mem items hs ht.2 v hv
        · exact ⟨hm, hold⟩
  | linkList l h items =>
    cases items with
    | list items =>
      simp only [typed] at ht
      cases hS : S a.typ <;> simp [hS] at ht
      case list n element =>
        cases hs : S element <;> simp [hs] at ht
        case struct c n' as =>
          obtain ⟨h1, h2⟩ := copyItems_types S element mem c n' as hs items ht.2 hm
          simp only [copyField, hS, ht.1, if_true]
          refine ⟨h1.snoc ⟨⟨n, element, hS, c, n', as, hs⟩, ?_⟩, .inl ?_⟩
          · unfold fits
            simp only [hS, Bool.not_false, Bool.true_and, List.all_eq_true]
            exact h2
          · unfold fits
            simp [hS, ht.1]
    | nil =>
      simp only [typed] at ht
      cases hS : S a.typ <;> simp [hS] at ht
      case list n element =>
        cases hs : S element <;> simp [hs] at ht
        case struct c n' as =>
          simp only [copyField, hS, ht, if_true]
          refine ⟨hm.snoc ⟨⟨n, element, hS, c, n', as, hs⟩, ?_⟩, .inl ?_⟩
          · unfold fits
            simp [hS]
          · unfold fits
            simp [hS, ht]
    | _ => simp [typed] at ht
  | map es =>
    simp only [typed] at ht
    cases hS : S a.typ <;> simp [hS] at ht
    case map element =>
      cases es with
      | nil =>
        simp only [copyField, hS]
        exact ⟨hm, .inr ⟨rfl, by simp [hS, Shape.isScalar]⟩⟩
      | cons e es =>
        simp only [copyField, hS]
        split
        · rename_i c n' as hs
          obtain ⟨h1, h2⟩ := copyEntries_types S element mem c n' as hs (e :: es) ht hm
          refine ⟨h1.snoc h2, .inl ?_⟩
          unfold fits
          simp [hS]
        · split
          · rename_i hs
            refine ⟨hm.snoc ?_, .inl ?_⟩
            · intro x hx
              obtain ⟨y, hy, rfl⟩ := List.mem_map.mp hx
              exact typedEntries_scalar S element mem (e :: es) hs ht y hy
            · unfold fits
              simp [hS]
          · exact ⟨hm, hold⟩
  | _ =>
    have hs := scalarFits_isScalar (S a.typ) _ (by simpa [typed] using ht)
    simp only [copyField, hs, if_true]
    exact ⟨hm, .inl (fits_scalar S mem _ _ _ (by simpa [typed] using ht))⟩
theorem copyFields_types (S : Schema) (mem : Mem) (as : List AttrShape) (olds : List BVal)
    (vs : List Val) (ht : typedFields S as vs = true) (hm : MemOk S mem)
    (ho : FieldsOk S mem as olds) :
    MemOk S (copyFields S mem as olds vs).1 ∧
      FieldsOk S (copyFields S mem as olds vs).1 as (copyFields S mem as olds vs).2 := by
  match as, olds, vs with
  | [], [], [] =>
    simp only [copyFields]
    exact ⟨hm, trivial⟩
  | [], _, v :: vs => simp [typedFields] at ht
  | [], o :: olds, _ => exact ho.elim
  | a :: as, _, [] => simp [typedFields] at ht
  | a :: as, [], v :: vs => exact ho.elim
  | a :: as, old :: olds, v :: vs =>
    simp only [typedFields, Bool.and_eq_true] at ht
    obtain ⟨h1, h2⟩ := copyField_types S a old mem v ht.1 hm ho.1
    have hk1 := Keeps.of_extends (copyField_grows S a.typ a.link old mem v)
    obtain ⟨h3, h4⟩ := copyFields_types S (copyField S a.typ a.link old mem v).1 as olds vs ht.2 h1
      (ho.2.mono hk1)
    have hk2 := Keeps.of_extends
      (copyFields_grows S (copyField S a.typ a.link old mem v).1 as olds vs)
    simp only [copyFields]
    exact ⟨h3, h2.mono hk2, h4⟩
theorem copyItems_types (S : Schema) (element : TypeId) (mem : Mem) (c : Bool) (n : Text)
    (as : List AttrShape) (hS : S element = .struct c n as) (vs : List Val)
    (ht : typedItems S element vs = true) (hm : MemOk S mem) :
    MemOk S (copyItems S element mem vs).1 ∧
      ∀ x ∈ (copyItems S element mem vs).2,
        elementFits S (copyItems S element mem vs).1 element x = true := by
  match vs with
  | [] =>
    simp only [copyItems]
    exact ⟨hm, by simp⟩
  | v :: vs =>
    simp only [typedItems, Bool.and_eq_true] at ht
    obtain ⟨h1, h2⟩ := copyNew_types S element mem c n as hS v ht.1 hm
    obtain ⟨h3, h4⟩ := copyItems_types S element (copyNew S element mem v).1 c n as hS vs ht.2 h1
    have hk := Keeps.of_extends (copyItems_grows S element (copyNew S element mem v).1 vs)
    simp only [copyItems]
    refine ⟨h3, ?_⟩
    intro x hx
    rcases List.mem_cons.mp hx with rfl | hx
    · exact elementFits_mono hk h2
    · exact h4 x hx
theorem copyEntries_types (S : Schema) (element : TypeId) (mem : Mem) (c : Bool) (n : Text)
    (as : List AttrShape) (hS : S element = .struct c n as) (vs : List (Text × Val))
    (ht : typedEntries S element vs = true) (hm : MemOk S mem) :
    MemOk S (copyEntries S element mem vs).1 ∧
      ∀ x ∈ (copyEntries S element mem vs).2,
        elementFits S (copyEntries S element mem vs).1 element x.2 = true := by
  match vs with
  | [] =>
    simp only [copyEntries]
    exact ⟨hm, by simp⟩
  | (k, v) :: vs =>
    simp only [typedEntries, Bool.and_eq_true] at ht
    obtain ⟨h1, h2⟩ := copyNew_types S element mem c n as hS v ht.1 hm
    obtain ⟨h3, h4⟩ := copyEntries_types S element (copyNew S element mem v).1 c n as hS vs ht.2 h1
    have hk := Keeps.of_extends (copyEntries_grows S element (copyNew S element mem v).1 vs)
    simp only [copyEntries]
    refine ⟨h3, ?_⟩
    intro x hx
    rcases List.mem_cons.mp hx with rfl | hx
    · exact elementFits_mono hk h2
    · exact h4 x hx
end

theorem fits_stored {S : Schema} {mem : Mem} {a : AttrShape} {v : BVal}
    (h : fits S mem a.typ a.link v = true) : fits S mem a.typ a.link (stored S a v) = true := by
  unfold stored
  split
  · rename_i n e hS
    split
    · exact h
    · rename_i hl
      have hl : a.link = false := by simpa using hl
      cases v with
      | list items => exact h
      | _ =>
        unfold copySlice fits
        simp [hS, hl]
  · exact h

theorem mem_insert_entries {m : GoMap BVal} {k : Text} {v : BVal} {e : Text × BVal}
    (h : e ∈ m.insert k v) : e ∈ m ∨ e.2 = v := by
  rcases GoMap.insert_mem h with h | h
  · exact .inr (by rw [h])
  · exact .inl h

/-- Calls keep the memory consistent with the types. -/
theorem exec_types (S : Schema) (mem mem' : Mem) (c : Call) (h : exec S mem c = some mem')
    (hm : MemOk S mem) : MemOk S mem' ∧ Keeps mem mem' := by
  cases c with
  | new ty =>
    simp only [exec] at h
    split at h
    · rename_i c n as hS
      cases h
      exact ⟨hm.snoc ⟨c, n, as, hS, fieldsOk_zero S mem as⟩, Keeps.of_extends ⟨_, rfl⟩⟩
    · cases h
  | newList ty =>
    simp only [exec] at h
    split at h
    · rename_i n e hS
      split at h
      · rename_i c n' as hs
        cases h
        refine ⟨hm.snoc ⟨⟨n, e, hS, c, n', as, hs⟩, ?_⟩, Keeps.of_extends ⟨_, rfl⟩⟩
        unfold fits
        simp [hS]
      · cases h
    · cases h
  | newMap e =>
    simp only [exec] at h
    cases h
    exact ⟨hm.snoc (fun x hx => absurd hx (by simp)), Keeps.of_extends ⟨_, rfl⟩⟩
  | link r v =>
    simp only [exec] at h
    split at h
    · rename_i hr
      split at h
      · cases h
        refine ⟨hm.set hr rfl ?_, Keeps.of_set hr rfl⟩
        have hcell := hm.get hr
        exact hcell
      · cases h
    · cases h
  | id r v =>
    simp only [exec] at h
    split at h
    · rename_i hr
      split at h
      · cases h
        refine ⟨hm.set hr rfl ?_, Keeps.of_set hr rfl⟩
        have hcell := hm.get hr
        exact hcell
      · cases h
    · cases h
  | href r v =>
    simp only [exec] at h
    split at h
    · rename_i hr
      split at h
      · cases h
        refine ⟨hm.set hr rfl ?_, Keeps.of_set hr rfl⟩
        have hcell := hm.get hr
        exact hcell
      · cases h
    · cases h
  | set r i v =>
    simp only [exec] at h
    split at h
    · rename_i hr
      split at h
      · rename_i c n as hS
        split at h
        · rename_i a ha
          split at h
          · rename_i hf
            cases h
            refine ⟨hm.set hr rfl ?_, Keeps.of_set hr rfl⟩
            obtain ⟨c', n', as', hS', hfs⟩ := hm.get hr
            rw [hS] at hS'
            cases hS'
            exact ⟨c, n, as, hS, hfs.set i a _ ha (.inl (fits_stored hf))⟩
          · cases h
        · cases h
      · cases h
    · cases h
  | items r v =>
    simp only [exec] at h
    split at h
    · rename_i ty it hr
      split at h
      · rename_i hf
        cases h
        refine ⟨hm.set hr rfl ?_, Keeps.of_set hr rfl⟩
        obtain ⟨⟨n, e, hS, hs⟩, -⟩ := hm.get hr
        refine ⟨⟨n, e, hS, hs⟩, ?_⟩
        cases v with
        | list items => exact hf
        | _ =>
          unfold copySlice fits
          simp [hS]
      · cases h
    · cases h
  | put r k v =>
    simp only [exec] at h
    split at h
    · rename_i e es hr
      split at h
      · rename_i hf
        cases h
        refine ⟨hm.set hr rfl ?_, Keeps.of_set hr rfl⟩
        intro x hx
        rcases mem_insert_entries hx with hx | hx
        · exact hm.get hr x hx
        · rw [hx]; exact hf
      · cases h
    · cases h
  | copy r o =>
    simp only [exec] at h
    split at h
    · rename_i ty bm i hh fs hr
      split at h
      · rename_i ht
        unfold copy at h
        split at h
        · simp only [hr] at h
          split at h
          · rename_i bitmap id href fields _ c n as hS
            simp only [typed, hS, Bool.and_eq_true] at ht
            obtain ⟨c', n', as', hS', hfs⟩ := hm.get hr
            rw [hS] at hS'
            cases hS'
            obtain ⟨h1, h2⟩ := copyFields_types S mem as fs fields ht.2 hm hfs
            have hg := copyFields_grows S mem as fs fields
            have hr' := getElem?_of_extends hg r _ hr
            cases h
            exact ⟨h1.set hr' rfl ⟨c, n, as, hS, h2⟩,
              (Keeps.of_extends hg).trans (Keeps.of_set hr' rfl)⟩
          · cases h
        · cases h
          exact ⟨hm, Keeps.refl _⟩
      · cases h
    · cases h
  | copyList r o =>
    simp only [exec] at h
    split at h
    · rename_i ty it hr
      split at h
      · rename_i ht
        unfold copyList at h
        simp only [hr] at h
        obtain ⟨⟨n, e, hS, c, n', as, hs⟩, -⟩ := hm.get hr
        simp only [hS] at h
        split at h
        · rename_i l hh items
          simp only [typed, hS, hs, Bool.true_and] at ht
          obtain ⟨h1, h2⟩ := copyItems_types S e mem c n' as hs items ht hm
          have hg := copyItems_grows S e mem items
          have hr' := getElem?_of_extends hg r _ hr
          cases h
          refine ⟨h1.set hr' rfl ⟨⟨n, e, hS, c, n', as, hs⟩, ?_⟩,
            (Keeps.of_extends hg).trans (Keeps.of_set hr' rfl)⟩
          unfold fits
          simp only [hS, Bool.not_false, Bool.true_and, List.all_eq_true]
          exact h2
        · cases h
          refine ⟨hm.set hr rfl ⟨⟨n, e, hS, c, n', as, hs⟩, ?_⟩, Keeps.of_set hr rfl⟩
          unfold fits
          simp [hS]
      · cases h
    · cases h

theorem execAll_types (S : Schema) (cs : List Call) (mem mem' : Mem)
    (h : execAll S mem cs = some mem') (hm : MemOk S mem) : MemOk S mem' := by
  induction cs generalizing mem with
  | nil =>
    simp only [execAll] at h
    cases h
    exact hm
  | cons c cs ih =>
    simp only [execAll] at h
    split at h
    · cases h
    · rename_i mem1 h1
      exact ih mem1 h (exec_types S mem mem1 c h1 hm).1

/-! ## Building succeeds for sound builders -/

/-- The values that a field may use. -/
def used (mem : Mem) : BVal → List BVal
  | .ref r =>
    match mem[r]? with
    | some (.builder _ _ _ _ _) => [.ref r]
    | some (.listBuilder _ (.list items)) => items
    | some (.map _ entries) => entries.map Prod.snd
    | _ => []
  | .list items => items
  | _ => []

theorem mem_used {mem : Mem} {f x : BVal} (h : Uses mem f x) : x ∈ used mem f := by
  cases h with
  | object h => simp [used, h]
  | slice h _ => exact h
  | list h hx =>
    simp only [used, h]
    exact hx
  | map h hx _ =>
    simp only [used, h, List.mem_map]
    exact ⟨_, hx, rfl⟩

theorem elementFits_cases {S : Schema} {mem : Mem} {ty : TypeId} {x : BVal}
    (h : elementFits S mem ty x = true) :
    ((S ty).isScalar = true ∧ ∃ v, x = .scalar v) ∨
    ((∃ c n as, S ty = .struct c n as) ∧ (x = .nil ∨ ∃ r, x = .ref r)) := by
  unfold elementFits at h
  split at h
  · rename_i c n as hS
    exact .inr ⟨⟨c, n, as, hS⟩, .inl rfl⟩
  · rename_i c n as r hS
    exact .inr ⟨⟨c, n, as, hS⟩, .inr ⟨r, rfl⟩⟩
  · rename_i v
    exact .inl ⟨scalarFits_isScalar _ _ h, v, rfl⟩
  · exact absurd h (by simp)

theorem refs_iff {b : Ref → Run Val} {items : List BVal} :
    (∃ v, mapRun (buildRef b) items = .done v) ↔
      ∀ x ∈ items, ∃ q v, x = .ref q ∧ b q = .done v := by
  constructor
  · rintro ⟨vs, h⟩ x hx
    obtain ⟨v, -, hv⟩ := mapRun_mem _ _ _ h x hx
    cases x <;> simp [buildRef] at hv
    exact ⟨_, v, rfl, hv⟩
  · intro h
    apply mapRun_of
    intro x hx
    obtain ⟨q, v, rfl, hv⟩ := h x hx
    exact ⟨v, hv⟩

theorem entries_iff {b : Ref → Run Val} {entries : GoMap BVal} :
    (∃ v, mapRun (buildEntry (buildRef b)) entries = .done v) ↔
      ∀ x ∈ entries, ∃ q v, x.2 = .ref q ∧ b q = .done v := by
  constructor
  · rintro ⟨vs, h⟩ x hx
    obtain ⟨v, -, hv⟩ := mapRun_mem _ _ _ h x hx
    unfold buildEntry at hv
    rw [bind_eq_done] at hv
    obtain ⟨w, hw, -⟩ := hv
    obtain ⟨k, x⟩ := x
    cases x <;> simp [buildRef] at hw
    exact ⟨_, w, rfl, hw⟩
  · intro h
    apply mapRun_of
    intro x hx
    obtain ⟨q, v, hq, hv⟩ := h x hx
    exact ⟨(x.1, v), by simp [buildEntry, hq, buildRef, hv, Run.bind]⟩

theorem scalars_done {items : List BVal} (h : ∀ x ∈ items, ∃ v, x = .scalar v) :
    ∃ vs, mapRun scalarOf items = .done vs := by
  apply mapRun_of
  intro x hx
  obtain ⟨v, rfl⟩ := h x hx
  exact ⟨v, rfl⟩

theorem scalarEntries_done {entries : GoMap BVal} (h : ∀ x ∈ entries, ∃ v, x.2 = .scalar v) :
    ∃ vs, mapRun (buildEntry scalarOf) entries = .done vs := by
  apply mapRun_of
  intro x hx
  obtain ⟨v, hv⟩ := h x hx
  exact ⟨(x.1, v), by simp [buildEntry, hv, scalarOf, Run.bind]⟩

theorem done_bind_iff {α β : Type} (r : Run α) (f : α → β) :
    (∃ v, (r.bind fun a => .done (f a)) = .done v) ↔ ∃ a, r = .done a := by
  constructor
  · rintro ⟨v, hv⟩
    rw [bind_eq_done] at hv
    obtain ⟨a, ha, -⟩ := hv
    exact ⟨a, ha⟩
  · rintro ⟨a, rfl⟩
    exact ⟨f a, rfl⟩

/-- A field can be built exactly if what it uses can be built. -/
theorem buildField_iff {S : Schema} {mem : Mem} (hm : MemOk S mem)
    (b : Ref → Run Val) (a : AttrShape) (f : BVal) (hf : FieldOk S mem a f) :
    (∃ v, buildField b S mem a.typ a.link f = .done v) ↔
      ∀ x, Uses mem f x → ∃ q v, x = .ref q ∧ b q = .done v := by
  rcases hf with hf | ⟨rfl, hs⟩
  · unfold fits at hf
    cases hS : S a.typ with
    | struct c n as =>
      simp only [hS] at hf
      unfold elementFits at hf
      cases f with
      | nil =>
        simp only [buildField, hS, BVal.isNil, if_true]
        exact ⟨fun _ x hx => (by cases hx), fun _ => ⟨_, rfl⟩⟩
      | ref r =>
        simp only [hS] at hf
        split at hf
        · rename_i hr
          simp only [buildField, hS, BVal.isNil, Bool.false_eq_true, if_false, buildRef]
          constructor
          · rintro ⟨v, hv⟩ x hx
            cases hx with
            | object h => exact ⟨r, v, rfl, hv⟩
            | list h _ => rw [hr] at h; cases h
            | map h _ _ => rw [hr] at h; cases h
          · intro h
            obtain ⟨q, v, hq, hv⟩ := h (.ref r) (.object hr)
            cases hq
            exact ⟨v, hv⟩
        · exact absurd hf (by simp)
      | scalar v => simp [hS, scalarFits] at hf
      | list items => simp [hS] at hf
    | list n element =>
      cases f with
      | nil =>
        simp only [buildField, hS, BVal.isNil, if_true]
        exact ⟨fun _ x hx => (by cases hx), fun _ => ⟨_, rfl⟩⟩
      | ref r =>
        simp only [hS] at hf
        split at hf
        · rename_i t items hr
          simp only [Bool.and_eq_true, beq_iff_eq] at hf
          obtain ⟨hl, rfl⟩ := hf
          obtain ⟨⟨n', e', hS', c, n'', as, hs⟩, hfi⟩ := hm.get hr
          rw [hS] at hS'
          cases hS'
          simp only [buildField, hS, BVal.isNil, Bool.false_eq_true, if_false, hl, if_true, hr]
          unfold fits at hfi
          cases items with
          | nil =>
            simp only [buildItems]
            refine ⟨fun _ x hx => ?_, fun _ => ⟨_, rfl⟩⟩
            cases hx with
            | object h => rw [hr] at h; cases h
            | list h _ => rw [hr] at h; cases h
            | map h _ _ => rw [hr] at h; cases h
          | list items =>
            simp only [buildItems]
            rw [done_bind_iff, refs_iff]
            constructor
            · intro h x hx
              cases hx with
              | object h => rw [hr] at h; cases h
              | list h' hx =>
                rw [hr] at h'
                cases h'
                exact h x hx
              | map h _ _ => rw [hr] at h; cases h
            · intro h x hx
              exact h x (.list hr hx)
          | scalar v => simp [hS, elementFits, scalarFits] at hfi
          | ref q =>
            simp only [hS, Bool.false_and] at hfi
            split at hfi <;> exact absurd hfi (by simp)
        · exact absurd hf (by simp)
      | scalar v => simp [hS, elementFits, scalarFits] at hf
      | list items =>
        simp only [hS, Bool.and_eq_true, List.all_eq_true, Bool.not_eq_true'] at hf
        obtain ⟨hl, hf⟩ := hf
        simp only [buildField, hS, BVal.isNil, Bool.false_eq_true, if_false, hl]
        split
        · rename_i c n' as hs
          rw [done_bind_iff, refs_iff]
          constructor
          · intro h x hx
            cases hx with
            | slice hx _ => exact h x hx
          · intro h x hx
            refine h x (.slice hx ?_)
            rintro v rfl
            have := hf _ hx
            simp [elementFits, hs, scalarFits] at this
        · split
          · rename_i hs
            rw [done_bind_iff]
            have hall : ∀ x ∈ items, ∃ v, x = .scalar v := by
              intro x hx
              rcases elementFits_cases (hf x hx) with ⟨-, h⟩ | ⟨⟨c, n', as, h⟩, -⟩
              · exact h
              · simp [h, Shape.isScalar] at hs
            refine ⟨fun _ x hx => ?_, fun _ => scalars_done hall⟩
            cases hx with
            | slice hx hn =>
              obtain ⟨v, hv⟩ := hall x hx
              exact absurd hv (hn v)
          · rename_i hns hs
            refine ⟨fun _ x hx => ?_, fun _ => ⟨_, rfl⟩⟩
            cases hx with
            | slice hx _ =>
              rcases elementFits_cases (hf x hx) with ⟨h, -⟩ | ⟨⟨c, n', as, h⟩, -⟩
              · exact absurd h hs
              · exact absurd h (hns c n' as)
    | map element =>
      cases f with
      | nil =>
        simp only [buildField, hS]
        exact ⟨fun _ x hx => (by cases hx), fun _ => ⟨_, rfl⟩⟩
      | ref r =>
        simp only [hS] at hf
        split at hf
        · rename_i t entries hr
          simp only [beq_iff_eq] at hf
          subst hf
          have hce : ∀ e ∈ entries, elementFits S mem t e.2 = true := hm.get hr
          simp only [buildField, hS, hr]
          split
          · rename_i c n' as hs
            have hd := done_bind_iff (mapRun (buildEntry (buildRef b)) entries) Val.map
            refine Iff.trans hd (Iff.trans entries_iff ?_)
            constructor
            · intro h x hx
              cases hx with
              | object h => rw [hr] at h; cases h
              | list h' hx => rw [hr] at h'; cases h'
              | map h' hx _ =>
                rw [hr] at h'
                cases h'
                exact h _ hx
            · intro h x hx
              refine h x.2 (.map (k := x.1) hr hx ?_)
              intro v hv
              have := hce _ hx
              simp [hv, elementFits, hs, scalarFits] at this
          · split
            · rename_i hs
              have hall : ∀ x ∈ entries, ∃ v, x.2 = .scalar v := by
                intro x hx
                rcases elementFits_cases (hce x hx) with ⟨-, h⟩ | ⟨⟨c, n', as, h⟩, -⟩
                · exact h
                · simp [h, Shape.isScalar] at hs
              have hd := done_bind_iff (mapRun (buildEntry scalarOf) entries) Val.map
              refine Iff.trans hd ⟨fun _ x hx => ?_, fun _ => scalarEntries_done hall⟩
              cases hx with
              | object h => rw [hr] at h; cases h
              | list h' hx => rw [hr] at h'; cases h'
              | map h' hx hn =>
                rw [hr] at h'
                cases h'
                obtain ⟨v, hv⟩ := hall _ hx
                exact absurd hv (hn v)
            · rename_i hns hs
              refine ⟨fun _ x hx => ?_, fun _ => ⟨_, rfl⟩⟩
              cases hx with
              | object h => rw [hr] at h; cases h
              | list h' hx => rw [hr] at h'; cases h'
              | map h' hx hn =>
                rw [hr] at h'
                cases h'
                rcases elementFits_cases (hce _ hx) with ⟨h, -⟩ | ⟨⟨c, n', as, h⟩, -⟩
                · exact absurd h hs
                · exact absurd h (hns c n' as)
        · exact absurd hf (by simp)
      | scalar v => simp [hS, elementFits, scalarFits] at hf
      | list items => simp [hS, elementFits] at hf
    | _ =>
      cases f with
      | scalar v =>
        simp only [buildField, hS, Shape.isScalar, if_true, scalarOf]
        exact ⟨fun _ x hx => (by cases hx), fun _ => ⟨_, rfl⟩⟩
      | _ => simp [hS, elementFits] at hf
  · refine ⟨fun _ x hx => (by cases hx), fun _ => ?_⟩
    unfold buildField
    cases hS : S a.typ <;> simp [hS, Shape.isScalar, BVal.isNil] at hs ⊢

/-- More depth doesn't change what is built. -/
theorem mapRun_mono {α β : Type} {f g : α → Run β} (h : ∀ x y, f x = .done y → g x = .done y)
    (xs : List α) (ys : List β) (hx : mapRun f xs = .done ys) : mapRun g xs = .done ys := by
  induction xs generalizing ys with
  | nil => exact hx
  | cons x xs ih =>
    simp only [mapRun, bind_eq_done] at hx ⊢
    obtain ⟨y, h1, zs, h2, h3⟩ := hx
    exact ⟨y, h x y h1, zs, ih zs h2, h3⟩

end GoBuilder

end Verif
