import Verif.Model.UrlValues
import Verif.Lemmas.ListTypes

/-! Lemmas about the memory with query parameters and headers. -/

namespace Verif

namespace GoHelpers

namespace Heap

/-- The slice is inside its array. -/
def Valid (h : Heap) (s : Slice) : Prop :=
  s.array < h.arrays.length ∧ s.len ≤ (h.arrays.getD s.array []).length

/-- The maps in the list are well formed, and each array is used only by one entry of one of them,
which is given by the function. -/
structure Inv (h : Heap) (refs : List Nat) (owner : Nat → Nat × Text) : Prop where
  bound : ∀ m ∈ refs, m < h.maps.length
  keys : ∀ m ∈ refs, (h.map (some m)).keys.Nodup
  slices : ∀ m ∈ refs, ∀ name s, (h.map (some m)).find name = some (some s) →
    h.Valid s ∧ owner s.array = (m, name)

theorem Inv.sub {h : Heap} {refs refs' : List Nat} {owner : Nat → Nat × Text}
    (i : h.Inv refs owner) (hs : ∀ m ∈ refs', m ∈ refs) : h.Inv refs' owner :=
  ⟨fun m hm => i.bound m (hs m hm), fun m hm => i.keys m (hs m hm),
    fun m hm => i.slices m (hs m hm)⟩

/-! ### Arrays -/

theorem newArray_getD {h : Heap} {a : Nat} (ha : a < h.arrays.length) (c : List Text) :
    (h.newArray c).arrays.getD a [] = h.arrays.getD a [] := by
  simp [newArray, List.getD_eq_getElem?_getD, List.getElem?_append_left ha]

theorem newArray_valid {h : Heap} {s : Slice} (hs : h.Valid s) (c : List Text) :
    (h.newArray c).Valid s := by
  refine ⟨?_, ?_⟩
  · have := hs.1; simp [newArray]; omega
  · rw [newArray_getD hs.1]; exact hs.2

theorem newArray_elements {h : Heap} {s : Option Slice} (hs : ∀ s', s = some s' → h.Valid s')
    (c : List Text) : (h.newArray c).elements s = h.elements s := by
  cases s with
  | none => rfl
  | some s => simp only [elements]; rw [newArray_getD (hs s rfl).1]

theorem newArray_new (h : Heap) (c : List Text) (n : Nat) (hn : n ≤ c.length) :
    (h.newArray c).Valid ⟨h.arrays.length, n⟩ ∧
    (h.newArray c).elements (some ⟨h.arrays.length, n⟩) = c.take n := by
  constructor
  · simp [Valid, newArray, List.getD_eq_getElem?_getD, hn]
  · simp [elements, newArray, List.getD_eq_getElem?_getD]

/-- The owners after a new array. -/
def owned (owner : Nat → Nat × Text) (a : Nat) (o : Nat × Text) : Nat → Nat × Text :=
  fun b => if b = a then o else owner b

theorem Inv.newArray {h : Heap} {refs : List Nat} {owner : Nat → Nat × Text}
    (i : h.Inv refs owner) (c : List Text) (o : Nat × Text) :
    (h.newArray c).Inv refs (owned owner h.arrays.length o) := by
  refine ⟨i.bound, i.keys, fun m hm name s hs => ?_⟩
  obtain ⟨h1, h2⟩ := i.slices m hm name s hs
  refine ⟨newArray_valid h1 c, ?_⟩
  have := h1.1
  unfold owned
  rw [if_neg (by omega), h2]

/-! ### Maps -/

theorem map_put {h : Heap} {m : Nat} (hm : m < h.maps.length) (name : Text) (slice : Option Slice)
    (m' : Nat) :
    (h.put m name slice).map (some m') =
      if m' = m then (h.map (some m)).insert name slice else h.map (some m') := by
  simp only [put, map, List.getD_eq_getElem?_getD]
  by_cases e : m' = m
  · subst e; simp [hm]
  · rw [if_neg e, List.getElem?_set_ne (Ne.symm e)]

theorem values_put {h : Heap} {m : Nat} (hm : m < h.maps.length) (name : Text)
    (slice : Option Slice) (m' : Nat) (name' : Text) :
    (h.put m name slice).values (some m') name' =
      if m' = m ∧ name' = name then h.elements slice else h.values (some m') name' := by
  have he : (h.put m name slice).elements = h.elements := by
    funext s; cases s <;> rfl
  unfold values
  rw [he, map_put hm]
  by_cases e : m' = m
  · subst e
    rw [if_pos rfl, GoMap.find_insert]
    by_cases e' : name' = name
    · subst e'; simp
    · simp [e', Ne.symm e']
  · simp [e]

theorem Inv.put {h : Heap} {refs : List Nat} {owner : Nat → Nat × Text}
    (i : h.Inv refs owner) {m : Nat} (hm : m < h.maps.length) (name : Text) (slice : Option Slice)
    (hs : ∀ s, slice = some s → h.Valid s ∧ owner s.array = (m, name)) :
    (h.put m name slice).Inv refs owner := by
  refine ⟨?_, ?_, ?_⟩
  · intro m' hm'; simpa [Heap.put] using i.bound m' hm'
  · intro m' hm'
    rw [map_put hm]
    split
    · rename_i e; subst e; exact nodup_insert (i.keys m' hm') _ _
    · exact i.keys m' hm'
  · intro m' hm' name' s hf
    rw [map_put hm] at hf
    have hv : ∀ s, (h.put m name slice).Valid s ↔ h.Valid s := fun s => Iff.rfl
    rw [hv]
    split at hf
    · rename_i e
      subst e
      rw [GoMap.find_insert] at hf
      split at hf
      · rename_i e'
        subst e'
        rw [Option.some.injEq] at hf
        exact hs s hf
      · exact i.slices m' hm' name' s hf
    · exact i.slices m' hm' name' s hf

theorem map_newMap (h : Heap) (c : GoMap (Option Slice)) (m : Nat) :
    (h.newMap c).1.map (some m) = if m = h.maps.length then c else h.map (some m) := by
  simp only [newMap, map, List.getD_eq_getElem?_getD]
  split
  · rename_i e; subst e; simp
  · rename_i e
    rw [List.getElem?_append]
    split
    · rfl
    · rename_i hn
      rw [List.getElem?_eq_none (l := h.maps) (by omega),
        List.getElem?_eq_none (by simp; omega)]

theorem values_newMap (h : Heap) (m : Nat) (name : Text) :
    (h.newMap []).1.values (some m) name
      = if m = h.maps.length then [] else h.values (some m) name := by
  have he : (h.newMap []).1.elements = h.elements := by
    funext s; cases s <;> rfl
  unfold values
  rw [he, map_newMap]
  split <;> rfl

theorem Inv.newMap {h : Heap} {refs : List Nat} {owner : Nat → Nat × Text}
    (i : h.Inv refs owner) : (h.newMap []).1.Inv (h.maps.length :: refs) owner := by
  have hne : ∀ m ∈ refs, m ≠ h.maps.length := fun m hm => by have := i.bound m hm; omega
  refine ⟨?_, ?_, ?_⟩
  · intro m hm
    simp only [Heap.newMap, List.length_append, List.length_singleton]
    rcases List.mem_cons.1 hm with rfl | hm
    · omega
    · have := i.bound m hm; omega
  · intro m hm
    rw [map_newMap]
    rcases List.mem_cons.1 hm with rfl | hm
    · simp [GoMap.keys]
    · rw [if_neg (hne m hm)]; exact i.keys m hm
  · intro m hm name s hf
    rw [map_newMap] at hf
    rcases List.mem_cons.1 hm with rfl | hm
    · simp [GoMap.find] at hf
    · rw [if_neg (hne m hm)] at hf; exact i.slices m hm name s hf

/-! ### Adding values -/

theorem append_spec (grow : Nat → Nat) {h : Heap} {refs : List Nat} {owner : Nat → Nat × Text}
    (i : h.Inv refs owner) {m : Nat} (hm : m ∈ refs) (name value : Text) :
    ∃ owner' s, (h.append grow ((h.map (some m)).find name).join value).2 = some s ∧
      (h.append grow ((h.map (some m)).find name).join value).1.Inv refs owner' ∧
      (h.append grow ((h.map (some m)).find name).join value).1.Valid s ∧
      owner' s.array = (m, name) ∧
      (h.append grow ((h.map (some m)).find name).join value).1.maps = h.maps ∧
      (h.append grow ((h.map (some m)).find name).join value).1.elements (some s)
        = h.values (some m) name ++ [value] ∧
      ∀ m' ∈ refs, ∀ name', (m', name') ≠ (m, name) →
        (h.append grow ((h.map (some m)).find name).join value).1.values (some m') name'
          = h.values (some m') name' := by
  have hval : ∀ (c : List Text), ∀ m' ∈ refs, ∀ name',
      (h.newArray c).values (some m') name' = h.values (some m') name' := by
    intro c m' hm' name'
    unfold values
    refine newArray_elements (fun s hs => ?_) c
    cases hf : (h.map (some m')).find name' with
    | none => rw [show (h.newArray c).map (some m') = h.map (some m') from rfl, hf] at hs; simp at hs
    | some o =>
      rw [show (h.newArray c).map (some m') = h.map (some m') from rfl, hf] at hs
      simp at hs
      subst hs
      exact (i.slices m' hm' name' s hf).1
  cases hj : ((h.map (some m)).find name).join with
  | none =>
    have hv : h.values (some m) name = [] := by unfold values; rw [hj]; rfl
    obtain ⟨h1, h2⟩ := newArray_new h (value :: List.replicate (grow 0) []) 1 (by simp)
    refine ⟨owned owner h.arrays.length (m, name), ⟨h.arrays.length, 1⟩, rfl,
      i.newArray _ _, h1, by simp [owned], rfl, ?_, fun m' hm' name' _ => hval _ m' hm' name'⟩
    rw [hv]
    exact h2
  | some s =>
    have hf : (h.map (some m)).find name = some (some s) := by
      cases hf : (h.map (some m)).find name with
      | none => rw [hf] at hj; simp at hj
      | some o => rw [hf] at hj; simp at hj; rw [hj]
    obtain ⟨⟨ha, hl⟩, ho⟩ := i.slices m hm name s hf
    have hv : h.values (some m) name = (h.arrays.getD s.array []).take s.len := by
      unfold values; rw [hj]; rfl
    by_cases hc : s.len < (h.arrays.getD s.array []).length
    · -- There is space
      have he : h.append grow (some s) value =
          ({ h with arrays := h.arrays.set s.array ((h.arrays.getD s.array []).set s.len value) },
            some { s with len := s.len + 1 }) := by
        simp only [append]; rw [if_pos hc]
      rw [he]
      have hget : ∀ a, a ≠ s.array →
          (h.arrays.set s.array ((h.arrays.getD s.array []).set s.len value)).getD a []
            = h.arrays.getD a [] := by
        intro a hne
        simp only [List.getD_eq_getElem?_getD]
        rw [List.getElem?_set_ne (Ne.symm hne)]
      have hsame : (h.arrays.set s.array ((h.arrays.getD s.array []).set s.len value)).getD s.array []
          = (h.arrays.getD s.array []).set s.len value := by
        simp [List.getD_eq_getElem?_getD, ha]
      have hvalid : ∀ s', h.Valid s' →
          ({ h with arrays := h.arrays.set s.array ((h.arrays.getD s.array []).set s.len value) } :
            Heap).Valid s' := by
        intro s' ⟨h1, h2⟩
        refine ⟨by simpa using h1, ?_⟩
        by_cases e : s'.array = s.array
        · simp only [e, hsame, List.length_set]; rw [← e]; exact h2
        · simp only [hget _ e]; exact h2
      refine ⟨owner, { s with len := s.len + 1 }, rfl, ⟨i.bound, i.keys, ?_⟩, ?_, ho, rfl, ?_, ?_⟩
      · intro m' hm' name' s' hf'
        obtain ⟨h1, h2⟩ := i.slices m' hm' name' s' hf'
        exact ⟨hvalid s' h1, h2⟩
      · refine ⟨by simpa using ha, ?_⟩
        simp only [hsame, List.length_set]
        omega
      · rw [hv]
        simp only [elements, hsame]
        generalize h.arrays.getD s.array [] = A at hc
        rw [List.take_succ, List.take_set_of_le (Nat.le_refl _)]
        simp [hc]
      · intro m' hm' name' hne
        show elements _ ((h.map (some m')).find name').join = elements _ ((h.map (some m')).find name').join
        cases hf' : (h.map (some m')).find name' with
        | none => rfl
        | some o =>
          cases o with
          | none => rfl
          | some s' =>
            obtain ⟨h1, h2⟩ := i.slices m' hm' name' s' hf'
            have : s'.array ≠ s.array := by
              intro e
              rw [e, ho] at h2
              exact hne h2.symm
            simp only [Option.join_some, elements, hget _ this]
    · have he : h.append grow (some s) value =
          (h.newArray ((h.arrays.getD s.array []).take s.len ++ value ::
            List.replicate (grow s.len) []), some ⟨h.arrays.length, s.len + 1⟩) := by
        simp only [append]; rw [if_neg hc]
      rw [he]
      have hlen : ((h.arrays.getD s.array []).take s.len).length = s.len := by
        rw [List.length_take]; omega
      obtain ⟨h1, h2⟩ := newArray_new h ((h.arrays.getD s.array []).take s.len ++ value ::
        List.replicate (grow s.len) []) (s.len + 1) (by rw [List.length_append, hlen]; simp)
      refine ⟨owned owner h.arrays.length (m, name), ⟨h.arrays.length, s.len + 1⟩, rfl,
        i.newArray _ _, h1, by simp [owned], rfl, ?_, fun m' hm' name' _ => hval _ m' hm' name'⟩
      rw [hv, h2, List.take_append, hlen, List.take_of_length_le (by rw [hlen]; omega)]
      simp

theorem add_spec (grow : Nat → Nat) {h : Heap} {refs : List Nat} {owner : Nat → Nat × Text}
    (i : h.Inv refs owner) {m : Nat} (hm : m ∈ refs) (name value : Text) :
    (∃ owner', (h.add grow m name value).Inv refs owner') ∧
    (h.add grow m name value).maps.length = h.maps.length ∧
    ∀ m' ∈ refs, ∀ name', (h.add grow m name value).values (some m') name' =
      h.values (some m') name' ++ if m' = m ∧ name' = name then [value] else [] := by
  obtain ⟨owner', s, h1, h2, h3, h4, h5, h6, h7⟩ := append_spec grow i hm name value
  unfold add
  generalize h.append grow ((h.map (some m)).find name).join value = p at h1 h2 h3 h5 h6 h7
  obtain ⟨h', o⟩ := p
  simp only at h1 h2 h3 h5 h6 h7 ⊢
  subst h1
  have hb : m < h'.maps.length := by rw [h5]; exact i.bound m hm
  refine ⟨⟨owner', h2.put hb name _ ?_⟩, by simp [put, h5], ?_⟩
  · intro s' e; rw [Option.some.injEq] at e; subst e; exact ⟨h3, h4⟩
  · intro m' hm' name'
    rw [values_put hb]
    by_cases e : m' = m ∧ name' = name
    · rw [if_pos e, if_pos e, h6, e.1, e.2]
    · rw [if_neg e, if_neg e, List.append_nil]
      apply h7 m' hm' name'
      intro e'
      exact e (by simpa using e')

end Heap

open Heap

/-! ### Copies -/

theorem copyEntries_spec {h : Heap} {refs : List Nat} {owner : Nat → Nat × Text}
    (i : h.Inv refs owner) {m : Nat} (hm : m ∈ refs) (es : List (Text × Option Slice))
    (hes : ∀ e ∈ es, ∀ s, e.2 = some s → h.Valid s) (hk : (es.map Prod.fst).Nodup) :
    (∃ owner', (copyEntries h m es).Inv refs owner') ∧
    (copyEntries h m es).maps.length = h.maps.length ∧
    ∀ m' ∈ refs, ∀ name', (copyEntries h m es).values (some m') name' =
      match (if m' = m then GoMap.find es name' else none) with
      | none => h.values (some m') name'
      | some s => h.elements s := by
  induction es generalizing h owner with
  | nil => exact ⟨⟨owner, i⟩, rfl, fun m' _ name' => by simp [copyEntries, GoMap.find]⟩
  | cons e es ih =>
    obtain ⟨name, v⟩ := e
    have hb := i.bound m hm
    rw [List.map_cons, List.nodup_cons] at hk
    -- The copy of the values
    obtain ⟨owner1, h1, c, hc, i1, hmaps, hcopy, hel, hval, hvalid⟩ :
        ∃ owner1 h1 c, copyValues h v = (h1, c) ∧ h1.Inv refs owner1 ∧ h1.maps = h.maps ∧
          (∀ s, c = some s → h1.Valid s ∧ owner1 s.array = (m, name)) ∧
          h1.elements c = h.elements v ∧
          (∀ s : Option Slice, (∀ s', s = some s' → h.Valid s') → h1.elements s = h.elements s) ∧
          (∀ s, h.Valid s → h1.Valid s) := by
      cases v with
      | none => exact ⟨owner, h, none, rfl, i, rfl, by simp, rfl, fun _ _ => rfl, fun _ h => h⟩
      | some s =>
        have hs := hes (name, some s) (by simp) s rfl
        have hlen : (h.elements (some s)).length = s.len := by
          simp only [elements, List.length_take]; have := hs.2; omega
        obtain ⟨a1, a2⟩ := newArray_new h (h.elements (some s)) s.len (by omega)
        refine ⟨owned owner h.arrays.length (m, name), _, _, rfl, i.newArray _ _, rfl, ?_, ?_,
          fun s' hs' => newArray_elements hs' _, fun s' hs' => newArray_valid hs' _⟩
        · intro s' e
          rw [Option.some.injEq] at e
          subst e
          exact ⟨a1, by simp [owned]⟩
        · rw [a2, List.take_of_length_le (by omega)]
    have hb1 : m < h1.maps.length := by rw [hmaps]; exact hb
    have i2 := i1.put hb1 name c hcopy
    have hes' : ∀ e ∈ es, ∀ s, e.2 = some s → (h1.put m name c).Valid s :=
      fun e he s hs => hvalid s (hes e (by simp [he]) s hs)
    obtain ⟨j1, j2, j3⟩ := ih i2 hes' hk.2
    have hstep : copyEntries h m ((name, v) :: es) = copyEntries (h1.put m name c) m es := by
      rw [copyEntries, hc]
    rw [hstep]
    refine ⟨j1, by rw [j2]; simp [put, hmaps], fun m' hm' name' => ?_⟩
    rw [j3 m' hm' name']
    have hvals : ∀ n, h1.values (some m') n = h.values (some m') n := by
      intro n
      unfold values
      rw [show h1.map (some m') = h.map (some m') by simp [Heap.map, hmaps]]
      apply hval
      intro s hs
      cases hf : (h.map (some m')).find n with
      | none => rw [hf] at hs; simp at hs
      | some o => rw [hf] at hs; simp at hs; subst hs; exact (i.slices m' hm' n s hf).1
    by_cases e : m' = m
    · subst e
      simp only [if_true, GoMap.find]
      by_cases e' : name = name'
      · subst e'
        have hn : GoMap.find es name = none := GoMap.find_none.2 hk.1
        simp only [hn, if_true, values_put hb1, and_self, hel]
      · rw [if_neg e']
        cases hf : GoMap.find es name' with
        | none =>
          simp only [values_put hb1, hvals]
          rw [if_neg (by rintro ⟨-, e''⟩; exact e' e''.symm)]
        | some s =>
          simp only
          have hmem := GoMap.find_some_mem hf
          have : (h1.put m' name c).elements s = h1.elements s := by cases s <;> rfl
          rw [this]
          exact hval s fun s' hs' => hes (name', s) (by simp [hmem]) s' hs'
    · simp only [if_neg e, values_put hb1, hvals]
      rw [if_neg (by rintro ⟨e', -⟩; exact e e')]

end GoHelpers

end Verif
