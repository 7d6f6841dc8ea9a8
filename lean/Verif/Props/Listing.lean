import Verif.Lemmas.Concepts
import Verif.Props.Names

/-! Properties C05 to C07: listing, adding and finding concepts. -/

namespace Verif

variable {α : Type} (nameOf : α → Name)

/-! ## C05: listings don't depend on insertion or iteration order -/

/-- The listing of the concepts of a map is strictly sorted by name and contains each of them
exactly once. -/
theorem c05_listing_sorted (m : GoMap α) (h : ConceptMap nameOf m) :
    StrictlySorted nameOf (listing nameOf m) ∧ (listing nameOf m).Perm (m.map Prod.snd) :=
  ⟨isSortOf_strict nameOf (sortByName_spec nameOf _) (conceptMap_distinct nameOf h),
    (sortByName_spec nameOf _).1⟩

/-- Whatever the iteration order of the map and whatever the sorting algorithm, the result is the
same. -/
theorem c05_listing_unique (m : GoMap α) (h : ConceptMap nameOf m) (order result : List α)
    (ho : order.Perm (m.map Prod.snd)) (hs : IsSortOf nameOf result order) :
    result = listing nameOf m :=
  (isSortOf_unique nameOf (sortByName_spec nameOf _) hs ho.symm (conceptMap_distinct nameOf h)).symm

/-- All the maps obtained by adding concepts, nil included, to an empty map satisfy the hypothesis
of the previous theorems. -/
theorem c05_reachable (cs : List (Option α)) : ConceptMap nameOf (addConcepts nameOf [] cs) :=
  conceptMap_adds nameOf ⟨by simp, by simp⟩ cs

/-- Adding concepts with different names in any order gives the same listing, which contains
exactly those concepts. -/
theorem c05_insertion_order (cs ds : List α) (hp : cs.Perm ds)
    (hd : (cs.map fun c => (nameOf c).toText).Nodup) :
    listing nameOf (addConcepts nameOf [] (cs.map some)) =
      listing nameOf (addConcepts nameOf [] (ds.map some)) ∧
    (listing nameOf (addConcepts nameOf [] (cs.map some))).Perm cs := by
  have hd' : (ds.map fun c => (nameOf c).toText).Nodup := (hp.map _).nodup_iff.mp hd
  have e1 : (addConcepts nameOf [] (cs.map some)).map Prod.snd = cs := by
    rw [addConcepts_fresh nameOf [] cs hd (by simp [GoMap.keys])]; simp [Function.comp_def]
  have e2 : (addConcepts nameOf [] (ds.map some)).map Prod.snd = ds := by
    rw [addConcepts_fresh nameOf [] ds hd' (by simp [GoMap.keys])]; simp [Function.comp_def]
  constructor
  · apply c05_listing_unique nameOf _ (c05_reachable nameOf _) cs
    · rw [e2]; exact hp
    · have := sortByName_spec nameOf (addConcepts nameOf [] (cs.map some)).values
      unfold GoMap.values at this
      rw [e1] at this
      unfold listing GoMap.values
      rw [e1]
      exact this
  · have := (c05_listing_sorted nameOf _ (c05_reachable nameOf (cs.map some))).2
    rw [e1] at this
    exact this

/-- Attributes, values, methods, parameters and locators with different names are listed in
increasing order of name, exactly once each... -/
theorem c05_members_sorted (cs : List α)
    (hd : cs.Pairwise fun a b => (nameOf a).map Word.text ≠ (nameOf b).map Word.text) :
    StrictlySorted nameOf ((cs.map some).foldl (addMember nameOf) []) ∧
    ((cs.map some).foldl (addMember nameOf) []).Perm cs := by
  have key : ∀ (cs acc : List α), IsSortOf nameOf acc acc →
      IsSortOf nameOf ((cs.map some).foldl (addMember nameOf) acc) (acc ++ cs) := by
    intro cs
    induction cs with
    | nil => intro acc h; simpa using h
    | cons c cs ih =>
      intro acc h
      simp only [List.map_cons, List.foldl_cons, addMember]
      have hs := sortByName_spec nameOf (acc ++ [c])
      have := ih (sortByName nameOf (acc ++ [c])) ⟨List.Perm.refl _, hs.2⟩
      refine ⟨this.1.trans ?_, this.2⟩
      have := hs.1.append_right cs
      simpa using this
  have := key cs [] ⟨List.Perm.refl _, List.Pairwise.nil⟩
  rw [List.nil_append] at this
  exact ⟨isSortOf_strict nameOf this hd, this.1⟩

/-- ... whatever the order of declaration. -/
theorem c05_members_order (cs ds : List α) (hp : cs.Perm ds)
    (hd : cs.Pairwise fun a b => (nameOf a).map Word.text ≠ (nameOf b).map Word.text) :
    (cs.map some).foldl (addMember nameOf) [] = (ds.map some).foldl (addMember nameOf) [] := by
  have hd' : ds.Pairwise fun a b => (nameOf a).map Word.text ≠ (nameOf b).map Word.text :=
    (List.Perm.pairwise_iff (fun h => Ne.symm h) hp).mp hd
  have h1 := c05_members_sorted nameOf cs hd
  have h2 := c05_members_sorted nameOf ds hd'
  have asSort : ∀ {l r : List α}, StrictlySorted nameOf r → r.Perm l → IsSortOf nameOf r l :=
    fun hs hp => ⟨hp, hs.imp fun h h' => List.lt_asymm h h'⟩
  exact isSortOf_unique nameOf (asSort h1.1 h1.2) (asSort h2.1 h2.2) hp hd

/-- Adding nil changes nothing. -/
theorem c05_nil_ignored (m : GoMap α) (l : List α) :
    addConcept nameOf m none = m ∧ addMember nameOf l none = l := ⟨rfl, rfl⟩

example : listing (fun n : Name => n) (addConcepts id []
    [some (parseUsingCase t!"Cluster"), some (parseUsingCase t!"CPU"),
      some (parseUsingCase t!"CloudProvider")]) =
    [parseUsingCase t!"CPU", parseUsingCase t!"CloudProvider", parseUsingCase t!"Cluster"] := by
  decide

/-! ## C06: listing the errors of a version -/

/-- The errors that the reader creates. -/
def readError (name : Name) (code : Int) : ErrorConcept :=
  { ErrorConcept.new.setName name with code := code }

/-- With two or more errors the listing always panics, whatever they are and whatever the
iteration order. -/
theorem c06_listing_panics (m : GoMap ErrorConcept)
    (hr : ∀ e ∈ m, ∃ name code, e.2 = readError name code) (h2 : 2 ≤ m.length) :
    errorsListing m = .panic := by
  match m, h2 with
  | (k, a) :: (k', b) :: rest, _ =>
    obtain ⟨na, ca, ha⟩ := hr (k, a) (by simp)
    obtain ⟨nb, cb, hb⟩ := hr (k', b) (by simp)
    simp only at ha hb
    subst ha hb
    rfl

/-- The full property is false: there are versions whose errors can't be listed. -/
theorem c06_listing_refuted :
    ¬ ∀ m : GoMap ErrorConcept, (∀ e ∈ m, ∃ name code, e.2 = readError name code) →
      ∃ r, errorsListing m = .value r := by
  intro h
  obtain ⟨r, hr⟩ := h [(t!"not_found", readError (parseUsingCase t!"NotFound") 404),
    (t!"conflict", readError (parseUsingCase t!"Conflict") 409)] (by
      intro e he
      simp only [List.mem_cons, List.not_mem_nil, or_false] at he
      rcases he with rfl | rfl
      · exact ⟨_, _, rfl⟩
      · exact ⟨_, _, rfl⟩)
  exact absurd hr (by rw [show errorsListing _ = Outcome.panic from rfl]; simp)

/-- It holds only for at most one error. -/
theorem c06_listing_partial (m : GoMap ErrorConcept) (h : m.length ≤ 1) :
    errorsListing m = .value (m.map Prod.snd) := by
  match m, h with
  | [], _ => rfl
  | [(k, a)], _ => rfl

example : errorsListing [(t!"not_found", readError (parseUsingCase t!"NotFound") 404)] =
    .value [readError (parseUsingCase t!"NotFound") 404] := rfl

/-! ## C07: finding concepts -/

/-- After any history of additions, looking up a name gives the last concept added with that name,
or else what was there before. -/
theorem c07_find_last (m : GoMap α) (cs : List α) (n : Name) :
    findConcept (addConcepts nameOf m (cs.map some)) (some n) =
      match cs.reverse.find? (fun c => (nameOf c).toText = n.toText) with
      | some c => some c
      | none => findConcept m (some n) := by
  induction cs generalizing m with
  | nil => rfl
  | cons c cs ih =>
    have := ih (m.insert (nameOf c).toText c)
    simp only [addConcepts, List.map_cons, List.foldl_cons, addConcept, findConcept] at this ⊢
    rw [this, List.reverse_cons, List.find?_append]
    cases h : List.find? (fun c => decide ((nameOf c).toText = n.toText)) cs.reverse with
    | some x => simp
    | none =>
      simp only [Option.none_or, List.find?_cons, List.find?_nil, GoMap.find_insert]
      by_cases hc : (nameOf c).toText = n.toText <;> simp [hc]

/-- Starting from nothing, a name is found if and only if a concept with that name was added. -/
theorem c07_find_iff (cs : List α) (n : Name) :
    (findConcept (addConcepts nameOf [] (cs.map some)) (some n)).isSome = true ↔
      ∃ c ∈ cs, (nameOf c).toText = n.toText := by
  rw [c07_find_last]
  cases h : cs.reverse.find? (fun c => decide ((nameOf c).toText = n.toText)) with
  | some x =>
    have h1 := List.find?_some h
    have h2 := List.mem_of_find?_eq_some h
    simp only [Option.isSome_some, true_iff]
    exact ⟨x, by simpa using h2, by simpa using h1⟩
  | none =>
    simp only [List.find?_eq_none, List.mem_reverse, decide_eq_true_eq] at h
    simp only [findConcept, GoMap.find, Option.isSome_none, Bool.false_eq_true, false_iff,
      not_exists, not_and]
    exact h

/-- Adding a concept doesn't affect other names; and a nil name finds nothing. -/
theorem c07_find_other (m : GoMap α) (c : Option α) (n : Name)
    (h : ∀ d, c = some d → (nameOf d).toText ≠ n.toText) :
    findConcept (addConcept nameOf m c) (some n) = findConcept m (some n) ∧
    findConcept (addConcept nameOf m c) none = none := by
  refine ⟨?_, rfl⟩
  cases c with
  | none => rfl
  | some d => simp [addConcept, findConcept, GoMap.find_insert, h d rfl]

example : findConcept (addConcepts (fun p : Name × Nat => p.1) []
    [some (Nom.list, 1), none, some (Nom.map, 2), some (Nom.list, 3)]) (some Nom.list) =
    some (Nom.list, 3) := by decide

/-- The first member with exactly that name (same words, same initialisms) is found. -/
theorem c07_find_member (l : List α) (n : Name) (c : α) :
    findMember nameOf l (some n) = some c ↔
      ∃ before after, l = before ++ c :: after ∧ nameOf c = n ∧ ∀ d ∈ before, nameOf d ≠ n := by
  have eqv : ∀ a b : Name, Name.equals (some a) (some b) = true ↔ a = b := by
    intro a b; rw [c01_equals_iff]; simp
  simp only [findMember, List.find?_eq_some_iff_append, eqv, Bool.not_eq_true',
    bool_eq_false_iff_not]
  constructor
  · rintro ⟨h1, as, bs, h2, h3⟩
    exact ⟨as, bs, h2, h1, h3⟩
  · rintro ⟨as, bs, h2, h1, h3⟩
    exact ⟨h1, as, bs, h2, h3⟩

/-- The names, with their kinds, of the built-in types. -/
def builtinKinds : List (Text × Kind) :=
  [(t!"boolean", .scalar), (t!"integer", .scalar), (t!"long", .scalar), (t!"float", .scalar),
   (t!"string", .scalar), (t!"date", .scalar), (t!"interface", .interface)]

/-- A new version has the seven built-in types, each with a list type whose element is that type,
all of them owned by the version, and nothing else. -/
theorem c07_builtin_types (heap : Heap) (version : VersionId) :
    let t := TypeTable.newVersion heap version
    (∀ b ∈ builtinKinds, ∃ id listId cell listCell,
      t.types.find b.1 = some id ∧ t.heap[id]? = some cell ∧
      cell.name.toText = b.1 ∧ cell.kind = b.2 ∧ cell.owner = some version ∧
      t.types.find (b.1 ++ t!"_list") = some listId ∧ t.heap[listId]? = some listCell ∧
      listCell.kind = .list ∧ listCell.element = some id ∧ listCell.owner = some version) ∧
    t.types.keys.Perm (builtinKinds.map (·.1) ++ builtinKinds.map (·.1 ++ t!"_list")) := by
  intro t
  have ht : t = _ := newVersion_eq heap version
  rw [ht]
  have at_ : ∀ i, (heap ++ builtinCells version heap.length)[heap.length + i]? =
      (builtinCells version heap.length)[i]? := by
    intro i; rw [List.getElem?_append_right (Nat.le_add_right _ _), Nat.add_sub_cancel_left]
  constructor
  · intro b hb
    simp only [builtinKinds, List.mem_cons, List.not_mem_nil, or_false] at hb
    rcases hb with rfl | rfl | rfl | rfl | rfl | rfl | rfl
    · exact ⟨_, _, _, _, rfl, at_ 0, rfl, rfl, rfl, rfl, at_ 1, rfl, rfl, rfl⟩
    · exact ⟨_, _, _, _, rfl, at_ 2, rfl, rfl, rfl, rfl, at_ 3, rfl, rfl, rfl⟩
    · exact ⟨_, _, _, _, rfl, at_ 4, rfl, rfl, rfl, rfl, at_ 5, rfl, rfl, rfl⟩
    · exact ⟨_, _, _, _, rfl, at_ 6, rfl, rfl, rfl, rfl, at_ 7, rfl, rfl, rfl⟩
    · exact ⟨_, _, _, _, rfl, at_ 8, rfl, rfl, rfl, rfl, at_ 9, rfl, rfl, rfl⟩
    · exact ⟨_, _, _, _, rfl, at_ 10, rfl, rfl, rfl, rfl, at_ 11, rfl, rfl, rfl⟩
    · exact ⟨_, _, _, _, rfl, at_ 12, rfl, rfl, rfl, rfl, at_ 13, rfl, rfl, rfl⟩
  · have : (builtinTable heap.length).keys = (builtinTable 0).keys := rfl
    simp only [this]
    decide

end Verif
