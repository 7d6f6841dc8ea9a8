import Verif.Lemmas.ClassRefLinks

/-! What `removeLinkedAttributes` changes. -/

namespace Verif

namespace ClassRef

open View (typeKey)

theorem foldl_invariant {σ ε : Type} (f : σ → ε → σ) (O : ε → Prop) (I : σ → Prop)
    (hI : ∀ s e, I s → O e → I (f s e)) (es : List ε) :
    ∀ {s : σ}, I s → (∀ e ∈ es, O e) → I (es.foldl f s) := by
  induction es with
  | nil => intro s h _; exact h
  | cons e es ih =>
    intro s h ho
    exact ih (hI s e h (ho e (List.mem_cons_self ..))) fun e h => ho e (List.mem_cons_of_mem _ h)

theorem foldl_establish {σ ε : Type} (f : σ → ε → σ) (O : ε → Prop) (I G : σ → Prop)
    (hI : ∀ s e, I s → O e → I (f s e)) (hG : ∀ s e, I s → O e → G s → G (f s e)) (e : ε)
    (he : ∀ s, I s → G (f s e)) (es : List ε) :
    ∀ {s : σ}, I s → (∀ e ∈ es, O e) → e ∈ es → G (es.foldl f s) := by
  induction es with
  | nil => intro t _ _ h; cases h
  | cons g es ih =>
    intro t hi ho hm
    have hf := ho g (List.mem_cons_self ..)
    have ho' : ∀ e ∈ es, O e := fun e h => ho e (List.mem_cons_of_mem _ h)
    rcases List.mem_cons.mp hm with rfl | hm
    · exact (foldl_invariant f O (fun s => I s ∧ G s)
        (fun s e h o => ⟨hI s e h.1 o, hG s e h.1 o h.2⟩) es ⟨hI t e hi hf, he t hi⟩ ho').2
    · exact ih (hI t g hi hf) ho' hm

theorem explicit_iff (h : Heap) (x : TypeId) : Explicit h x ↔ flagAt h x = true := by
  unfold Explicit flagAt
  cases h[x]? <;> simp

/-! ### As a sequence of changes -/

/-- The attribute of a type at a position, with its type. -/
abbrev Spot := TypeId × Nat × TypeId

/-- The change for an attribute. -/
def unlinkSpot (typ : TypeId) (t : TypeTable) (e : Spot) : TypeTable :=
  unlinkAttribute typ e.1 t ({ name := [], typ := e.2.2 }, e.2.1)

/-- The attributes of a type. -/
def spotsOf (h : Heap) (y : TypeId) : List Spot :=
  (attributesOf h y).zipIdx.map fun e => (y, e.2, e.1.typ)

theorem zipIdx_map_core (as : List Attribute) (k : Nat) (y : TypeId) :
    (as.zipIdx k).map (fun e => ((y, e.2, e.1.typ) : Spot)) =
      ((as.map attributeCore).zipIdx k).map fun e => ((y, e.2, e.1.typ) : Spot) := by
  induction as generalizing k with
  | nil => rfl
  | cons a as ih => simp only [List.zipIdx_cons, List.map_cons, ih]; rfl

theorem same_spots {h h' : Heap} (hs : SameTypes h h') (y : TypeId) : spotsOf h' y = spotsOf h y := by
  unfold spotsOf
  rw [zipIdx_map_core (attributesOf h' y), zipIdx_map_core (attributesOf h y), same_attributes hs]

theorem unlinkAttribute_same (typ owner : TypeId) (t : TypeTable) (e : Attribute × Nat) :
    SameTypes t.heap (unlinkAttribute typ owner t e).heap := by
  have h1 : ∀ t : TypeTable, SameTypes t.heap
      (if e.1.typ = typ then setExplicit (setLinkOwner t owner e.2 none) e.1.typ else t).heap := by
    intro t
    split
    · exact (setLinkOwner_same _ _ _ _).trans (setExplicit_same _ _)
    · exact SameTypes.refl _
  have h2 := h1 t
  unfold unlinkAttribute
  dsimp only
  generalize (if e.1.typ = typ then setExplicit (setLinkOwner t owner e.2 none) e.1.typ else t) = t1
    at h2 ⊢
  split
  · exact h2
  · split
    · exact h2.trans ((((setLinkOwner_same _ _ _ _).trans (setExplicit_same _ _)).trans
        (setExplicit_same _ _)).trans (setOwner_same _ _ _))
    · exact h2

theorem unlinkSpots_same (typ : TypeId) (es : List Spot) : ∀ (t : TypeTable),
    SameTypes t.heap (es.foldl (unlinkSpot typ) t).heap := by
  induction es with
  | nil => intro t; exact SameTypes.refl _
  | cons e es ih => intro t; exact (unlinkAttribute_same _ _ _ _).trans (ih _)

theorem unlink_type (typ y : TypeId) (t : TypeTable) :
    (attributesOf t.heap y).zipIdx.foldl (unlinkAttribute typ y) t =
      (spotsOf t.heap y).foldl (unlinkSpot typ) t := by
  unfold spotsOf
  rw [List.foldl_map]
  rfl

/-- All the attributes of the version. -/
def versionSpots (t : TypeTable) : List Spot :=
  (listing (Reader.typeName t.heap) t.types).flatMap (spotsOf t.heap)

theorem unlink_eq (typ : TypeId) (t : TypeTable) :
    unlinkAttributes typ t = (versionSpots t).foldl (unlinkSpot typ) t := by
  unfold unlinkAttributes versionSpots
  generalize listing (Reader.typeName t.heap) t.types = ys
  suffices h : ∀ (ys : List TypeId) (t' : TypeTable), SameTypes t.heap t'.heap →
      ys.foldl (fun t owner => (attributesOf t.heap owner).zipIdx.foldl (unlinkAttribute typ owner) t) t' =
        (ys.flatMap (spotsOf t.heap)).foldl (unlinkSpot typ) t' from h ys t (SameTypes.refl _)
  intro ys
  induction ys with
  | nil => intro t' _; rfl
  | cons y ys ih =>
    intro t' hs
    rw [List.foldl_cons, List.flatMap_cons, List.foldl_append, unlink_type, same_spots hs]
    exact ih _ (hs.trans (unlinkSpots_same typ _ _))

theorem mem_versionSpots (t : TypeTable) (y : TypeId) (p : Nat) (x : TypeId) :
    (y, p, x) ∈ versionSpots t ↔ ∃ a, VersionAttribute t y p a ∧ a.typ = x := by
  unfold versionSpots VersionAttribute listing
  have hperm := (sortByName_spec (Reader.typeName t.heap) t.types.values).1
  constructor
  · intro h
    rw [List.mem_flatMap] at h
    obtain ⟨z, hz, h⟩ := h
    unfold spotsOf at h
    rw [List.mem_map] at h
    obtain ⟨⟨a, q⟩, ha, he⟩ := h
    simp only [Prod.mk.injEq] at he
    obtain ⟨rfl, rfl, rfl⟩ := he
    rw [List.mem_zipIdx_iff_getElem?] at ha
    exact ⟨a, ⟨hperm.mem_iff.mp hz, (hasAttribute_iff _ _ _ _).mpr ha⟩, rfl⟩
  · rintro ⟨a, ⟨hy, ha⟩, rfl⟩
    rw [List.mem_flatMap]
    refine ⟨y, hperm.mem_iff.mpr hy, ?_⟩
    unfold spotsOf
    rw [List.mem_map]
    exact ⟨(a, p), by rw [List.mem_zipIdx_iff_getElem?]; exact (hasAttribute_iff _ _ _ _).mp ha, rfl⟩

/-! ### What each change does -/

/-- The relation with the initial state that all the changes preserve. -/
structure Unlinking (t0 : TypeTable) (typ : TypeId) (t : TypeTable) : Prop where
  version : t.version = t0.version
  types : t.types = t0.types
  same : SameTypes t0.heap t.heap
  flags : ∀ x, flagAt t.heap x = true → flagAt t0.heap x = true ∨ Marked t0 typ x
  owners : ∀ x, ownerAt t.heap x = ownerAt t0.heap x ∨
    (ownerAt t.heap x = ownerAt t0.heap typ ∧ NamedElement t0 typ x)
  links : ∀ y p a, HasAttribute t.heap y p a → ∃ a0, HasAttribute t0.heap y p a0 ∧
    attributeCore a = attributeCore a0 ∧ (a.linkOwner = a0.linkOwner ∨
      (a.linkOwner = none ∧ y ∈ t0.types.values ∧ Matches t0.heap typ a0))

theorem Unlinking.refl (t : TypeTable) (typ : TypeId) : Unlinking t typ t :=
  ⟨rfl, rfl, SameTypes.refl _, fun _ h => Or.inl h, fun _ => Or.inl rfl,
    fun _ _ a h => ⟨a, h, rfl, Or.inl rfl⟩⟩

section
variable {t0 t : TypeTable} {typ : TypeId}

theorem Unlinking.setLink (u : Unlinking t0 typ t) {y : TypeId} {p : Nat} {a : Attribute}
    (ha : VersionAttribute t0 y p a) (hm : Matches t0.heap typ a) :
    Unlinking t0 typ (setLinkOwner t y p none) where
  version := u.version
  types := u.types
  same := u.same.trans (setLinkOwner_same _ _ _ _)
  flags := fun x h => u.flags x (by rwa [flag_setLink] at h)
  owners := fun x => by rw [owner_setLink]; exact u.owners x
  links := fun z q b hb => by
    obtain ⟨b', hb', hcase⟩ := hasAttribute_setLink _ _ _ _ _ _ _ hb
    obtain ⟨a0, ha0, hcore, hval⟩ := u.links z q b' hb'
    rcases hcase with ⟨rfl, rfl, rfl⟩ | ⟨_, rfl⟩
    · have : a0 = a := by
        have ha := ha.2
        rw [hasAttribute_iff] at ha ha0; rw [ha] at ha0; cases ha0; rfl
      subst this
      exact ⟨a0, ha0, hcore, Or.inr ⟨rfl, ha.1, hm⟩⟩
    · exact ⟨a0, ha0, hcore, hval⟩

theorem Unlinking.setExplicit (u : Unlinking t0 typ t) {x : TypeId} (hx : Marked t0 typ x) :
    Unlinking t0 typ (setExplicit t x) where
  version := u.version
  types := u.types
  same := u.same.trans (setExplicit_same _ _)
  flags := fun y h => by
    rw [flagAt_set, Bool.or_eq_true] at h
    rcases h with h | h
    · exact u.flags y h
    · rw [Bool.and_eq_true, beq_iff_eq] at h
      rw [← h.1]; exact Or.inr hx
  owners := fun y => by rw [owner_setExplicit]; exact u.owners y
  links := fun y p a h => u.links y p a (attr_setExplicit h)

theorem Unlinking.ownerTyp (u : Unlinking t0 typ t) : ownerAt t.heap typ = ownerAt t0.heap typ := by
  rcases u.owners typ with h | ⟨h, _⟩ <;> exact h

theorem Unlinking.setOwner (u : Unlinking t0 typ t) {x : TypeId} (hx : NamedElement t0 typ x) :
    Unlinking t0 typ (setOwner t x (ownerAt t0.heap typ)) where
  version := u.version
  types := u.types
  same := u.same.trans (setOwner_same _ _ _)
  flags := fun y h => u.flags y (by rwa [flag_setOwner] at h)
  owners := fun y => by
    rcases ownerAt_set t.heap x (ownerAt t0.heap typ) y with h | ⟨rfl, h⟩
    · simp only [ClassRef.setOwner]; rw [h]; exact u.owners y
    · exact Or.inr ⟨h, hx⟩
  links := fun y p a h => u.links y p a (attr_setOwner h)

/-- The first part of the change. -/
def unlinkFirst (typ : TypeId) (t : TypeTable) (e : Spot) : TypeTable :=
  if e.2.2 = typ then ClassRef.setExplicit (setLinkOwner t e.1 e.2.1 none) e.2.2 else t

/-- The second part of the change. -/
def unlinkSecond (typ : TypeId) (t : TypeTable) (e : Spot) : TypeTable :=
  match elementOf t.heap e.2.2 with
  | none => t
  | some element =>
    if typeKey t.heap element = typeKey t.heap typ then
      ClassRef.setOwner (ClassRef.setExplicit (ClassRef.setExplicit (setLinkOwner t e.1 e.2.1 none) e.2.2)
        element) element (ownerAt t.heap typ)
    else t

theorem unlinkSpot_eq (typ : TypeId) (t : TypeTable) (e : Spot) :
    unlinkSpot typ t e = unlinkSecond typ (unlinkFirst typ t e) e := by
  unfold unlinkSpot unlinkAttribute unlinkSecond unlinkFirst
  dsimp only
  generalize (if e.2.2 = typ then ClassRef.setExplicit (setLinkOwner t e.1 e.2.1 none) e.2.2 else t) = t1
  cases elementOf t1.heap e.2.2 with
  | none => rfl
  | some element => dsimp only; rw [typeName_key, typeName_key, ownerOf_eq]

theorem Unlinking.first (u : Unlinking t0 typ t) {y : TypeId} {p : Nat} {a : Attribute}
    (ha : VersionAttribute t0 y p a) : Unlinking t0 typ (unlinkFirst typ t (y, p, a.typ)) := by
  unfold unlinkFirst
  dsimp only
  split
  · rename_i h
    refine Unlinking.setExplicit (u.setLink ha (Or.inl h)) ⟨y, p, a, ha, Or.inl ⟨h, h⟩⟩
  · exact u

/-- The elements of the attribute have the name of the class. -/
def NamedCollection (t0 : TypeTable) (typ x e : TypeId) : Prop :=
  Collection t0.heap x e ∧ typeKey t0.heap e = typeKey t0.heap typ

theorem second_cases (u : Unlinking t0 typ t) (y : TypeId) (p : Nat) (x : TypeId) :
    ((∀ e, ¬ NamedCollection t0 typ x e) ∧ unlinkSecond typ t (y, p, x) = t) ∨
    ∃ e, NamedCollection t0 typ x e ∧ unlinkSecond typ t (y, p, x) =
      ClassRef.setOwner (ClassRef.setExplicit (ClassRef.setExplicit (setLinkOwner t y p none) x) e) e
        (ownerAt t0.heap typ) := by
  unfold unlinkSecond NamedCollection
  dsimp only
  rw [u.ownerTyp, same_element u.same]
  cases he : elementOf t0.heap x with
  | none =>
    rw [elementOf_none] at he
    exact Or.inl ⟨fun e h => he e h.1, rfl⟩
  | some e =>
    have he' := (elementOf_iff _ _ _).mp he
    dsimp only
    rw [same_key u.same, same_key u.same]
    by_cases hk : typeKey t0.heap e = typeKey t0.heap typ
    · rw [if_pos hk]; exact Or.inr ⟨e, ⟨he', hk⟩, rfl⟩
    · rw [if_neg hk]
      refine Or.inl ⟨fun e' h => ?_, rfl⟩
      have := (elementOf_iff _ _ _).mpr h.1
      rw [he] at this; cases this
      exact hk h.2

theorem Unlinking.second (u : Unlinking t0 typ t) {y : TypeId} {p : Nat} {a : Attribute}
    (ha : VersionAttribute t0 y p a) : Unlinking t0 typ (unlinkSecond typ t (y, p, a.typ)) := by
  rcases second_cases u y p a.typ with ⟨_, h⟩ | ⟨e, hn, h⟩
  · rw [h]; exact u
  · rw [h]
    refine Unlinking.setOwner (Unlinking.setExplicit (Unlinking.setExplicit
      (u.setLink ha (Or.inr ⟨e, hn.1, hn.2⟩)) ?_) ?_) ⟨y, p, a, ha, hn.1, hn.2⟩
    · exact ⟨y, p, a, ha, Or.inr ⟨e, hn.1, hn.2, Or.inl rfl⟩⟩
    · exact ⟨y, p, a, ha, Or.inr ⟨e, hn.1, hn.2, Or.inr rfl⟩⟩

/-- The changes that are done. -/
def IsSpot (t0 : TypeTable) (e : Spot) : Prop := ∃ a, VersionAttribute t0 e.1 e.2.1 a ∧ a.typ = e.2.2

theorem Unlinking.step (u : Unlinking t0 typ t) {e : Spot} (o : IsSpot t0 e) :
    Unlinking t0 typ (unlinkSpot typ t e) := by
  obtain ⟨y, p, x⟩ := e
  obtain ⟨a, ha, hx⟩ := o
  dsimp only at ha hx
  subst hx
  rw [unlinkSpot_eq]
  exact (u.first ha).second ha

theorem unlink_flag (e : Spot) {x : TypeId} (h : flagAt t.heap x = true) :
    flagAt (unlinkSpot typ t e).heap x = true := by
  rw [unlinkSpot_eq]
  have h1 : flagAt (unlinkFirst typ t e).heap x = true := by
    unfold unlinkFirst
    split
    · rw [flagAt_set, flag_setLink, h, Bool.true_or]
    · exact h
  generalize unlinkFirst typ t e = t' at h1 ⊢
  unfold unlinkSecond
  split
  · exact h1
  · split
    · rw [flag_setOwner, flagAt_set, flagAt_set, flag_setLink, h1, Bool.true_or, Bool.true_or]
    · exact h1

/-- The owners of links are cleared and stay so. -/
def Cleared (t : TypeTable) (y : TypeId) (p : Nat) : Prop :=
  ∀ b, HasAttribute t.heap y p b → b.linkOwner = none

theorem cleared_setLink (t : TypeTable) (y z : TypeId) (p q : Nat) (h : Cleared t y p) :
    Cleared (setLinkOwner t z q none) y p := by
  intro b hb
  obtain ⟨b', hb', ⟨_, _, rfl⟩ | ⟨_, rfl⟩⟩ := hasAttribute_setLink _ _ _ _ _ _ _ hb
  · rfl
  · exact h _ hb'

theorem cleared_set (t : TypeTable) (y : TypeId) (p : Nat) : Cleared (setLinkOwner t y p none) y p := by
  intro b hb
  obtain ⟨b', hb', ⟨_, _, rfl⟩ | ⟨hn, _⟩⟩ := hasAttribute_setLink _ _ _ _ _ _ _ hb
  · rfl
  · exact absurd ⟨rfl, rfl⟩ hn

theorem cleared_first {y : TypeId} {p : Nat} (h : Cleared t y p) (e : Spot) :
    Cleared (unlinkFirst typ t e) y p := by
  unfold unlinkFirst
  split
  · exact fun b hb => cleared_setLink _ _ _ _ _ h b (attr_setExplicit hb)
  · exact h

theorem cleared_second {y : TypeId} {p : Nat} (h : Cleared t y p) (e : Spot) :
    Cleared (unlinkSecond typ t e) y p := by
  unfold unlinkSecond
  split
  · exact h
  · split
    · exact fun b hb => cleared_setLink _ _ _ _ _ h b
        (attr_setExplicit (attr_setExplicit (attr_setOwner hb)))
    · exact h

theorem unlink_clears (u : Unlinking t0 typ t) {y : TypeId} {p : Nat} {a : Attribute}
    (ha : VersionAttribute t0 y p a) (hm : Matches t0.heap typ a) :
    Cleared (unlinkSpot typ t (y, p, a.typ)) y p := by
  rw [unlinkSpot_eq]
  rcases hm with h | ⟨e, hc, hk⟩
  · refine cleared_second ?_ _
    unfold unlinkFirst
    dsimp only
    rw [if_pos h]
    exact fun b hb => cleared_set _ _ _ b (attr_setExplicit hb)
  · rcases second_cases (u.first ha) y p a.typ with ⟨hn, _⟩ | ⟨e', _, h⟩
    · exact absurd ⟨hc, hk⟩ (hn e)
    · rw [h]
      exact fun b hb => cleared_set _ _ _ b (attr_setExplicit (attr_setExplicit (attr_setOwner hb)))

theorem ownerAt_lt {h : Heap} {x : TypeId} (hx : x < h.length) (o : Option VersionId) :
    ownerAt (h.update x fun c => { c with owner := o }) x = o := by
  unfold ownerAt
  rw [update_getElem?, if_pos rfl, List.getElem?_eq_getElem hx]
  rfl

theorem unlink_owner (u : Unlinking t0 typ t) {y : TypeId} {p : Nat} {a : Attribute}
    (ha : VersionAttribute t0 y p a) {x : TypeId} (hx : x < t0.heap.length)
    (ho : NamedCollection t0 typ a.typ x) :
    ownerAt (unlinkSpot typ t (y, p, a.typ)).heap x = ownerAt t0.heap typ := by
  rw [unlinkSpot_eq]
  have u1 := u.first ha
  generalize unlinkFirst typ t (y, p, a.typ) = t1 at u1 ⊢
  rcases second_cases u1 y p a.typ with ⟨hn, _⟩ | ⟨e', he, h⟩
  · exact absurd ho (hn x)
  · have : e' = x := by
      have h1 := (elementOf_iff _ _ _).mpr he.1
      have h2 := (elementOf_iff _ _ _).mpr ho.1
      rw [h1] at h2; cases h2; rfl
    subst this
    rw [h]
    refine ownerAt_lt ?_ _
    simp only [ClassRef.setExplicit, setLinkOwner, update_length]
    rw [same_length u1.same]; exact hx

theorem unlink_owner_kept (u : Unlinking t0 typ t) {e : Spot} (o : IsSpot t0 e) {x : TypeId}
    (h : ownerAt t.heap x = ownerAt t0.heap typ) :
    ownerAt (unlinkSpot typ t e).heap x = ownerAt t0.heap typ := by
  obtain ⟨y, p, z⟩ := e
  obtain ⟨a, ha, hz⟩ := o
  dsimp only at ha hz
  subst hz
  rw [unlinkSpot_eq]
  have u1 := u.first ha
  have h1 : ownerAt (unlinkFirst typ t (y, p, a.typ)).heap x = ownerAt t0.heap typ := by
    unfold unlinkFirst
    split
    · rw [owner_setExplicit, owner_setLink, h]
    · exact h
  generalize unlinkFirst typ t (y, p, a.typ) = t1 at u1 h1 ⊢
  rcases second_cases u1 y p a.typ with ⟨_, h⟩ | ⟨e', _, h⟩
  · rw [h]; exact h1
  · rw [h]
    rcases ownerAt_set (ClassRef.setExplicit (ClassRef.setExplicit (setLinkOwner t1 y p none) a.typ)
      e').heap e' (ownerAt t0.heap typ) x with h | ⟨_, h⟩
    · simp only [ClassRef.setOwner]; rw [h, owner_setExplicit, owner_setExplicit, owner_setLink]; exact h1
    · exact h

theorem unlink_marks (u : Unlinking t0 typ t) {y : TypeId} {p : Nat} {a : Attribute}
    (ha : VersionAttribute t0 y p a) {x : TypeId} (hx : x < t0.heap.length)
    (hm : (a.typ = typ ∧ x = typ) ∨ ∃ e, NamedCollection t0 typ a.typ e ∧ (x = a.typ ∨ x = e)) :
    flagAt (unlinkSpot typ t (y, p, a.typ)).heap x = true := by
  rw [unlinkSpot_eq]
  have u1 := u.first ha
  rcases hm with ⟨h, hxt⟩ | ⟨e, he, hxe⟩
  · have h1 : flagAt (unlinkFirst typ t (y, p, a.typ)).heap x = true := by
      unfold unlinkFirst
      dsimp only
      rw [if_pos h, flagAt_set]
      have : x < (setLinkOwner t y p none).heap.length := by
        simp only [setLinkOwner, update_length]; rw [same_length u.same]; exact hx
      simp [h, hxt, hxt ▸ this]
    rcases second_cases u1 y p a.typ with ⟨_, h⟩ | ⟨e', _, h⟩
    · rw [h]; exact h1
    · rw [h, flag_setOwner, flagAt_set, flagAt_set, flag_setLink, h1, Bool.true_or, Bool.true_or]
  · generalize unlinkFirst typ t (y, p, a.typ) = t1 at u1 ⊢
    rcases second_cases u1 y p a.typ with ⟨hn, _⟩ | ⟨e', he', h⟩
    · exact absurd he (hn e)
    · have : e' = e := by
        have h1 := (elementOf_iff _ _ _).mpr he.1
        have h2 := (elementOf_iff _ _ _).mpr he'.1
        rw [h1] at h2; cases h2; rfl
      subst this
      have hl : x < (setLinkOwner t1 y p none).heap.length := by
        simp only [setLinkOwner, update_length]; rw [same_length u1.same]; exact hx
      have hl' : x < (ClassRef.setExplicit (setLinkOwner t1 y p none) a.typ).heap.length := by
        simp only [ClassRef.setExplicit, update_length]; exact hl
      rw [h, flag_setOwner, flagAt_set, flagAt_set]
      rcases hxe with rfl | rfl
      · simp [hl]
      · simp [hl']

end

theorem unlinking_all (t : TypeTable) (typ : TypeId) : Unlinking t typ (unlinkAttributes typ t) := by
  rw [unlink_eq]
  exact foldl_invariant _ (IsSpot t) (Unlinking t typ) (fun s e h o => h.step o) _
    (Unlinking.refl t typ) fun e he => (mem_versionSpots t _ _ _).mp he

theorem unlinking_clears (t : TypeTable) (typ : TypeId) {y : TypeId} {p : Nat} {a : Attribute}
    (ha : VersionAttribute t y p a) (hm : Matches t.heap typ a) :
    Cleared (unlinkAttributes typ t) y p := by
  rw [unlink_eq]
  refine foldl_establish _ (IsSpot t) (Unlinking t typ) (fun s => Cleared s y p)
    (fun s e h o => h.step o) (fun s e _ _ hc => ?_) (y, p, a.typ)
    (fun s u => unlink_clears u ha hm) _ (Unlinking.refl t typ)
    (fun e he => (mem_versionSpots t _ _ _).mp he) ((mem_versionSpots t _ _ _).mpr ⟨a, ha, rfl⟩)
  rw [unlinkSpot_eq]
  exact cleared_second (cleared_first hc e) e

theorem unlinking_marks (t : TypeTable) (typ : TypeId) {x : TypeId} (hx : x < t.heap.length)
    (hm : Marked t typ x) : flagAt (unlinkAttributes typ t).heap x = true := by
  obtain ⟨y, p, a, ha, hm⟩ := hm
  rw [unlink_eq]
  refine foldl_establish _ (IsSpot t) (Unlinking t typ) (fun s => flagAt s.heap x = true)
    (fun s e h o => h.step o) (fun s e _ _ hc => unlink_flag e hc) (y, p, a.typ)
    (fun s u => unlink_marks u ha hx ?_) _ (Unlinking.refl t typ)
    (fun e he => (mem_versionSpots t _ _ _).mp he) ((mem_versionSpots t _ _ _).mpr ⟨a, ha, rfl⟩)
  rcases hm with h | ⟨e, h1, h2, h3⟩
  · exact Or.inl h
  · exact Or.inr ⟨e, ⟨h1, h2⟩, h3⟩

theorem unlinking_owner (t : TypeTable) (typ : TypeId) {x : TypeId} (hx : x < t.heap.length)
    (hm : NamedElement t typ x) : ownerAt (unlinkAttributes typ t).heap x = ownerAt t.heap typ := by
  obtain ⟨y, p, a, ha, hc, hk⟩ := hm
  rw [unlink_eq]
  exact foldl_establish _ (IsSpot t) (Unlinking t typ)
    (fun s => ownerAt s.heap x = ownerAt t.heap typ)
    (fun s e h o => h.step o) (fun s e h o hc => unlink_owner_kept h o hc) (y, p, a.typ)
    (fun s u => unlink_owner u ha hx ⟨hc, hk⟩) _ (Unlinking.refl t typ)
    (fun e he => (mem_versionSpots t _ _ _).mp he) ((mem_versionSpots t _ _ _).mpr ⟨a, ha, rfl⟩)

end ClassRef

end Verif
