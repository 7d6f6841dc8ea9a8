import Verif.Lemmas.ClassRefWalk

/-! What adding a type changes in links and owners. -/

namespace Verif

namespace ClassRef

open View (typeKey)

/-- The flag of types declared with references. -/
def flagAt (h : Heap) (x : TypeId) : Bool :=
  match h[x]? with
  | none => false
  | some c => c.explicitDeclared

theorem explicitIn_iff (t : TypeTable) (k : Text) :
    ExplicitIn t k ↔ ∃ x, t.types.find k = some x ∧ flagAt t.heap x = true := by
  unfold ExplicitIn flagAt
  constructor
  · rintro ⟨x, c, hf, hc, he⟩; exact ⟨x, hf, by rw [hc]; exact he⟩
  · rintro ⟨x, hf, he⟩
    cases hc : t.heap[x]? with
    | none => rw [hc] at he; cases he
    | some c => rw [hc] at he; exact ⟨x, c, hf, hc, he⟩

theorem flagAt_update (h : Heap) (z : TypeId) (f : TypeCell → TypeCell)
    (hf : ∀ c, (f c).explicitDeclared = c.explicitDeclared) (x : TypeId) :
    flagAt (h.update z f) x = flagAt h x := by
  unfold flagAt
  rw [update_getElem?]
  by_cases hz : z = x
  · rw [if_pos hz]; cases h[x]? <;> simp [hf]
  · rw [if_neg hz]

theorem flagAt_set (t : TypeTable) (z x : TypeId) :
    flagAt (setExplicit t z).heap x = (flagAt t.heap x || (z == x && decide (x < t.heap.length))) := by
  simp only [setExplicit, flagAt, update_getElem?]
  by_cases hz : z = x
  · subst hz
    cases hc : t.heap[z]? with
    | none =>
      have : ¬ z < t.heap.length := fun h => by rw [List.getElem?_eq_getElem h] at hc; cases hc
      simp [hc, this]
    | some c => have := (List.getElem?_eq_some_iff.mp hc).1; simp [hc, this]
  · have : (z == x) = false := by simpa using hz
    simp [hz]

theorem ownerAt_update (h : Heap) (z : TypeId) (f : TypeCell → TypeCell)
    (hf : ∀ c, (f c).owner = c.owner) (x : TypeId) :
    ownerAt (h.update z f) x = ownerAt h x := by
  unfold ownerAt
  rw [update_getElem?]
  by_cases hz : z = x
  · rw [if_pos hz]; cases h[x]? <;> simp [hf]
  · rw [if_neg hz]

theorem ownerAt_set (h : Heap) (z : TypeId) (o : Option VersionId) (x : TypeId) :
    ownerAt (h.update z fun c => { c with owner := o }) x = ownerAt h x ∨
      (z = x ∧ ownerAt (h.update z fun c => { c with owner := o }) x = o) := by
  unfold ownerAt
  rw [update_getElem?]
  by_cases hz : z = x
  · rw [if_pos hz]; cases h[x]? <;> simp [hz]
  · rw [if_neg hz]; exact Or.inl rfl

theorem hasAttribute_update (h : Heap) (z : TypeId) (f : TypeCell → TypeCell)
    (hf : ∀ c, (f c).attributes = c.attributes) (y : TypeId) (p : Nat) (a : Attribute) :
    HasAttribute (h.update z f) y p a ↔ HasAttribute h y p a := by
  unfold HasAttribute
  rw [update_getElem?]
  by_cases hz : z = y
  · rw [if_pos hz]
    cases h[y]? with
    | none => simp
    | some c => simp [hf]
  · rw [if_neg hz]

theorem hasAttribute_setLink (t : TypeTable) (z : TypeId) (q : Nat) (o : Option VersionId)
    (y : TypeId) (p : Nat) (a : Attribute) (ha : HasAttribute (setLinkOwner t z q o).heap y p a) :
    ∃ b, HasAttribute t.heap y p b ∧
      ((z = y ∧ q = p ∧ a = { b with linkOwner := o }) ∨ (¬ (z = y ∧ q = p) ∧ a = b)) := by
  obtain ⟨c, hc, ha⟩ := ha
  simp only [setLinkOwner, update_getElem?] at hc
  by_cases hz : z = y
  · rw [if_pos hz] at hc
    cases hy : t.heap[y]? with
    | none => rw [hy] at hc; cases hc
    | some c0 =>
      rw [hy] at hc
      simp only [Option.map_some, Option.some.injEq] at hc
      subst hc
      simp only [List.getElem?_modify] at ha
      cases hb : c0.attributes[p]? with
      | none => rw [hb] at ha; cases ha
      | some b =>
        rw [hb] at ha
        refine ⟨b, ⟨c0, hy, hb⟩, ?_⟩
        by_cases hq : q = p
        · simp [hq] at ha; exact Or.inl ⟨hz, hq, ha.symm⟩
        · simp [hq] at ha; exact Or.inr ⟨fun h => hq h.2, ha.symm⟩
  · rw [if_neg hz] at hc
    exact ⟨a, ⟨c, hc, ha⟩, Or.inr ⟨fun h => hz h.1, rfl⟩⟩

theorem flag_setOwner (t : TypeTable) (z : TypeId) (o : Option VersionId) (x : TypeId) :
    flagAt (setOwner t z o).heap x = flagAt t.heap x :=
  flagAt_update t.heap z (fun c => { c with owner := o }) (fun _ => rfl) x

theorem flag_setLink (t : TypeTable) (z : TypeId) (p : Nat) (o : Option VersionId) (x : TypeId) :
    flagAt (setLinkOwner t z p o).heap x = flagAt t.heap x :=
  flagAt_update t.heap z (fun c => { c with
    attributes := c.attributes.modify p fun a => { a with linkOwner := o } }) (fun _ => rfl) x

theorem flag_addType (t : TypeTable) (z x : TypeId) :
    flagAt (t.addType z).heap x = flagAt t.heap x := by
  unfold TypeTable.addType
  split
  · rfl
  · exact flagAt_update t.heap z (fun c => { c with owner := some t.version }) (fun _ => rfl) x

theorem owner_setLink (t : TypeTable) (z : TypeId) (p : Nat) (o : Option VersionId) (x : TypeId) :
    ownerAt (setLinkOwner t z p o).heap x = ownerAt t.heap x :=
  ownerAt_update t.heap z (fun c => { c with
    attributes := c.attributes.modify p fun a => { a with linkOwner := o } }) (fun _ => rfl) x

theorem owner_setExplicit (t : TypeTable) (z x : TypeId) :
    ownerAt (setExplicit t z).heap x = ownerAt t.heap x :=
  ownerAt_update t.heap z (fun c => { c with explicitDeclared := true }) (fun _ => rfl) x

theorem attr_setOwner {t : TypeTable} {z : TypeId} {o : Option VersionId} {y : TypeId} {p : Nat}
    {a : Attribute} (h : HasAttribute (setOwner t z o).heap y p a) : HasAttribute t.heap y p a :=
  (hasAttribute_update t.heap z (fun c => { c with owner := o }) (fun _ => rfl) y p a).mp h

theorem attr_setExplicit {t : TypeTable} {z : TypeId} {y : TypeId} {p : Nat}
    {a : Attribute} (h : HasAttribute (setExplicit t z).heap y p a) : HasAttribute t.heap y p a :=
  (hasAttribute_update t.heap z (fun c => { c with explicitDeclared := true }) (fun _ => rfl) y p a).mp h

theorem attr_addType {t : TypeTable} {z : TypeId} {y : TypeId} {p : Nat}
    {a : Attribute} (h : HasAttribute (t.addType z).heap y p a) : HasAttribute t.heap y p a := by
  unfold TypeTable.addType at h
  split at h
  · exact h
  · exact (hasAttribute_update t.heap z (fun c => { c with owner := some t.version }) (fun _ => rfl)
      y p a).mp h

/-- The owners that a link can have. -/
def LinkValue (t0 : TypeTable) (root : TypeId) (a : Attribute) (o : Option VersionId) : Prop :=
  o = ownerAt t0.heap a.typ ∨ (Added t0.heap root a.typ ∧ o = some t0.version)

/-- The relation with the initial state that all the changes preserve, in the usual situation. -/
structure Linked (t0 : TypeTable) (root : TypeId) (t : TypeTable) : Prop extends Grown t0 root t where
  flags : ∀ x, flagAt t.heap x = true → flagAt t0.heap x = true ∨
    (Reaches t0.heap root x ∧ Composite t0.heap x ∧ ExplicitIn t0 (typeKey t0.heap x))
  explicit : ∀ k, ExplicitIn t k ↔ ExplicitIn t0 k
  owners : ∀ x, ownerAt t.heap x = ownerAt t0.heap x ∨
    (ownerAt t.heap x = some t0.version ∧ (Added t0.heap root x ∨ Claimed t0 root x))
  links : ∀ y p a, HasAttribute t.heap y p a → ∃ a0, HasAttribute t0.heap y p a0 ∧
    attributeCore a = attributeCore a0 ∧ (a.linkOwner = a0.linkOwner ∨
      (a0.link = true ∧ Reaches t0.heap root y ∧ Composite t0.heap y ∧ ¬ LinkDeclared t0 a0 ∧
        LinkValue t0 root a0 a.linkOwner))

theorem Linked.refl (t : TypeTable) (root : TypeId) : Linked t root t :=
  { Grown.refl t root with
    flags := fun _ h => Or.inl h
    explicit := fun _ => Iff.rfl
    owners := fun _ => Or.inl rfl
    links := fun _ _ a h => ⟨a, h, rfl, Or.inl rfl⟩ }

section
variable {t0 t : TypeTable} {root : TypeId}

theorem Grown.keyed (u : Usual t0 root) (g : Grown t0 root t) {k : Text} {x : TypeId}
    (h : t.types.find k = some x) : typeKey t0.heap x = k := by
  rcases g.types k with h' | ⟨y, _, hk, h'⟩
  · exact u.keyed k x (h' ▸ h)
  · rw [h] at h'; cases h'; exact hk

theorem Linked.name (l : Linked t0 root t) (x : TypeId) :
    explicitName t x = true ↔ ExplicitIn t0 (typeKey t0.heap x) := by
  rw [explicitName_iff, l.explicit, same_key l.same]

/-- Changes of owners. -/
theorem Linked.setOwner (l : Linked t0 root t) {x : TypeId}
    (hx : Added t0.heap root x ∨ Claimed t0 root x) :
    Linked t0 root (setOwner t x (some t0.version)) where
  version := l.version
  same := l.same.trans (setOwner_same _ _ _)
  types := l.types
  flags := fun y h => l.flags y (by rwa [flag_setOwner] at h)
  explicit := fun k => by
    rw [← l.explicit k, explicitIn_iff, explicitIn_iff]
    simp only [flag_setOwner]
    exact Iff.rfl
  owners := fun y => by
    rcases ownerAt_set t.heap x (some t0.version) y with h | ⟨rfl, h⟩
    · simp only [ClassRef.setOwner]; rw [h]; exact l.owners y
    · exact Or.inr ⟨h, hx⟩
  links := fun y p a ha => l.links y p a (attr_setOwner ha)

theorem Linked.setLink (l : Linked t0 root t) {y : TypeId} {p : Nat} {a : Attribute}
    {o : Option VersionId} (hr : Reaches t0.heap root y) (hc : Composite t0.heap y)
    (ha : HasAttribute t0.heap y p a) (hl : a.link = true) (hn : ¬ LinkDeclared t0 a)
    (ho : LinkValue t0 root a o) : Linked t0 root (setLinkOwner t y p o) where
  version := l.version
  same := l.same.trans (setLinkOwner_same _ _ _ _)
  types := l.types
  flags := fun y h => l.flags y (by rwa [flag_setLink] at h)
  explicit := fun k => by
    rw [← l.explicit k, explicitIn_iff, explicitIn_iff]
    simp only [flag_setLink]
    exact Iff.rfl
  owners := fun z => by
    rw [owner_setLink]; exact l.owners z
  links := fun z q b hb => by
    obtain ⟨b', hb', hcase⟩ := hasAttribute_setLink _ _ _ _ _ _ _ hb
    obtain ⟨a0, ha0, hcore, hval⟩ := l.links z q b' hb'
    rcases hcase with ⟨rfl, rfl, rfl⟩ | ⟨_, rfl⟩
    · have : a0 = a := by
        rw [hasAttribute_iff] at ha ha0; rw [ha] at ha0; cases ha0; rfl
      subst this
      exact ⟨a0, ha0, hcore, Or.inr ⟨hl, hr, hc, hn, ho⟩⟩
    · exact ⟨a0, ha0, hcore, hval⟩

/-- Adding a type that isn't declared with a reference, and isn't going to be. -/
theorem Linked.addType (u : Usual t0 root) (l : Linked t0 root t) {x : TypeId}
    (ha : Added t0.heap root x) (hx : x < t.heap.length)
    (hf : flagAt t.heap x = true ↔ ExplicitIn t0 (typeKey t0.heap x)) :
    Linked t0 root (t.addType x) := by
  have hv := l.version
  have e : t.addType x = _ := addType_some hx
  refine { toGrown := grown_insert l.toGrown (addType_same _ _) (by rw [e]) (by rw [e]) ha, flags := ?_, explicit := ?_, owners := ?_, links := ?_ }
  · intro y h
    rw [flag_addType] at h
    exact l.flags y h
  · intro k
    rw [explicitIn_iff]
    simp only [flag_addType]
    rw [e]
    simp only [same_key l.same, GoMap.find_insert]
    by_cases hk : typeKey t0.heap x = k
    · simp only [if_pos hk, Option.some.injEq, exists_eq_left']
      rw [hf, hk]
    · simp only [if_neg hk]
      rw [← explicitIn_iff]; exact l.explicit k
  · intro y
    rw [e]
    rcases ownerAt_set t.heap x (some t.version) y with h | ⟨rfl, h⟩
    · dsimp only; rw [h]; exact l.owners y
    · exact Or.inr ⟨by dsimp only; rw [h, hv], Or.inl ha⟩
  · intro y p a h
    exact l.links y p a (attr_addType h)

/-- Marking a type whose name is declared with a reference. -/
theorem Linked.setExplicit (u : Usual t0 root) (l : Linked t0 root t) {x : TypeId}
    (hr : Reaches t0.heap root x) (hc : Composite t0.heap x)
    (he : ExplicitIn t0 (typeKey t0.heap x)) : Linked t0 root (setExplicit t x) where
  version := l.version
  same := l.same.trans (setExplicit_same _ _)
  types := l.types
  flags := fun y h => by
    rw [flagAt_set, Bool.or_eq_true] at h
    rcases h with h | h
    · exact l.flags y h
    · rw [Bool.and_eq_true, beq_iff_eq] at h
      rw [← h.1]
      exact Or.inr ⟨hr, hc, he⟩
  explicit := fun k => by
    constructor
    · intro h
      rw [explicitIn_iff] at h
      obtain ⟨y, hf, hg⟩ := h
      rw [flagAt_set, Bool.or_eq_true] at hg
      rcases hg with hg | hg
      · rw [← l.explicit, explicitIn_iff]; exact ⟨y, hf, hg⟩
      · rw [Bool.and_eq_true, beq_iff_eq] at hg
        have := l.toGrown.keyed u (k := k) (x := y) hf
        rw [← hg.1] at this
        rw [← this]; exact he
    · intro h
      rw [← l.explicit, explicitIn_iff] at h
      obtain ⟨y, hf, hg⟩ := h
      rw [explicitIn_iff]
      exact ⟨y, hf, by rw [flagAt_set, hg, Bool.true_or]⟩
  owners := fun y => by
    rw [owner_setExplicit]; exact l.owners y
  links := fun y p a ha => l.links y p a (attr_setExplicit ha)

theorem flagAt_false_of_added (u : Usual t0 root) {x : TypeId} (ha : Added t0.heap root x) :
    flagAt t0.heap x = false := by
  unfold flagAt
  cases hc : t0.heap[x]? with
  | none => rfl
  | some c => exact u.unflagged x c ha hc

/-- What happens to the type of a link. -/
theorem link_cases (l : Linked t0 root t) (y : TypeId) (p : Nat) (a : Attribute) :
    (ExplicitIn t0 (typeKey t0.heap a.typ) ∧
      perform t (.link y p a.typ) = ClassRef.setOwner t a.typ (some t0.version)) ∨
    (∃ e, ¬ ExplicitIn t0 (typeKey t0.heap a.typ) ∧ Collection t0.heap a.typ e ∧
      ExplicitIn t0 (typeKey t0.heap e) ∧ perform t (.link y p a.typ) =
        ClassRef.setOwner (ClassRef.setOwner t a.typ (some t0.version)) e (some t0.version)) ∨
    (¬ LinkDeclared t0 a ∧
      perform t (.link y p a.typ) = setLinkOwner t y p (ownerAt t.heap a.typ)) := by
  simp only [perform, importLink]
  rw [l.version]
  by_cases h1 : explicitName t a.typ = true
  · rw [if_pos h1]; exact Or.inl ⟨(l.name _).mp h1, rfl⟩
  · rw [if_neg h1]
    have h1 : ¬ ExplicitIn t0 (typeKey t0.heap a.typ) := fun h => h1 ((l.name _).mpr h)
    cases he : elementOf t.heap a.typ with
    | none =>
      refine Or.inr (Or.inr ⟨?_, by rw [ownerOf_eq]⟩)
      rw [same_element l.same, elementOf_none] at he
      rintro (h | ⟨e, hc, _⟩)
      · exact h1 h
      · exact he e hc
    | some e =>
      dsimp only
      rw [same_element l.same, elementOf_iff] at he
      by_cases h2 : explicitName t e = true
      · rw [if_pos h2]
        exact Or.inr (Or.inl ⟨e, h1, he, (l.name _).mp h2, rfl⟩)
      · rw [if_neg h2]
        refine Or.inr (Or.inr ⟨?_, by rw [ownerOf_eq]⟩)
        rintro (h | ⟨e', hc, h⟩)
        · exact h1 h
        · rw [← elementOf_iff] at hc he
          rw [he] at hc; cases hc
          exact h2 ((l.name _).mpr h)

theorem link_value (l : Linked t0 root t) {a : Attribute} (hn : ¬ LinkDeclared t0 a) :
    LinkValue t0 root a (ownerAt t.heap a.typ) := by
  rcases l.owners a.typ with h | ⟨h, ha | ⟨y, p, b, _, _, _, _, hb⟩⟩
  · exact Or.inl h
  · exact Or.inr ⟨ha, h⟩
  · rcases hb with ⟨hx, hd⟩ | ⟨_, _, he⟩
    · refine absurd ?_ hn
      unfold LinkDeclared at hd ⊢
      rw [hx]; exact hd
    · exact absurd (Or.inl he) hn

theorem Linked.step (u : Usual t0 root) (l : Linked t0 root t) {e : Event}
    (o : Occurs t0.heap root e) : Linked t0 root (perform t e) := by
  have hlen := same_length l.same
  cases o with
  | @link y p a hr hb ha hl =>
    have ha' := (hasAttribute_iff _ _ _ _).mpr ha
    have hc : Composite t0.heap y := (composite_iff _ _).mpr ⟨hb, hasAttribute_lt ha'⟩
    rcases link_cases l y p a with ⟨h1, h⟩ | ⟨e, h1, h2, h3, h⟩ | ⟨h1, h⟩
    · rw [h]
      exact l.setOwner (Or.inr ⟨y, p, a, hr, hc, ha', hl, Or.inl ⟨rfl, Or.inl h1⟩⟩)
    · rw [h]
      refine Linked.setOwner (l.setOwner ?_) ?_
      · exact Or.inr ⟨y, p, a, hr, hc, ha', hl, Or.inl ⟨rfl, Or.inr ⟨e, h2, h3⟩⟩⟩
      · exact Or.inr ⟨y, p, a, hr, hc, ha', hl, Or.inr ⟨h2, h1, h3⟩⟩
    · rw [h]
      exact l.setLink hr hc ha' hl h1 (link_value l h1)
  | @add y p a e hr hb ha hl he =>
    have hadd : Added t0.heap root a.typ := by
      have ha' := (hasAttribute_iff _ _ _ _).mpr ha
      exact .collection hr ((composite_iff _ _).mpr ⟨hb, hasAttribute_lt ha'⟩) ha' hl
        ((elementOf_iff _ _ _).mp he)
    have hcol := u.collections _ _ hadd ((elementOf_iff _ _ _).mp he)
    refine l.addType u hadd (hlen.symm ▸ ((added_iff _ _ _).mp hadd).1) ⟨fun h => ?_, fun h => absurd h hcol⟩
    rcases l.flags _ h with h | ⟨_, _, h⟩
    · rw [flagAt_false_of_added u hadd] at h; cases h
    · exact h
  | self hr hb =>
    rename_i x
    by_cases hx : x < t0.heap.length
    · have hc : Composite t0.heap x := (composite_iff _ _).mpr ⟨hb, hx⟩
      have hadd : Added t0.heap root x := .composite hr hc
      simp only [perform, importSelf]
      by_cases he : explicitName t x = true
      · rw [if_pos he]
        have he := (l.name x).mp he
        refine (l.setExplicit u hr hc he).addType u hadd ?_ ⟨fun _ => he, fun _ => ?_⟩
        · simp only [ClassRef.setExplicit, update_length]; rw [hlen]; exact hx
        · rw [flagAt_set]; simp [hlen, hx]
      · rw [if_neg he]
        have he : ¬ ExplicitIn t0 (typeKey t0.heap x) := fun h => he ((l.name x).mpr h)
        refine l.addType u hadd (hlen.symm ▸ hx) ⟨fun h => ?_, fun h => absurd h he⟩
        rcases l.flags _ h with h | ⟨_, _, h⟩
        · rw [flagAt_false_of_added u hadd] at h; cases h
        · exact h
    · simp only [perform]; rw [importSelf_none (hlen.symm ▸ hx)]; exact l

end

theorem Linked.steps {t0 : TypeTable} {root : TypeId} (u : Usual t0 root) (es : List Event) :
    ∀ {t : TypeTable}, Linked t0 root t → (∀ e ∈ es, Occurs t0.heap root e) →
      Linked t0 root (es.foldl perform t) := by
  induction es with
  | nil => intro t g _; exact g
  | cons e es ih =>
    intro t g ho
    exact ih (g.step u (ho e (List.mem_cons_self ..))) fun e h => ho e (List.mem_cons_of_mem _ h)

/-! ### What each change makes true -/

/-- What is true of a link after it is processed. -/
def LinkDone (t0 : TypeTable) (root : TypeId) (t : TypeTable) (y : TypeId) (p : Nat) (a : Attribute) :
    Prop :=
  (ExplicitIn t0 (typeKey t0.heap a.typ) → OwnedBy t.heap a.typ t0.version) ∧
  (¬ ExplicitIn t0 (typeKey t0.heap a.typ) → ∀ e, Collection t0.heap a.typ e →
    ExplicitIn t0 (typeKey t0.heap e) → OwnedBy t.heap a.typ t0.version ∧ OwnedBy t.heap e t0.version) ∧
  (¬ LinkDeclared t0 a → ∀ b, HasAttribute t.heap y p b → LinkValue t0 root a b.linkOwner)

section
variable {t0 t : TypeTable} {root : TypeId}

theorem linkDone_establish (l : Linked t0 root t) {y : TypeId} {p : Nat} {a : Attribute} :
    LinkDone t0 root (perform t (.link y p a.typ)) y p a := by
  rcases link_cases l y p a with ⟨h1, h⟩ | ⟨e, h1, h2, h3, h⟩ | ⟨h1, h⟩
  · rw [h]
    exact ⟨fun _ => ownedBy_set _ _ _, fun hn => absurd h1 hn, fun hn => absurd (Or.inl h1) hn⟩
  · rw [h]
    refine ⟨fun h' => absurd h' h1, fun _ e' hc _ => ?_, fun hn => absurd (Or.inr ⟨e, h2, h3⟩) hn⟩
    have : e' = e := by
      rw [← elementOf_iff] at hc h2; rw [h2] at hc; cases hc; rfl
    subst this
    exact ⟨setOwner_owned (ownedBy_set _ _ _) _, ownedBy_set _ _ _⟩
  · rw [h]
    refine ⟨fun h' => absurd (Or.inl h') h1, fun _ e hc he => absurd (Or.inr ⟨e, hc, he⟩) h1, ?_⟩
    intro _ b hb
    obtain ⟨b', hb', ⟨_, _, rfl⟩ | ⟨hne, _⟩⟩ := hasAttribute_setLink _ _ _ _ _ _ _ hb
    · exact link_value l h1
    · exact absurd ⟨rfl, rfl⟩ hne

theorem perform_attribute (l : Linked t0 root t) {e : Event}
    (o : Occurs t0.heap root e) {y : TypeId} {p : Nat} {a b : Attribute}
    (ha : HasAttribute t0.heap y p a) (hn : ¬ LinkDeclared t0 a)
    (hp : ∀ b, HasAttribute t.heap y p b → LinkValue t0 root a b.linkOwner)
    (hb : HasAttribute (perform t e).heap y p b) : LinkValue t0 root a b.linkOwner := by
  cases o with
  | @link z q c hr hb' hc hl =>
    rcases link_cases l z q c with ⟨h1, h⟩ | ⟨e, h1, h2, h3, h⟩ | ⟨h1, h⟩
    · rw [h] at hb
      exact hp b (attr_setOwner hb)
    · rw [h] at hb
      exact hp b (attr_setOwner (attr_setOwner hb))
    · rw [h] at hb
      obtain ⟨b', hb', ⟨rfl, rfl, rfl⟩ | ⟨_, rfl⟩⟩ := hasAttribute_setLink _ _ _ _ _ _ _ hb
      · have : c = a := by
          rw [hasAttribute_iff] at ha; rw [ha] at hc; cases hc; rfl
        subst this
        exact link_value l h1
      · exact hp _ hb'
  | add => exact hp b (attr_addType hb)
  | self =>
    simp only [perform, importSelf] at hb
    have hb := attr_addType hb
    split at hb
    · exact hp b (attr_setExplicit hb)
    · exact hp b hb

theorem linkDone_kept (l : Linked t0 root t) {e : Event} (o : Occurs t0.heap root e) {y : TypeId}
    {p : Nat} {a : Attribute} (ha : HasAttribute t0.heap y p a) (hd : LinkDone t0 root t y p a) :
    LinkDone t0 root (perform t e) y p a := by
  have own : ∀ x, OwnedBy t.heap x t0.version → OwnedBy (perform t e).heap x t0.version := by
    intro x hx
    rw [← l.version] at hx ⊢
    exact owned_kept e x hx
  refine ⟨fun h => own _ (hd.1 h), fun h e' hc he => ?_, fun hn b hb => ?_⟩
  · exact ⟨own _ (hd.2.1 h e' hc he).1, own _ (hd.2.1 h e' hc he).2⟩
  · exact perform_attribute l o ha hn (hd.2.2 hn) hb

theorem links_done (u : Usual t0 root) {es : List Event}
    (hs : ∀ e ∈ es, Occurs t0.heap root e) (hc : ∀ e, Occurs t0.heap root e → e ∈ es)
    {y : TypeId} {p : Nat} {a : Attribute} (hr : Reaches t0.heap root y) (hk : Composite t0.heap y)
    (ha : HasAttribute t0.heap y p a) (hl : a.link = true) :
    LinkDone t0 root (es.foldl perform t0) y p a := by
  refine steps_establish (Linked t0 root) (fun t => LinkDone t0 root t y p a)
    (fun t e l o => l.step u o) (fun t e l o hg => linkDone_kept l o ha hg) (.link y p a.typ)
    (fun t l => linkDone_establish l) es (Linked.refl t0 root) hs (hc _ ?_)
  exact .link hr ((composite_iff _ _).mp hk).1 ((hasAttribute_iff _ _ _ _).mp ha) hl

/-- The flag is set in the types that have the name of one that has it. -/
theorem flags_done (u : Usual t0 root) {es : List Event}
    (hs : ∀ e ∈ es, Occurs t0.heap root e) (hc : ∀ e, Occurs t0.heap root e → e ∈ es)
    {x : TypeId} (hr : Reaches t0.heap root x) (hk : Composite t0.heap x)
    (he : ExplicitIn t0 (typeKey t0.heap x)) : flagAt (es.foldl perform t0).heap x = true := by
  refine steps_establish (Linked t0 root) (fun t => flagAt t.heap x = true)
    (fun t e l o => l.step u o) (fun t e l o hg => ?_) (.self x)
    (fun t l => ?_) es (Linked.refl t0 root) hs (hc _ (.self hr ((composite_iff _ _).mp hk).1))
  · cases o with
    | @link z q c hr hb' hc hl =>
      rcases link_cases l z q c with ⟨h1, h⟩ | ⟨e, h1, h2, h3, h⟩ | ⟨h1, h⟩
      · rw [h, flag_setOwner]; exact hg
      · rw [h, flag_setOwner, flag_setOwner]; exact hg
      · rw [h, flag_setLink]; exact hg
    | add => simp only [perform]; rw [flag_addType]; exact hg
    | self =>
      simp only [perform, importSelf]
      rw [flag_addType]
      split
      · rw [flagAt_set, hg, Bool.true_or]
      · exact hg
  · simp only [perform, importSelf]
    rw [flag_addType, if_pos ((l.name x).mpr he), flagAt_set]
    simp [same_length l.same, ((composite_iff _ _).mp hk).2]

end

end ClassRef

end Verif
