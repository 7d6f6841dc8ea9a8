import Verif.Lemmas.ClassRefEvents
import Verif.Lemmas.GoMap

/-! What adding a type changes. -/

namespace Verif

namespace ClassRef

open View (typeKey)

theorem explicitName_iff (t : TypeTable) (x : TypeId) :
    explicitName t x = true ↔ ExplicitIn t (typeKey t.heap x) := by
  unfold explicitName TypeTable.findType ExplicitIn
  rw [typeName_key]
  cases hf : t.types.find (typeKey t.heap x) with
  | none => simp
  | some y =>
    cases hc : t.heap[y]? with
    | none => simp [hc]
    | some c => simp [hc]

theorem ownerOf_eq (h : Heap) (x : TypeId) : ownerOf h x = ownerAt h x := by
  unfold ownerOf ownerAt
  cases h[x]? <;> rfl

theorem update_getElem? (h : Heap) (x : TypeId) (f : TypeCell → TypeCell) (i : Nat) :
    (h.update x f)[i]? = if x = i then h[i]?.map f else h[i]? := by
  unfold Heap.update
  rw [List.getElem?_modify]
  by_cases hi : x = i <;> simp [hi]

/-- The types that are added, in terms of the changes. -/
theorem added_iff (h : Heap) (root x : TypeId) : Added h root x ↔
    x < h.length ∧ (Occurs h root (.add x) ∨ Occurs h root (.self x)) := by
  constructor
  · intro ha
    cases ha with
    | composite hr hc =>
      have := (composite_iff h x).mp hc
      exact ⟨this.2, Or.inr (.self hr this.1)⟩
    | collection hr hc ha hl hcol =>
      refine ⟨?_, Or.inl (.add hr ((composite_iff h _).mp hc).1 ((hasAttribute_iff h _ _ _).mp ha) hl
        ((elementOf_iff h _ _).mpr hcol))⟩
      obtain ⟨c, hc, _⟩ := hcol
      exact (List.getElem?_eq_some_iff.mp hc).1
  · rintro ⟨hlt, ho | ho⟩
    · cases ho with
      | add hr hb ha hl he =>
        have ha' := (hasAttribute_iff h _ _ _).mpr ha
        exact .collection hr ((composite_iff h _).mpr ⟨hb, hasAttribute_lt ha'⟩) ha' hl
          ((elementOf_iff h _ _).mp he)
    · cases ho with
      | self hr hb => exact .composite hr ((composite_iff h _).mpr ⟨hb, hlt⟩)

/-! ### Types and owners -/

/-- The relation with the initial state that all the changes preserve. -/
structure Grown (t0 : TypeTable) (root : TypeId) (t : TypeTable) : Prop where
  version : t.version = t0.version
  same : SameTypes t0.heap t.heap
  types : ∀ key, t.types.find key = t0.types.find key ∨
    ∃ y, Added t0.heap root y ∧ typeKey t0.heap y = key ∧ t.types.find key = some y

theorem Grown.refl (t : TypeTable) (root : TypeId) : Grown t root t :=
  ⟨rfl, SameTypes.refl _, fun _ => Or.inl rfl⟩

theorem link_table (t : TypeTable) (y : TypeId) (p : Nat) (x : TypeId) :
    (perform t (.link y p x)).types = t.types ∧ (perform t (.link y p x)).version = t.version := by
  simp only [perform, importLink]
  split
  · exact ⟨rfl, rfl⟩
  · split
    · split <;> exact ⟨rfl, rfl⟩
    · exact ⟨rfl, rfl⟩

theorem addType_some {t : TypeTable} {x : TypeId} (h : x < t.heap.length) :
    t.addType x =
      { t with
        types := t.types.insert (typeKey t.heap x) x
        heap := t.heap.update x fun c => { c with owner := some t.version } } := by
  unfold TypeTable.addType typeKey
  rw [List.getElem?_eq_getElem h]

theorem addType_none {t : TypeTable} {x : TypeId} (h : ¬ x < t.heap.length) : t.addType x = t := by
  unfold TypeTable.addType
  rw [List.getElem?_eq_none (Nat.le_of_not_lt h)]

theorem update_length (h : Heap) (x : TypeId) (f : TypeCell → TypeCell) :
    (h.update x f).length = h.length := by unfold Heap.update; simp

theorem importSelf_eq (t : TypeTable) (x : TypeId) :
    importSelf t x = (if explicitName t x then setExplicit t x else t).addType x := rfl

theorem importSelf_types {t : TypeTable} {x : TypeId} (h : x < t.heap.length) :
    (importSelf t x).types = t.types.insert (typeKey t.heap x) x ∧
    (importSelf t x).version = t.version := by
  rw [importSelf_eq]
  by_cases he : explicitName t x = true
  · rw [if_pos he, addType_some (by simpa only [setExplicit, update_length] using h),
      same_key (setExplicit_same t x)]
    exact ⟨rfl, rfl⟩
  · rw [if_neg he, addType_some h]; exact ⟨rfl, rfl⟩

theorem importSelf_none {t : TypeTable} {x : TypeId} (h : ¬ x < t.heap.length) :
    importSelf t x = t := by
  rw [importSelf_eq]
  have h1 : setExplicit t x = t := by
    unfold setExplicit Heap.update
    rw [List.modify_eq_self (Nat.le_of_not_lt h)]
  rw [h1]
  by_cases he : explicitName t x = true
  · rw [if_pos he, addType_none h]
  · rw [if_neg he, addType_none h]

theorem grown_insert {t0 t t' : TypeTable} {root x : TypeId} (g : Grown t0 root t)
    (hs : SameTypes t.heap t'.heap) (hv : t'.version = t.version)
    (ht : t'.types = t.types.insert (typeKey t.heap x) x) (ha : Added t0.heap root x) :
    Grown t0 root t' := by
  refine ⟨hv.trans g.version, g.same.trans hs, fun key => ?_⟩
  rw [ht, same_key g.same, GoMap.find_insert]
  by_cases hk : typeKey t0.heap x = key
  · rw [if_pos hk]; exact Or.inr ⟨x, ha, hk, rfl⟩
  · rw [if_neg hk]; exact g.types key

theorem Grown.step {t0 t : TypeTable} {root : TypeId} (g : Grown t0 root t) {e : Event}
    (o : Occurs t0.heap root e) : Grown t0 root (perform t e) := by
  have hlen := same_length g.same
  cases e with
  | link y p x =>
    have := link_table t y p x
    exact ⟨this.2.trans g.version, g.same.trans (perform_same _ _), by rw [this.1]; exact g.types⟩
  | add x =>
    by_cases hx : x < t.heap.length
    · refine grown_insert g (perform_same _ _) ?_ ?_ ((added_iff _ _ _).mpr ⟨hlen ▸ hx, Or.inl o⟩)
      · simp only [perform]; rw [addType_some hx]
      · simp only [perform]; rw [addType_some hx]
    · simp only [perform]; rw [addType_none hx]; exact g
  | self x =>
    by_cases hx : x < t.heap.length
    · have := importSelf_types hx
      exact grown_insert g (perform_same _ _) this.2 this.1
        ((added_iff _ _ _).mpr ⟨hlen ▸ hx, Or.inr o⟩)
    · simp only [perform]; rw [importSelf_none hx]; exact g

theorem Grown.steps {t0 : TypeTable} {root : TypeId} (es : List Event) :
    ∀ {t : TypeTable}, Grown t0 root t → (∀ e ∈ es, Occurs t0.heap root e) →
      Grown t0 root (es.foldl perform t) := by
  induction es with
  | nil => intro t g _; exact g
  | cons e es ih =>
    intro t g ho
    exact ih (g.step (ho e (List.mem_cons_self ..))) fun e h => ho e (List.mem_cons_of_mem _ h)

/-- The version has one of the added types with the same name. -/
def Present (t0 : TypeTable) (root : TypeId) (t : TypeTable) (x : TypeId) : Prop :=
  ∃ y, Added t0.heap root y ∧ typeKey t0.heap y = typeKey t0.heap x ∧
    t.types.find (typeKey t0.heap x) = some y

theorem find_kept {t0 t : TypeTable} {root : TypeId} (g : Grown t0 root t) {e : Event}
    (o : Occurs t0.heap root e) (x : TypeId) (hp : Present t0 root t x) :
    Present t0 root (perform t e) x := by
  have hlen := same_length g.same
  have key : ∀ {t' : TypeTable} {z : TypeId}, t'.types = t.types.insert (typeKey t.heap z) z →
      Added t0.heap root z → Present t0 root t' x := by
    intro t' z ht ha
    unfold Present
    rw [ht, same_key g.same, GoMap.find_insert]
    by_cases hk : typeKey t0.heap z = typeKey t0.heap x
    · rw [if_pos hk]; exact ⟨z, ha, hk, rfl⟩
    · rw [if_neg hk]; exact hp
  cases e with
  | link y p z => unfold Present; rw [(link_table t y p z).1]; exact hp
  | add z =>
    by_cases hx : z < t.heap.length
    · refine key (z := z) ?_ ((added_iff _ _ _).mpr ⟨hlen ▸ hx, Or.inl o⟩)
      simp only [perform]; rw [addType_some hx]
    · simp only [perform]; rw [addType_none hx]; exact hp
  | self z =>
    by_cases hx : z < t.heap.length
    · exact key (importSelf_types hx).1 ((added_iff _ _ _).mpr ⟨hlen ▸ hx, Or.inr o⟩)
    · simp only [perform]; rw [importSelf_none hx]; exact hp

theorem ownedBy_update {h : Heap} {x : TypeId} {v : VersionId} (ho : OwnedBy h x v) (z : TypeId)
    (f : TypeCell → TypeCell) (hf : ∀ c, (f c).owner = c.owner ∨ (f c).owner = some v) :
    OwnedBy (h.update z f) x v := by
  intro c hc
  rw [update_getElem?] at hc
  by_cases hz : z = x
  · rw [if_pos hz] at hc
    cases hx : h[x]? with
    | none => rw [hx] at hc; cases hc
    | some c0 =>
      rw [hx] at hc
      cases hc
      rcases hf c0 with hf | hf
      · rw [hf]; exact ho _ hx
      · exact hf
  · rw [if_neg hz] at hc; exact ho _ hc

theorem ownedBy_set (h : Heap) (x : TypeId) (v : VersionId) :
    OwnedBy (h.update x fun c => { c with owner := some v }) x v := by
  intro c hc
  rw [update_getElem?, if_pos rfl] at hc
  cases hx : h[x]? with
  | none => rw [hx] at hc; cases hc
  | some c0 => rw [hx] at hc; cases hc; rfl

theorem setOwner_owned {t : TypeTable} {x : TypeId} {v : VersionId} (ho : OwnedBy t.heap x v)
    (z : TypeId) : OwnedBy (setOwner t z (some v)).heap x v :=
  ownedBy_update ho _ _ fun _ => Or.inr rfl

theorem setExplicit_owned {t : TypeTable} {x : TypeId} {v : VersionId} (ho : OwnedBy t.heap x v)
    (z : TypeId) : OwnedBy (setExplicit t z).heap x v :=
  ownedBy_update ho _ _ fun _ => Or.inl rfl

theorem setLinkOwner_owned {t : TypeTable} {x : TypeId} {v : VersionId} (ho : OwnedBy t.heap x v)
    (z : TypeId) (p : Nat) (o : Option VersionId) : OwnedBy (setLinkOwner t z p o).heap x v :=
  ownedBy_update ho _ _ fun _ => Or.inl rfl

theorem addType_owned {t : TypeTable} {x : TypeId} (ho : OwnedBy t.heap x t.version) (z : TypeId) :
    OwnedBy (t.addType z).heap x t.version := by
  unfold TypeTable.addType
  split
  · exact ho
  · exact ownedBy_update ho _ _ fun _ => Or.inr rfl

theorem addType_owner (t : TypeTable) (x : TypeId) : OwnedBy (t.addType x).heap x t.version := by
  by_cases h : x < t.heap.length
  · rw [addType_some h]; exact ownedBy_set _ _ _
  · rw [addType_none h]
    intro c hc
    rw [List.getElem?_eq_none (Nat.le_of_not_lt h)] at hc; cases hc

theorem owned_kept {t : TypeTable} (e : Event) (x : TypeId) (ho : OwnedBy t.heap x t.version) :
    OwnedBy (perform t e).heap x t.version := by
  cases e with
  | link y p z =>
    simp only [perform, importLink]
    split
    · exact setOwner_owned ho _
    · split
      · split
        · exact setOwner_owned (setOwner_owned ho _) _
        · exact setLinkOwner_owned ho _ _ _
      · exact setLinkOwner_owned ho _ _ _
  | add z => exact addType_owned ho z
  | self z =>
    simp only [perform, importSelf]
    split
    · exact addType_owned (t := setExplicit t z) (setExplicit_owned ho z) z
    · exact addType_owned ho z

theorem importSelf_owner (t : TypeTable) (x : TypeId) : OwnedBy (importSelf t x).heap x t.version := by
  rw [importSelf_eq]
  by_cases he : explicitName t x = true
  · rw [if_pos he]; exact addType_owner (setExplicit t x) x
  · rw [if_neg he]; exact addType_owner t x

/-- A statement that a change makes true and that the other changes don't make false is true at the
end. -/
theorem steps_establish {t0 : TypeTable} {root : TypeId} (I : TypeTable → Prop) (G : TypeTable → Prop)
    (hI : ∀ t e, I t → Occurs t0.heap root e → I (perform t e))
    (hG : ∀ t e, I t → Occurs t0.heap root e → G t → G (perform t e)) (e : Event)
    (he : ∀ t, I t → G (perform t e)) (es : List Event) :
    ∀ {t : TypeTable}, I t → (∀ e ∈ es, Occurs t0.heap root e) → e ∈ es →
      G (es.foldl perform t) := by
  have kept : ∀ (es : List Event) {t : TypeTable}, I t → (∀ e ∈ es, Occurs t0.heap root e) → G t →
      G (es.foldl perform t) := by
    intro es
    induction es with
    | nil => intro t _ _ h; exact h
    | cons f es ih =>
      intro t hi ho hg
      have hf := ho f (List.mem_cons_self ..)
      exact ih (hI t f hi hf) (fun e h => ho e (List.mem_cons_of_mem _ h)) (hG t f hi hf hg)
  induction es with
  | nil => intro t _ _ h; cases h
  | cons f es ih =>
    intro t hi ho hm
    have hf := ho f (List.mem_cons_self ..)
    have ho' : ∀ e ∈ es, Occurs t0.heap root e := fun e h => ho e (List.mem_cons_of_mem _ h)
    rcases List.mem_cons.mp hm with rfl | hm
    · exact kept es (hI t e hi hf) ho' (he t hi)
    · exact ih (hI t f hi hf) ho' hm

theorem added_present {t0 : TypeTable} {root x : TypeId} {es : List Event}
    (hs : ∀ e ∈ es, Occurs t0.heap root e) (hc : ∀ e, Occurs t0.heap root e → e ∈ es)
    (ha : Added t0.heap root x) :
    Present t0 root (es.foldl perform t0) x ∧
      OwnedBy (es.foldl perform t0).heap x t0.version := by
  obtain ⟨hlt, ho⟩ := (added_iff _ _ _).mp ha
  have hI : ∀ t e, Grown t0 root t → Occurs t0.heap root e → Grown t0 root (perform t e) :=
    fun t e g o => g.step o
  have hG : ∀ t e, Grown t0 root t → Occurs t0.heap root e →
      (Present t0 root t x ∧ OwnedBy t.heap x t0.version) →
      Present t0 root (perform t e) x ∧ OwnedBy (perform t e).heap x t0.version := by
    intro t e g o hp
    refine ⟨find_kept g o x hp.1, ?_⟩
    rw [← g.version] at hp ⊢
    exact owned_kept e x hp.2
  have found : ∀ t, Grown t0 root t → Present t0 root (t.addType x) x := by
    intro t g
    refine ⟨x, ha, rfl, ?_⟩
    rw [addType_some (by rw [same_length g.same]; exact hlt)]
    simp only [same_key g.same]
    rw [GoMap.find_insert, if_pos rfl]
  rcases ho with ho | ho
  · refine steps_establish (Grown t0 root) (fun t => Present t0 root t x ∧ OwnedBy t.heap x t0.version)
      hI hG (.add x) (fun t g => ⟨found t g, ?_⟩) es (Grown.refl t0 root) hs (hc _ ho)
    rw [← g.version]; exact addType_owner t x
  · refine steps_establish (Grown t0 root) (fun t => Present t0 root t x ∧ OwnedBy t.heap x t0.version)
      hI hG (.self x) (fun t g => ⟨⟨x, ha, rfl, ?_⟩, ?_⟩) es (Grown.refl t0 root) hs (hc _ ho)
    · have := (importSelf_types (t := t) (x := x) (by rw [same_length g.same]; exact hlt)).1
      simp only [perform]
      rw [this, same_key g.same, GoMap.find_insert, if_pos rfl]
    · rw [← g.version]; exact importSelf_owner t x

end ClassRef

end Verif
