import Verif.Lemmas.ClassRef
import Verif.Lemmas.Resources

/-! Which changes adding a type does, and when it ends. -/

namespace Verif

namespace ClassRef

open View (typeKey)

theorem hasAttribute_iff (h : Heap) (id : TypeId) (p : Nat) (a : Attribute) :
    HasAttribute h id p a ↔ (attributesOf h id)[p]? = some a := by
  unfold HasAttribute attributesOf
  cases h[id]? <;> simp

theorem composite_iff (h : Heap) (id : TypeId) :
    Composite h id ↔ isBasicType h id = false ∧ id < h.length := by
  unfold Composite isBasicType
  cases hc : h[id]? with
  | none => simpa using hc
  | some c =>
    have := (List.getElem?_eq_some_iff.mp hc).1
    simp [this]

theorem hasAttribute_lt {h : Heap} {id : TypeId} {p : Nat} {a : Attribute}
    (ha : HasAttribute h id p a) : id < h.length := by
  obtain ⟨c, hc, _⟩ := ha
  exact (List.getElem?_eq_some_iff.mp hc).1

/-- The type that is added because of an attribute. -/
def target (h : Heap) (a : Attribute) : TypeId :=
  match elementOf h a.typ with
  | some e => e
  | none => a.typ

theorem needs_iff (h : Heap) (x y : TypeId) :
    Needs h x y ↔ isBasicType h x = false ∧
      ∃ (p : Nat) (a : Attribute), (attributesOf h x)[p]? = some a ∧ a.link = false ∧ target h a = y := by
  unfold Needs target
  constructor
  · rintro ⟨hc, p, a, ha, hl, hy⟩
    refine ⟨((composite_iff h x).mp hc).1, p, a, (hasAttribute_iff h x p a).mp ha, hl, ?_⟩
    rcases hy with hy | ⟨hn, rfl⟩
    · rw [(elementOf_iff h a.typ y).mpr hy]
    · rw [(elementOf_none h a.typ).mpr hn]
  · rintro ⟨hb, p, a, ha, hl, hy⟩
    have ha := (hasAttribute_iff h x p a).mpr ha
    refine ⟨(composite_iff h x).mpr ⟨hb, hasAttribute_lt ha⟩, p, a, ha, hl, ?_⟩
    cases he : elementOf h a.typ with
    | none => rw [he] at hy; exact Or.inr ⟨(elementOf_none h a.typ).mp he, hy.symm⟩
    | some e => rw [he] at hy; exact Or.inl (hy ▸ (elementOf_iff h a.typ e).mp he)

theorem Reaches.trans {h : Heap} {x y z : TypeId} (a : Reaches h x y) (b : Reaches h y z) :
    Reaches h x z := by
  induction a with
  | refl => exact b
  | step hn _ ih => exact .step hn (ih b)

theorem Reaches.snoc {h : Heap} {x y z : TypeId} (a : Reaches h x y) (b : Needs h y z) :
    Reaches h x z := a.trans (.step b (.refl _))

/-- The changes that adding a type does. -/
inductive Occurs (h : Heap) (root : TypeId) : Event → Prop
  | link {y : TypeId} {p : Nat} {a : Attribute} : Reaches h root y → isBasicType h y = false → (attributesOf h y)[p]? = some a →
      a.link = true → Occurs h root (.link y p a.typ)
  | add {y : TypeId} {p : Nat} {a : Attribute} {e : TypeId} : Reaches h root y → isBasicType h y = false → (attributesOf h y)[p]? = some a →
      a.link = false → elementOf h a.typ = some e → Occurs h root (.add a.typ)
  | self {y} : Reaches h root y → isBasicType h y = false → Occurs h root (.self y)

theorem Occurs.of_reaches {h : Heap} {x y : TypeId} {e : Event} (hr : Reaches h x y)
    (o : Occurs h y e) : Occurs h x e := by
  cases o with
  | link r b a l => exact .link (hr.trans r) b a l
  | add r b a l e => exact .add (hr.trans r) b a l e
  | self r b => exact .self (hr.trans r) b

theorem attributesEvents_some (recur : TypeId → Option (List Event)) (h : Heap) (id : TypeId)
    (as : List Attribute) : ∀ (p : Nat) (es : List Event),
    attributesEvents recur h id p as = some es →
    (∀ (i : Nat) a, as[i]? = some a → ∃ fs, attributeEvents recur h id (p + i) a = some fs) ∧
    ∀ e, e ∈ es ↔ ∃ (i : Nat) (a : Attribute) (fs : List Event), as[i]? = some a ∧
      attributeEvents recur h id (p + i) a = some fs ∧ e ∈ fs := by
  induction as with
  | nil =>
    intro p es hes
    simp only [attributesEvents, Option.some.injEq] at hes
    subst hes
    simp
  | cons a as ih =>
    intro p es hes
    unfold attributesEvents at hes
    cases h1 : attributeEvents recur h id p a with
    | none => rw [h1] at hes; cases hes
    | some fs =>
      rw [h1] at hes
      cases h2 : attributesEvents recur h id (p + 1) as with
      | none => rw [h2] at hes; cases hes
      | some gs =>
        rw [h2] at hes
        simp only [Option.some.injEq] at hes
        subst hes
        obtain ⟨i1, i2⟩ := ih _ _ h2
        constructor
        · intro i b hb
          cases i with
          | zero => simp only [List.getElem?_cons_zero, Option.some.injEq] at hb; subst hb; exact ⟨fs, h1⟩
          | succ i =>
            have := i1 i b (by simpa using hb)
            rwa [Nat.add_right_comm, Nat.add_assoc] at this
        · intro e
          rw [List.mem_append, i2]
          constructor
          · rintro (he | ⟨i, b, ks, hb, hk, he⟩)
            · exact ⟨0, a, fs, rfl, h1, he⟩
            · exact ⟨i + 1, b, ks, by simpa using hb, by rwa [Nat.add_right_comm, Nat.add_assoc] at hk, he⟩
          · rintro ⟨i, b, ks, hb, hk, he⟩
            cases i with
            | zero =>
              simp only [List.getElem?_cons_zero, Option.some.injEq] at hb
              subst hb
              rw [Nat.add_zero, h1] at hk
              cases hk
              exact Or.inl he
            | succ i =>
              refine Or.inr ⟨i, b, ks, by simpa using hb, ?_, he⟩
              rwa [Nat.add_right_comm, Nat.add_assoc]

theorem attributesEvents_total (recur : TypeId → Option (List Event)) (h : Heap) (id : TypeId)
    (as : List Attribute) : ∀ (p : Nat),
    (∀ a ∈ as, a.link = false → ∃ es, recur (target h a) = some es) →
    ∃ es, attributesEvents recur h id p as = some es := by
  induction as with
  | nil => intro p _; exact ⟨[], rfl⟩
  | cons a as ih =>
    intro p hall
    obtain ⟨fs, hfs⟩ : ∃ fs, attributeEvents recur h id p a = some fs := by
      unfold attributeEvents
      by_cases hl : a.link = true
      · rw [if_pos hl]; exact ⟨_, rfl⟩
      · rw [if_neg hl]
        obtain ⟨es, hes⟩ := hall a (List.mem_cons_self ..) (by simpa using hl)
        unfold target at hes
        cases he : elementOf h a.typ with
        | none => rw [he] at hes; exact ⟨es, hes⟩
        | some e => rw [he] at hes; dsimp only at hes ⊢; rw [hes]; exact ⟨_, rfl⟩
    obtain ⟨gs, hgs⟩ := ih (p + 1) fun b hb => hall b (List.mem_cons_of_mem _ hb)
    unfold attributesEvents
    rw [hfs, hgs]
    exact ⟨_, rfl⟩

theorem events_needs {fuel : Nat} {h : Heap} {x y : TypeId} {es : List Event}
    (he : events (fuel + 1) h x = some es) (hn : Needs h x y) :
    ∃ fs, events fuel h y = some fs ∧ ∀ e ∈ fs, e ∈ es := by
  obtain ⟨hb, p, a, ha, hl, rfl⟩ := (needs_iff h x y).mp hn
  unfold events at he
  rw [if_neg (by simp [hb])] at he
  cases h1 : attributesEvents (events fuel h) h x 0 (attributesOf h x) with
  | none => rw [h1] at he; cases he
  | some gs =>
    rw [h1] at he
    simp only [Option.map_some, Option.some.injEq] at he
    subst he
    obtain ⟨i1, i2⟩ := attributesEvents_some _ _ _ _ _ _ h1
    obtain ⟨fs, hfs⟩ := i1 p a ha
    have hfs' := hfs
    unfold attributeEvents at hfs'
    rw [if_neg (by simp [hl])] at hfs'
    unfold target
    cases hel : elementOf h a.typ with
    | none =>
      rw [hel] at hfs'
      refine ⟨fs, hfs', fun e he => List.mem_append_left _ ((i2 e).mpr ⟨p, a, fs, ha, hfs, he⟩)⟩
    | some el =>
      rw [hel] at hfs'
      dsimp only at hfs' ⊢
      cases hr : events fuel h el with
      | none => rw [hr] at hfs'; cases hfs'
      | some ks =>
        rw [hr] at hfs'
        simp only [Option.map_some, Option.some.injEq] at hfs'
        refine ⟨ks, rfl, fun e he => List.mem_append_left _ ((i2 e).mpr ⟨p, a, fs, ha, hfs, ?_⟩)⟩
        rw [← hfs']; exact List.mem_cons_of_mem _ he

theorem events_sound (fuel : Nat) : ∀ (h : Heap) (id : TypeId) (es : List Event),
    events fuel h id = some es → ∀ e ∈ es, Occurs h id e := by
  induction fuel with
  | zero => intro h id es he; cases he
  | succ fuel ih =>
    intro h id es hes e he
    unfold events at hes
    by_cases hb : isBasicType h id = true
    · rw [if_pos hb] at hes; cases hes; cases he
    · rw [if_neg hb] at hes
      have hb : isBasicType h id = false := by simpa using hb
      cases h1 : attributesEvents (events fuel h) h id 0 (attributesOf h id) with
      | none => rw [h1] at hes; cases hes
      | some gs =>
        rw [h1] at hes
        simp only [Option.map_some, Option.some.injEq] at hes
        subst hes
        rw [List.mem_append] at he
        rcases he with he | he
        · obtain ⟨_, i2⟩ := attributesEvents_some _ _ _ _ _ _ h1
          obtain ⟨i, a, fs, ha, hfs, hm⟩ := (i2 e).mp he
          unfold attributeEvents at hfs
          by_cases hl : a.link = true
          · rw [if_pos hl, Nat.zero_add] at hfs
            cases hfs
            rw [List.mem_singleton] at hm
            subst hm
            exact .link (.refl _) hb ha hl
          · rw [if_neg hl] at hfs
            have hl : a.link = false := by simpa using hl
            have hn : Needs h id (target h a) := (needs_iff h id _).mpr ⟨hb, i, a, ha, hl, rfl⟩
            unfold target at hn
            cases hel : elementOf h a.typ with
            | none =>
              rw [hel] at hfs hn
              exact (ih h _ _ hfs e hm).of_reaches (.step hn (.refl _))
            | some el =>
              rw [hel] at hfs hn
              dsimp only at hfs hn
              cases hr : events fuel h el with
              | none => rw [hr] at hfs; cases hfs
              | some ks =>
                rw [hr] at hfs
                simp only [Option.map_some, Option.some.injEq] at hfs
                subst hfs
                rcases List.mem_cons.mp hm with rfl | hm
                · exact .add (.refl _) hb ha hl hel
                · exact (ih h _ _ hr e hm).of_reaches (.step hn (.refl _))
        · rw [List.mem_singleton] at he
          subst he
          exact .self (.refl _) hb

theorem events_reaches {h : Heap} {x y : TypeId} (hr : Reaches h x y) : ∀ {fuel : Nat} {es : List Event},
    events fuel h x = some es → ∃ fuel' fs, events fuel' h y = some fs ∧ ∀ e ∈ fs, e ∈ es := by
  induction hr with
  | refl x => intro fuel es he; exact ⟨fuel, es, he, fun _ h => h⟩
  | step hn _ ih =>
    intro fuel es he
    cases fuel with
    | zero => cases he
    | succ fuel =>
      obtain ⟨fs, hfs, hsub⟩ := events_needs he hn
      obtain ⟨k, gs, hgs, hsub'⟩ := ih hfs
      exact ⟨k, gs, hgs, fun e h => hsub e (hsub' e h)⟩

/-- The changes of a type by itself are part of those that it causes. -/
theorem events_own {fuel : Nat} {h : Heap} {x : TypeId} {es : List Event}
    (he : events fuel h x = some es) (hb : isBasicType h x = false) :
    Event.self x ∈ es ∧ ∀ (p : Nat) a, (attributesOf h x)[p]? = some a →
      (a.link = true → Event.link x p a.typ ∈ es) ∧
      (a.link = false → ∀ e, elementOf h a.typ = some e → Event.add a.typ ∈ es) := by
  cases fuel with
  | zero => cases he
  | succ fuel =>
    unfold events at he
    rw [if_neg (by simp [hb])] at he
    cases h1 : attributesEvents (events fuel h) h x 0 (attributesOf h x) with
    | none => rw [h1] at he; cases he
    | some gs =>
      rw [h1] at he
      simp only [Option.map_some, Option.some.injEq] at he
      subst he
      obtain ⟨i1, i2⟩ := attributesEvents_some _ _ _ _ _ _ h1
      refine ⟨by simp, fun p a ha => ⟨fun hl => ?_, fun hl e hel => ?_⟩⟩
      · refine List.mem_append_left _ ((i2 _).mpr ⟨p, a, [.link x p a.typ], ha, ?_, by simp⟩)
        unfold attributeEvents
        rw [if_pos hl, Nat.zero_add]
      · obtain ⟨fs, hfs⟩ := i1 p a ha
        refine List.mem_append_left _ ((i2 _).mpr ⟨p, a, fs, ha, hfs, ?_⟩)
        unfold attributeEvents at hfs
        rw [if_neg (by simp [hl]), hel] at hfs
        dsimp only at hfs
        cases hr : events fuel h e with
        | none => rw [hr] at hfs; cases hfs
        | some ks =>
          rw [hr] at hfs
          simp only [Option.map_some, Option.some.injEq] at hfs
          subst hfs
          exact List.mem_cons_self ..

theorem events_complete {fuel : Nat} {h : Heap} {id : TypeId} {es : List Event}
    (he : events fuel h id = some es) {e : Event} (o : Occurs h id e) : e ∈ es := by
  cases o with
  | link hr hb ha hl =>
    obtain ⟨k, fs, hfs, hsub⟩ := events_reaches hr he
    exact hsub _ (((events_own hfs hb).2 _ _ ha).1 hl)
  | add hr hb ha hl hel =>
    obtain ⟨k, fs, hfs, hsub⟩ := events_reaches hr he
    exact hsub _ (((events_own hfs hb).2 _ _ ha).2 hl _ hel)
  | self hr hb =>
    obtain ⟨k, fs, hfs, hsub⟩ := events_reaches hr he
    exact hsub _ (events_own hfs hb).1

/-! ### Termination -/

theorem reaches_fuel {h : Heap} {x y : TypeId} (hr : Reaches h x y) : ∀ {fuel : Nat} {es : List Event},
    events fuel h x = some es → ∃ fuel' fs, fuel' ≤ fuel ∧ events fuel' h y = some fs := by
  induction hr with
  | refl x => intro fuel es he; exact ⟨fuel, es, Nat.le_refl _, he⟩
  | step hn _ ih =>
    intro fuel es he
    cases fuel with
    | zero => cases he
    | succ fuel =>
      obtain ⟨fs, hfs, _⟩ := events_needs he hn
      obtain ⟨k, gs, hk, hgs⟩ := ih hfs
      exact ⟨k, gs, by omega, hgs⟩

theorem events_not_circular (fuel : Nat) : ∀ {h : Heap} {x : TypeId} {es : List Event},
    events fuel h x = some es → ¬ Circular h x := by
  induction fuel using Nat.strongRecOn with
  | ind fuel ih =>
    intro h x es he ⟨y, hn, hr⟩
    cases fuel with
    | zero => cases he
    | succ fuel =>
      obtain ⟨fs, hfs, _⟩ := events_needs he hn
      obtain ⟨k, gs, hk, hgs⟩ := reaches_fuel hr hfs
      exact ih k (by omega) hgs ⟨y, hn, hr⟩

/-- The first type needs the second, directly or indirectly. -/
def Before (h : Heap) (x y : TypeId) : Prop := ∃ z, Needs h x z ∧ Reaches h z y

theorem events_total (h : Heap) (root : TypeId) (hn : ∀ x, Reaches h root x → ¬ Circular h x)
    (fuel : Nat) : ∀ (id : TypeId) (vis : List Nat), Reaches h root id → vis.Nodup →
      (∀ v ∈ vis, v < h.length) → (∀ v ∈ vis, Before h v id) → h.length < fuel + vis.length →
      ∃ es, events fuel h id = some es := by
  induction fuel with
  | zero =>
    intro id vis _ hnd hlt _ hf
    have := length_le_of_nodup_lt hnd hlt
    omega
  | succ fuel ih =>
    intro id vis hid hnd hlt hbe hf
    unfold events
    by_cases hb : isBasicType h id = true
    · rw [if_pos hb]; exact ⟨_, rfl⟩
    · rw [if_neg hb]
      have hb : isBasicType h id = false := by simpa using hb
      suffices hs : ∃ es, attributesEvents (events fuel h) h id 0 (attributesOf h id) = some es by
        obtain ⟨es, hes⟩ := hs; rw [hes]; exact ⟨_, rfl⟩
      apply attributesEvents_total
      intro a ha hl
      obtain ⟨p, hp⟩ := List.getElem?_of_mem ha
      have hneed : Needs h id (target h a) := (needs_iff h id _).mpr ⟨hb, p, a, hp, hl, rfl⟩
      refine ih (target h a) (id :: vis) (hid.snoc hneed) ?_ ?_ ?_ ?_
      · refine List.nodup_cons.mpr ⟨fun hm => ?_, hnd⟩
        exact hn id hid (hbe id hm)
      · intro v hv
        rcases List.mem_cons.mp hv with rfl | hv
        · exact hasAttribute_lt ((hasAttribute_iff h _ p a).mpr hp)
        · exact hlt v hv
      · intro v hv
        rcases List.mem_cons.mp hv with rfl | hv
        · exact ⟨_, hneed, .refl _⟩
        · obtain ⟨z, hz, hz'⟩ := hbe v hv
          exact ⟨z, hz, hz'.snoc hneed⟩
      · simp only [List.length_cons]; omega

theorem attributesEvents_mono (recur recur' : TypeId → Option (List Event)) (h : Heap) (id : TypeId)
    (hr : ∀ x es, recur x = some es → recur' x = some es) (as : List Attribute) :
    ∀ (p : Nat) (es : List Event), attributesEvents recur h id p as = some es →
      attributesEvents recur' h id p as = some es := by
  induction as with
  | nil => intro p es he; exact he
  | cons a as ih =>
    intro p es he
    unfold attributesEvents at he ⊢
    cases h1 : attributeEvents recur h id p a with
    | none => rw [h1] at he; cases he
    | some fs =>
      have h2 : attributeEvents recur' h id p a = some fs := by
        unfold attributeEvents at h1 ⊢
        by_cases hl : a.link = true
        · rw [if_pos hl] at h1 ⊢; exact h1
        · rw [if_neg hl] at h1 ⊢
          cases he : elementOf h a.typ with
          | none => rw [he] at h1; exact hr _ _ h1
          | some e =>
            rw [he] at h1
            dsimp only at h1 ⊢
            cases h3 : recur e with
            | none => rw [h3] at h1; cases h1
            | some gs => rw [h3] at h1; rw [hr _ _ h3]; exact h1
      rw [h1] at he
      rw [h2]
      dsimp only at he ⊢
      cases h3 : attributesEvents recur h id (p + 1) as with
      | none => rw [h3] at he; cases he
      | some gs => rw [h3] at he; rw [ih _ _ h3]; exact he

/-- More fuel doesn't change the result. -/
theorem events_mono (fuel : Nat) : ∀ {fuel' : Nat} {h : Heap} {x : TypeId} {es : List Event},
    events fuel h x = some es → fuel ≤ fuel' → events fuel' h x = some es := by
  induction fuel with
  | zero => intro _ _ _ _ h; cases h
  | succ fuel ih =>
    intro fuel' h x es he hle
    cases fuel' with
    | zero => cases hle
    | succ fuel' =>
      unfold events at he ⊢
      by_cases hb : isBasicType h x = true
      · rw [if_pos hb] at he ⊢; exact he
      · rw [if_neg hb] at he ⊢
        cases h1 : attributesEvents (events fuel h) h x 0 (attributesOf h x) with
        | none => rw [h1] at he; cases he
        | some fs =>
          rw [attributesEvents_mono _ _ h x (fun y es hy => ih hy (Nat.le_of_succ_le_succ hle)) _ _ _ h1]
          rw [h1] at he
          exact he

end ClassRef

end Verif
