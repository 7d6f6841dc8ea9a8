import Verif.Lemmas.BuilderHistory

/-! What building gives. -/

namespace Verif

namespace GoBuilder

open GoJson

theorem mapRun_done {α β : Type} (f : α → Run β) (xs : List α) (ys : List β)
    (h : mapRun f xs = .done ys) :
    xs.length = ys.length ∧ ∀ (n : Nat) x y, xs[n]? = some x → ys[n]? = some y → f x = .done y := by
  induction xs generalizing ys with
  | nil =>
    simp only [mapRun] at h
    cases h
    exact ⟨rfl, by simp⟩
  | cons x xs ih =>
    simp only [mapRun] at h
    cases hf : f x with
    | done y =>
      cases hm : mapRun f xs with
      | done zs =>
        simp only [hf, hm, Run.bind] at h
        cases h
        obtain ⟨h1, h2⟩ := ih zs hm
        refine ⟨by simp [h1], ?_⟩
        intro n x' y' hx hy
        cases n with
        | zero =>
          simp at hx hy
          subst hx
          subst hy
          exact hf
        | succ n => exact h2 n x' y' (by simpa using hx) (by simpa using hy)
      | panic => simp [hf, hm, Run.bind] at h
      | outOfFuel => simp [hf, hm, Run.bind] at h
    | panic => simp [hf, Run.bind] at h
    | outOfFuel => simp [hf, Run.bind] at h

theorem mapRun_of {α β : Type} (f : α → Run β) (xs : List α) (h : ∀ x ∈ xs, ∃ y, f x = .done y) :
    ∃ ys, mapRun f xs = .done ys := by
  induction xs with
  | nil => exact ⟨[], rfl⟩
  | cons x xs ih =>
    obtain ⟨y, hy⟩ := h x (by simp)
    obtain ⟨ys, hys⟩ := ih (fun z hz => h z (List.mem_cons_of_mem _ hz))
    exact ⟨y :: ys, by simp only [mapRun, hy, hys, Run.bind]⟩

theorem mapRun_mem {α β : Type} (f : α → Run β) (xs : List α) (ys : List β)
    (h : mapRun f xs = .done ys) (x : α) (hx : x ∈ xs) : ∃ y ∈ ys, f x = .done y := by
  obtain ⟨h1, h2⟩ := mapRun_done f xs ys h
  obtain ⟨n, hn, rfl⟩ := List.mem_iff_getElem.mp hx
  exact ⟨ys[n]'(by omega), List.getElem_mem _, h2 n _ _ (List.getElem?_eq_getElem hn)
    (List.getElem?_eq_getElem (by omega))⟩

theorem bind_eq_done {α β : Type} (r : Run α) (f : α → Run β) (b : β) :
    r.bind f = .done b ↔ ∃ a, r = .done a ∧ f a = .done b := by
  cases r <;> simp [Run.bind]

theorem buildFields_done (b : Ref → Run Val) (S : Schema) (mem : Mem) (as : List AttrShape)
    (fs : List BVal) (vs : List Val) (h : buildFields b S mem as fs = .done vs) :
    ∀ (n : Nat) a f, as[n]? = some a → fs[n]? = some f →
      ∃ v, vs[n]? = some v ∧ buildField b S mem a.typ a.link f = .done v := by
  induction as generalizing fs vs with
  | nil => intro n a f ha; simp at ha
  | cons a as ih =>
    cases fs with
    | nil => intro n a f _ hf; simp at hf
    | cons f fs =>
      simp only [buildFields, bind_eq_done] at h
      obtain ⟨v, hv, ws, hws, e⟩ := h
      cases e
      intro n a' f' ha hf
      cases n with
      | zero =>
        simp at ha hf
        subst ha
        subst hf
        exact ⟨v, rfl, hv⟩
      | succ n => exact ih fs ws hws n a' f' (by simpa using ha) (by simpa using hf)

theorem buildFields_of (b : Ref → Run Val) (S : Schema) (mem : Mem) (as : List AttrShape)
    (fs : List BVal)
    (h : ∀ (n : Nat) a f, as[n]? = some a → fs[n]? = some f →
      ∃ v, buildField b S mem a.typ a.link f = .done v) :
    ∃ vs, buildFields b S mem as fs = .done vs := by
  induction as generalizing fs with
  | nil => exact ⟨[], rfl⟩
  | cons a as ih =>
    cases fs with
    | nil => exact ⟨[], rfl⟩
    | cons f fs =>
      obtain ⟨v, hv⟩ := h 0 a f rfl rfl
      obtain ⟨vs, hvs⟩ := ih fs (fun n a' f' ha hf => h (n + 1) a' f' (by simpa using ha) (by simpa using hf))
      exact ⟨v :: vs, by simp only [buildFields, hv, hvs, Run.bind]⟩

theorem elementGives_scalar (S : Schema) (mem : Mem) (fuel : Nat) (ty : TypeId) (x : BVal) (v : Val)
    (hs : (S ty).isScalar = true) (h : scalarOf x = .done v) : ElementGives S mem fuel ty x v := by
  unfold ElementGives
  rw [if_pos hs]
  cases x <;> simp [scalarOf] at h
  rw [h]

theorem elementGives_ref (S : Schema) (mem : Mem) (fuel : Nat) (ty : TypeId) (x : BVal) (v : Val)
    (hs : (S ty).isScalar = false) (h : buildRef (build S mem fuel) x = .done v) :
    ElementGives S mem fuel ty x v := by
  unfold ElementGives
  rw [hs]
  cases x <;> simp [buildRef] at h
  exact ⟨_, rfl, h⟩

/-- What the field of an attribute that has been set builds. -/
theorem buildField_gives (S : Schema) (hE : SimpleElements S) (mem : Mem) (fuel : Nat)
    (a : AttrShape) (x : BVal) (v : Val) (ho : Accepts S a x) (hr : ¬ Removes S a x)
    (h : buildField (build S mem fuel) S mem a.typ a.link (stored S a x) = .done v) :
    Gives S mem fuel a x v := by
  have hscal : ∀ s : Shape, s = S a.typ → s.isScalar = true → scalarOf x = .done v →
      ElementGives S mem fuel a.typ x v :=
    fun s e hs h => elementGives_scalar S mem fuel a.typ x v (by rw [← e]; exact hs) h
  unfold Gives
  cases hS : S a.typ with
  | other => exact absurd hS ho.known
  | struct c n as =>
    have hx : x ≠ .nil := fun e => hr ⟨e, .inl ⟨c, n, as, hS⟩⟩
    have hn : x.isNil = false := by
      cases hn : x.isNil
      · rfl
      · exact absurd ((isNil_iff x).mp hn) hx
    simp only [buildField, stored, hS, hn, Bool.false_eq_true, if_false] at h
    exact elementGives_ref S mem fuel a.typ x v (by simp [hS, Shape.isScalar]) h
  | list n element =>
    have h0 := h
    simp only [buildField, stored, hS] at h
    cases hl : a.link with
    | true =>
      simp only [hl, if_true] at h ⊢
      cases hn : x.isNil with
      | true =>
        simp only [hn, if_true] at h
        cases h
        exact .inl ⟨(isNil_iff x).mp hn, rfl⟩
      | false =>
        simp only [hn, Bool.false_eq_true, if_false] at h
        cases x with
        | ref r =>
          right
          refine ⟨r, rfl, ?_⟩
          unfold buildList
          simp only at h
          split at h
          · rename_i hc
            exact h
          · exact absurd h (by simp)
        | _ => simp at h
    | false =>
      simp only [hl, Bool.false_eq_true, if_false] at h ⊢
      have key : ∀ xs : List BVal,
          buildField (build S mem fuel) S mem a.typ false (.list xs) = .done v →
          ∃ vs, v = .list vs ∧ xs.length = vs.length ∧
            ∀ (n : Nat) x v, xs[n]? = some x → vs[n]? = some v →
              ElementGives S mem fuel element x v := by
        intro xs h
        simp only [buildField, hS, BVal.isNil, Bool.false_eq_true, if_false] at h
        rcases hE a.typ element (.inl ⟨n, hS⟩) with hs | ⟨c, n', as, hs⟩
        · have h' : ((mapRun scalarOf xs).bind fun items => Run.done (Val.list items)) = .done v := by
            cases he : S element <;> simp [he, Shape.isScalar] at hs h ⊢ <;> exact h
          rw [bind_eq_done] at h'
          obtain ⟨vs, h1, h2⟩ := h'
          cases h2
          obtain ⟨l1, l2⟩ := mapRun_done _ _ _ h1
          exact ⟨vs, rfl, l1, fun n x v hx hv => elementGives_scalar _ _ _ _ _ _ hs (l2 n x v hx hv)⟩
        · simp only [hs, bind_eq_done] at h
          obtain ⟨vs, h1, h2⟩ := h
          cases h2
          obtain ⟨l1, l2⟩ := mapRun_done _ _ _ h1
          exact ⟨vs, rfl, l1, fun n x v hx hv =>
            elementGives_ref _ _ _ _ _ _ (by simp [hs, Shape.isScalar]) (l2 n x v hx hv)⟩
      cases x with
      | list xs =>
        rw [hl, show stored S a (.list xs) = .list xs by simp [stored, hS, hl, copySlice]] at h0
        obtain ⟨vs, hv⟩ := key xs h0
        exact ⟨xs, vs, .inl rfl, hv⟩
      | nil =>
        rw [hl, show stored S a .nil = .list [] by simp [stored, hS, hl, copySlice]] at h0
        obtain ⟨vs, hv⟩ := key [] h0
        exact ⟨[], vs, .inr ⟨rfl, rfl⟩, hv⟩
      | scalar w => simpa using ho.slice n element hS hl
      | ref r => simpa using ho.slice n element hS hl
  | map element =>
    have hx : x ≠ .nil := fun e => hr ⟨e, .inr ⟨element, hS⟩⟩
    simp only [buildField, stored, hS] at h
    cases x with
    | nil => exact absurd rfl hx
    | ref r =>
      simp only at h
      split at h
      · rename_i e entries hc
        rcases hE a.typ element (.inr hS) with hs | ⟨c, n', as, hs⟩
        · have h' : ((mapRun (buildEntry scalarOf) entries).bind
              fun items => Run.done (Val.map items)) = .done v := by
            cases he : S element <;> simp [he, Shape.isScalar] at hs h ⊢ <;> exact h
          rw [bind_eq_done] at h'
          obtain ⟨vs, h1, h2⟩ := h'
          cases h2
          obtain ⟨l1, l2⟩ := mapRun_done _ _ _ h1
          refine ⟨r, e, entries, vs, rfl, hc, rfl, l1, ?_⟩
          intro n k x k' v hx hv
          have := l2 n _ _ hx hv
          unfold buildEntry at this
          rw [bind_eq_done] at this
          obtain ⟨w, w1, w2⟩ := this
          cases w2
          exact ⟨rfl, elementGives_scalar _ _ _ _ _ _ hs w1⟩
        · simp only [hs] at h
          have h' : ((mapRun (buildEntry (buildRef (build S mem fuel))) entries).bind
              fun items => Run.done (Val.map items)) = .done v := h
          rw [bind_eq_done] at h'
          obtain ⟨vs, h1, h2⟩ := h'
          cases h2
          obtain ⟨l1, l2⟩ := mapRun_done _ _ _ h1
          refine ⟨r, e, entries, vs, rfl, hc, rfl, l1, ?_⟩
          intro n k x k' v hx hv
          have := l2 n _ _ hx hv
          unfold buildEntry at this
          rw [bind_eq_done] at this
          obtain ⟨w, w1, w2⟩ := this
          cases w2
          exact ⟨rfl, elementGives_ref _ _ _ _ _ _ (by simp [hs, Shape.isScalar]) w1⟩
      · exact absurd h (by simp)
    | _ => simp at h
  | _ =>
    refine hscal _ hS.symm rfl ?_
    simpa [buildField, stored, hS, Shape.isScalar] using h

end GoBuilder

end Verif
