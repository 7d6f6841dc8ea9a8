import Verif.Lemmas.BuilderTypes

/-! Builders that can be built. -/

namespace Verif

namespace GoBuilder

open GoJson

theorem buildRef_mono {b b' : Ref → Run Val} (h : ∀ q v, b q = .done v → b' q = .done v) (x : BVal)
    (v : Val) (hx : buildRef b x = .done v) : buildRef b' x = .done v := by
  cases x <;> simp [buildRef] at hx ⊢
  exact h _ _ hx

theorem buildItems_mono {b b' : Ref → Run Val} (h : ∀ q v, b q = .done v → b' q = .done v) (x : BVal)
    (v : Val) (hx : buildItems b x = .done v) : buildItems b' x = .done v := by
  cases x <;> simp only [buildItems] at hx ⊢ <;> try exact hx
  rw [bind_eq_done] at hx ⊢
  obtain ⟨vs, h1, h2⟩ := hx
  exact ⟨vs, mapRun_mono (buildRef_mono h) _ _ h1, h2⟩

theorem buildField_mono {S : Schema} {mem : Mem} {b b' : Ref → Run Val}
    (h : ∀ q v, b q = .done v → b' q = .done v) (ty : TypeId) (link : Bool) (f : BVal) (v : Val)
    (hx : buildField b S mem ty link f = .done v) : buildField b' S mem ty link f = .done v := by
  unfold buildField at hx ⊢
  cases hS : S ty with
  | struct c n as =>
    simp only [hS] at hx ⊢
    split at hx
    · rename_i hn
      rw [if_pos hn]
      exact hx
    · rename_i hn
      rw [if_neg hn]
      exact buildRef_mono h _ _ hx
  | list n e =>
    simp only [hS] at hx ⊢
    split at hx
    · rename_i hn
      rw [if_pos hn]
      exact hx
    · rename_i hn
      rw [if_neg hn]
      cases link with
      | true =>
        simp only [if_true] at hx ⊢
        cases f with
        | ref r =>
          simp only at hx ⊢
          split at hx
          · exact buildItems_mono h _ _ hx
          · exact absurd hx (by simp)
        | _ => simp at hx
      | false =>
        simp only [Bool.false_eq_true, if_false] at hx ⊢
        cases f with
        | list items =>
          simp only at hx ⊢
          split at hx
          · rw [bind_eq_done] at hx ⊢
            obtain ⟨vs, h1, h2⟩ := hx
            exact ⟨vs, mapRun_mono (buildRef_mono h) _ _ h1, h2⟩
          · exact hx
        | _ => simp at hx
  | map e =>
    simp only [hS] at hx ⊢
    cases f with
    | nil => exact hx
    | ref r =>
      simp only at hx ⊢
      split at hx
      · split at hx
        · have hx' : ((mapRun (buildEntry (buildRef b)) _).bind
            fun entries => Run.done (Val.map entries)) = .done v := hx
          show ((mapRun (buildEntry (buildRef b')) _).bind
            fun entries => Run.done (Val.map entries)) = .done v
          rw [bind_eq_done] at hx' ⊢
          obtain ⟨vs, h1, h2⟩ := hx'
          refine ⟨vs, mapRun_mono ?_ _ _ h1, h2⟩
          intro x y hxy
          unfold buildEntry at hxy ⊢
          rw [bind_eq_done] at hxy ⊢
          obtain ⟨w, w1, w2⟩ := hxy
          exact ⟨w, buildRef_mono h _ _ w1, w2⟩
        · exact hx
      · exact absurd hx (by simp)
    | _ => simp at hx
  | _ =>
    simp only [hS] at hx ⊢
    exact hx

theorem buildFields_mono {S : Schema} {mem : Mem} {b b' : Ref → Run Val}
    (h : ∀ q v, b q = .done v → b' q = .done v) (as : List AttrShape) (fs : List BVal)
    (vs : List Val) (hx : buildFields b S mem as fs = .done vs) :
    buildFields b' S mem as fs = .done vs := by
  induction as generalizing fs vs with
  | nil => exact hx
  | cons a as ih =>
    cases fs with
    | nil => exact hx
    | cons f fs =>
      simp only [buildFields, bind_eq_done] at hx ⊢
      obtain ⟨v, h1, ws, h2, h3⟩ := hx
      exact ⟨v, buildField_mono h _ _ _ _ h1, ws, ih fs ws h2, h3⟩

theorem build_succ (S : Schema) (mem : Mem) (fuel : Nat) (r : Ref) (v : Val)
    (h : build S mem fuel r = .done v) : build S mem (fuel + 1) r = .done v := by
  induction fuel generalizing r v with
  | zero => simp [build] at h
  | succ fuel ih =>
    unfold build at h ⊢
    split at h
    · split at h
      · rw [bind_eq_done] at h ⊢
        obtain ⟨vs, h1, h2⟩ := h
        exact ⟨vs, buildFields_mono (fun q v hq => ih q v hq) _ _ _ h1, h2⟩
      · exact absurd h (by simp)
    · exact absurd h (by simp)

theorem build_le (S : Schema) (mem : Mem) (fuel fuel' : Nat) (hle : fuel ≤ fuel') (r : Ref) (v : Val)
    (h : build S mem fuel r = .done v) : build S mem fuel' r = .done v := by
  induction fuel' with
  | zero =>
    have : fuel = 0 := by omega
    subst this
    exact h
  | succ n ih =>
    by_cases he : fuel = n + 1
    · subst he
      exact h
    · exact build_succ S mem n r v (ih (by omega))

/-- What is built doesn't depend on the bound of the depth. -/
theorem build_unique (S : Schema) (mem : Mem) (n m : Nat) (r : Ref) (v w : Val)
    (hv : build S mem n r = .done v) (hw : build S mem m r = .done w) : v = w := by
  have h1 := build_le S mem n (max n m) (by omega) r v hv
  have h2 := build_le S mem m (max n m) (by omega) r w hw
  rw [h1] at h2
  cases h2
  rfl

theorem Eventually.forall_mem {α : Type} {P : α → Nat → Prop} (l : List α)
    (h : ∀ x ∈ l, Eventually (P x)) : Eventually fun n => ∀ x ∈ l, P x n := by
  induction l with
  | nil => exact ⟨0, fun _ _ x hx => absurd hx (by simp)⟩
  | cons x l ih =>
    refine ((h x (by simp)).and (ih fun y hy => h y (List.mem_cons_of_mem _ hy))).mono ?_
    rintro n ⟨h1, h2⟩ y hy
    rcases List.mem_cons.mp hy with rfl | hy
    · exact h1
    · exact h2 y hy

theorem sound_of_build {S : Schema} {mem : Mem} (hm : MemOk S mem) (fuel : Nat) (r : Ref) (v : Val)
    (h : build S mem fuel r = .done v) : Sound mem r := by
  induction fuel generalizing r v with
  | zero => simp [build] at h
  | succ fuel ih =>
    unfold build at h
    split at h
    · rename_i ty bm i hh fs hr
      split at h
      · rename_i c n as hS
        rw [bind_eq_done] at h
        obtain ⟨vs, h1, -⟩ := h
        obtain ⟨c', n', as', hS', hfs⟩ := hm.get hr
        rw [hS] at hS'
        cases hS'
        have key : ∀ f ∈ fs, ∀ x, Uses mem f x → ∃ q v, x = .ref q ∧ build S mem fuel q = .done v := by
          intro f hf
          obtain ⟨k, hk, rfl⟩ := List.mem_iff_getElem.mp hf
          have hlen := hfs.length
          have ha : as[k]? = some (as[k]'(by omega)) := List.getElem?_eq_getElem (by omega)
          obtain ⟨w, -, hw⟩ := buildFields_done _ S mem as fs vs h1 k _ _ ha
            (List.getElem?_eq_getElem hk)
          exact (buildField_iff hm _ _ _ (hfs.get k _ _ ha (List.getElem?_eq_getElem hk))).mp ⟨w, hw⟩
        refine .mk hr ?_ ?_
        · intro f hf x hx
          obtain ⟨q, -, hq, -⟩ := key f hf x hx
          exact ⟨q, hq⟩
        · intro f hf q hq
          obtain ⟨q', w, e, hw⟩ := key f hf _ hq
          cases e
          exact ih q w hw
      · exact absurd h (by simp)
    · exact absurd h (by simp)

theorem build_of_sound {S : Schema} {mem : Mem} (hm : MemOk S mem) (r : Ref) (h : Sound mem r) :
    Eventually fun fuel => ∃ v, build S mem fuel r = .done v := by
  induction h with
  | @mk r ty bm i hh fs hr h1 _ ih =>
    obtain ⟨c, n, as, hS, hfs⟩ := hm.get hr
    have hall : Eventually fun fuel => ∀ f ∈ fs, ∀ x ∈ used mem f, Uses mem f x →
        ∃ q v, x = .ref q ∧ build S mem fuel q = .done v := by
      apply Eventually.forall_mem
      intro f hf
      apply Eventually.forall_mem
      intro x _
      by_cases hu : Uses mem f x
      · obtain ⟨q, rfl⟩ := h1 f hf x hu
        exact (ih f hf q hu).mono fun fuel ⟨v, hv⟩ _ => ⟨q, v, rfl, hv⟩
      · exact Eventually.always fun _ h => absurd h hu
    apply hall.succ
    intro fuel hu
    have hb : ∃ vs, buildFields (build S mem fuel) S mem as fs = .done vs := by
      apply buildFields_of
      intro k a f ha hf
      refine (buildField_iff hm _ a f (hfs.get k a f ha hf)).mpr ?_
      intro x hx
      exact hu f (List.mem_of_getElem? hf) x (mem_used hx) hx
    obtain ⟨vs, hvs⟩ := hb
    exact ⟨.obj bm (if c = true then i else []) (if c = true then hh else []) vs,
      by simp only [build, hr, hS, hvs, Run.bind]⟩

end GoBuilder

end Verif
