import Verif.Lemmas.Session

/-! Lemmas about the second name of errors, which nothing assigns. -/

namespace Verif

open Reader Session

/-- The second name of the errors isn't assigned, and the keys are different. -/
def OwnErrors (m : GoMap ErrorConcept) : Prop := m.keys.Nodup ∧ ∀ e ∈ m, e.2.ownName = none

theorem ownErrors_nil : OwnErrors [] := ⟨List.nodup_nil, fun e he => nomatch he⟩

theorem ownErrors_insert {m : GoMap ErrorConcept} {k : Text} {e : ErrorConcept} (h : OwnErrors m)
    (he : e.ownName = none) : OwnErrors (m.insert k e) := by
  refine ⟨?_, fun x hx => ?_⟩
  · rw [GoMap.keys_insert]
    split
    · exact h.1
    · rename_i hk
      exact List.nodup_append.mpr ⟨h.1, by simp, fun a ha b hb e => hk (by
        rw [List.mem_singleton.mp hb] at e; exact e ▸ ha)⟩
  · rcases GoMap.insert_mem hx with rfl | hx
    · exact he
    · exact h.2 x hx

theorem ownErrors_preserved : Preserved (fun r => OwnErrors r.errors) where
  report := fun _ _ h => h
  newType := fun _ _ h _ _ _ _ _ => h
  found := fun _ _ _ _ _ => trivial
  fresh := fun _ _ => trivial
  undefinedTypes := fun _ _ h => h
  undefinedResources := fun _ _ h => h
  heap := fun _ _ _ _ _ h => h
  newResource := fun _ _ h _ => h
  graph := fun _ _ _ _ h => h
  errors := fun _ _ _ h he => ownErrors_insert h he

/-- The same for all the versions. -/
def SessionErrors (s : Session) : Prop := ∀ l ∈ s.services, ∀ v ∈ l.2.versions, OwnErrors v.2.errors

theorem sessionErrors_store {s : Session} (g : SessionErrors s) (k : Text) (v : LoadedVersion)
    (hv : OwnErrors v.errors) : SessionErrors (s.store k v) := by
  unfold Session.store
  split
  · exact g
  · rename_i loaded hf
    intro l hl w hw
    rcases GoMap.insert_mem hl with rfl | hl
    · rcases GoMap.insert_mem hw with rfl | hw
      · exact hv
      · exact g _ (GoMap.find_some_mem hf) w hw
    · exact g l hl w hw

theorem sessionErrors_version {s : Session} (g : SessionErrors s) (k : Text) (n : Name) :
    SessionErrors (s.findOrCreateVersion k n).1 ∧ OwnErrors (s.findOrCreateVersion k n).2.errors := by
  unfold Session.findOrCreateVersion
  split
  · rename_i v hf
    obtain ⟨l, h1, h2⟩ := Option.bind_eq_some_iff.mp hf
    exact ⟨g, g _ (GoMap.find_some_mem h1) _ (GoMap.find_some_mem h2)⟩
  · dsimp only
    constructor
    · refine sessionErrors_store ?_ k _ ?_
      · exact g
      · exact ownErrors_nil
    · exact ownErrors_nil

theorem sessionErrors_loadVersion (k : Text) {s : Session} (g : SessionErrors s) (d : SourceVersion) :
    SessionErrors (loadVersion k s d) := by
  unfold loadVersion
  split
  · exact g
  · split
    · exact g
    · exact g
    · exact g
    · exact (sessionErrors_version g k _).1
    · obtain ⟨h1, h2⟩ := sessionErrors_version g k (parseUsingSeparator d.name '_')
      dsimp only
      have h3 := ownErrors_preserved.loadFiles d.files (fun _ _ _ _ _ _ => trivial)
        (r := (s.findOrCreateVersion k (parseUsingSeparator d.name '_')).1.enter
          (s.findOrCreateVersion k (parseUsingSeparator d.name '_')).2) h2
      unfold Session.leave
      dsimp only
      refine sessionErrors_store ?_ k _ ?_
      · exact h1
      · exact h3

theorem sessionErrors_foldl {α : Type} (f : Session → α → Session)
    (hf : ∀ s x, SessionErrors s → SessionErrors (f s x)) (xs : List α) (s : Session) (h : SessionErrors s) :
    SessionErrors (xs.foldl f s) := by
  induction xs generalizing s with
  | nil => exact h
  | cons x xs ih => exact ih _ (hf s x h)

theorem sessionErrors_service {s : Session} (g : SessionErrors s) (n : Name) : SessionErrors (s.findOrCreateService n) := by
  unfold Session.findOrCreateService
  split
  · exact g
  · intro l hl w hw
    rcases GoMap.insert_mem hl with rfl | hl
    · exact nomatch hw
    · exact g l hl w hw

theorem sessionErrors_loadService {s : Session} (g : SessionErrors s) (d : SourceService) :
    SessionErrors (loadService s d) := by
  unfold loadService
  split
  · exact g
  · split
    · exact g
    · exact g
    · exact g
    · exact sessionErrors_service g _
    · exact sessionErrors_foldl _ (fun _ _ h => sessionErrors_loadVersion _ h _) _ _ (sessionErrors_service g _)

theorem sessionErrors_loadModel {s : Session} (g : SessionErrors s) (d : SourceModel) : SessionErrors (loadModel s d) := by
  unfold loadModel
  split
  · exact sessionErrors_foldl _ (fun _ _ h => sessionErrors_loadService h _) _ _ g
  · exact g

theorem mem_listing {α : Type} (f : α → Name) (m : GoMap α) (x : α) (h : x ∈ listing f m) : ∃ k, (k, x) ∈ m := by
  obtain ⟨e, he, rfl⟩ := List.mem_map.mp ((sortByName_spec _ _).1.mem_iff.mp h)
  exact ⟨e.1, he⟩

theorem sessionErrors_completeService {s : Session} (g : SessionErrors s) (l : LoadedService)
    (hl : ∀ v ∈ l.versions, OwnErrors v.2.errors) : SessionErrors (completeService s l) := by
  unfold completeService
  have : ∀ (vs : List LoadedVersion) (s : Session), (∀ v ∈ vs, OwnErrors v.errors) → SessionErrors s →
      SessionErrors (vs.foldl (completeVersion l.name.toText) s) := by
    intro vs
    induction vs with
    | nil => exact fun _ _ g => g
    | cons v vs ih =>
      intro s h g
      refine ih _ (fun w hw => h w (List.mem_cons_of_mem _ hw)) ?_
      unfold completeVersion
      dsimp only
      refine sessionErrors_store ?_ _ _ ?_
      · exact g
      · exact h v List.mem_cons_self
  refine this _ _ ?_ g
  intro v hv
  obtain ⟨k, hk⟩ := mem_listing _ _ _ hv
  exact hl _ hk

theorem sessionErrors_complete {s : Session} (g : SessionErrors s) : SessionErrors s.complete := by
  unfold Session.complete
  have : ∀ (ls : List LoadedService) (s : Session), (∀ l ∈ ls, ∀ v ∈ l.versions, OwnErrors v.2.errors) → SessionErrors s →
      SessionErrors (ls.foldl completeService s) := by
    intro ls
    induction ls with
    | nil => exact fun _ _ g => g
    | cons l ls ih =>
      intro s h g
      exact ih _ (fun w hw => h w (List.mem_cons_of_mem _ hw))
        (sessionErrors_completeService g l (h l List.mem_cons_self))
  refine this _ _ ?_ g
  intro l hl
  obtain ⟨k, hk⟩ := mem_listing _ _ _ hl
  exact g _ hk

theorem load_errors (inputs : List SourceModel) : SessionErrors (Session.load inputs) := by
  have h1 : SessionErrors (inputs.foldl loadModel {}) :=
    sessionErrors_foldl _ (fun _ _ h => sessionErrors_loadModel h _) _ _ fun l hl => nomatch hl
  exact sessionErrors_complete (s := (inputs.foldl loadModel {}).reportUndefined) h1

/-- Two errors can't be listed. -/
theorem errorsListing_value (m : GoMap ErrorConcept) (h : ∀ e ∈ m, e.2.ownName = none) :
    (∃ l, errorsListing m = .value l) ↔ m.length ≤ 1 := by
  match m, h with
  | [], _ => exact ⟨fun _ => by simp, fun _ => ⟨_, rfl⟩⟩
  | [x], _ => exact ⟨fun _ => by simp, fun _ => ⟨_, rfl⟩⟩
  | (k, a) :: (k', b) :: rest, h =>
    have ha := h (k, a) (by simp)
    have hb := h (k', b) (by simp)
    obtain ⟨n1, o1, c1, d1, s1⟩ := a
    obtain ⟨n2, o2, c2, d2, s2⟩ := b
    simp only at ha hb
    subst ha hb
    have : errorsListing ((k, ⟨n1, none, c1, d1, s1⟩) :: (k', ⟨n2, none, c2, d2, s2⟩) :: rest) = .panic := rfl
    rw [this]
    constructor
    · rintro ⟨l, hl⟩; cases hl
    · intro h; simp at h

/-- The errors of a version that has been read. -/
theorem ownErrors_version {s : Session} (h : SessionErrors s) {a b : Text} {v : LoadedVersion}
    (hv : s.version a b = some v) : OwnErrors v.errors := by
  unfold Session.version at hv
  obtain ⟨l, h1, h2⟩ := Option.bind_eq_some_iff.mp hv
  exact h _ (GoMap.find_some_mem h1) _ (GoMap.find_some_mem h2)

end Verif
