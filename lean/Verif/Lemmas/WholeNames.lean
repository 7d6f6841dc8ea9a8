import Verif.Lemmas.WholeSources
import Verif.Lemmas.Char
import Verif.Props.Names

/-! Helper lemmas: the names of the model can be used in the names of files. -/

namespace Verif.Whole

open Reader Session Outcome

theorem toLower_slash {c : Char} (h : c.toLower = '/') : c = '/' := by
  rw [char_eq_iff] at h ⊢
  rw [toNat_toLower] at h
  have : ('/' : Char).toNat = 47 := rfl
  rw [this] at h ⊢
  split at h
  · rename_i hu
    omega
  · exact h

theorem mem_joinText_of {sep : Text} {ts : List Text} {t : Text} {c : Char} (ht : t ∈ ts) (hc : c ∈ t) :
    c ∈ joinText sep ts := by
  induction ts with
  | nil => cases ht
  | cons u us ih =>
    cases us with
    | nil =>
      rw [List.mem_singleton] at ht
      subst ht
      exact hc
    | cons u' us =>
      rw [joinText_cons _ _ _ (by simp)]
      rcases List.mem_cons.mp ht with rfl | ht
      · simp [hc]
      · exact List.mem_append_right _ (ih ht)

theorem mem_joinText {sep : Text} {ts : List Text} {c : Char} (h : c ∈ joinText sep ts) :
    c ∈ sep ∨ ∃ t ∈ ts, c ∈ t := by
  induction ts with
  | nil => cases h
  | cons u us ih =>
    cases us with
    | nil => exact .inr ⟨u, List.mem_cons_self, h⟩
    | cons u' us =>
      rw [joinText_cons _ _ _ (by simp), List.mem_append, List.mem_append] at h
      rcases h with (h | h) | h
      · exact .inr ⟨u, List.mem_cons_self, h⟩
      · exact .inl h
      · rcases ih h with h | ⟨t, ht, hc⟩
        · exact .inl h
        · exact .inr ⟨t, List.mem_cons_of_mem _ ht, hc⟩

theorem mem_intercalate {sep : Text} {ts : List Text} {c : Char} (h : c ∈ List.intercalate sep ts) :
    c ∈ sep ∨ ∃ t ∈ ts, c ∈ t := by
  induction ts with
  | nil => simp [List.intercalate] at h
  | cons u us ih =>
    cases us with
    | nil =>
      simp [List.intercalate] at h
      exact .inr ⟨u, List.mem_cons_self, h⟩
    | cons u' us =>
      have e : List.intercalate sep (u :: u' :: us) = u ++ (sep ++ List.intercalate sep (u' :: us)) := by
        simp [List.intercalate]
      rw [e, List.mem_append, List.mem_append] at h
      rcases h with h | h | h
      · exact .inr ⟨u, List.mem_cons_self, h⟩
      · exact .inl h
      · rcases ih h with h | ⟨t, ht, hc⟩
        · exact .inl h
        · exact .inr ⟨t, List.mem_cons_of_mem _ ht, hc⟩

theorem word_slash {n : Name} (h : '/' ∉ n.toText) : ∀ w ∈ n, '/' ∉ w.text.map Char.toLower := by
  intro w hw hc
  obtain ⟨c, hc, he⟩ := List.mem_map.mp hc
  rw [toLower_slash he] at hc
  exact h (mem_joinText_of (List.mem_map.mpr ⟨w, hw, rfl⟩) hc)

theorem snake_slash {n : Name} (h : '/' ∉ n.toText) : '/' ∉ snakeCase n := by
  intro hc
  rcases mem_intercalate hc with hc | ⟨t, ht, hc⟩
  · simp at hc
  · obtain ⟨w, hw, rfl⟩ := List.mem_map.mp ht
    exact word_slash h w hw hc

theorem usableName {n : Name} (h : DirNameFine n.toText) : Files.UsableName n := by
  obtain ⟨⟨c, hc, hne⟩, hs⟩ := h
  constructor
  · intro he
    rcases mem_joinText hc with hc | ⟨t, ht, hc⟩
    · simp at hc; exact hne hc
    · obtain ⟨w, hw, rfl⟩ := List.mem_map.mp ht
      have : c.toLower ∈ Files.joined n :=
        List.mem_flatten.mpr ⟨_, List.mem_map.mpr ⟨w, hw, rfl⟩, List.mem_map.mpr ⟨c, hc, rfl⟩⟩
      rw [he] at this
      cases this
  · intro hc
    obtain ⟨t, ht, hc⟩ := List.mem_flatten.mp hc
    obtain ⟨w, hw, rfl⟩ := List.mem_map.mp ht
    exact word_slash hs w hw hc

theorem name_ne {n : Name} (h : n.toText ≠ []) : n ≠ [] := by
  rintro rfl
  exact h rfl

/-! ## The services -/

/-- The keys of the services satisfy a condition. -/
def ServiceKeys (P : Text → Prop) (s : Session) : Prop :=
  ∀ k l, s.services.find k = some l → P k

theorem store_keys {P : Text → Prop} {s : Session} (g : ServiceKeys P s) (k : Text) (v : LoadedVersion) :
    ServiceKeys P (s.store k v) := by
  unfold Session.store
  split
  · exact g
  · rename_i l hl
    intro k' l' hl'
    dsimp only at hl'
    rw [GoMap.find_insert] at hl'
    split at hl'
    · rename_i e
      rw [← e]
      exact g k l hl
    · exact g k' l' hl'

theorem findOrCreateVersion_keys {P : Text → Prop} {s : Session} (g : ServiceKeys P s) (k : Text) (n : Name) :
    ServiceKeys P (s.findOrCreateVersion k n).1 := by
  unfold Session.findOrCreateVersion
  split
  · exact g
  · exact store_keys (s := { s with
      heap := (TypeTable.newVersion s.heap s.created).heap, created := s.created + 1 }) g _ _

theorem loadVersion_keys {P : Text → Prop} {s : Session} (g : ServiceKeys P s) (k : Text) (d : SourceVersion) :
    ServiceKeys P (loadVersion k s d) := by
  unfold loadVersion
  split
  · exact g
  · have h := findOrCreateVersion_keys g k (parseUsingSeparator d.name '_')
    split
    · exact g
    · exact g
    · exact g
    · exact h
    · generalize s.findOrCreateVersion k (parseUsingSeparator d.name '_') = p at h ⊢
      obtain ⟨s1, v⟩ := p
      dsimp only at h ⊢
      unfold Session.leave
      exact store_keys (s := { s1 with
        heap := (d.files.foldl loadFile (s1.enter v)).table.heap
        graph := (d.files.foldl loadFile (s1.enter v)).graph
        undefinedTypes := (d.files.foldl loadFile (s1.enter v)).undefinedTypes
        undefinedResources := (d.files.foldl loadFile (s1.enter v)).undefinedResources
        problems := (d.files.foldl loadFile (s1.enter v)).problems }) h _ _

theorem loadService_keys {P : Text → Prop} {s : Session} (g : ServiceKeys P s) (d : SourceService)
    (hd : d.isDir = true → P d.name) : ServiceKeys P (loadService s d) := by
  unfold loadService
  split
  · exact g
  · rename_i hdir
    have hp : P (parseUsingSeparator d.name '_').toText := by
      rw [c04_toText_parse]
      exact hd (by simpa using hdir)
    have h : ServiceKeys P (s.findOrCreateService (parseUsingSeparator d.name '_')) := by
      unfold Session.findOrCreateService
      split
      · exact g
      · intro k l hl
        dsimp only at hl
        rw [GoMap.find_insert] at hl
        split at hl
        · rename_i e
          rw [← e]
          exact hp
        · exact g k l hl
    have hl : ∀ (vs : List SourceVersion) (k : Text) (s : Session), ServiceKeys P s →
        ServiceKeys P (vs.foldl (loadVersion k) s) := by
      intro vs
      induction vs with
      | nil => intro k s g; exact g
      | cons v vs ih => intro k s g; exact ih _ _ (loadVersion_keys g k v)
    split
    · exact g
    · exact g
    · exact g
    · exact h
    · exact hl _ _ _ h

theorem loadModels_keys {P : Text → Prop} (ms : List SourceModel)
    (hm : ∀ m ∈ ms, ∀ d ∈ m.services, d.isDir = true → P d.name) :
    ServiceKeys P (ms.foldl loadModel {}) := by
  have hs : ∀ (ds : List SourceService) (s : Session), ServiceKeys P s →
      (∀ d ∈ ds, d.isDir = true → P d.name) → ServiceKeys P (ds.foldl loadService s) := by
    intro ds
    induction ds with
    | nil => intro s g _; exact g
    | cons d ds ih =>
      intro s g h
      exact ih _ (loadService_keys g d (h d List.mem_cons_self)) fun x hx => h x (List.mem_cons_of_mem _ hx)
  have key : ∀ (ms : List SourceModel) (s : Session), ServiceKeys P s →
      (∀ m ∈ ms, ∀ d ∈ m.services, d.isDir = true → P d.name) → ServiceKeys P (ms.foldl loadModel s) := by
    intro ms
    induction ms with
    | nil => intro s g _; exact g
    | cons m ms ih =>
      intro s g h
      refine ih _ ?_ fun x hx => h x (List.mem_cons_of_mem _ hx)
      unfold loadModel
      split
      · exact hs _ _ g (h m List.mem_cons_self)
      · exact g
  exact key ms {} (fun _ _ h => (nomatch h)) hm

theorem load_keys {P : Text → Prop} (inputs : List SourceModel)
    (hm : ∀ m ∈ inputs, ∀ d ∈ m.services, d.isDir = true → P d.name) :
    ServiceKeys P (load inputs) := by
  have h1 : ServiceKeys P (inputs.foldl loadModel {}).reportUndefined := loadModels_keys inputs hm
  have h2 : ∀ (ps : List (Text × LoadedVersion)) (s : Session), ServiceKeys P s →
      ServiceKeys P (ps.foldl (fun s p => completeVersion p.1 s p.2) s) := by
    intro ps
    induction ps with
    | nil => intro s g; exact g
    | cons p ps ih =>
      intro s g
      apply ih
      unfold completeVersion
      exact store_keys (s := { s with
        heap := (addListTypes { version := p.2.id, heap := s.heap, types := p.2.types }).heap }) g _ _
  have h3 : ServiceKeys P (inputs.foldl loadModel {}).reportUndefined.complete := by
    rw [complete_eq]
    exact h2 _ _ h1
  exact h3

/-! ## Types -/

variable {s : Session} {a b : Text} {v : LoadedVersion} {ds : List Decl}

theorem builtin_slash {k : Text} (h : k ∈ builtinKeys) : k ≠ [] ∧ '/' ∉ k := by
  have : ∀ k ∈ builtinKeys, k ≠ [] ∧ '/' ∉ k := by decide
  exact this k h

/-- The keys of the types of a version. -/
theorem VersionIs.keys (h : VersionIs s a b v ds) (hk : ∀ k ∈ declaredTypes ds, '/' ∉ k) {k : Text}
    {x : TypeView} (hx : s.typeView v k = some x) : k ≠ [] ∧ '/' ∉ k := by
  have hknown : ∀ k, k ∈ builtinKeys ∨ k ∈ declaredTypes ds → k ≠ [] ∧ '/' ∉ k := by
    intro k hk'
    rcases hk' with hk' | hk'
    · exact builtin_slash hk'
    · exact ⟨h.good.declaredNamed k hk', hk k hk'⟩
  have hgiven : ∀ k ∈ givenTypes ds, k ≠ [] ∧ '/' ∉ k := by
    intro k hk'
    unfold givenTypes at hk'
    rw [List.mem_append, List.mem_append] at hk'
    rcases hk' with hk' | hk'
    · exact hknown k hk'
    · unfold derivedTypes at hk'
      obtain ⟨e, he, rfl⟩ := List.mem_map.mp hk'
      obtain ⟨he, hder⟩ := List.mem_filter.mp he
      cases e with
      | plain n => cases hder
      | list n =>
        obtain ⟨-, h2⟩ := hknown _ (h.known he (n := n) (by simp [TypeExpr.names]))
        simp [TypeExpr.key, h2]
      | map i n =>
        obtain ⟨-, h2⟩ := hknown _ (h.known he (n := n) (by simp [TypeExpr.names]))
        obtain ⟨-, h3⟩ := hknown _ (h.known he (n := i) (by simp [TypeExpr.names]))
        simp [TypeExpr.key, h2, h3]
  rcases h.types.nothingElse k x hx with hg | ⟨k0, hk0, -, -, -, rfl⟩
  · exact hgiven k hg
  · obtain ⟨-, h2⟩ := hgiven k0 hk0
    simp [h2]

end Verif.Whole
