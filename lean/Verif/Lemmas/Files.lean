import Verif.Spec.Files
import Verif.Lemmas.Binding
import Verif.Props.GoNames
import Verif.Props.Docs

/-! # Lemmas about the files written by the generators of Go code -/

namespace Verif.Files

/-! ## Running jobs -/

section
variable {α : Type}

/-- A job that can be written. -/
def Fine (writable : Text → Bool) (j : Job α) : Prop := j.reported = 0 ∧ writable j.path = true

/-- The files after writing a list of jobs. -/
def overlay : List (Job α) → (Text → Option α) → Text → Option α
  | [], old => old
  | j :: js, old => overlay js fun p => if p = j.path then some j.content else old p

theorem write_ok {writable : Text → Bool} {j : Job α} {st : State α} (he : st.errors = 0)
    (hf : Fine writable j) :
    write writable j st = (⟨fun p => if p = j.path then some j.content else st.disk p, 0⟩, true) := by
  unfold write
  simp [he, hf.1, hf.2]

theorem write_true {writable : Text → Bool} {j : Job α} {st st' : State α}
    (h : write writable j st = (st', true)) : st.errors = 0 ∧ Fine writable j := by
  unfold write at h
  by_cases he : st.errors + j.reported > 0
  · simp only [he, if_true] at h
    cases h
  · by_cases hw : writable j.path = true
    · exact ⟨by omega, by omega, hw⟩
    · simp only [he, hw, if_false] at h
      cases h

theorem write_false {writable : Text → Bool} {j : Job α} {st st' : State α}
    (h : write writable j st = (st', false)) :
    st'.disk = st.disk ∧ st'.errors = st.errors + j.reported ∧
      (st.errors + j.reported > 0 ∨ writable j.path = false) := by
  unfold write at h
  by_cases he : st.errors + j.reported > 0
  · simp only [he, if_true] at h
    cases h
    exact ⟨rfl, rfl, .inl he⟩
  · by_cases hw : writable j.path = true
    · simp only [he, hw, if_false, if_true] at h
      cases h
    · simp only [he, hw, if_false] at h
      cases h
      exact ⟨rfl, rfl, .inr (by simpa using hw)⟩

theorem runJobs_ok {writable : Text → Bool} : ∀ {js : List (Job α)} {st : State α},
    st.errors = 0 → (∀ j ∈ js, Fine writable j) →
    runJobs writable js st = (⟨overlay js st.disk, 0⟩, true)
  | [], st, he, _ => by
    rw [runJobs, ← he]
    rfl
  | j :: js, st, he, hf => by
    rw [runJobs, write_ok he (hf j List.mem_cons_self)]
    dsimp only
    rw [runJobs_ok rfl fun k hk => hf k (List.mem_cons_of_mem _ hk)]
    rfl

theorem runJobs_true {writable : Text → Bool} : ∀ {js : List (Job α)} {st st' : State α},
    runJobs writable js st = (st', true) →
      (js ≠ [] → st.errors = 0) ∧ ∀ j ∈ js, Fine writable j
  | [], st, st', _ => by simp
  | j :: js, st, st', h => by
    rw [runJobs] at h
    cases hw : write writable j st with
    | mk s b =>
      cases b with
      | false => rw [hw] at h; cases h
      | true =>
        obtain ⟨he, hf⟩ := write_true hw
        rw [hw] at h
        have := (runJobs_true h).2
        refine ⟨fun _ => he, ?_⟩
        intro k hk
        rcases List.mem_cons.mp hk with rfl | hk
        · exact hf
        · exact this k hk

theorem runJobs_false {writable : Text → Bool} : ∀ {js : List (Job α)} {st st' : State α},
    runJobs writable js st = (st', false) →
      ∃ before j after, js = before ++ j :: after ∧
        (before ≠ [] → st.errors = 0) ∧ (∀ k ∈ before, Fine writable k) ∧
        (st.errors + j.reported > 0 ∨ writable j.path = false) ∧
        st'.disk = overlay before st.disk ∧ st'.errors = st.errors + j.reported
  | [], st, st', h => by cases h
  | j :: js, st, st', h => by
    rw [runJobs] at h
    cases hw : write writable j st with
    | mk s b =>
      rw [hw] at h
      cases b with
      | false =>
        cases h
        obtain ⟨h1, h2, h3⟩ := write_false hw
        exact ⟨[], j, js, rfl, by simp, by simp, h3, h1, h2⟩
      | true =>
        obtain ⟨he, hf⟩ := write_true hw
        rw [write_ok he hf] at hw
        cases hw
        dsimp only at h
        obtain ⟨before, k, after, h1, h2, h3, h4, h5, h6⟩ := runJobs_false h
        refine ⟨j :: before, k, after, by rw [h1]; rfl, fun _ => he, ?_, ?_, ?_, ?_⟩
        · intro x hx
          rcases List.mem_cons.mp hx with rfl | hx
          · exact hf
          · exact h3 x hx
        · rw [he]; exact h4
        · rw [h5]; rfl
        · rw [h6, he]

theorem runJobs_append {writable : Text → Bool} (js : List (Job α)) : ∀ (ks : List (Job α))
    (st : State α), runJobs writable (ks ++ js) st =
      match runJobs writable ks st with
      | (st', true) => runJobs writable js st'
      | (st', false) => (st', false)
  | [], st => rfl
  | k :: ks, st => by
    rw [List.cons_append, runJobs, runJobs]
    cases write writable k st with
    | mk s b =>
      cases b with
      | false => rfl
      | true => exact runJobs_append js ks s

theorem overlay_spec : ∀ (js : List (Job α)) (old : Text → Option α), Overlaid js old (overlay js old)
  | [], old => fun p => .inr ⟨by simp, rfl⟩
  | j :: js, old => by
    intro p
    rcases overlay_spec js (fun p => if p = j.path then some j.content else old p) p with
      ⟨c, ⟨before, k, after, h1, h2⟩, h3⟩ | ⟨h1, h2⟩
    · exact .inl ⟨c, ⟨j :: before, k, after, by rw [h1]; rfl, h2⟩, h3⟩
    · by_cases hp : p = j.path
      · refine .inl ⟨j.content, ⟨[], j, js, rfl, hp.symm, rfl, h1⟩, ?_⟩
        rw [overlay, h2]; exact if_pos hp
      · refine .inr ⟨?_, ?_⟩
        · intro k hk
          rcases List.mem_cons.mp hk with rfl | hk
          · exact fun h => hp h.symm
          · exact h1 k hk
        · rw [overlay, h2]; exact if_neg hp

theorem lastAt_mem {js : List (Job α)} {p : Text} {c : α} (h : LastAt js p c) :
    ∃ j ∈ js, j.path = p ∧ j.content = c := by
  obtain ⟨before, j, after, rfl, h1, h2, -⟩ := h
  exact ⟨j, by simp, h1, h2⟩

end

/-! ## Texts of files -/

theorem joined_eq (n : Name) : joined n = flatName n := rfl

theorem fileName_cat (n k : Name) (hn : n ≠ []) (hk : k ≠ []) :
    Go.fileName (n ++ k) = snakeCase n ++ t!"_" ++ Go.fileName k := by
  rw [c29_file, c29_file]
  unfold snakeCase
  rw [List.map_append]
  generalize h1 : n.map (fun w => w.text.map Char.toLower) = a
  generalize h2 : k.map (fun w => w.text.map Char.toLower) = b
  have ha : a ≠ [] := by rw [← h1]; simpa using hn
  have hb : b ≠ [] := by rw [← h2]; simpa using hk
  clear h1 h2
  rw [← joinText_eq_intercalate, ← joinText_eq_intercalate, ← joinText_eq_intercalate]
  clear hn hk
  induction a with
  | nil => exact absurd rfl ha
  | cons x xs ih =>
    cases xs with
    | nil =>
      cases b with
      | nil => exact absurd rfl hb
      | cons y ys => simp [joinText]
    | cons z zs =>
      have := ih (by simp)
      simp only [List.cons_append, joinText] at this ⊢
      rw [this]
      simp

theorem nom_files :
    Go.fileName Nom.errors = t!"errors" ∧ Go.fileName Nom.helpers = t!"helpers" ∧
    Go.fileName Nom.client = t!"client" ∧
    Go.fileName (Name.cat [Nom.metadata, Nom.typ]) = t!"metadata_type" ∧
    Go.fileName (Name.cat [Nom.metadata, Nom.client]) = t!"metadata_client" ∧
    Go.fileName (Name.cat [Nom.metadata, Nom.reader]) = t!"metadata_reader" ∧
    Go.fileName (Name.cat [Nom.json, Nom.helpers]) = t!"json_helpers" ∧
    Go.fileName (Name.cat [Nom.path, Nom.tree, Nom.data]) = t!"path_tree_data" := by decide

theorem nom_suffixes :
    Go.fileName Nom.typ = t!"type" ∧ Go.fileName Nom.builder = t!"builder" ∧
    Go.fileName (Nom.typ ++ Nom.json) = t!"type_json" ∧
    Go.fileName (Nom.resource ++ Nom.json) = t!"resource_json" := by decide

theorem type_file (t : Name) (h : t ≠ []) :
    Go.fileName (Name.cat [t, Nom.typ]) = snakeCase t ++ t!"_type" := by
  have : Name.cat [t, Nom.typ] = t ++ Nom.typ := by simp [Name.cat]
  rw [this, fileName_cat _ _ h (by decide), nom_suffixes.1]
  simp

theorem builder_file (t : Name) (h : t ≠ []) :
    Go.fileName (Name.cat [t, Nom.builder]) = snakeCase t ++ t!"_builder" := by
  have : Name.cat [t, Nom.builder] = t ++ Nom.builder := by simp [Name.cat]
  rw [this, fileName_cat _ _ h (by decide), nom_suffixes.2.1]
  simp

theorem client_file (t : Name) (h : t ≠ []) :
    Go.fileName (Name.cat [t, Nom.client]) = snakeCase t ++ t!"_client" := by
  have : Name.cat [t, Nom.client] = t ++ Nom.client := by simp [Name.cat]
  rw [this, fileName_cat _ _ h (by decide), nom_files.2.2.1]
  simp

theorem type_json_file (t : Name) (h : t ≠ []) :
    Go.fileName (Name.cat [t, Nom.typ, Nom.json]) = snakeCase t ++ t!"_type_json" := by
  have : Name.cat [t, Nom.typ, Nom.json] = t ++ (Nom.typ ++ Nom.json) := by simp [Name.cat]
  rw [this, fileName_cat _ _ h (by decide), nom_suffixes.2.2.1]
  simp

theorem resource_json_file (t : Name) (h : t ≠ []) :
    Go.fileName (Name.cat [t, Nom.resource, Nom.json]) = snakeCase t ++ t!"_resource_json" := by
  have : Name.cat [t, Nom.resource, Nom.json] = t ++ (Nom.resource ++ Nom.json) := by
    simp [Name.cat]
  rw [this, fileName_cat _ _ h (by decide), nom_suffixes.2.2.2]
  simp

theorem specFile_eq (s v : Name) : specFile s v = specLocation s v := by
  have h1 := snake_eq s
  have h2 := snake_eq v
  unfold Name.snake at h1 h2
  unfold specFile specLocation
  rw [h1, h2]

theorem path_of (s v : Name) (hs : joined s ≠ []) (hv : joined v ≠ []) (file : Text) :
    pathOf (Go.versionPackage s v) file = directory s v ++ t!"/" ++ file ++ t!".go" := by
  rw [versionPackage_eq s v hs hv]
  unfold pathOf
  rw [if_neg (by simp)]
  simp [directory, joined_eq]

/-! ## Jobs and slots -/

/-- The job of a slot. -/
def slotJob (env : Env) (slot : Slot) : Job Content :=
  { path := location slot, content := .code slot, reported := env.reports slot }

theorem mem_versionsOf {m : List ServiceView} {s : Name} {v : VersionView} :
    (s, v) ∈ versionsOf m ↔ ∃ service ∈ m, service.name = s ∧ v ∈ service.versions := by
  unfold versionsOf
  simp only [List.mem_flatMap, List.mem_map, Prod.mk.injEq]
  constructor
  · rintro ⟨x, hx, w, hw, h1, h2⟩
    exact ⟨x, hx, h1, h2 ▸ hw⟩
  · rintro ⟨x, hx, h1, hw⟩
    exact ⟨x, hx, v, hw, h1, rfl⟩

theorem hasVersion_of {m : List ServiceView} {s : Name} {v : VersionView}
    (h : (s, v) ∈ versionsOf m) : HasVersion m s v.name := by
  obtain ⟨x, hx, h1, h2⟩ := mem_versionsOf.mp h
  exact ⟨x, hx, h1, v, h2, rfl⟩

theorem version_of {m : List ServiceView} {s v : Name} (h : HasVersion m s v) :
    ∃ w, (s, w) ∈ versionsOf m ∧ w.name = v := by
  obtain ⟨x, hx, h1, w, h2, h3⟩ := h
  exact ⟨w, mem_versionsOf.mpr ⟨x, hx, h1, h2⟩, h3⟩

theorem hasType_of {m : List ServiceView} {s : Name} {v : VersionView} {t : TypeView}
    (h : (s, v) ∈ versionsOf m) (ht : t ∈ v.types) : HasType m s v.name t.name t.kind := by
  obtain ⟨x, hx, h1, h2⟩ := mem_versionsOf.mp h
  exact ⟨x, hx, h1, v, h2, rfl, ht⟩

theorem type_of {m : List ServiceView} {s v t : Name} {k : Kind} (h : HasType m s v t k) :
    ∃ w, (s, w) ∈ versionsOf m ∧ w.name = v ∧ ⟨t, k⟩ ∈ w.types := by
  obtain ⟨x, hx, h1, w, h2, h3, h4⟩ := h
  exact ⟨w, mem_versionsOf.mpr ⟨x, hx, h1, h2⟩, h3, h4⟩

theorem hasResource_of {m : List ServiceView} {s : Name} {v : VersionView} {r : Name}
    (h : (s, v) ∈ versionsOf m) (hr : r ∈ v.resources) : HasResource m s v.name r := by
  obtain ⟨x, hx, h1, h2⟩ := mem_versionsOf.mp h
  exact ⟨x, hx, h1, v, h2, rfl, hr⟩

theorem resource_of {m : List ServiceView} {s v r : Name} (h : HasResource m s v r) :
    ∃ w, (s, w) ∈ versionsOf m ∧ w.name = v ∧ r ∈ w.resources := by
  obtain ⟨x, hx, h1, w, h2, h3, h4⟩ := h
  exact ⟨w, mem_versionsOf.mpr ⟨x, hx, h1, h2⟩, h3, h4⟩

theorem hasVersion_of_type {m : List ServiceView} {s v t : Name} {k : Kind}
    (h : HasType m s v t k) : HasVersion m s v := by
  obtain ⟨x, hx, h1, w, h2, h3, -⟩ := h
  exact ⟨x, hx, h1, w, h2, h3⟩

theorem hasVersion_of_resource {m : List ServiceView} {s v r : Name}
    (h : HasResource m s v r) : HasVersion m s v := by
  obtain ⟨x, hx, h1, w, h2, h3, -⟩ := h
  exact ⟨x, hx, h1, w, h2, h3⟩

theorem hasService_of {m : List ServiceView} {s v : Name} (h : HasVersion m s v) :
    HasService m s := by
  obtain ⟨x, hx, h1, -⟩ := h
  exact ⟨x, hx, h1⟩

theorem version_path {m : List ServiceView} (hu : Usable m) {s v : Name} (h : HasVersion m s v)
    (file : Text) :
    pathOf (Go.versionPackage s v) file = directory s v ++ t!"/" ++ file ++ t!".go" :=
  path_of s v (hu.services _ (hasService_of h)).1 (hu.versions _ _ h).1 file

theorem version_job {m : List ServiceView} (hu : Usable m) (env : Env) {s v : Name}
    (h : HasVersion m s v) (slot : Slot) (file : Text)
    (hl : location slot = directory s v ++ t!"/" ++ file ++ t!".go") :
    job env slot (Go.versionPackage s v) file = slotJob env slot := by
  unfold job slotJob
  rw [version_path hu h, hl]

/-- The slots of a generator are those of its jobs. -/
def Covers (env : Env) (jobs : List (Job Content)) (p : Slot → Prop) : Prop :=
  ∀ j, j ∈ jobs ↔ ∃ slot, p slot ∧ j = slotJob env slot

theorem covers_append {env : Env} {a b : List (Job Content)} {p q : Slot → Prop}
    (ha : Covers env a p) (hb : Covers env b q) : Covers env (a ++ b) fun s => p s ∨ q s := by
  intro j
  rw [List.mem_append, ha j, hb j]
  constructor
  · rintro (⟨s, h, e⟩ | ⟨s, h, e⟩)
    · exact ⟨s, .inl h, e⟩
    · exact ⟨s, .inr h, e⟩
  · rintro ⟨s, h | h, e⟩
    · exact .inl ⟨s, h, e⟩
    · exact .inr ⟨s, h, e⟩

theorem errors_covers {m : List ServiceView} (hu : Usable m) (env : Env) :
    Covers env (errorsJobs env m) fun slot =>
      slot = .commonErrors ∨ ∃ s v, HasVersion m s v ∧ slot = .errors s v := by
  intro j
  unfold errorsJobs
  have h0 : job env .commonErrors Go.errorsPackage (Go.fileName Nom.errors) =
      slotJob env .commonErrors := by
    unfold job slotJob
    rw [c35_fixed_packages.2.1, nom_files.1]
    rfl
  have h1 : ∀ s v, HasVersion m s v →
      job env (.errors s v) (Go.versionPackage s v) (Go.fileName Nom.errors) =
        slotJob env (.errors s v) := fun s v h =>
    version_job hu env h _ _ (by rw [nom_files.1]; simp [location])
  rw [List.mem_cons, h0]
  constructor
  · rintro (rfl | h)
    · exact ⟨_, .inl rfl, rfl⟩
    · obtain ⟨⟨s, v⟩, hm, rfl⟩ := List.mem_map.mp h
      exact ⟨_, .inr ⟨s, v.name, hasVersion_of hm, rfl⟩, h1 _ _ (hasVersion_of hm)⟩
  · rintro ⟨slot, rfl | ⟨s, v, h, rfl⟩, rfl⟩
    · exact .inl rfl
    · obtain ⟨w, hw, rfl⟩ := version_of h
      exact .inr (List.mem_map.mpr ⟨(s, w), hw, h1 _ _ h⟩)

theorem helpers_covers (env : Env) :
    Covers env (helpersJobs env) fun slot => slot = .helpers := by
  intro j
  have h0 : helpersJobs env = [slotJob env .helpers] := by
    unfold helpersJobs job slotJob
    rw [c35_fixed_packages.1, nom_files.2.1]
    rfl
  rw [h0]
  simp

theorem metrics_covers (env : Env) :
    Covers env (metricsJobs env) fun slot => slot = .pathTree := by
  intro j
  have h0 : metricsJobs env = [slotJob env .pathTree] := by
    unfold metricsJobs job slotJob
    rw [c35_fixed_packages.2.2, nom_files.2.2.2.2.2.2.2]
    rfl
  rw [h0]
  simp

theorem types_covers {m : List ServiceView} (hu : Usable m) (env : Env) :
    Covers env (typesJobs env m) fun slot =>
      (∃ s v, HasVersion m s v ∧ slot = .metadataType s v) ∨
      ∃ s v t, HasTypeOf declared m s v t ∧ slot = .type s v t := by
  intro j
  unfold typesJobs
  have h1 : ∀ s v, HasVersion m s v →
      job env (.metadataType s v) (Go.versionPackage s v)
        (Go.fileName (Name.cat [Nom.metadata, Nom.typ])) = slotJob env (.metadataType s v) :=
    fun s v h => version_job hu env h _ _ (by rw [nom_files.2.2.2.1]; simp [location])
  have h2 : ∀ s v t k, HasType m s v t k →
      job env (.type s v t) (Go.versionPackage s v) (Go.fileName (Name.cat [t, Nom.typ])) =
        slotJob env (.type s v t) := fun s v t k h =>
    version_job hu env (hasVersion_of_type h) _ _
      (by rw [type_file t (hu.types _ _ _ _ h).1]; simp [location])
  simp only [List.mem_flatMap]
  constructor
  · rintro ⟨⟨s, v⟩, hm, h⟩
    rcases List.mem_cons.mp h with rfl | h
    · exact ⟨_, .inl ⟨s, v.name, hasVersion_of hm, rfl⟩, h1 _ _ (hasVersion_of hm)⟩
    · obtain ⟨t, ht, e⟩ := List.mem_filterMap.mp h
      have hty := hasType_of hm ht
      refine ⟨.type s v.name t.name, .inr ⟨s, v.name, t.name, ?_, rfl⟩, ?_⟩
      · cases hk : t.kind <;> simp [hk] at e
        · exact ⟨.enum, by simp [declared], hk ▸ hty⟩
        · exact ⟨.struct, by simp [declared], hk ▸ hty⟩
      · cases hk : t.kind <;> simp [hk] at e
        all_goals rw [← e]; exact h2 _ _ _ _ hty
  · rintro ⟨slot, ⟨s, v, h, rfl⟩ | ⟨s, v, t, ⟨k, hk, h⟩, rfl⟩, rfl⟩
    · obtain ⟨w, hw, rfl⟩ := version_of h
      exact ⟨(s, w), hw, by rw [← h1 _ _ h]; exact List.mem_cons_self⟩
    · obtain ⟨w, hw, rfl, ht⟩ := type_of h
      refine ⟨(s, w), hw, List.mem_cons_of_mem _ (List.mem_filterMap.mpr ⟨_, ht, ?_⟩)⟩
      rw [← h2 _ _ _ _ h]
      simp [declared] at hk
      rcases hk with rfl | rfl <;> rfl

theorem builders_covers {m : List ServiceView} (hu : Usable m) (env : Env) :
    Covers env (buildersJobs env m) fun slot =>
      ∃ s v t, HasTypeOf built m s v t ∧ slot = .builder s v t := by
  intro j
  unfold buildersJobs
  have h2 : ∀ s v t k, HasType m s v t k →
      job env (.builder s v t) (Go.versionPackage s v) (Go.fileName (Name.cat [t, Nom.builder])) =
        slotJob env (.builder s v t) := fun s v t k h =>
    version_job hu env (hasVersion_of_type h) _ _
      (by rw [builder_file t (hu.types _ _ _ _ h).1]; simp [location])
  simp only [List.mem_flatMap]
  constructor
  · rintro ⟨⟨s, v⟩, hm, h⟩
    obtain ⟨t, ht, e⟩ := List.mem_filterMap.mp h
    have hty := hasType_of hm ht
    refine ⟨.builder s v.name t.name, ⟨s, v.name, t.name, ?_, rfl⟩, ?_⟩
    · cases hk : t.kind <;> simp [hk] at e
      · exact ⟨.struct, by simp [built], hk ▸ hty⟩
      · exact ⟨.listOfStruct, by simp [built], hk ▸ hty⟩
    · cases hk : t.kind <;> simp [hk] at e
      all_goals rw [← e]; exact h2 _ _ _ _ hty
  · rintro ⟨slot, ⟨s, v, t, ⟨k, hk, h⟩, rfl⟩, rfl⟩
    obtain ⟨w, hw, rfl, ht⟩ := type_of h
    refine ⟨(s, w), hw, List.mem_filterMap.mpr ⟨_, ht, ?_⟩⟩
    rw [← h2 _ _ _ _ h]
    simp [built] at hk
    rcases hk with rfl | rfl <;> rfl

theorem clients_covers {m : List ServiceView} (hu : Usable m) (env : Env) :
    Covers env (clientsJobs env m) fun slot =>
      (∃ s, HasService m s ∧ slot = .serviceClient s) ∨
      (∃ s v, HasVersion m s v ∧ slot = .metadataClient s v) ∨
      ∃ s v r, HasResource m s v r ∧ slot = .client s v r := by
  intro j
  unfold clientsJobs
  have h0 : ∀ s, HasService m s →
      job env (.serviceClient s) (Go.servicePackage s) (Go.fileName Nom.client) =
        slotJob env (.serviceClient s) := fun s h => by
    unfold job slotJob pathOf
    rw [c35_service_package, ← joined_eq, if_neg (hu.services s h).1, nom_files.2.2.1]
    simp [location]
  have h1 : ∀ s v, HasVersion m s v →
      job env (.metadataClient s v) (Go.versionPackage s v)
        (Go.fileName (Name.cat [Nom.metadata, Nom.client])) = slotJob env (.metadataClient s v) :=
    fun s v h => version_job hu env h _ _ (by rw [nom_files.2.2.2.2.1]; simp [location])
  have h2 : ∀ s v r, HasResource m s v r →
      job env (.client s v r) (Go.versionPackage s v) (Go.fileName (Name.cat [r, Nom.client])) =
        slotJob env (.client s v r) := fun s v r h =>
    version_job hu env (hasVersion_of_resource h) _ _
      (by rw [client_file r (hu.resources _ _ _ h).1]; simp [location])
  simp only [List.mem_flatMap, List.mem_cons, List.mem_map]
  constructor
  · rintro ⟨s, hs, rfl | ⟨v, hv, rfl | ⟨r, hr, rfl⟩⟩⟩
    · exact ⟨_, .inl ⟨s.name, ⟨s, hs, rfl⟩, rfl⟩, h0 _ ⟨s, hs, rfl⟩⟩
    · have h : HasVersion m s.name v.name := ⟨s, hs, rfl, v, hv, rfl⟩
      exact ⟨_, .inr (.inl ⟨_, _, h, rfl⟩), h1 _ _ h⟩
    · have h : HasResource m s.name v.name r := ⟨s, hs, rfl, v, hv, rfl, hr⟩
      exact ⟨_, .inr (.inr ⟨_, _, _, h, rfl⟩), h2 _ _ _ h⟩
  · rintro ⟨slot, ⟨s, h, rfl⟩ | ⟨s, v, h, rfl⟩ | ⟨s, v, r, h, rfl⟩, rfl⟩
    · have h' := h
      obtain ⟨x, hx, rfl⟩ := h'
      exact ⟨x, hx, .inl (h0 _ h).symm⟩
    · have h' := h
      obtain ⟨x, hx, rfl, w, hw, rfl⟩ := h'
      exact ⟨x, hx, .inr ⟨w, hw, .inl (h1 _ _ h).symm⟩⟩
    · have h' := h
      obtain ⟨x, hx, rfl, w, hw, rfl, hr⟩ := h'
      exact ⟨x, hx, .inr ⟨w, hw, .inr ⟨r, hr, h2 _ _ _ h⟩⟩⟩

theorem json_covers {m : List ServiceView} (hu : Usable m) (env : Env) :
    Covers env (jsonJobs env m) fun slot =>
      slot = .jsonHelpers ∨ (∃ s v, HasVersion m s v ∧ slot = .metadataReader s v) ∨
      (∃ s v t, HasTypeOf serialized m s v t ∧ slot = .typeJson s v t) ∨
      ∃ s v r, HasResource m s v r ∧ slot = .resourceJson s v r := by
  intro j
  unfold jsonJobs
  have h0 : job env .jsonHelpers Go.helpersPackage
      (Go.fileName (Name.cat [Nom.json, Nom.helpers])) = slotJob env .jsonHelpers := by
    unfold job slotJob
    rw [c35_fixed_packages.1, nom_files.2.2.2.2.2.2.1]
    rfl
  have h1 : ∀ s v, HasVersion m s v →
      job env (.metadataReader s v) (Go.versionPackage s v)
        (Go.fileName (Name.cat [Nom.metadata, Nom.reader])) = slotJob env (.metadataReader s v) :=
    fun s v h => version_job hu env h _ _ (by rw [nom_files.2.2.2.2.2.1]; simp [location])
  have h2 : ∀ s v t k, HasType m s v t k →
      job env (.typeJson s v t) (Go.versionPackage s v)
        (Go.fileName (Name.cat [t, Nom.typ, Nom.json])) = slotJob env (.typeJson s v t) :=
    fun s v t k h => version_job hu env (hasVersion_of_type h) _ _
      (by rw [type_json_file t (hu.types _ _ _ _ h).1]; simp [location])
  have h3 : ∀ s v r, HasResource m s v r →
      job env (.resourceJson s v r) (Go.versionPackage s v)
        (Go.fileName (Name.cat [r, Nom.resource, Nom.json])) = slotJob env (.resourceJson s v r) :=
    fun s v r h => version_job hu env (hasVersion_of_resource h) _ _
      (by rw [resource_json_file r (hu.resources _ _ _ h).1]; simp [location])
  rw [List.mem_cons, h0, List.mem_flatMap]
  constructor
  · rintro (rfl | ⟨⟨s, v⟩, hm, h⟩)
    · exact ⟨_, .inl rfl, rfl⟩
    · rcases List.mem_append.mp h with h | h
      · rcases List.mem_cons.mp h with rfl | h
        · exact ⟨_, .inr (.inl ⟨s, v.name, hasVersion_of hm, rfl⟩), h1 _ _ (hasVersion_of hm)⟩
        · obtain ⟨t, ht, e⟩ := List.mem_filterMap.mp h
          have hty := hasType_of hm ht
          refine ⟨.typeJson s v.name t.name, .inr (.inr (.inl ⟨s, v.name, t.name, ?_, rfl⟩)), ?_⟩
          · cases hk : t.kind <;> simp [hk] at e
            · exact ⟨.struct, by simp [serialized], hk ▸ hty⟩
            · exact ⟨.listOfScalar, by simp [serialized], hk ▸ hty⟩
            · exact ⟨.listOfEnum, by simp [serialized], hk ▸ hty⟩
            · exact ⟨.listOfStruct, by simp [serialized], hk ▸ hty⟩
          · cases hk : t.kind <;> simp [hk] at e
            all_goals rw [← e]; exact h2 _ _ _ _ hty
      · obtain ⟨r, hr, rfl⟩ := List.mem_map.mp h
        have := hasResource_of hm hr
        exact ⟨_, .inr (.inr (.inr ⟨s, v.name, r, this, rfl⟩)), h3 _ _ _ this⟩
  · rintro ⟨slot, rfl | ⟨s, v, h, rfl⟩ | ⟨s, v, t, ⟨k, hk, h⟩, rfl⟩ | ⟨s, v, r, h, rfl⟩, rfl⟩
    · exact .inl rfl
    · obtain ⟨w, hw, rfl⟩ := version_of h
      exact .inr ⟨(s, w), hw, by rw [← h1 _ _ h]; exact List.mem_append_left _ List.mem_cons_self⟩
    · obtain ⟨w, hw, rfl, ht⟩ := type_of h
      refine .inr ⟨(s, w), hw, List.mem_append_left _
        (List.mem_cons_of_mem _ (List.mem_filterMap.mpr ⟨_, ht, ?_⟩))⟩
      rw [← h2 _ _ _ _ h]
      simp [serialized] at hk
      rcases hk with rfl | rfl | rfl | rfl <;> rfl
    · obtain ⟨w, hw, rfl, hr⟩ := resource_of h
      exact .inr ⟨(s, w), hw, List.mem_append_right _ (List.mem_map.mpr ⟨r, hr, h3 _ _ _ h⟩)⟩

/-- The jobs of all the generators but the one that embeds the specifications. -/
def plainJobs (env : Env) (m : List ServiceView) : List (Job Content) :=
  errorsJobs env m ++ (helpersJobs env ++ (typesJobs env m ++ (buildersJobs env m ++
    (clientsJobs env m ++ (jsonJobs env m ++ metricsJobs env)))))

/-- The slots with code generated from templates. -/
def Plain (slot : Slot) : Prop := ∀ s v, slot ≠ .openapi s v

theorem plain_covers {m : List ServiceView} (hu : Usable m) (env : Env) :
    Covers env (plainJobs env m) fun slot => Wanted m slot ∧ Plain slot := by
  have h := covers_append (errors_covers hu env) (covers_append (helpers_covers env)
    (covers_append (types_covers hu env) (covers_append (builders_covers hu env)
      (covers_append (clients_covers hu env) (covers_append (json_covers hu env)
        (metrics_covers env))))))
  intro j
  rw [plainJobs, h j]
  constructor
  · rintro ⟨slot, hs, rfl⟩
    refine ⟨slot, ?_, rfl⟩
    rcases hs with ((rfl | ⟨s, v, h, rfl⟩) | rfl | (⟨s, v, h, rfl⟩ | ⟨s, v, t, h, rfl⟩) |
      ⟨s, v, t, h, rfl⟩ | (⟨s, h, rfl⟩ | ⟨s, v, h, rfl⟩ | ⟨s, v, r, h, rfl⟩) |
      (rfl | ⟨s, v, h, rfl⟩ | ⟨s, v, t, h, rfl⟩ | ⟨s, v, r, h, rfl⟩) | rfl)
    all_goals first
      | exact ⟨trivial, fun _ _ => Slot.noConfusion⟩
      | exact ⟨h, fun _ _ => Slot.noConfusion⟩
  · rintro ⟨slot, ⟨hw, hp⟩, rfl⟩
    refine ⟨slot, ?_, rfl⟩
    cases slot with
    | commonErrors => exact .inl (.inl rfl)
    | errors s v => exact .inl (.inr ⟨s, v, hw, rfl⟩)
    | helpers => exact .inr (.inl rfl)
    | metadataType s v => exact .inr (.inr (.inl (.inl ⟨s, v, hw, rfl⟩)))
    | type s v t => exact .inr (.inr (.inl (.inr ⟨s, v, t, hw, rfl⟩)))
    | builder s v t => exact .inr (.inr (.inr (.inl ⟨s, v, t, hw, rfl⟩)))
    | serviceClient s => exact .inr (.inr (.inr (.inr (.inl (.inl ⟨s, hw, rfl⟩)))))
    | metadataClient s v =>
      exact .inr (.inr (.inr (.inr (.inl (.inr (.inl ⟨s, v, hw, rfl⟩))))))
    | client s v r => exact .inr (.inr (.inr (.inr (.inl (.inr (.inr ⟨s, v, r, hw, rfl⟩))))))
    | jsonHelpers => exact .inr (.inr (.inr (.inr (.inr (.inl (.inl rfl))))))
    | metadataReader s v =>
      exact .inr (.inr (.inr (.inr (.inr (.inl (.inr (.inl ⟨s, v, hw, rfl⟩)))))))
    | typeJson s v t =>
      exact .inr (.inr (.inr (.inr (.inr (.inl (.inr (.inr (.inl ⟨s, v, t, hw, rfl⟩))))))))
    | resourceJson s v r =>
      exact .inr (.inr (.inr (.inr (.inr (.inl (.inr (.inr (.inr ⟨s, v, r, hw, rfl⟩))))))))
    | pathTree => exact .inr (.inr (.inr (.inr (.inr (.inr rfl)))))
    | openapi s v => exact absurd rfl (hp s v)

/-! ## The specifications -/

/-- The jobs that embed the specifications. -/
def embedJobs (env : Env) (specs : Text → Option (Name × Name)) (vs : List (Name × VersionView)) :
    List (Job Content) :=
  vs.filterMap fun (s, v) =>
    (specs (specFile s v.name)).map fun spec =>
      { path := pathOf (Go.versionPackage s v.name) t!"openapi",
        content := .spec spec.1 spec.2, reported := env.reports (.openapi s v.name) }

theorem embedSpecs_eq (env : Env) (specs : Text → Option (Name × Name)) :
    ∀ (vs : List (Name × VersionView)) (st : State Content),
      (∀ s v, (s, v) ∈ vs → specs (specFile s v.name) ≠ none) →
      embedSpecs env specs vs st = runJobs env.writable (embedJobs env specs vs) st
  | [], st, _ => rfl
  | (s, v) :: vs, st, h => by
    have h0 := h s v List.mem_cons_self
    cases hs : specs (specFile s v.name) with
    | none => exact absurd hs h0
    | some spec =>
      have e : embedJobs env specs ((s, v) :: vs) =
          { path := pathOf (Go.versionPackage s v.name) t!"openapi",
            content := .spec spec.1 spec.2, reported := env.reports (.openapi s v.name) } ::
          embedJobs env specs vs := by
        unfold embedJobs
        rw [List.filterMap_cons]
        simp only [hs, Option.map_some]
      rw [e, runJobs, embedSpecs, hs]
      dsimp only
      cases write env.writable _ st with
      | mk st' b =>
        cases b with
        | false => rfl
        | true =>
          exact embedSpecs_eq env specs vs st' fun s' v' hm => h s' v' (List.mem_cons_of_mem _ hm)

theorem mem_specJobs {env : Env} {m : List ServiceView} {j : Job (Name × Name)} :
    j ∈ specJobs env m ↔ ∃ s v, HasVersion m s v ∧
      j = { path := specLocation s v, content := (s, v), reported := env.specReports s v } := by
  unfold specJobs
  rw [List.mem_map]
  constructor
  · rintro ⟨⟨s, v⟩, hm, rfl⟩
    exact ⟨s, v.name, hasVersion_of hm, by simp only [specFile_eq]⟩
  · rintro ⟨s, v, h, rfl⟩
    obtain ⟨w, hw, rfl⟩ := version_of h
    exact ⟨(s, w), hw, by simp only [specFile_eq]⟩

/-- The specifications written. -/
def specDisk (env : Env) (m : List ServiceView) : Text → Option (Name × Name) :=
  overlay (specJobs env m) fun _ => none

theorem specDisk_spec {env : Env} {m : List ServiceView} {s v : Name} (h : HasVersion m s v) :
    ∃ s' v', HasVersion m s' v' ∧ specLocation s' v' = specLocation s v ∧
      specDisk env m (specFile s v) = some (s', v') := by
  rcases overlay_spec (specJobs env m) (fun _ => none) (specFile s v) with
    ⟨c, h1, h2⟩ | ⟨h1, -⟩
  · obtain ⟨j, hj, h3, rfl⟩ := lastAt_mem h1
    obtain ⟨s', v', h4, rfl⟩ := mem_specJobs.mp hj
    exact ⟨s', v', h4, by rw [← specFile_eq s v]; exact h3, h2⟩
  · exact absurd (specFile_eq s v).symm (h1 _ (mem_specJobs.mpr ⟨s, v, h, rfl⟩))

theorem mem_embedJobs {env : Env} {m : List ServiceView} (hu : Usable m) {j : Job Content} :
    j ∈ embedJobs env (specDisk env m) (versionsOf m) ↔ ∃ s v, HasVersion m s v ∧
      ∃ s' v', specDisk env m (specLocation s v) = some (s', v') ∧
      j = { path := location (.openapi s v), content := .spec s' v',
            reported := env.reports (.openapi s v) } := by
  unfold embedJobs
  rw [List.mem_filterMap]
  have hp : ∀ s v, HasVersion m s v →
      pathOf (Go.versionPackage s v) t!"openapi" = location (.openapi s v) := fun s v h => by
    rw [version_path hu h]
    simp [location]
  constructor
  · rintro ⟨⟨s, v⟩, hm, e⟩
    obtain ⟨spec, h1, rfl⟩ := Option.map_eq_some_iff.mp e
    refine ⟨s, v.name, hasVersion_of hm, spec.1, spec.2, ?_, ?_⟩
    · rw [← specFile_eq]
      exact h1
    · rw [hp _ _ (hasVersion_of hm)]
  · rintro ⟨s, v, h, s', v', h1, rfl⟩
    obtain ⟨w, hw, rfl⟩ := version_of h
    refine ⟨(s, w), hw, ?_⟩
    rw [← specFile_eq] at h1
    simp only [h1, Option.map_some, hp _ _ h]

/-! ## All the generators -/

/-- All the jobs, when the specifications can be written. -/
def allJobs (env : Env) (m : List ServiceView) : List (Job Content) :=
  plainJobs env m ++ embedJobs env (specDisk env m) (versionsOf m)

theorem runGenerators_cons {σ : Type} (g : σ → σ × Bool) (gs : List (σ → σ × Bool)) (st : σ) :
    runGenerators (g :: gs) st =
      match g st with
      | (st', true) => runGenerators gs st'
      | (st', false) => (st', false) := rfl

theorem runGenerators_one {σ : Type} (g : σ → σ × Bool) (st : σ) : runGenerators [g] st = g st := by
  rw [runGenerators_cons]
  cases g st with
  | mk s b => cases b <;> rfl

theorem generate_eq (env : Env) (m : List ServiceView) (st : State Content) :
    generateGo env m st =
      match runJobs env.writable (plainJobs env m) st with
      | (st', true) => runEmbed env m st'
      | (st', false) => (st', false) := by
  unfold generateGo goGenerators plainJobs
  simp only [runGenerators_cons, runJobs_append]
  simp only [runGenerators]
  cases runJobs env.writable (errorsJobs env m) st with
  | mk s b =>
    cases b with
    | false => rfl
    | true =>
      dsimp only
      cases runJobs env.writable (helpersJobs env) s with
      | mk s b =>
        cases b with
        | false => rfl
        | true =>
          dsimp only
          cases runJobs env.writable (typesJobs env m) s with
          | mk s b =>
            cases b with
            | false => rfl
            | true =>
              dsimp only
              cases runJobs env.writable (buildersJobs env m) s with
              | mk s b =>
                cases b with
                | false => rfl
                | true =>
                  dsimp only
                  cases runJobs env.writable (clientsJobs env m) s with
                  | mk s b =>
                    cases b with
                    | false => rfl
                    | true =>
                      dsimp only
                      cases runJobs env.writable (jsonJobs env m) s with
                      | mk s b =>
                        cases b with
                        | false => rfl
                        | true =>
                          dsimp only
                          cases runJobs env.writable (metricsJobs env) s with
                          | mk s b =>
                            cases b with
                            | false => rfl
                            | true =>
                              dsimp only
                              cases runEmbed env m s with
                              | mk s b => cases b <;> rfl

theorem plainJobs_ne (env : Env) (m : List ServiceView) : plainJobs env m ≠ [] := by
  simp [plainJobs, errorsJobs]

theorem runEmbed_ok {env : Env} {m : List ServiceView} {st : State Content} (he : st.errors = 0)
    (hs : ∀ j ∈ specJobs env m, Fine env.specWritable j) :
    runEmbed env m st =
      runJobs env.writable (embedJobs env (specDisk env m) (versionsOf m)) st := by
  rw [runEmbed, runJobs_ok (st := ⟨fun _ => none, st.errors⟩) he hs]
  dsimp only
  rw [embedSpecs_eq]
  · rw [← he]
    rfl
  · intro s v hm
    obtain ⟨s', v', -, -, h⟩ := specDisk_spec (env := env) (hasVersion_of hm)
    intro h'
    have h2 := h.symm.trans h'
    cases h2

theorem generate_ok {env : Env} {m : List ServiceView} {st : State Content} (he : st.errors = 0)
    (hs : ∀ j ∈ specJobs env m, Fine env.specWritable j)
    (hj : ∀ j ∈ allJobs env m, Fine env.writable j) :
    generateGo env m st = (⟨overlay (allJobs env m) st.disk, 0⟩, true) := by
  rw [generate_eq]
  have h1 := runJobs_ok he hj
  rw [allJobs, runJobs_append] at h1
  rw [runJobs_ok he fun j hm => hj j (List.mem_append_left _ hm)] at h1 ⊢
  dsimp only at h1 ⊢
  rw [runEmbed_ok rfl hs, h1]
  rfl

theorem generate_true {env : Env} {m : List ServiceView} {st st' : State Content}
    (h : generateGo env m st = (st', true)) :
    st.errors = 0 ∧ (∀ j ∈ specJobs env m, Fine env.specWritable j) ∧
      ∀ j ∈ allJobs env m, Fine env.writable j := by
  rw [generate_eq] at h
  cases hp : runJobs env.writable (plainJobs env m) st with
  | mk s b =>
    rw [hp] at h
    cases b with
    | false => cases h
    | true =>
      dsimp only at h
      obtain ⟨h1, h2⟩ := runJobs_true hp
      have he := h1 (plainJobs_ne env m)
      rw [runJobs_ok he h2] at hp
      cases hp
      cases hs : runJobs env.specWritable (specJobs env m)
          { disk := fun _ => none, errors := 0 } with
      | mk sp b =>
        cases b with
        | false =>
          rw [runEmbed] at h
          dsimp only at h
          rw [hs] at h
          cases h
        | true =>
          have h3 := (runJobs_true hs).2
          rw [runEmbed_ok rfl h3] at h
          have h4 := (runJobs_true h).2
          refine ⟨he, h3, ?_⟩
          intro j hj
          rcases List.mem_append.mp hj with hj | hj
          · exact h2 j hj
          · exact h4 j hj

theorem generate_false {env : Env} {m : List ServiceView} {st st' : State Content}
    (h : generateGo env m st = (st', false)) :
    ∃ written rest, allJobs env m = written ++ rest ∧ st'.disk = overlay written st.disk ∧
      (st.errors > 0 → written = []) ∧ ∀ j ∈ written, Fine env.writable j := by
  rw [generate_eq] at h
  cases hp : runJobs env.writable (plainJobs env m) st with
  | mk s b =>
    rw [hp] at h
    cases b with
    | false =>
      cases h
      obtain ⟨before, j, after, h1, h2, hfine, -, h5, -⟩ := runJobs_false hp
      refine ⟨before, j :: after ++ embedJobs env (specDisk env m) (versionsOf m), ?_, h5, ?_, hfine⟩
      · rw [allJobs, h1]
        simp
      · intro hpos
        cases before with
        | nil => rfl
        | cons a l =>
          have := h2 (by simp)
          omega
    | true =>
      dsimp only at h
      obtain ⟨h1, h2⟩ := runJobs_true hp
      have he := h1 (plainJobs_ne env m)
      rw [runJobs_ok he h2] at hp
      cases hp
      cases hs : runJobs env.specWritable (specJobs env m)
          { disk := fun _ => none, errors := 0 } with
      | mk sp b =>
        cases b with
        | false =>
          rw [runEmbed] at h
          dsimp only at h
          rw [hs] at h
          cases h
          exact ⟨plainJobs env m, _, rfl, rfl, by omega, h2⟩
        | true =>
          have h3 := (runJobs_true hs).2
          rw [runEmbed_ok rfl h3] at h
          obtain ⟨before, j, after, h4, -, hfine, -, h5, -⟩ := runJobs_false h
          refine ⟨plainJobs env m ++ before, j :: after, ?_, ?_, by omega, ?_⟩
          · rw [allJobs, h4]
            simp
          · rw [h5]
            have : ∀ (a b : List (Job Content)) (old : Text → Option Content),
                overlay b (overlay a old) = overlay (a ++ b) old := by
              intro a
              induction a with
              | nil => intro b old; rfl
              | cons x xs ih => intro b old; exact ih b _
            exact this _ _ _
          · intro k hk
            rcases List.mem_append.mp hk with hk | hk
            · exact h2 k hk
            · exact hfine k hk

/-! ## Stages -/

/-- The stage of a job. -/
def jobStage (j : Job Content) : Nat :=
  match j.content with
  | .code slot => stage slot
  | .spec _ _ => 8

/-- The jobs are in the order of the stages. -/
def Staged (jobs : List (Job Content)) : Prop :=
  jobs.Pairwise fun a b => jobStage a ≤ jobStage b

theorem staged_append {a b : List (Job Content)} {n : Nat} (ha : ∀ j ∈ a, jobStage j = n)
    (hb : Staged b) (hn : ∀ j ∈ b, n ≤ jobStage j) : Staged (a ++ b) := by
  rw [Staged, List.pairwise_append]
  refine ⟨List.pairwise_of_forall_mem_list ?_, hb, ?_⟩
  · intro x hx y hy
    rw [ha x hx, ha y hy]
    exact Nat.le_refl _
  · intro x hx y hy
    rw [ha x hx]
    exact hn y hy

theorem stage_of_covers {env : Env} {jobs : List (Job Content)} {p : Slot → Prop} {n : Nat}
    (h : Covers env jobs p) (hp : ∀ slot, p slot → stage slot = n) : ∀ j ∈ jobs, jobStage j = n := by
  intro j hj
  obtain ⟨slot, hs, rfl⟩ := (h j).mp hj
  exact hp slot hs

theorem allJobs_staged {m : List ServiceView} (hu : Usable m) (env : Env) :
    Staged (allJobs env m) := by
  have h1 : ∀ j ∈ errorsJobs env m, jobStage j = 1 := stage_of_covers (errors_covers hu env) (by
    rintro slot (rfl | ⟨s, v, -, rfl⟩) <;> rfl)
  have h2 : ∀ j ∈ helpersJobs env, jobStage j = 2 := stage_of_covers (helpers_covers env) (by
    rintro slot rfl; rfl)
  have h3 : ∀ j ∈ typesJobs env m, jobStage j = 3 := stage_of_covers (types_covers hu env) (by
    rintro slot (⟨s, v, -, rfl⟩ | ⟨s, v, t, -, rfl⟩) <;> rfl)
  have h4 : ∀ j ∈ buildersJobs env m, jobStage j = 4 := stage_of_covers (builders_covers hu env) (by
    rintro slot ⟨s, v, t, -, rfl⟩; rfl)
  have h5 : ∀ j ∈ clientsJobs env m, jobStage j = 5 := stage_of_covers (clients_covers hu env) (by
    rintro slot (⟨s, -, rfl⟩ | ⟨s, v, -, rfl⟩ | ⟨s, v, t, -, rfl⟩) <;> rfl)
  have h6 : ∀ j ∈ jsonJobs env m, jobStage j = 6 := stage_of_covers (json_covers hu env) (by
    rintro slot (rfl | ⟨s, v, -, rfl⟩ | ⟨s, v, t, -, rfl⟩ | ⟨s, v, t, -, rfl⟩) <;> rfl)
  have h7 : ∀ j ∈ metricsJobs env, jobStage j = 7 := stage_of_covers (metrics_covers env) (by
    rintro slot rfl; rfl)
  have h8 : ∀ j ∈ embedJobs env (specDisk env m) (versionsOf m), jobStage j = 8 := by
    intro j hj
    obtain ⟨s, v, -, s', v', -, rfl⟩ := (mem_embedJobs hu).mp hj
    rfl
  have e : allJobs env m = errorsJobs env m ++ (helpersJobs env ++ (typesJobs env m ++
      (buildersJobs env m ++ (clientsJobs env m ++ (jsonJobs env m ++ (metricsJobs env ++
        (embedJobs env (specDisk env m) (versionsOf m) ++ []))))))) := by
    simp [allJobs, plainJobs]
  rw [e]
  refine staged_append h1 (staged_append h2 (staged_append h3 (staged_append h4 (staged_append h5
    (staged_append h6 (staged_append h7 (staged_append h8 List.Pairwise.nil ?_) ?_) ?_) ?_) ?_) ?_)
      ?_) ?_
  all_goals
    intro j hj
    simp only [List.mem_append, List.not_mem_nil, or_false] at hj
  · rw [h8 j hj]; omega
  · rcases hj with hj | hj
    · rw [h7 j hj]; omega
    · rw [h8 j hj]; omega
  · rcases hj with hj | hj | hj
    · rw [h6 j hj]; omega
    · rw [h7 j hj]; omega
    · rw [h8 j hj]; omega
  · rcases hj with hj | hj | hj | hj
    · rw [h5 j hj]; omega
    · rw [h6 j hj]; omega
    · rw [h7 j hj]; omega
    · rw [h8 j hj]; omega
  · rcases hj with hj | hj | hj | hj | hj
    · rw [h4 j hj]; omega
    · rw [h5 j hj]; omega
    · rw [h6 j hj]; omega
    · rw [h7 j hj]; omega
    · rw [h8 j hj]; omega
  · rcases hj with hj | hj | hj | hj | hj | hj
    · rw [h3 j hj]; omega
    · rw [h4 j hj]; omega
    · rw [h5 j hj]; omega
    · rw [h6 j hj]; omega
    · rw [h7 j hj]; omega
    · rw [h8 j hj]; omega
  · rcases hj with hj | hj | hj | hj | hj | hj | hj
    · rw [h2 j hj]; omega
    · rw [h3 j hj]; omega
    · rw [h4 j hj]; omega
    · rw [h5 j hj]; omega
    · rw [h6 j hj]; omega
    · rw [h7 j hj]; omega
    · rw [h8 j hj]; omega

/-! ## Locations -/

/-- Texts separated by slashes. -/
def slashed : List Text → Text
  | [] => []
  | [x] => x
  | x :: y :: l => x ++ '/' :: slashed (y :: l)

theorem slashed_inj : ∀ {a b : List Text}, a ≠ [] → b ≠ [] → (∀ x ∈ a, '/' ∉ x) →
    (∀ x ∈ b, '/' ∉ x) → slashed a = slashed b → a = b
  | [], _, h, _, _, _, _ => absurd rfl h
  | _ :: _, [], _, h, _, _, _ => absurd rfl h
  | [x], [y], _, _, _, _, h => by rw [slashed, slashed] at h; rw [h]
  | [x], y :: z :: l, _, _, ha, _, h => by
    rw [slashed, slashed] at h
    exact absurd (by rw [h]; simp) (ha x List.mem_cons_self)
  | x :: z :: l, [y], _, _, _, hb, h => by
    rw [slashed, slashed] at h
    exact absurd (by rw [← h]; simp) (hb y List.mem_cons_self)
  | x :: x' :: l, y :: y' :: k, _, _, ha, hb, h => by
    rw [slashed, slashed] at h
    obtain ⟨h1, h2⟩ := append_sep_inj (ha x List.mem_cons_self) (hb y List.mem_cons_self) h
    have := slashed_inj (a := x' :: l) (b := y' :: k) (by simp) (by simp)
      (fun z hz => ha z (List.mem_cons_of_mem _ hz)) (fun z hz => hb z (List.mem_cons_of_mem _ hz)) h2
    rw [h1, this]

/-- The name of the file of a slot. -/
def fileOf : Slot → Text
  | .commonErrors => t!"errors.go"
  | .errors _ _ => t!"errors.go"
  | .helpers => t!"helpers.go"
  | .metadataType _ _ => t!"metadata_type.go"
  | .type _ _ t => snakeCase t ++ t!"_type.go"
  | .builder _ _ t => snakeCase t ++ t!"_builder.go"
  | .serviceClient _ => t!"client.go"
  | .metadataClient _ _ => t!"metadata_client.go"
  | .client _ _ r => snakeCase r ++ t!"_client.go"
  | .jsonHelpers => t!"json_helpers.go"
  | .metadataReader _ _ => t!"metadata_reader.go"
  | .typeJson _ _ t => snakeCase t ++ t!"_type_json.go"
  | .resourceJson _ _ r => snakeCase r ++ t!"_resource_json.go"
  | .pathTree => t!"path_tree_data.go"
  | .openapi _ _ => t!"openapi.go"

/-- The directories of the file of a slot. -/
def dirsOf : Slot → List Text
  | .commonErrors => [t!"errors"]
  | .helpers | .jsonHelpers => [t!"helpers"]
  | .pathTree => [t!"metrics"]
  | .serviceClient s => [joined s]
  | .errors s v | .metadataType s v | .type s v _ | .builder s v _ | .metadataClient s v
  | .client s v _ | .metadataReader s v | .typeJson s v _ | .resourceJson s v _
  | .openapi s v => [joined s, joined v]

theorem location_eq (slot : Slot) : location slot = slashed (dirsOf slot ++ [fileOf slot]) := by
  cases slot <;> simp [location, dirsOf, fileOf, slashed, directory]

/-- The names of a slot have no slashes. -/
def CleanSlot (slot : Slot) : Prop := (∀ x ∈ dirsOf slot, '/' ∉ x) ∧ '/' ∉ fileOf slot

theorem clean_of_wanted {m : List ServiceView} (hu : Usable m) {slot : Slot} (h : Wanted m slot) :
    CleanSlot slot := by
  have hv : ∀ s v, HasVersion m s v → ∀ x ∈ [joined s, joined v], '/' ∉ x := by
    intro s v h x hx
    simp at hx
    rcases hx with rfl | rfl
    · exact (hu.services _ (hasService_of h)).2
    · exact (hu.versions _ _ h).2
  cases slot with
  | commonErrors => exact ⟨by decide, by decide⟩
  | helpers => exact ⟨by decide, by decide⟩
  | jsonHelpers => exact ⟨by decide, by decide⟩
  | pathTree => exact ⟨by decide, by decide⟩
  | serviceClient s =>
    refine ⟨?_, by show '/' ∉ t!"client.go"; decide⟩
    intro x hx
    simp [dirsOf] at hx
    rw [hx]
    exact (hu.services _ h).2
  | errors s v => exact ⟨hv s v h, by show '/' ∉ t!"errors.go"; decide⟩
  | metadataType s v => exact ⟨hv s v h, by show '/' ∉ t!"metadata_type.go"; decide⟩
  | metadataClient s v => exact ⟨hv s v h, by show '/' ∉ t!"metadata_client.go"; decide⟩
  | metadataReader s v => exact ⟨hv s v h, by show '/' ∉ t!"metadata_reader.go"; decide⟩
  | openapi s v => exact ⟨hv s v h, by show '/' ∉ t!"openapi.go"; decide⟩
  | type s v t =>
    obtain ⟨k, -, h⟩ := h
    refine ⟨hv s v (hasVersion_of_type h), ?_⟩
    have := (hu.types _ _ _ _ h).2
    simp [fileOf, this]
  | builder s v t =>
    obtain ⟨k, -, h⟩ := h
    refine ⟨hv s v (hasVersion_of_type h), ?_⟩
    have := (hu.types _ _ _ _ h).2
    simp [fileOf, this]
  | typeJson s v t =>
    obtain ⟨k, -, h⟩ := h
    refine ⟨hv s v (hasVersion_of_type h), ?_⟩
    have := (hu.types _ _ _ _ h).2
    simp [fileOf, this]
  | client s v r =>
    refine ⟨hv s v (hasVersion_of_resource h), ?_⟩
    have := (hu.resources _ _ _ h).2
    simp [fileOf, this]
  | resourceJson s v r =>
    refine ⟨hv s v (hasVersion_of_resource h), ?_⟩
    have := (hu.resources _ _ _ h).2
    simp [fileOf, this]

theorem location_inj {i j : Slot} (hi : CleanSlot i) (hj : CleanSlot j)
    (h : location i = location j) : dirsOf i = dirsOf j ∧ fileOf i = fileOf j := by
  rw [location_eq, location_eq] at h
  have := slashed_inj (by simp) (by simp) ?_ ?_ h
  · have h2 := List.append_inj_left' this rfl
    exact ⟨h2, by simpa [h2] using this⟩
  · intro x hx
    rcases List.mem_append.mp hx with hx | hx
    · exact hi.1 x hx
    · simp at hx; rw [hx]; exact hi.2
  · intro x hx
    rcases List.mem_append.mp hx with hx | hx
    · exact hj.1 x hx
    · simp at hx; rw [hx]; exact hj.2

/-- The last characters of the name of the file, in reverse order. -/
def ending (file : Text) : Text := (file.reverse.take 12).take 8

/-- The ending of the file of each slot. -/
def endingOf : Slot → Text
  | .commonErrors | .errors _ _ => t!"og.srorr"
  | .helpers | .jsonHelpers => t!"og.srepl"
  | .metadataType _ _ | .type _ _ _ => t!"og.epyt_"
  | .builder _ _ _ => t!"og.redli"
  | .serviceClient _ | .metadataClient _ _ | .client _ _ _ => t!"og.tneil"
  | .metadataReader _ _ => t!"og.redae"
  | .typeJson _ _ _ | .resourceJson _ _ _ => t!"og.nosj_"
  | .pathTree => t!"og.atad_"
  | .openapi _ _ => t!"og.ipane"

theorem ending_eq (slot : Slot) : ending (fileOf slot) = endingOf slot := by
  cases slot <;> simp [ending, fileOf, endingOf]

theorem json_endings (a b : Text) : a ++ t!"_type_json.go" ≠ b ++ t!"_resource_json.go" := by
  intro h
  have := congrArg (fun l => l.reverse.take 12) h
  simp at this

end Verif.Files
