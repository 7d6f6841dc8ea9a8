import Verif.Lemmas.AcceptVersion

/-!
# Property C87: the files that are accepted
-/

namespace Verif.Accept

open Whole Reader Session Outcome

theorem mem_versions {s : Session} (m : ModelGood s) {v : LoadedVersion} :
    v ∈ s.versions ↔ ∃ a b, s.version a b = some v := by
  unfold Session.versions
  rw [List.mem_flatMap]
  constructor
  · rintro ⟨l, hl, hv⟩
    have hl' := (sortByName_spec _ _).1.mem_iff.mp hl
    obtain ⟨e, he, rfl⟩ := List.mem_map.mp hl'
    have hf := GoMap.find_of_mem m.nodup he
    obtain ⟨-, h4⟩ := m.named _ _ hf
    have hv' := (sortByName_spec _ _).1.mem_iff.mp hv
    obtain ⟨e2, he2, rfl⟩ := List.mem_map.mp hv'
    exact ⟨e.1, e2.1, by unfold Session.version; rw [hf]; exact GoMap.find_of_mem h4.nodup he2⟩
  · rintro ⟨a, b, h⟩
    obtain ⟨l, hl, hv⟩ := Option.bind_eq_some_iff.mp h
    exact ⟨l, (sortByName_spec _ _).1.mem_iff.mpr (List.mem_map.mpr ⟨_, GoMap.find_some_mem hl, rfl⟩),
      (sortByName_spec _ _).1.mem_iff.mpr (List.mem_map.mpr ⟨_, GoMap.find_some_mem hv, rfl⟩)⟩

theorem checkModel_done {g : Graph} {fuel : Nat} {vs : _root_.List Check.VersionView}
    (h : ∀ v ∈ vs, ∃ messages, Check.checkVersion g fuel v = .done messages) :
    ∃ messages, Check.checkModel g fuel vs = .done messages := by
  induction vs with
  | nil => exact ⟨[], rfl⟩
  | cons v vs ih =>
    obtain ⟨x, hx⟩ := h v List.mem_cons_self
    obtain ⟨y, hy⟩ := ih fun w hw => h w (List.mem_cons_of_mem _ hw)
    exact ⟨x ++ y, by unfold Check.checkModel; rw [hx, hy]; rfl⟩

theorem checkModel_panic {g : Graph} {fuel : Nat} {vs : _root_.List Check.VersionView}
    (h : ∀ v ∈ vs, Check.checkVersion g fuel v = .panic ∨
      ∃ messages, Check.checkVersion g fuel v = .done messages)
    (hp : ∃ v ∈ vs, Check.checkVersion g fuel v = .panic) : Check.checkModel g fuel vs = .panic := by
  induction vs with
  | nil => obtain ⟨v, hv, -⟩ := hp; cases hv
  | cons v vs ih =>
    unfold Check.checkModel
    rcases h v List.mem_cons_self with hx | ⟨x, hx⟩
    · rw [hx]; rfl
    · rw [hx]
      obtain ⟨w, hw, hp⟩ := hp
      rcases List.mem_cons.mp hw with rfl | hw
      · rw [hx] at hp; cases hp
      · have := ih (fun w hw => h w (List.mem_cons_of_mem _ hw)) ⟨w, hw, hp⟩
        simp only [Run.bind]
        rw [this]

theorem checkModel_mono {g : Graph} {fuel : Nat} (n : Nat) {vs : _root_.List Check.VersionView}
    {messages : _root_.List Message} (h : Check.checkModel g fuel vs = .done messages) :
    Check.checkModel g (fuel + n) vs = .done messages := by
  induction vs generalizing messages with
  | nil => exact h
  | cons v vs ih =>
    obtain ⟨x, hx, h⟩ := Run.bind_done h
    obtain ⟨y, hy, h⟩ := Run.bind_done h
    obtain ⟨loops, hl, hx⟩ := Run.bind_done hx
    unfold Check.checkModel Check.checkVersion
    dsimp only
    rw [checkLocatorLoops_mono fuel n v.root loops hl, ih hy]
    simp only [Run.bind]
    injection hx with hx
    rw [hx]
    exact h

/-- The declarations of all the versions of the inputs. -/
def AllVersions (inputs : _root_.List SourceModel) (P : _root_.List Decl → Prop) : Prop :=
  ∀ a b ds, (a, b, ds) ∈ versionDirs inputs → P (versionDecls (versionDirs inputs) a b)

/-- The three possible results of reading files whose declarations are good. If a version has no
resource called `Root` the reader crashes. If all the versions have it and the declarations follow the
rules the result is the model, without errors. Otherwise the result is an error, and the number of errors
is reported. -/
theorem c87_read_partial (inputs : _root_.List SourceModel) (hr : ∀ m ∈ inputs, m.Readable)
    (hg : ∀ before a b ds after, versionDirs inputs = before ++ (a, b, ds) :: after →
      GoodDecls (versionDecls before a b ++ ds))
    (ho : AllVersions inputs PagingOnce) (fuel : Nat) (hf : (load inputs).graph.length ≤ fuel) :
    (¬ AllVersions inputs Rooted → Session.read (some 0) inputs fuel = .panic) ∧
    (AllVersions inputs Rooted → AllVersions inputs Fine →
      Session.read (some 0) inputs fuel = .done { result := .model (load inputs), errors := 0 }) ∧
    (AllVersions inputs Rooted → ¬ AllVersions inputs Fine → ∃ n, 0 < n ∧
      Session.read (some 0) inputs fuel = .done { result := .error (errorText n), errors := n }) := by
  obtain ⟨hp, h2, -⟩ := c76_model_partial inputs hr hg
  have i := load_inv inputs
  have hready : ∀ {v}, v ∈ (load inputs).versions → ∃ a b ds, (a, b, ds) ∈ versionDirs inputs ∧
      Ready (load inputs) a b v (versionDecls (versionDirs inputs) a b) := by
    intro v hv
    obtain ⟨a, b, hv⟩ := (mem_versions i.model).mp hv
    obtain ⟨ds, hm⟩ := (h2 a b).mp (by rw [hv]; rfl)
    exact ⟨a, b, ds, hm, ready inputs hr hg hv⟩
  have hversion : ∀ {a b ds}, (a, b, ds) ∈ versionDirs inputs → ∃ v ∈ (load inputs).versions,
      Ready (load inputs) a b v (versionDecls (versionDirs inputs) a b) := by
    intro a b ds hm
    obtain ⟨v, hv⟩ := Option.isSome_iff_exists.mp ((h2 a b).mpr ⟨ds, hm⟩)
    exact ⟨v, (mem_versions i.model).mpr ⟨a, b, hv⟩, ready inputs hr hg hv⟩
  have hdone : AllVersions inputs Rooted → ∃ messages,
      Check.checkModel (load inputs).graph fuel
        ((load inputs).versions.map (load inputs).versionView) = .done messages ∧
      (Accepted messages ↔ AllVersions inputs Fine) := by
    intro hroot
    obtain ⟨messages, hm⟩ := checkModel_done (g := (load inputs).graph) (fuel := fuel)
        (vs := (load inputs).versions.map (load inputs).versionView) (by
      intro w hw
      obtain ⟨v, hv, rfl⟩ := List.mem_map.mp hw
      obtain ⟨a, b, ds, hm, hrd⟩ := hready hv
      obtain ⟨ms, h3, -⟩ := (hrd.check (ho a b ds hm)).2 (hroot a b ds hm)
      exact ⟨ms, h3 fuel hf⟩)
    refine ⟨messages, hm, (c62_model_accepted_iff _ _ _ _ hm).trans ?_⟩
    constructor
    · intro hall a b ds hmem
      obtain ⟨v, hv, hrd⟩ := hversion hmem
      obtain ⟨ms, h3, h4⟩ := (hrd.check (ho a b ds hmem)).2 (hroot a b ds hmem)
      obtain ⟨ms', h5, h6⟩ := hall _ (List.mem_map.mpr ⟨v, hv, rfl⟩)
      rw [h3 fuel hf] at h5
      cases h5
      exact h4.mp h6
    · intro hfine w hw
      obtain ⟨v, hv, rfl⟩ := List.mem_map.mp hw
      obtain ⟨a, b, ds, hmem, hrd⟩ := hready hv
      obtain ⟨ms, h3, h4⟩ := (hrd.check (ho a b ds hmem)).2 (hroot a b ds hmem)
      exact ⟨ms, h3 fuel hf, h4.mpr (hfine a b ds hmem)⟩
  refine ⟨?_, ?_, ?_⟩
  · intro hn
    have hpanic : Check.checkModel (load inputs).graph fuel
        ((load inputs).versions.map (load inputs).versionView) = .panic := by
      apply checkModel_panic
      · intro w hw
        obtain ⟨v, hv, rfl⟩ := List.mem_map.mp hw
        obtain ⟨a, b, ds, hmem, hrd⟩ := hready hv
        by_cases hrt : Rooted (versionDecls (versionDirs inputs) a b)
        · obtain ⟨ms, h3, -⟩ := (hrd.check (ho a b ds hmem)).2 hrt
          exact .inr ⟨ms, h3 fuel hf⟩
        · exact .inl ((hrd.check (ho a b ds hmem)).1 hrt fuel)
      · unfold AllVersions at hn
        simp only [Classical.not_forall] at hn
        obtain ⟨a, b, ds, hmem, hrt⟩ := hn
        obtain ⟨v, hv, hrd⟩ := hversion hmem
        exact ⟨_, List.mem_map.mpr ⟨v, hv, rfl⟩, (hrd.check (ho a b ds hmem)).1 hrt fuel⟩
    unfold Session.read
    dsimp only
    rw [hpanic]
    rfl
  · intro hroot hfine
    obtain ⟨ms, h3, h4⟩ := hdone hroot
    exact ((read_model_iff inputs fuel { result := .model (load inputs), errors := 0 } (load inputs)).mpr
      ⟨rfl, rfl, hp, ms, h3, h4.mpr hfine⟩).1
  · intro hroot hfine
    obtain ⟨ms, h3, h4⟩ := hdone hroot
    have hpos : 0 < (ms.filter Message.isError).length := by
      rcases Nat.eq_zero_or_pos (ms.filter Message.isError).length with h0 | h0
      · exact absurd (h4.mp (accepted_filter.mp h0)) hfine
      · exact h0
    refine ⟨_, hpos, ?_⟩
    unfold Session.read
    dsimp only
    rw [h3, hp]
    simp only [Run.bind, List.length_nil, Nat.zero_add]
    rw [if_pos hpos]

/-- The checks accept files whose declarations are good exactly if all the versions have a resource
called `Root`, and the declarations follow the rules. -/
theorem c87_checked_iff_partial (inputs : _root_.List SourceModel) (hr : ∀ m ∈ inputs, m.Readable)
    (hg : ∀ before a b ds after, versionDirs inputs = before ++ (a, b, ds) :: after →
      GoodDecls (versionDecls before a b ++ ds))
    (ho : AllVersions inputs PagingOnce) :
    Checked (api (load inputs)) ↔ AllVersions inputs Rooted ∧ AllVersions inputs Fine := by
  constructor
  · rintro ⟨fuel, ms, h1, h2⟩
    have hp := (c76_model_partial inputs hr hg).1
    have h3 := checkModel_mono (load inputs).graph.length h1
    rw [checkViews_eq] at h3
    have h4 := ((read_model_iff inputs _ { result := .model (load inputs), errors := 0 } (load inputs)).mpr
      ⟨rfl, rfl, hp, ms, h3, h2⟩).1
    obtain ⟨a1, -, a3⟩ := c87_read_partial inputs hr hg ho (fuel + (load inputs).graph.length)
      (Nat.le_add_left _ _)
    have hroot : AllVersions inputs Rooted := by
      apply Classical.byContradiction
      intro hn
      have := a1 hn
      rw [this] at h4
      cases h4
    refine ⟨hroot, ?_⟩
    apply Classical.byContradiction
    intro hn
    obtain ⟨n, -, h5⟩ := a3 hroot hn
    rw [h5] at h4
    injection h4 with h4
    injection h4 with h4
    cases h4
  · rintro ⟨h1, h2⟩
    obtain ⟨-, h3, -⟩ := c87_read_partial inputs hr hg ho _ (Nat.le_refl _)
    exact checked_of_read (h3 h1 h2)

/-- From the files to the generated code: with good declarations and names, generating the code works
exactly if all the versions have a root, the declarations follow the rules and can be expressed in Go, no
version declares two errors, and the files can be written. -/
theorem c87_generate_iff_partial (base : Text) (writable specWritable : Text → Bool)
    (inputs : _root_.List SourceModel) (disk : Text → Option Files.Content)
    (hr : ∀ m ∈ inputs, m.Readable)
    (hg : ∀ before a b ds after, versionDirs inputs = before ++ (a, b, ds) :: after →
      GoodDecls (versionDecls before a b ++ ds))
    (hn : NamesFine inputs) (ho : AllVersions inputs PagingOnce) :
    (∃ fuel disk', generate base writable specWritable inputs fuel disk = .done (disk', true)) ↔
      AllVersions inputs Rooted ∧ AllVersions inputs Fine ∧
      (∀ a b ds, (a, b, ds) ∈ versionDirs inputs → ∀ d ∈ ds, DeclFine d) ∧
      (∀ a b, (declaredErrors (versionDecls (versionDirs inputs) a b)).length ≤ 1) ∧
      (∀ slot, Files.Wanted (api (load inputs)).view slot → writable (Files.location slot) = true) ∧
      (∀ s v, Files.HasVersion (api (load inputs)).view s v →
        specWritable (Files.specLocation s v) = true) := by
  rw [c86_sources_partial base writable specWritable inputs disk hr hg hn,
    c87_checked_iff_partial inputs hr hg ho, and_assoc]

/-! ## Examples -/

/-- A collection of clusters, with the usual methods. The arguments are the default value of the size of
the pages, and the target of the locator of a cluster. -/
def clustersDecls (size : Int) (target : Text) : _root_.List Decl :=
  [ .class t!"Cluster" [] [] [{ name := t!"Name", ref := .plain t!"String" }],
    .resource t!"Root" [] [] [.locator { name := t!"Clusters", members := [.target t!"Clusters"] }],
    .resource t!"Clusters" [] []
      [ .method
          { name := t!"List"
            parameters :=
              [ { name := t!"Page", ref := .plain t!"Integer", directions := [.input, .output]
                  dflt := some (.int 1) },
                { name := t!"Size", ref := .plain t!"Integer", directions := [.input, .output]
                  dflt := some (.int size) },
                { name := t!"Total", ref := .plain t!"Integer", directions := [.output] },
                { name := t!"Items", ref := .list t!"Cluster", directions := [.output] } ] },
        .method
          { name := t!"Add"
            parameters :=
              [{ name := t!"Body", ref := .plain t!"Cluster", directions := [.input, .output] }] },
        .locator { name := t!"Cluster", members := [.variableName t!"ID", .target t!"Cluster"] } ],
    .resource t!"Cluster" [] []
      [ .method { name := t!"Get", parameters := [{ name := t!"Body", ref := .plain t!"Cluster" }] },
        .locator { name := t!"Events", members := [.target target] } ],
    .resource t!"Events" [] [] [] ]

/-- A directory with a file that has those declarations. -/
def clustersInput (ds : _root_.List Decl) : SourceModel :=
  { services := [{ name := t!"clusters_mgmt", versions := [{ name := t!"v1", files := [{ decls := ds }] }] }] }

theorem clustersInput_readable (ds : _root_.List Decl) : ∀ m ∈ [clustersInput ds], m.Readable := by
  intro m hm
  cases List.mem_singleton.mp hm
  refine ⟨rfl, ?_⟩
  intro s hs _
  cases List.mem_singleton.mp hs
  refine ⟨rfl, ?_⟩
  intro v hv _
  cases List.mem_singleton.mp hv
  refine ⟨rfl, ?_⟩
  intro f hf _
  cases List.mem_singleton.mp hf
  exact ⟨rfl, rfl⟩

theorem clustersInput_versions (ds : _root_.List Decl) (P : _root_.List Decl → Prop) :
    AllVersions [clustersInput ds] P ↔ P ds := by
  have e : versionDirs [clustersInput ds] = [(t!"clusters_mgmt", t!"v1", ds)] := by
    show [(dirKey t!"clusters_mgmt", dirKey t!"v1", SourceVersion.decls _)] = _
    have : SourceVersion.decls { name := t!"v1", files := [{ decls := ds }] } = ds := by
      simp [SourceVersion.decls]
    rw [this]
    rfl
  have e2 : versionDecls [(t!"clusters_mgmt", t!"v1", ds)] t!"clusters_mgmt" t!"v1" = ds := by
    simp [versionDecls]
  unfold AllVersions
  rw [e]
  constructor
  · intro h
    have := h _ _ _ List.mem_cons_self
    rwa [e2] at this
  · intro h a b ds' hm
    cases List.mem_singleton.mp hm
    rwa [e2]

theorem clustersDecls_once (size : Int) (target : Text) : PagingOnce (clustersDecls size target) := by
  intro name doc as ms hd md hmd hn n hmem
  simp only [clustersDecls, List.mem_cons, List.not_mem_nil, or_false, reduceCtorEq, false_or,
    Decl.resource.injEq] at hd
  rcases hd with ⟨-, -, -, rfl⟩ | ⟨-, -, -, rfl⟩ | ⟨-, -, -, rfl⟩ | ⟨-, -, -, rfl⟩
  · simp at hmd
  · simp only [List.mem_cons, List.not_mem_nil, or_false, reduceCtorEq, ResourceMember.method.injEq] at hmd
    rcases hmd with rfl | rfl
    · left
      simp only [List.mem_cons, List.not_mem_nil, or_false] at hmem
      rcases hmem with rfl | rfl | rfl
      · refine ⟨[], _, _, rfl, ?_, ?_, ?_⟩ <;> simp [Called, SameName] <;> decide
      · refine ⟨[_], _, _, rfl, ?_, ?_, ?_⟩ <;> simp [Called, SameName] <;> decide
      · refine ⟨[_, _], _, _, rfl, ?_, ?_, ?_⟩ <;> simp [Called, SameName] <;> decide
    · exfalso
      revert hn
      unfold SameName
      decide
  · simp only [List.mem_cons, List.not_mem_nil, or_false, reduceCtorEq, ResourceMember.method.injEq] at hmd
    subst hmd
    exfalso
    revert hn
    unfold SameName
    decide
  · simp at hmd

/-- With the right default value and without loops the files are accepted. -/
theorem clusters_fine : Fine (clustersDecls 100 t!"Events") := by
  have : ∃ s, Session.read (some 0) [clustersInput (clustersDecls 100 t!"Events")] 20 =
      .done { result := .model s, errors := 0 } := ⟨_, rfl⟩
  obtain ⟨s, h⟩ := this
  have h1 := (c87_checked_iff_partial _ (clustersInput_readable _) (goodDirs_of_check _ (by decide))
    ((clustersInput_versions _ _).mpr (clustersDecls_once _ _))).mp (checked_of_read h)
  exact (clustersInput_versions _ _).mp h1.2

/-- With other default value for the size of the pages they aren't. -/
example : ∃ n, 0 < n ∧ Session.read (some 0) [clustersInput (clustersDecls 10 t!"Events")] 20 =
    .done { result := .error (errorText n), errors := n } := by
  obtain ⟨-, -, h⟩ := c87_read_partial [clustersInput (clustersDecls 10 t!"Events")]
    (clustersInput_readable _) (goodDirs_of_check _ (by decide))
    ((clustersInput_versions _ _).mpr (clustersDecls_once _ _)) 20 (by decide)
  refine h ((clustersInput_versions _ _).mpr (by unfold Rooted; decide)) fun hf => ?_
  have hf := (clustersInput_versions _ _).mp hf
  have hm := hf.methods t!"Clusters" [] [] _
    (List.mem_cons_of_mem _ (List.mem_cons_of_mem _ List.mem_cons_self)) _ List.mem_cons_self
  have := (hm.list rfl).paging.size _ (List.mem_cons_of_mem _ List.mem_cons_self) rfl
  exact absurd this.2.2 (by decide)

/-- With a locator that goes back to the collection they aren't either. -/
example : ∃ n, 0 < n ∧ Session.read (some 0) [clustersInput (clustersDecls 100 t!"Clusters")] 20 =
    .done { result := .error (errorText n), errors := n } := by
  obtain ⟨-, -, h⟩ := c87_read_partial [clustersInput (clustersDecls 100 t!"Clusters")]
    (clustersInput_readable _) (goodDirs_of_check _ (by decide))
    ((clustersInput_versions _ _).mpr (clustersDecls_once _ _)) 20 (by decide)
  refine h ((clustersInput_versions _ _).mpr (by unfold Rooted; decide)) fun hf => ?_
  have hf := (clustersInput_versions _ _).mp hf
  have h1 : LocatesTo (clustersDecls 100 t!"Clusters") t!"root" t!"clusters" :=
    ⟨t!"Root", [], [], _, List.mem_cons_of_mem _ List.mem_cons_self, by decide, _, List.mem_cons_self, rfl⟩
  have h2 : LocatesTo (clustersDecls 100 t!"Clusters") t!"clusters" t!"cluster" :=
    ⟨t!"Clusters", [], [], _, List.mem_cons_of_mem _ (List.mem_cons_of_mem _ List.mem_cons_self),
      by decide, _, List.mem_cons_of_mem _ (List.mem_cons_of_mem _ List.mem_cons_self), rfl⟩
  have h3 : LocatesTo (clustersDecls 100 t!"Clusters") t!"cluster" t!"clusters" :=
    ⟨t!"Cluster", [], [], _, List.mem_cons_of_mem _ (List.mem_cons_of_mem _
      (List.mem_cons_of_mem _ List.mem_cons_self)), by decide, _,
      List.mem_cons_of_mem _ List.mem_cons_self, rfl⟩
  exact hf.loops t!"clusters" (.inr (.one h1)) (.more h2 (.one h3))

/-- Without a root the reader crashes. -/
example : Session.read (some 0) [clustersInput [.class t!"Cluster" [] [] []]] 20 = .panic := by
  obtain ⟨h, -, -⟩ := c87_read_partial [clustersInput [.class t!"Cluster" [] [] []]]
    (clustersInput_readable _) (goodDirs_of_check _ (by decide))
    ((clustersInput_versions _ _).mpr (by
      intro name doc as ms hd
      simp at hd)) 20 (by decide)
  exact h fun hr => by
    have := (clustersInput_versions _ _).mp hr
    unfold Rooted at this
    exact absurd this (by decide)

end Verif.Accept
