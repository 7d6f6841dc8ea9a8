import Verif.Lemmas.Resources

/-!
# Properties C08, C09, C10 and C59: the graph of resources
-/

namespace Verif

variable {g : Graph}

/-! A model used in the examples: a root with clusters, each cluster with its nodes, and an action
to hibernate it. -/

/-- Root resource of the example. -/
def exRoot : Resource :=
  { name := parseUsingCase t!"Root",
    locators := [{ name := parseUsingCase t!"Clusters", owner := 0, target := some 1 }] }
/-- Collection of the example. -/
def exClusters : Resource :=
  { name := parseUsingCase t!"Clusters",
    locators := [{ name := parseUsingCase t!"Cluster", owner := 1, target := some 2,
                   isVariable := true }] }
/-- Item of the example. -/
def exCluster : Resource :=
  { name := parseUsingCase t!"Cluster",
    methods := [{ name := Nom.get }, { name := parseUsingCase t!"Hibernate" }],
    locators := [{ name := parseUsingCase t!"Nodes", owner := 2, target := some 3 }] }
/-- Graph without loops. -/
def exGraph : Graph := [exRoot, exClusters, exCluster, { name := parseUsingCase t!"Nodes" }]
/-- Graph with a loop, because nodes go back to the clusters. -/
def exLoop : Graph := [exRoot, exClusters, exCluster,
  { name := parseUsingCase t!"Nodes",
    locators := [{ name := parseUsingCase t!"Clusters", owner := 3, target := some 1 }] }]

theorem exGraph_wellFormed : WellFormed exGraph := by
  intro r l h
  match r, h with
  | 0, h => simp [exGraph, Graph.locators, exRoot] at h; subst h; exact ⟨rfl, 1, rfl, by decide⟩
  | 1, h => simp [exGraph, Graph.locators, exClusters] at h; subst h; exact ⟨rfl, 2, rfl, by decide⟩
  | 2, h => simp [exGraph, Graph.locators, exCluster] at h; subst h; exact ⟨rfl, 3, rfl, by decide⟩
  | 3, h => simp [exGraph, Graph.locators] at h
  | n + 4, h => simp [exGraph, Graph.locators] at h

theorem exLoop_wellFormed : WellFormed exLoop := by
  intro r l h
  match r, h with
  | 0, h => simp [exLoop, Graph.locators, exRoot] at h; subst h; exact ⟨rfl, 1, rfl, by decide⟩
  | 1, h => simp [exLoop, Graph.locators, exClusters] at h; subst h; exact ⟨rfl, 2, rfl, by decide⟩
  | 2, h => simp [exLoop, Graph.locators, exCluster] at h; subst h; exact ⟨rfl, 3, rfl, by decide⟩
  | 3, h => simp [exLoop, Graph.locators] at h; subst h; exact ⟨rfl, 1, rfl, by decide⟩
  | n + 4, h => simp [exLoop, Graph.locators] at h

/-! ## C09: loops -/

/-- The search for loops always stops, even for cyclic models; it reports something exactly when
some chain of locators starting at the root visits the same resource twice; and what it reports are
loops that can be reached from the root. -/
theorem c09_loops_reported_iff (hw : WellFormed g) (root : ResId) :
    ∃ reports, (∀ fuel, g.length ≤ fuel → checkLocatorLoops g fuel (some root) = .done reports) ∧
      (reports ≠ [] ↔ HasLoop g root) ∧
      ∀ report ∈ reports, ∃ pre r, Chain g root pre r ∧ report ≠ [] ∧ Chain g r report r := by
  obtain ⟨reports, e, p, q⟩ := forEach_done (fun l => checkPathLoops g g.length [l])
    (fun l => ∃ ext u m, l.target = some m ∧ Chain g m ext u ∧ ¬ (visited root (l :: ext)).Nodup)
    (IsLoopReport g root) (g.locators root) (by
      intro l hl
      obtain ⟨-, m, hm, -⟩ := hw _ _ hl
      obtain ⟨r, e, p, q⟩ := checkPathLoops_spec hw root g.length l [] m
        (.cons hl hm (.nil m)) (by simp) (by simp)
      refine ⟨r, e, p.trans ?_, q⟩
      constructor
      · rintro ⟨ext, u, h1, h2⟩
        exact ⟨ext, u, m, hm, h1, by simpa using h2⟩
      · rintro ⟨ext, u, m', hm', h1, h2⟩
        rw [hm] at hm'; cases hm'
        exact ⟨ext, u, h1, by simpa using h2⟩)
  refine ⟨reports, ?_, p.trans ?_, q⟩
  · intro fuel hf
    have := checkLocatorLoops_mono (g := g) g.length (fuel - g.length) (some root) reports e
    rwa [Nat.add_sub_cancel' hf] at this
  · constructor
    · rintro ⟨l, hl, ext, u, m, hm, h1, h2⟩
      exact ⟨l :: ext, u, .cons hl hm h1, h2⟩
    · rintro ⟨ls, t, h1, h2⟩
      cases h1 with
      | nil => simp [visited] at h2
      | @cons _ m _ l ls hl hm h1 => exact ⟨l, hl, ls, t, m, hm, h1, h2⟩

/-- Both outcomes happen. -/
example : WellFormed exGraph ∧ checkLocatorLoops exGraph 4 (some 0) = .done [] ∧
    WellFormed exLoop ∧ HasLoop exLoop 0 ∧ checkLocatorLoops exLoop 4 (some 0) ≠ .done [] := by
  refine ⟨exGraph_wellFormed, by decide, exLoop_wellFormed, ?_, by decide⟩
  obtain ⟨reports, h1, h2, -⟩ := c09_loops_reported_iff exLoop_wellFormed 0
  refine h2.mp ?_
  have h3 := h1 4 (by decide)
  intro e
  subst e
  exact absurd h3 (by decide)

/-- Loops that can't be reached from the root aren't reported. -/
theorem c09_unreachable_not_reported (hw : WellFormed g) (root : ResId)
    (h : ∀ pre r, Chain g root pre r → ∀ cyc, Chain g r cyc r → cyc = []) (fuel : Nat)
    (hf : g.length ≤ fuel) : checkLocatorLoops g fuel (some root) = .done [] := by
  obtain ⟨reports, h1, h2, -⟩ := c09_loops_reported_iff hw root
  have : ¬ HasLoop g root := by
    rw [hasLoop_iff_cycle hw]
    rintro ⟨pre, r, cyc, a, b, c⟩
    exact b (h pre r a cyc c)
  have : reports = [] := Decidable.byContradiction fun h => this (h2.mp h)
  rw [h1 fuel hf, this]

/-! ## C08: paths -/

/-- Without loops reachable from the root the enumeration of paths terminates, and returns exactly
the non empty chains of locators that start at the root, shorter first, and (as long as resources
don't contain the same locator twice) once each. -/
theorem c08_paths_are_chains (hw : WellFormed g) (root : ResId) (h : ¬ HasLoop g root) :
    ∃ results, (∃ n, ∀ fuel, n ≤ fuel → paths g fuel (some root) = .done results) ∧
      (∀ ls, ls ∈ results ↔ ls ≠ [] ∧ ∃ t, Chain g root ls t) ∧
      results.Pairwise (fun a b => a.length ≤ b.length) ∧
      ((∀ r, (g.locators r).Nodup) → results.Nodup) := by
  have hlen : ∀ ls t, Chain g root ls t → ls.length ≤ g.length := by
    intro ls t hc
    cases hc with
    | nil => exact Nat.zero_le _
    | @cons _ m _ l ls hl hm hc =>
      have hc' : Chain g root (l :: ls) t := .cons hl hm hc
      have := hc'.length_lt hw (locators_lt hl) (Decidable.byContradiction fun hn => h ⟨_, _, hc', hn⟩)
      omega
  obtain ⟨steps, -, h2, -⟩ := pathsLoop_levels hw root g.length 0
  have hend : chainsN g root (g.length + 1) = [] := by
    apply List.eq_nil_iff_forall_not_mem.mpr
    intro ls hls
    obtain ⟨h3, t, h4⟩ := (mem_chainsN _ _ _).mp hls
    have := hlen ls t h4
    omega
  have hfirst : chainsN g root 1 = (g.locators root).map fun l => [l] := by
    have : ∀ xs : List Locator, (∀ x ∈ xs, x ∈ g.locators root) →
        xs.flatMap (fun l => match l.target with
          | none => []
          | some m => (chainsN g m 0).map (l :: ·)) = xs.map fun l => [l] := by
      intro xs hxs
      induction xs with
      | nil => rfl
      | cons x xs ih =>
        obtain ⟨-, m, hm, -⟩ := hw _ _ (hxs x (by simp))
        rw [List.flatMap_cons, ih (fun y hy => hxs y (by simp [hy]))]
        simp [hm, chainsN]
    exact this _ (fun _ h => h)
  rw [hend, hfirst] at h2
  refine ⟨((List.range g.length).map fun i => chainsN g root (i + 1)).flatten,
    ⟨steps, ?_⟩, ?_, ?_, ?_⟩
  · intro fuel hf
    have := pathsLoop_mono (g := g) (0 + steps) (fuel - steps) _ _ _ (h2.trans (by rw [pathsLoop]))
    rw [show 0 + steps + (fuel - steps) = fuel by omega] at this
    exact this
  · intro ls
    simp only [List.mem_flatten, List.mem_map, List.mem_range]
    constructor
    · rintro ⟨l, ⟨i, hi, rfl⟩, hl⟩
      obtain ⟨h3, t, h4⟩ := (mem_chainsN _ _ _).mp hl
      exact ⟨by intro e; subst e; simp at h3, t, h4⟩
    · rintro ⟨hne, t, hc⟩
      have := hlen ls t hc
      have hpos : 0 < ls.length := List.length_pos_iff.mpr hne
      exact ⟨_, ⟨ls.length - 1, by omega, rfl⟩, (mem_chainsN _ _ _).mpr ⟨by omega, t, hc⟩⟩
  · rw [List.pairwise_flatten]
    constructor
    · intro l hl
      obtain ⟨i, -, rfl⟩ := List.mem_map.mp hl
      rw [List.pairwise_iff_forall_sublist]
      intro a b hab
      have ha := (mem_chainsN _ _ _).mp (hab.subset (by simp : a ∈ [a, b]))
      have hb := (mem_chainsN _ _ _).mp (hab.subset (by simp : b ∈ [a, b]))
      omega
    · rw [List.pairwise_map]
      refine List.Pairwise.imp ?_ (List.pairwise_lt_range)
      intro i j hij a ha b hb
      have ha := (mem_chainsN _ _ _).mp ha
      have hb := (mem_chainsN _ _ _).mp hb
      omega
  · intro hd
    rw [List.nodup_iff_pairwise_ne, List.pairwise_flatten]
    constructor
    · intro l hl
      obtain ⟨i, -, rfl⟩ := List.mem_map.mp hl
      exact List.nodup_iff_pairwise_ne.mp (nodup_chainsN hd _ _)
    · rw [List.pairwise_map]
      refine List.Pairwise.imp ?_ (List.pairwise_lt_range)
      intro i j hij a ha b hb e
      have ha := (mem_chainsN _ _ _).mp ha
      have hb := (mem_chainsN _ _ _).mp hb
      subst e
      omega

/-- The example has three paths: the clusters, one cluster, and the nodes of one cluster. -/
example : (∃ ps, paths exGraph 10 (some 0) = .done ps ∧ ps.map List.length = [1, 2, 3]) ∧
    ¬ HasLoop exGraph 0 := by
  refine ⟨⟨_, rfl, by decide⟩, ?_⟩
  obtain ⟨reports, h1, h2, -⟩ := c09_loops_reported_iff exGraph_wellFormed 0
  have h3 : (Run.done [] : Run (List (List Locator))) = .done reports :=
    (show checkLocatorLoops exGraph 4 (some 0) = .done [] by decide).symm.trans (h1 4 (by decide))
  cases h3
  exact fun h => h2.mpr h rfl

/-- With a loop reachable from the root the enumeration never ends. -/
theorem c08_loop_diverges (hw : WellFormed g) (root : ResId) (h : HasLoop g root) (fuel : Nat) :
    paths g fuel (some root) = .outOfFuel := by
  have nopanic : ∀ fuel (pending res : List (List Locator)),
      (∀ x ∈ pending, x ≠ [] ∧ ∃ r t, Chain g r x t) → pathsLoop g fuel pending res ≠ .panic := by
    intro fuel
    induction fuel with
    | zero =>
      intro pending res hp
      cases pending <;> simp [pathsLoop]
    | succ fuel ih =>
      intro pending res hp
      cases pending with
      | nil => simp [pathsLoop]
      | cons x pending =>
        obtain ⟨hne, r, t, hc⟩ := hp x (by simp)
        have hx : x = x.dropLast ++ [x.getLast hne] := (List.dropLast_concat_getLast hne).symm
        have ht : (x.getLast hne).target = some t := by
          rw [hx] at hc
          obtain ⟨m, -, -, h⟩ := hc.snoc_inv
          exact h
        rw [pathsLoop, List.getLast?_eq_some_getLast hne]
        simp only [ht]
        apply ih
        intro y hy
        rcases List.mem_append.mp hy with hy | hy
        · exact hp y (by simp [hy])
        · obtain ⟨l, hl, rfl⟩ := List.mem_map.mp hy
          obtain ⟨-, m, hm, -⟩ := hw _ _ hl
          exact ⟨by simp, r, m, hc.snoc hl hm⟩
  have hfirst : (g.locators root).map (fun l => [l]) = chainsN g root 1 := by
    have : ∀ xs : List Locator, (∀ x ∈ xs, x ∈ g.locators root) →
        xs.flatMap (fun l => match l.target with
          | none => []
          | some m => (chainsN g m 0).map (l :: ·)) = xs.map fun l => [l] := by
      intro xs hxs
      induction xs with
      | nil => rfl
      | cons x xs ih =>
        obtain ⟨-, m, hm, -⟩ := hw _ _ (hxs x (by simp))
        rw [List.flatMap_cons, ih (fun y hy => hxs y (by simp [hy]))]
        simp [hm, chainsN]
    exact (this _ (fun _ h => h)).symm
  unfold paths
  dsimp only
  rw [hfirst]
  cases hr : pathsLoop g fuel (chainsN g root 1) [] with
  | outOfFuel => rfl
  | panic =>
    refine absurd hr (nopanic _ _ _ ?_)
    intro x hx
    obtain ⟨h1, t, h2⟩ := (mem_chainsN _ _ _).mp hx
    exact ⟨by intro e; subst e; simp at h1, root, t, h2⟩
  | done r =>
    exfalso
    obtain ⟨steps, h1, h2, h3⟩ := pathsLoop_levels hw root (fuel + 1) fuel
    have hne : ∀ k, chainsN g root (k + 1) ≠ [] := by
      intro k e
      obtain ⟨ls, t, h4, h5⟩ := h.chains hw (k + 1)
      have : ls ∈ chainsN g root (k + 1) := (mem_chainsN _ _ _).mpr ⟨h5, t, h4⟩
      rw [e] at this
      simp at this
    have h6 : ((List.range (fuel + 1)).filter fun i => chainsN g root (i + 1) = []) = [] := by
      rw [List.filter_eq_nil_iff]
      intro a _
      simp [hne a]
    rw [h6] at h1
    simp only [List.length_nil, Nat.add_zero] at h1
    have h7 := pathsLoop_mono (g := g) fuel steps _ _ _ hr
    rw [h2] at h7
    have h8 := (pathsLoop_length _ _ _ _ h7).1
    have h9 := (pathsLoop_length _ _ _ _ hr).2
    rw [← h3] at h8
    simp at h9
    omega

example : WellFormed exLoop ∧ paths exLoop 50 (some 0) = .outOfFuel :=
  ⟨exLoop_wellFormed, by decide⟩

/-! ## C10: accepted models generate in finite time -/

/-- If the check for loops doesn't report anything then the enumeration of paths and the tree of
paths are finite. -/
theorem c10_accepted_finite (hw : WellFormed g) (root : ResId) (fuel : Nat)
    (h : checkLocatorLoops g fuel (some root) = .done []) :
    (∃ results n, ∀ m, n ≤ m → paths g m (some root) = .done results) ∧
    (∃ tree, resourceBranch g (g.length + 1) (some root) = .done tree) := by
  obtain ⟨reports, h1, h2, -⟩ := c09_loops_reported_iff hw root
  have h3 := checkLocatorLoops_mono (g := g) fuel g.length (some root) [] h
  rw [h1 (fuel + g.length) (by omega)] at h3
  cases h3
  have hn : ¬ HasLoop g root := fun h => h2.mpr h rfl
  constructor
  · obtain ⟨results, ⟨n, h4⟩, -⟩ := c08_paths_are_chains hw root hn
    exact ⟨results, n, h4⟩
  · apply resourceBranch_done hw
    intro ls t hc
    cases hc with
    | nil => simp
    | @cons _ m _ l ls hl hm hc =>
      have hc' : Chain g root (l :: ls) t := .cons hl hm hc
      have := hc'.length_lt hw (locators_lt hl)
        (Decidable.byContradiction fun hnd => hn ⟨_, _, hc', hnd⟩)
      omega

/-- And the number of paths is the same whatever the time given to the enumeration. -/
theorem c10_paths_deterministic (fuel fuel' : Nat) (root : Option ResId)
    (r r' : List (List Locator)) (h : paths g fuel root = .done r)
    (h' : paths g fuel' root = .done r') : r = r' := by
  cases root with
  | none => simp [paths] at h
  | some root =>
    have h1 := pathsLoop_mono (g := g) fuel fuel' _ _ _ h
    have h2 := pathsLoop_mono (g := g) fuel' fuel _ _ _ h'
    rw [Nat.add_comm, h2] at h1
    cases h1
    rfl

example : WellFormed exGraph ∧ checkLocatorLoops exGraph 4 (some 0) = .done [] :=
  ⟨exGraph_wellFormed, by decide⟩

/-! ## C59: tree of paths -/

/-- If labels don't clash, a path is a branch of the tree of a version if and only if it is the
path of a chain of locators that starts at the root, optionally followed by an action. -/
theorem c59_branch_iff (hc : NoClash g) (fuel : Nat) (root : ResId) (tree : PathTree)
    (h : resourceBranch g fuel (some root) = .done tree) (p : List Text) :
    tree.Has p ↔ IsServedPath g root p := resourceBranch_has hc fuel root tree h p

/-- The same for the complete tree, where the paths of versions are preceded by `api`, the segment
of the service and the segment of the version. -/
theorem c59_tree_iff (hc : NoClash g) (fuel : Nat) (services : List ServiceRoots)
    (hs : (services.map ServiceRoots.segment).Nodup)
    (hv : ∀ s ∈ services, (s.versions.map VersionRoot.segment).Nodup)
    (tree : PathTree) (h : metricsTree g fuel services = .done tree)
    (s v : Text) (p : List Text) :
    tree.Has (t!"api" :: s :: v :: p) ↔
      ∃ service ∈ services, service.segment = s ∧
        ∃ version ∈ service.versions, version.segment = v ∧
          ∃ root, version.root = some root ∧ IsServedPath g root p := by
  unfold metricsTree at h
  obtain ⟨api, h1, h⟩ := Run.bind_done h
  · cases h
    obtain ⟨h2, h3⟩ := addBranches_find _ _ _ _ _ hs h1
    have hapi : (PathTree.branch [(t!"api", .branch api)]).Has (t!"api" :: s :: v :: p) ↔
        ∃ t, GoMap.find api s = some t ∧ t.Has (v :: p) := by
      simp only [PathTree.Has, GoMap.find, if_true, Option.some.injEq]
      constructor
      · rintro ⟨t, rfl, h⟩; exact h
      · intro h; exact ⟨_, rfl, h⟩
    rw [hapi]
    -- the branch of a service
    have hsv : ∀ service ∈ services, ∃ cs,
        GoMap.find api service.segment = some (.branch cs) ∧
        ((∃ t, GoMap.find cs v = some t ∧ t.Has p) ↔
          ∃ version ∈ service.versions, version.segment = v ∧
            ∃ root, version.root = some root ∧ IsServedPath g root p) := by
      intro service hservice
      obtain ⟨b, e1, e2⟩ := h2 service hservice
      obtain ⟨cs, h4, e1⟩ := Run.bind_done e1
      · cases e1
        refine ⟨cs, e2, ?_⟩
        obtain ⟨h5, h6⟩ := addBranches_find _ _ _ _ _ (hv service hservice) h4
        have hroot : ∀ version ∈ service.versions, ∃ root b, version.root = some root ∧
            resourceBranch g fuel (some root) = .done b ∧
            GoMap.find cs version.segment = some b := by
          intro version hversion
          obtain ⟨b, e3, e4⟩ := h5 version hversion
          cases hr : version.root with
          | none => rw [hr] at e3; cases fuel <;> simp [resourceBranch] at e3
          | some root => rw [hr] at e3; exact ⟨root, b, rfl, e3, e4⟩
        constructor
        · rintro ⟨t, ht, hp⟩
          by_cases hmem : v ∈ service.versions.map VersionRoot.segment
          · obtain ⟨version, hversion, rfl⟩ := List.mem_map.mp hmem
            obtain ⟨root, b, e5, e6, e7⟩ := hroot version hversion
            rw [e7] at ht
            cases ht
            exact ⟨version, hversion, rfl, root, e5, (c59_branch_iff hc _ _ _ e6 p).mp hp⟩
          · rw [h6 v hmem] at ht
            simp [GoMap.find] at ht
        · rintro ⟨version, hversion, rfl, root, e5, hp⟩
          obtain ⟨root', b, e5', e6, e7⟩ := hroot version hversion
          rw [e5] at e5'
          cases e5'
          exact ⟨b, e7, (c59_branch_iff hc _ _ _ e6 p).mpr hp⟩
    constructor
    · rintro ⟨t, ht, hp⟩
      by_cases hmem : s ∈ services.map ServiceRoots.segment
      · obtain ⟨service, hservice, rfl⟩ := List.mem_map.mp hmem
        obtain ⟨cs, e1, e2⟩ := hsv service hservice
        rw [e1] at ht
        cases ht
        simp only [PathTree.Has] at hp
        exact ⟨service, hservice, rfl, e2.mp hp⟩
      · rw [h3 s hmem] at ht
        simp [GoMap.find] at ht
    · rintro ⟨service, hservice, rfl, hp⟩
      obtain ⟨cs, e1, e2⟩ := hsv service hservice
      exact ⟨_, e1, by simp only [PathTree.Has]; exact e2.mpr hp⟩

/-- The complete tree has nothing but the `api` branch, and inside it nothing but the services. -/
theorem c59_tree_root (fuel : Nat) (services : List ServiceRoots)
    (hs : (services.map ServiceRoots.segment).Nodup)
    (tree : PathTree) (h : metricsTree g fuel services = .done tree) (x s : Text) :
    (tree.Has [x] ↔ x = t!"api") ∧
    (tree.Has [t!"api", s] ↔ ∃ service ∈ services, service.segment = s) := by
  unfold metricsTree at h
  obtain ⟨api, h1, h⟩ := Run.bind_done h
  · cases h
    obtain ⟨h2, h3⟩ := addBranches_find _ _ _ _ _ hs h1
    constructor
    · simp only [PathTree.Has, GoMap.find, and_true]
      constructor
      · rintro ⟨t, h⟩
        split at h
        · rename_i e; exact e.symm
        · cases h
      · rintro rfl
        exact ⟨_, if_pos rfl⟩
    · simp only [PathTree.Has, GoMap.find, if_true, Option.some.injEq]
      constructor
      · rintro ⟨t, rfl, t', ht', -⟩
        by_cases hmem : s ∈ services.map ServiceRoots.segment
        · obtain ⟨service, hservice, rfl⟩ := List.mem_map.mp hmem
          exact ⟨service, hservice, rfl⟩
        · rw [h3 s hmem] at ht'
          simp [GoMap.find] at ht'
      · rintro ⟨service, hservice, rfl⟩
        obtain ⟨b, -, e⟩ := h2 service hservice
        exact ⟨_, rfl, b, e, by cases b <;> simp [PathTree.Has]⟩

theorem exGraph_noClash : NoClash exGraph := by
  intro r
  match r with
  | 0 => decide
  | 1 => decide
  | 2 => decide
  | 3 => decide
  | n + 4 => simp [exGraph, Graph.locators, Graph.methods]

/-- The path to hibernate a cluster of the example is served. -/
example : NoClash exGraph ∧ (∃ tree, resourceBranch exGraph 10 (some 0) = .done tree) ∧
    IsServedPath exGraph 0 [t!"clusters", t!"-", t!"hibernate"] := by
  refine ⟨exGraph_noClash, ?_, ?_⟩
  · apply resourceBranch_done exGraph_wellFormed
    intro ls t hc
    cases hc with
    | nil => simp
    | @cons _ m _ l ls hl hm hc =>
      have hc' : Chain exGraph 0 (l :: ls) t := .cons hl hm hc
      obtain ⟨reports, h1, h2, -⟩ := c09_loops_reported_iff exGraph_wellFormed 0
      have h3 : (Run.done [] : Run (List (List Locator))) = .done reports :=
        (show checkLocatorLoops exGraph 4 (some 0) = .done [] by decide).symm.trans
          (h1 4 (by decide))
      cases h3
      have := hc'.length_lt exGraph_wellFormed (by decide)
        (Decidable.byContradiction fun hnd => h2.mpr ⟨_, _, hc', hnd⟩ rfl)
      simp only [exGraph, List.length_cons, List.length_nil] at this ⊢
      omega
  · exact ⟨[_, _], 2, .cons (List.mem_singleton.mpr rfl) rfl
      (.cons (List.mem_singleton.mpr rfl) rfl (.nil 2)), .inr ⟨{ name := parseUsingCase t!"Hibernate" },
      by simp [exGraph, Graph.methods, exCluster], by decide, by decide⟩⟩

end Verif
