import Verif.Spec.Resources
import Verif.Lemmas.GoMap

/-! Helper lemmas about the graph of resources. -/

namespace Verif

variable {g : Graph}

theorem Run.bind_done {α β : Type} {r : Run α} {f : α → Run β} {b : β}
    (h : r.bind f = .done b) : ∃ a, r = .done a ∧ f a = .done b := by
  cases r with
  | outOfFuel => cases h
  | panic => cases h
  | done a => exact ⟨a, rfl, h⟩

/-! ## Chains -/

theorem Chain.append {r m t : ResId} {ls ks : List Locator} (h1 : Chain g r ls m)
    (h2 : Chain g m ks t) : Chain g r (ls ++ ks) t := by
  induction h1 with
  | nil => exact h2
  | cons hl ht _ ih => exact .cons hl ht (ih h2)

theorem Chain.split {r t : ResId} {ls ks : List Locator} (h : Chain g r (ls ++ ks) t) :
    ∃ m, Chain g r ls m ∧ Chain g m ks t := by
  induction ls generalizing r with
  | nil => exact ⟨r, .nil r, h⟩
  | cons l ls ih =>
    cases h with
    | cons hl ht h =>
      obtain ⟨m, h1, h2⟩ := ih h
      exact ⟨m, .cons hl ht h1, h2⟩

theorem Chain.det {r t t' : ResId} {ls : List Locator} (h : Chain g r ls t)
    (h' : Chain g r ls t') : t = t' := by
  induction h with
  | nil => cases h'; rfl
  | cons _ ht _ ih =>
    cases h' with
    | cons _ ht' h' =>
      rw [ht] at ht'
      cases ht'
      exact ih h'

theorem Chain.snoc_inv {r t : ResId} {ls : List Locator} {l : Locator}
    (h : Chain g r (ls ++ [l]) t) : ∃ m, Chain g r ls m ∧ l ∈ g.locators m ∧ l.target = some t := by
  obtain ⟨m, h1, h2⟩ := h.split
  cases h2 with
  | cons hl ht h2 => cases h2; exact ⟨m, h1, hl, ht⟩

theorem Chain.snoc {r m t : ResId} {ls : List Locator} {l : Locator} (h : Chain g r ls m)
    (hl : l ∈ g.locators m) (ht : l.target = some t) : Chain g r (ls ++ [l]) t :=
  h.append (.cons hl ht (.nil t))

theorem locators_lt {r : ResId} {l : Locator} (h : l ∈ g.locators r) : r < g.length := by
  unfold Graph.locators at h
  by_cases hr : r < g.length
  · exact hr
  · rw [List.getElem?_eq_none (Nat.le_of_not_lt hr)] at h
    simp at h

theorem Chain.visited_eq (hw : WellFormed g) {r t : ResId} {ls : List Locator}
    (h : Chain g r ls t) : visited r ls = ls.map Locator.owner ++ [t] := by
  induction h with
  | nil => simp [visited]
  | @cons r m t l ls hl ht _ ih =>
    unfold visited at *
    simp [ht, (hw _ _ hl).1, ih]

theorem Chain.end_lt (hw : WellFormed g) {r t : ResId} {ls : List Locator}
    (h : Chain g r ls t) (hr : r < g.length) : t < g.length := by
  induction h with
  | nil => exact hr
  | @cons r m t l ls hl ht _ ih =>
    apply ih
    obtain ⟨t', h1, h2⟩ := (hw _ _ hl).2
    rw [ht] at h1; cases h1; exact h2

theorem Chain.owners_lt (hw : WellFormed g) {r t : ResId} {ls : List Locator}
    (h : Chain g r ls t) : ∀ o ∈ ls.map Locator.owner, o < g.length := by
  induction h with
  | nil => simp
  | @cons r m t l ls hl ht _ ih =>
    intro o ho
    simp only [List.map_cons, List.mem_cons] at ho
    rcases ho with rfl | ho
    · rw [(hw _ _ hl).1]; exact locators_lt hl
    · exact ih o ho

theorem length_le_of_nodup_lt {l : List Nat} {n : Nat} (hn : l.Nodup) (h : ∀ x ∈ l, x < n) :
    l.length ≤ n := by
  have := List.Nodup.length_le_of_subset (l₂ := List.range n) hn (by
    intro x hx; exact List.mem_range.mpr (h x hx))
  simpa using this

theorem nodup_reverse' {α : Type} {l : List α} (h : l.Nodup) : l.reverse.Nodup := by
  rw [List.nodup_iff_pairwise_ne, List.pairwise_reverse]
  exact (List.nodup_iff_pairwise_ne.mp h).imp fun h => h.symm

theorem flatMap_congr' {α β : Type} {f g : α → List β} {l : List α}
    (h : ∀ x ∈ l, f x = g x) : l.flatMap f = l.flatMap g := by
  induction l with
  | nil => rfl
  | cons x xs ih =>
    rw [List.flatMap_cons, List.flatMap_cons, h x (by simp), ih (fun y hy => h y (by simp [hy]))]

/-- Without loops chains are shorter than the number of resources. -/
theorem Chain.length_lt (hw : WellFormed g) {r t : ResId} {ls : List Locator}
    (hr : r < g.length) (h : Chain g r ls t) (hn : (visited r ls).Nodup) :
    ls.length < g.length := by
  have hv := h.visited_eq hw
  rw [hv] at hn
  have : (ls.map Locator.owner ++ [t]).length ≤ g.length := by
    apply length_le_of_nodup_lt hn
    intro x hx
    rcases List.mem_append.mp hx with hx | hx
    · exact h.owners_lt hw x hx
    · rw [List.mem_singleton.mp hx]; exact h.end_lt hw hr
  rw [List.length_append, List.length_map] at this
  exact this

/-! ## Loop check -/

theorem findLoop_none {target : Option ResId} {ls : List Locator} :
    findLoop target ls = none ↔ ∀ l ∈ ls, some l.owner ≠ target := by
  induction ls with
  | nil => simp [findLoop]
  | cons l ls ih =>
    unfold findLoop
    split
    · simp_all
    · split
      · rename_i h
        simp_all
      · rename_i h
        simp_all

theorem findLoop_some {target : Option ResId} {ls loop : List Locator}
    (h : findLoop target ls = some loop) :
    ∃ pre l post, ls = pre ++ l :: post ∧ some l.owner = target ∧ loop = pre ++ [l] := by
  induction ls generalizing loop with
  | nil => simp [findLoop] at h
  | cons l ls ih =>
    unfold findLoop at h
    split at h
    · rename_i ht
      cases h
      exact ⟨[], l, ls, rfl, ht, rfl⟩
    · split at h
      · cases h
      · rename_i h'
        cases h
        obtain ⟨pre, k, post, e1, e2, e3⟩ := ih h'
        exact ⟨l :: pre, k, post, by simp [e1], e2, by simp [e3]⟩

theorem forEach_done {α β : Type} (f : α → Run (List β)) (P : α → Prop) (Q : β → Prop)
    (xs : List α)
    (h : ∀ x ∈ xs, ∃ r, f x = .done r ∧ (r ≠ [] ↔ P x) ∧ ∀ b ∈ r, Q b) :
    ∃ r, forEach f xs = .done r ∧ (r ≠ [] ↔ ∃ x ∈ xs, P x) ∧ ∀ b ∈ r, Q b := by
  induction xs with
  | nil => exact ⟨[], rfl, by simp, by simp⟩
  | cons x xs ih =>
    obtain ⟨r1, e1, p1, q1⟩ := h x (by simp)
    obtain ⟨r2, e2, p2, q2⟩ := ih (fun y hy => h y (by simp [hy]))
    refine ⟨r1 ++ r2, by simp [forEach, e1, e2, Run.bind], ?_, ?_⟩
    · simp only [List.mem_cons, exists_eq_or_imp, ← p1, ← p2, ne_eq, List.append_eq_nil_iff,
        Decidable.not_and_iff_or_not]
    · intro b hb
      rcases List.mem_append.mp hb with hb | hb
      · exact q1 b hb
      · exact q2 b hb

/-- A report is a loop that can be reached from the root. -/
def IsLoopReport (g : Graph) (root : ResId) (report : List Locator) : Prop :=
  ∃ pre r, Chain g root pre r ∧ report ≠ [] ∧ Chain g r report r

theorem checkPathLoops_spec (hw : WellFormed g) (root : ResId) (fuel : Nat) :
    ∀ (last : Locator) (before : List Locator) (t : ResId),
      Chain g root (last :: before).reverse t →
      ((last :: before).map Locator.owner).Nodup →
      g.length + 1 ≤ fuel + (last :: before).length →
      ∃ reports, checkPathLoops g fuel (last :: before) = .done reports ∧
        (reports ≠ [] ↔ ∃ ext u, Chain g t ext u ∧
          ¬ (visited root ((last :: before).reverse ++ ext)).Nodup) ∧
        ∀ r ∈ reports, IsLoopReport g root r := by
  induction fuel with
  | zero =>
    intro last before t hc hn hf
    exfalso
    have : (((last :: before).reverse).map Locator.owner).length ≤ g.length := by
      apply length_le_of_nodup_lt
      · rw [List.map_reverse]; exact nodup_reverse' hn
      · exact hc.owners_lt hw
    simp only [List.length_map, List.length_reverse] at this
    omega
  | succ fuel ih =>
    intro last before t hc hn hf
    have hlast : last.target = some t := by
      rw [List.reverse_cons] at hc
      obtain ⟨m, -, -, h⟩ := hc.snoc_inv
      exact h
    have hv := hc.visited_eq hw
    unfold checkPathLoops
    cases hfl : findLoop last.target (last :: before) with
    | some loop =>
      refine ⟨[loop.reverse], rfl, ?_, ?_⟩
      · simp only [ne_eq, List.cons_ne_self, not_false_eq_true, true_iff]
        refine ⟨[], t, .nil t, ?_⟩
        rw [List.append_nil, hv]
        obtain ⟨pre, l, post, e1, e2, -⟩ := findLoop_some hfl
        rw [hlast] at e2
        cases e2
        intro hnd
        have hmem : l ∈ last :: before := by rw [e1]; simp
        rw [List.nodup_append] at hnd
        exact hnd.2.2 l.owner (List.mem_map.mpr ⟨l, List.mem_reverse.mpr hmem, rfl⟩) _ (by simp) rfl
      · intro r hr
        rw [List.mem_singleton] at hr
        subst hr
        obtain ⟨pre, l, post, e1, e2, e3⟩ := findLoop_some hfl
        rw [hlast] at e2
        cases e2
        have : (last :: before).reverse = post.reverse ++ loop.reverse := by
          rw [e1, e3]; simp
        rw [this] at hc
        obtain ⟨m, h1, h2⟩ := hc.split
        have hm : m = l.owner := by
          rw [e3] at h2
          simp only [List.reverse_append, List.reverse_cons, List.reverse_nil, List.nil_append,
            List.cons_append] at h2
          cases h2 with
          | cons hl _ _ => exact ((hw _ _ hl).1).symm
        subst hm
        exact ⟨_, _, h1, by rw [e3]; simp, h2⟩
    | none =>
      rw [findLoop_none, hlast] at hfl
      simp only [hlast]
      have hnt : t ∉ (last :: before).map Locator.owner := by
        intro hmem
        obtain ⟨l, hl, e⟩ := List.mem_map.mp hmem
        exact hfl l hl (by rw [e])
      have hnv : (visited root (last :: before).reverse).Nodup := by
        rw [hv, List.nodup_append]
        refine ⟨by rw [List.map_reverse]; exact nodup_reverse' hn, by simp, ?_⟩
        intro a ha b hb
        rw [List.mem_singleton] at hb
        subst hb
        rw [List.map_reverse, List.mem_reverse] at ha
        rintro rfl
        exact hnt ha
      obtain ⟨reports, e, p, q⟩ := forEach_done
        (fun next => checkPathLoops g fuel (next :: last :: before))
        (fun next => ∃ ext u m, next.target = some m ∧ Chain g m ext u ∧
          ¬ (visited root ((next :: last :: before).reverse ++ ext)).Nodup)
        (IsLoopReport g root) (g.locators t) (by
          intro next hnext
          obtain ⟨ho, m, hm, -⟩ := hw _ _ hnext
          have := ih next (last :: before) m (by
              rw [List.reverse_cons]; exact hc.snoc hnext hm) (by
              rw [List.map_cons, List.nodup_cons, ho]; exact ⟨hnt, hn⟩) (by
              simp only [List.length_cons] at *; omega)
          obtain ⟨r, e, p, q⟩ := this
          refine ⟨r, e, p.trans ?_, q⟩
          constructor
          · rintro ⟨ext, u, h1, h2⟩
            exact ⟨ext, u, m, hm, h1, h2⟩
          · rintro ⟨ext, u, m', hm', h1, h2⟩
            rw [hm] at hm'; cases hm'
            exact ⟨ext, u, h1, h2⟩)
      refine ⟨reports, e, p.trans ?_, q⟩
      constructor
      · rintro ⟨next, hnext, ext, u, m, hm, h1, h2⟩
        refine ⟨next :: ext, u, .cons hnext hm h1, ?_⟩
        simpa using h2
      · rintro ⟨ext, u, h1, h2⟩
        cases h1 with
        | nil => rw [List.append_nil] at h2; exact absurd hnv h2
        | @cons _ m _ next ext hnext hm h1 =>
          exact ⟨next, hnext, ext, u, m, hm, h1, by simpa using h2⟩

/-! ## Loops -/

/-- A loop is a cycle that can be reached from the root. -/
theorem hasLoop_iff_cycle (hw : WellFormed g) (root : ResId) :
    HasLoop g root ↔ ∃ pre r cyc, Chain g root pre r ∧ cyc ≠ [] ∧ Chain g r cyc r := by
  constructor
  · rintro ⟨ls, t, hc, hn⟩
    induction hc with
    | nil => simp [visited] at hn
    | @cons r m t l ls hl ht hc ih =>
      by_cases hmem : r ∈ visited m ls
      · -- the first resource appears again
        have key : ∀ {m t : ResId} {ls : List Locator}, Chain g m ls t → r ∈ visited m ls →
            ∃ ks, Chain g m ks r := by
          intro m t ls hc hmem
          induction hc with
          | nil => simp [visited] at hmem; subst hmem; exact ⟨[], .nil _⟩
          | @cons a b c l ls hl ht hc ih =>
            simp only [visited, List.filterMap_cons, ht, List.mem_cons] at hmem
            rcases hmem with rfl | hmem
            · exact ⟨[], .nil _⟩
            · obtain ⟨ks, hk⟩ := ih (by simpa [visited] using hmem)
              exact ⟨l :: ks, .cons hl ht hk⟩
        obtain ⟨ks, hk⟩ := key hc hmem
        exact ⟨[], r, l :: ks, .nil r, by simp, .cons hl ht hk⟩
      · have : ¬ (visited m ls).Nodup := by
          intro h
          apply hn
          unfold visited at *
          simp only [List.filterMap_cons, ht]
          exact List.nodup_cons.mpr ⟨hmem, h⟩
        obtain ⟨pre, q, cyc, h1, h2, h3⟩ := ih this
        exact ⟨l :: pre, q, cyc, .cons hl ht h1, h2, h3⟩
  · rintro ⟨pre, r, cyc, h1, h2, h3⟩
    refine ⟨pre ++ cyc, r, h1.append h3, ?_⟩
    rw [(h1.append h3).visited_eq hw, List.map_append, List.append_assoc]
    intro hnd
    rw [List.nodup_append] at hnd
    have := hnd.2.1
    cases h3 with
    | nil => exact h2 rfl
    | cons hl _ _ =>
      rw [List.map_cons, (hw _ _ hl).1] at this
      simp at this

theorem Chain.pump {r : ResId} {cyc : List Locator} (hne : cyc ≠ []) (h : Chain g r cyc r)
    (k : Nat) : ∃ ls, Chain g r ls r ∧ k ≤ ls.length := by
  induction k with
  | zero => exact ⟨[], .nil r, Nat.zero_le _⟩
  | succ k ih =>
    obtain ⟨ls, h1, h2⟩ := ih
    refine ⟨cyc ++ ls, h.append h1, ?_⟩
    have : 0 < cyc.length := List.length_pos_iff.mpr hne
    simp; omega

/-- With a loop there are chains of any length. -/
theorem HasLoop.chains (hw : WellFormed g) {root : ResId} (h : HasLoop g root) (k : Nat) :
    ∃ ls t, Chain g root ls t ∧ ls.length = k := by
  obtain ⟨pre, r, cyc, h1, h2, h3⟩ := (hasLoop_iff_cycle hw root).mp h
  obtain ⟨ls, h4, h5⟩ := h3.pump h2 k
  have h6 := h1.append h4
  rw [← List.take_append_drop k (pre ++ ls)] at h6
  obtain ⟨m, h7, -⟩ := h6.split
  exact ⟨_, m, h7, by rw [List.length_take]; simp; omega⟩

/-! ## Enumeration of paths -/

/-- All the chains of a given length. -/
def chainsN (g : Graph) (r : ResId) : Nat → List (List Locator)
  | 0 => [[]]
  | k + 1 => (g.locators r).flatMap fun l =>
    match l.target with
    | none => []
    | some m => (chainsN g m k).map (l :: ·)

theorem mem_chainsN (r : ResId) (k : Nat) (ls : List Locator) :
    ls ∈ chainsN g r k ↔ ls.length = k ∧ ∃ t, Chain g r ls t := by
  induction k generalizing r ls with
  | zero =>
    simp only [chainsN, List.mem_singleton, List.length_eq_zero_iff]
    constructor
    · rintro rfl; exact ⟨rfl, r, .nil r⟩
    · exact fun h => h.1
  | succ k ih =>
    simp only [chainsN, List.mem_flatMap]
    constructor
    · rintro ⟨l, hl, h⟩
      split at h
      · simp at h
      · rename_i m hm
        obtain ⟨ks, hk, rfl⟩ := List.mem_map.mp h
        obtain ⟨h1, t, h2⟩ := (ih m ks).mp hk
        exact ⟨by simp [h1], t, .cons hl hm h2⟩
    · rintro ⟨h1, t, h2⟩
      cases h2 with
      | nil => simp at h1
      | @cons _ m _ l ks hl hm h2 =>
        refine ⟨l, hl, ?_⟩
        simp only [hm]
        exact List.mem_map.mpr ⟨ks, (ih m ks).mpr ⟨by simpa using h1, t, h2⟩, rfl⟩

theorem nodup_chainsN (hd : ∀ r, (g.locators r).Nodup) (r : ResId) (k : Nat) :
    (chainsN g r k).Nodup := by
  induction k generalizing r with
  | zero => simp [chainsN]
  | succ k ih =>
    unfold chainsN
    rw [List.nodup_iff_pairwise_ne, List.pairwise_flatMap]
    constructor
    · intro l hl
      split
      · simp
      · rename_i m hm
        rw [List.pairwise_map]
        exact (ih m).imp fun h e => h (by simpa using e)
    · refine (List.nodup_iff_pairwise_ne.mp (hd r)).imp ?_
      intro a b hab x hx y hy e
      subst e
      split at hx
      · simp at hx
      · split at hy
        · simp at hy
        · obtain ⟨_, _, rfl⟩ := List.mem_map.mp hx
          obtain ⟨_, _, e⟩ := List.mem_map.mp hy
          exact hab (by simpa using (List.cons.inj e).1.symm)

/-- The extensions of a path. -/
def extend (g : Graph) (current : List Locator) : List (List Locator) :=
  match current.getLast? with
  | none => []
  | some last =>
    match last.target with
    | none => []
    | some t => (g.locators t).map fun l => current ++ [l]

theorem extend_cons (l : Locator) (ls : List Locator) (h : ls ≠ []) :
    extend g (l :: ls) = (extend g ls).map (l :: ·) := by
  unfold extend
  rw [List.getLast?_cons_of_ne_nil h]
  split
  · simp
  · split
    · simp
    · simp [Function.comp_def]

theorem chainsN_succ (hw : WellFormed g) (r : ResId) (k : Nat) :
    chainsN g r (k + 2) = (chainsN g r (k + 1)).flatMap (extend g) := by
  induction k generalizing r with
  | zero =>
    simp only [chainsN, List.map_cons, List.map_nil, List.flatMap_assoc]
    apply flatMap_congr'
    intro l hl
    obtain ⟨-, m, hm, -⟩ := hw _ _ hl
    simp only [hm, List.flatMap_cons, List.flatMap_nil, List.append_nil, extend,
      List.getLast?_singleton]
    rw [List.map_flatMap]
    have : ∀ ls : List Locator, (∀ x ∈ ls, x ∈ g.locators m) →
        List.flatMap (fun a => List.map (fun x => l :: x) (match a.target with
          | none => []
          | some _ => [[a]])) ls = List.map (fun l_1 => [l] ++ [l_1]) ls := by
      intro ls hls
      induction ls with
      | nil => rfl
      | cons x xs ih =>
        obtain ⟨-, q, hq, -⟩ := hw _ _ (hls x (by simp))
        simp only [List.flatMap_cons, hq, List.map_cons, List.map_nil]
        rw [ih (fun y hy => hls y (by simp [hy]))]
        rfl
    exact this _ (fun _ h => h)
  | succ k ih =>
    conv => lhs; unfold chainsN
    conv => rhs; rw [chainsN]
    rw [List.flatMap_assoc]
    apply flatMap_congr'
    intro l hl
    obtain ⟨-, m, hm, -⟩ := hw _ _ hl
    simp only [hm]
    rw [ih m, List.map_flatMap, List.flatMap_map]
    apply flatMap_congr'
    intro ls hls
    have hne : ls ≠ [] := by
      have := ((mem_chainsN m (k + 1) ls).mp hls).1
      intro e; subst e; simp at this
    rw [extend_cons l ls hne]

theorem pathsLoop_step (fuel : Nat) (xs ys res : List (List Locator))
    (h : ∀ x ∈ xs, ∃ r t, x ≠ [] ∧ Chain g r x t) :
    pathsLoop g (fuel + xs.length) (xs ++ ys) res =
      pathsLoop g fuel (ys ++ xs.flatMap (extend g)) (res ++ xs) := by
  induction xs generalizing ys res with
  | nil => simp
  | cons x xs ih =>
    obtain ⟨r, t, hne, hc⟩ := h x (by simp)
    have hx : x = x.dropLast ++ [x.getLast hne] := (List.dropLast_concat_getLast hne).symm
    have ht : (x.getLast hne).target = some t := by
      rw [hx] at hc
      obtain ⟨m, -, -, h⟩ := hc.snoc_inv
      exact h
    have hl : x.getLast? = some (x.getLast hne) := List.getLast?_eq_some_getLast hne
    rw [show fuel + (x :: xs).length = (fuel + xs.length) + 1 by simp; omega]
    rw [List.cons_append, pathsLoop]
    simp only [hl, ht]
    rw [List.append_assoc, ih _ _ (fun y hy => h y (by simp [hy]))]
    simp [extend, hl, ht, List.append_assoc]

theorem pathsLoop_levels (hw : WellFormed g) (root : ResId) (k fuel : Nat) :
    ∃ steps, k ≤ steps + ((List.range k).filter fun i => chainsN g root (i + 1) = []).length ∧
      pathsLoop g (fuel + steps) (chainsN g root 1) [] =
        pathsLoop g fuel (chainsN g root (k + 1))
          ((List.range k).map fun i => chainsN g root (i + 1)).flatten ∧
      steps = (((List.range k).map fun i => chainsN g root (i + 1)).flatten).length := by
  induction k generalizing fuel with
  | zero => exact ⟨0, by simp, by simp, by simp⟩
  | succ k ih =>
    obtain ⟨steps, h1, h2, h3⟩ := ih (fuel + (chainsN g root (k + 1)).length)
    refine ⟨(chainsN g root (k + 1)).length + steps, ?_, ?_, ?_⟩
    · rw [List.range_succ, List.filter_append, List.length_append]
      by_cases he : chainsN g root (k + 1) = []
      · simp [he]; omega
      · have : 0 < (chainsN g root (k + 1)).length := List.length_pos_iff.mpr he
        simp [he]; omega
    · rw [← Nat.add_assoc, h2]
      have := pathsLoop_step (g := g) fuel (chainsN g root (k + 1)) []
        ((List.range k).map fun i => chainsN g root (i + 1)).flatten (by
          intro x hx
          obtain ⟨h4, t, h5⟩ := (mem_chainsN root (k + 1) x).mp hx
          exact ⟨root, t, by intro e; subst e; simp at h4, h5⟩)
      rw [List.append_nil] at this
      rw [this, List.nil_append, ← chainsN_succ hw, List.range_succ, List.map_append,
        List.flatten_append]
      simp
    · rw [List.range_succ, List.map_append, List.flatten_append, List.length_append, ← h3]
      simp; omega

theorem pathsLoop_mono (fuel n : Nat) (pending res r : List (List Locator))
    (h : pathsLoop g fuel pending res = .done r) : pathsLoop g (fuel + n) pending res = .done r := by
  induction fuel generalizing pending res with
  | zero =>
    cases pending with
    | nil => rw [pathsLoop] at h ⊢; exact h
    | cons c pending => simp [pathsLoop] at h
  | succ fuel ih =>
    cases pending with
    | nil => rw [pathsLoop] at h ⊢; exact h
    | cons c pending =>
      rw [show fuel + 1 + n = (fuel + n) + 1 by omega]
      rw [pathsLoop] at h ⊢
      split at h
      · cases h
      · split at h
        · cases h
        · exact ih _ _ h

theorem pathsLoop_length (fuel : Nat) (pending res r : List (List Locator))
    (h : pathsLoop g fuel pending res = .done r) :
    res.length ≤ r.length ∧ r.length ≤ res.length + fuel := by
  induction fuel generalizing pending res with
  | zero =>
    cases pending with
    | nil => rw [pathsLoop] at h; cases h; simp
    | cons c pending => simp [pathsLoop] at h
  | succ fuel ih =>
    cases pending with
    | nil => rw [pathsLoop] at h; cases h; simp
    | cons c pending =>
      rw [pathsLoop] at h
      split at h
      · cases h
      · split at h
        · cases h
        · have := ih _ _ h
          simp at this
          omega

/-! ## More fuel doesn't change a result -/

theorem forEach_mono {α β : Type} (f f' : α → Run (List β)) (xs : List α) (r : List β)
    (h : ∀ x ∈ xs, ∀ r, f x = .done r → f' x = .done r) (hr : forEach f xs = .done r) :
    forEach f' xs = .done r := by
  induction xs generalizing r with
  | nil => exact hr
  | cons x xs ih =>
    unfold forEach at hr ⊢
    cases h1 : f x with
    | outOfFuel => simp [h1, Run.bind] at hr
    | panic => simp [h1, Run.bind] at hr
    | done a =>
      rw [h x (by simp) a h1]
      cases h2 : forEach f xs with
      | outOfFuel => simp [h1, h2, Run.bind] at hr
      | panic => simp [h1, h2, Run.bind] at hr
      | done b =>
        rw [ih b (fun y hy => h y (by simp [hy])) h2]
        simpa [h1, h2, Run.bind] using hr

theorem checkPathLoops_mono (fuel n : Nat) (rpath : List Locator) (r : List (List Locator))
    (h : checkPathLoops g fuel rpath = .done r) : checkPathLoops g (fuel + n) rpath = .done r := by
  induction fuel generalizing rpath r with
  | zero => simp [checkPathLoops] at h
  | succ fuel ih =>
    rw [show fuel + 1 + n = (fuel + n) + 1 by omega]
    cases rpath with
    | nil => simp [checkPathLoops] at h
    | cons last before =>
      unfold checkPathLoops at h ⊢
      split at h
      · exact h
      · split at h
        · cases h
        · rename_i t ht
          exact forEach_mono _ _ _ r (fun x _ r hr => ih _ _ hr) h

theorem checkLocatorLoops_mono (fuel n : Nat) (root : Option ResId) (r : List (List Locator))
    (h : checkLocatorLoops g fuel root = .done r) :
    checkLocatorLoops g (fuel + n) root = .done r := by
  cases root with
  | none => simp [checkLocatorLoops] at h
  | some root => exact forEach_mono _ _ _ r (fun x _ r hr => checkPathLoops_mono _ _ _ _ hr) h

/-! ## Tree of paths -/

theorem addBranches_done {α : Type} (label : α → Text) (f : α → Run PathTree) (xs : List α)
    (cs : List (Text × PathTree)) (h : ∀ x ∈ xs, ∃ b, f x = .done b) :
    ∃ cs', addBranches label f xs cs = .done cs' := by
  induction xs generalizing cs with
  | nil => exact ⟨cs, rfl⟩
  | cons x xs ih =>
    obtain ⟨b, hb⟩ := h x (by simp)
    obtain ⟨cs', h'⟩ := ih (setBranch cs (label x) b) (fun y hy => h y (by simp [hy]))
    exact ⟨cs', by simp [addBranches, hb, Run.bind, h']⟩

theorem addBranches_find {α : Type} (label : α → Text) (f : α → Run PathTree) (xs : List α)
    (cs cs' : List (Text × PathTree)) (hd : (xs.map label).Nodup)
    (h : addBranches label f xs cs = .done cs') :
    (∀ x ∈ xs, ∃ b, f x = .done b ∧ GoMap.find cs' (label x) = some b) ∧
    (∀ k, k ∉ xs.map label → GoMap.find cs' k = GoMap.find cs k) := by
  induction xs generalizing cs with
  | nil => simp only [addBranches, Run.done.injEq] at h; subst h; simp
  | cons x xs ih =>
    unfold addBranches at h
    cases hx : f x with
    | outOfFuel => simp [hx, Run.bind] at h
    | panic => simp [hx, Run.bind] at h
    | done b =>
      simp only [hx, Run.bind] at h
      rw [List.map_cons, List.nodup_cons] at hd
      obtain ⟨h1, h2⟩ := ih _ hd.2 h
      constructor
      · intro y hy
        rcases List.mem_cons.mp hy with rfl | hy
        · exact ⟨b, hx, by rw [h2 _ hd.1, setBranch, GoMap.find_insert, if_pos rfl]⟩
        · exact h1 y hy
      · intro k hk
        rw [List.map_cons, List.mem_cons, not_or] at hk
        rw [h2 k hk.2, setBranch, GoMap.find_insert, if_neg (fun e => hk.1 (by simp [e]))]

theorem find_actions (acts : List Method) (cs : List (Text × PathTree)) (k : Text) :
    GoMap.find (acts.foldl (fun cs a => setBranch cs (Binding.methodSegment a) .none) cs) k =
      if k ∈ acts.map Binding.methodSegment then some .none else GoMap.find cs k := by
  induction acts generalizing cs with
  | nil => simp
  | cons a acts ih =>
    rw [List.foldl_cons, ih, setBranch, GoMap.find_insert]
    by_cases h1 : k ∈ acts.map Binding.methodSegment
    · simp [h1]
    · by_cases h2 : k = Binding.methodSegment a
      · simp [h2]
      · simp only [List.map_cons, List.mem_cons, h1, h2, or_self, if_false]
        rw [if_neg (fun e => h2 e.symm)]

theorem locatorLabel_eq : locatorLabel = urlLabel := by
  funext l
  unfold locatorLabel urlLabel
  cases l.isVariable <;> rfl

/-- Deep enough fuel is enough. -/
theorem resourceBranch_done (hw : WellFormed g) (fuel : Nat) (r : ResId)
    (h : ∀ ls t, Chain g r ls t → ls.length < fuel) :
    ∃ tree, resourceBranch g fuel (some r) = .done tree := by
  induction fuel generalizing r with
  | zero => exact absurd (h [] r (.nil r)) (by simp)
  | succ fuel ih =>
    unfold resourceBranch
    dsimp only
    split
    · exact ⟨_, rfl⟩
    · obtain ⟨cs', h'⟩ := addBranches_done locatorLabel
        (fun l => resourceBranch g fuel l.target) (g.locators r)
        (((g.methods r).filter Method.isAction).foldl
          (fun cs a => setBranch cs (Binding.methodSegment a) .none) []) (by
          intro l hl
          obtain ⟨-, m, hm, -⟩ := hw _ _ hl
          rw [hm]
          apply ih
          intro ls t hc
          have := h (l :: ls) t (.cons hl hm hc)
          simpa using this)
      exact ⟨_, by rw [h', Run.bind]⟩

theorem isServedPath_nil (r : ResId) : IsServedPath g r [] := ⟨[], r, .nil r, .inl rfl⟩

theorem isServedPath_cons (r : ResId) (x : Text) (p : List Text) :
    IsServedPath g r (x :: p) ↔
      (∃ l ∈ g.locators r, ∃ m, l.target = some m ∧ urlLabel l = x ∧ IsServedPath g m p) ∨
      (p = [] ∧ ∃ a ∈ g.methods r, a.isAction = true ∧ Binding.methodSegment a = x) := by
  constructor
  · rintro ⟨ls, t, hc, h⟩
    cases hc with
    | nil =>
      rcases h with h | ⟨a, ha, hb, h⟩
      · simp at h
      · simp only [List.map_nil, List.nil_append, List.cons.injEq] at h
        exact .inr ⟨h.2, a, ha, hb, h.1.symm⟩
    | @cons _ m _ l ls hl hm hc =>
      left
      refine ⟨l, hl, m, hm, ?_⟩
      rcases h with h | ⟨a, ha, hb, h⟩
      · simp only [List.map_cons, List.cons.injEq] at h
        exact ⟨h.1.symm, ls, t, hc, .inl h.2⟩
      · simp only [List.map_cons, List.cons_append, List.cons.injEq] at h
        exact ⟨h.1.symm, ls, t, hc, .inr ⟨a, ha, hb, h.2⟩⟩
  · rintro (⟨l, hl, m, hm, rfl, ls, t, hc, h⟩ | ⟨rfl, a, ha, hb, rfl⟩)
    · refine ⟨l :: ls, t, .cons hl hm hc, ?_⟩
      rcases h with rfl | ⟨a, ha, hb, rfl⟩
      · exact .inl rfl
      · exact .inr ⟨a, ha, hb, rfl⟩
    · exact ⟨[], r, .nil r, .inr ⟨a, ha, hb, rfl⟩⟩

theorem resourceBranch_has (hc : NoClash g) (fuel : Nat) (r : ResId)
    (tree : PathTree) (h : resourceBranch g fuel (some r) = .done tree) (p : List Text) :
    tree.Has p ↔ IsServedPath g r p := by
  induction fuel generalizing r tree p with
  | zero => simp [resourceBranch] at h
  | succ fuel ih =>
    cases p with
    | nil => simp [PathTree.Has, isServedPath_nil]
    | cons x p =>
      rw [isServedPath_cons]
      unfold resourceBranch at h
      dsimp only at h
      split at h
      · rename_i he
        cases h
        have h1 := List.length_eq_zero_iff.mp he.1
        have h2 := List.length_eq_zero_iff.mp he.2
        rw [List.filter_eq_nil_iff] at h2
        simp only [PathTree.Has, false_iff, not_or, not_exists, not_and]
        refine ⟨fun l hl => by rw [h1] at hl; simp at hl, fun _ a ha hb => absurd hb (h2 a ha)⟩
      · have hn := hc r
        rw [List.nodup_append] at hn
        cases hb : addBranches locatorLabel (fun l => resourceBranch g fuel l.target)
            (g.locators r) (((g.methods r).filter Method.isAction).foldl
              (fun cs a => setBranch cs (Binding.methodSegment a) .none) []) with
        | outOfFuel => simp [hb, Run.bind] at h
        | panic => simp [hb, Run.bind] at h
        | done cs =>
          simp only [hb, Run.bind, Run.done.injEq] at h
          subst h
          obtain ⟨h1, h2⟩ := addBranches_find _ _ _ _ _ (by rw [locatorLabel_eq]; exact hn.1) hb
          rw [locatorLabel_eq] at h1 h2
          simp only [PathTree.Has]
          by_cases hx : x ∈ (g.locators r).map urlLabel
          · obtain ⟨l, hl, rfl⟩ := List.mem_map.mp hx
            obtain ⟨b, e1, e2⟩ := h1 l hl
            have hlm : ∃ m, l.target = some m := by
              cases hm : l.target with
              | some m => exact ⟨m, rfl⟩
              | none =>
                rw [hm] at e1
                cases fuel <;> simp [resourceBranch] at e1
            obtain ⟨m, hm⟩ := hlm
            rw [hm] at e1
            have e3 := ih m b e1 p
            constructor
            · rintro ⟨t, ht, hp⟩
              rw [e2] at ht
              cases ht
              exact .inl ⟨l, hl, m, hm, rfl, e3.mp hp⟩
            · rintro (⟨l', hl', m', hm', e, hp⟩ | ⟨rfl, a, ha, hb', e⟩)
              · obtain ⟨b', e1', e2'⟩ := h1 l' hl'
                rw [e, e2] at e2'
                cases e2'
                rw [hm'] at e1'
                exact ⟨b, e2, (ih m' b e1' p).mpr hp⟩
              · exact absurd e.symm (hn.2.2 _ hx _
                  (List.mem_map.mpr ⟨a, List.mem_filter.mpr ⟨ha, hb'⟩, rfl⟩))
          · rw [h2 x hx, find_actions]
            constructor
            · rintro ⟨t, ht, hp⟩
              right
              split at ht
              · rename_i hm
                cases ht
                obtain ⟨a, ha, e⟩ := List.mem_map.mp hm
                obtain ⟨ha, hb'⟩ := List.mem_filter.mp ha
                cases p with
                | nil => exact ⟨rfl, a, ha, hb', e⟩
                | cons y p => simp [PathTree.Has] at hp
              · simp [GoMap.find] at ht
            · rintro (⟨l', hl', m', hm', e, hp⟩ | ⟨rfl, a, ha, hb', e⟩)
              · exact absurd (List.mem_map.mpr ⟨l', hl', e⟩) hx
              · refine ⟨.none, ?_, by simp [PathTree.Has]⟩
                rw [if_pos (List.mem_map.mpr ⟨a, List.mem_filter.mpr ⟨ha, hb'⟩, e⟩)]

end Verif
