import Verif.Spec.Polling
import Verif.Lemmas.Names

/-! C46 and C50: polling and path segments. -/

namespace Verif

namespace GoHelpers

/-! ## C50 -/

theorem dropLeading_spec (path : Text) :
    ∃ a, path = List.replicate a '/' ++ dropLeading path ∧ (dropLeading path).head? ≠ some '/' := by
  induction path with
  | nil => exact ⟨0, rfl, by simp [dropLeading]⟩
  | cons c path ih =>
    unfold dropLeading
    by_cases h : c = '/'
    · obtain ⟨a, h1, h2⟩ := ih
      refine ⟨a + 1, ?_, by simpa [h] using h2⟩
      rw [if_pos h, List.replicate_succ, List.cons_append, ← h1, h]
    · exact ⟨0, by simp [h], by simp [h]⟩

theorem dropTrailing_spec (path : Text) :
    ∃ b, path = dropTrailing path ++ List.replicate b '/' ∧
      (dropTrailing path).getLast? ≠ some '/' := by
  by_cases h : path.getLast? = some '/'
  · have hp : path = path.dropLast ++ ['/'] := by
      obtain ⟨ys, rfl⟩ := List.getLast?_eq_some_iff.1 h
      simp
    have hlt : path.dropLast.length < path.length := by rw [hp]; simp
    obtain ⟨b, h1, h2⟩ := dropTrailing_spec path.dropLast
    rw [dropTrailing, dif_pos h]
    refine ⟨b + 1, ?_, h2⟩
    rw [List.replicate_succ', ← List.append_assoc, ← h1]
    exact hp
  · exact ⟨0, by rw [dropTrailing, dif_neg h]; simp, by rw [dropTrailing, dif_neg h]; exact h⟩
termination_by path.length

/-- A text that doesn't start with a slash is all slashes up to its own end only if it is empty. -/
theorem head_of_prefix {x y : Text} (hx : (x ++ y).head? ≠ some '/') : x.head? ≠ some '/' := by
  cases x with
  | nil => simp
  | cons c x => simpa using hx

theorem trimmed_segments (path : Text) : Trimmed path (dropTrailing (dropLeading path)) := by
  obtain ⟨a, h1, h2⟩ := dropLeading_spec path
  obtain ⟨b, h3, h4⟩ := dropTrailing_spec (dropLeading path)
  refine ⟨a, b, ?_, ?_, h4⟩
  · rw [List.append_assoc, ← h3, ← h1]
  · apply head_of_prefix (y := List.replicate b '/')
    rw [← h3]
    exact h2

theorem replicate_head {a : Nat} {s t : Text} (hs : s.head? ≠ some '/') (ht : t.head? ≠ some '/')
    {b : Nat} (h : List.replicate a '/' ++ s = List.replicate b '/' ++ t) : s = t := by
  induction a generalizing b with
  | zero =>
    cases b with
    | zero => simpa using h
    | succ b => rw [List.replicate_succ] at h; simp at h; rw [h] at hs; simp at hs
  | succ a ih =>
    cases b with
    | zero => rw [List.replicate_succ] at h; simp at h; rw [← h] at ht; simp at ht
    | succ b =>
      rw [List.replicate_succ, List.replicate_succ] at h
      exact ih (by simpa using h)

theorem trimmed_unique {path c d : Text} (hc : Trimmed path c) (hd : Trimmed path d) : c = d := by
  obtain ⟨a, b, h1, h2, h3⟩ := hc
  obtain ⟨a', b', h1', h2', h3'⟩ := hd
  by_cases hc0 : c = []
  · subst hc0
    by_cases hd0 : d = []
    · exact hd0.symm
    · exfalso
      have hm : ∀ x ∈ d, x = '/' := by
        intro x hx
        have : x ∈ path := by rw [h1']; simp [hx]
        rw [h1] at this
        simp at this
        exact this.2
      cases d with
      | nil => exact hd0 rfl
      | cons x d => have := hm x (by simp); subst this; simp at h2'
  · by_cases hd0 : d = []
    · exfalso
      subst hd0
      have hm : ∀ x ∈ c, x = '/' := by
        intro x hx
        have : x ∈ path := by rw [h1]; simp [hx]
        rw [h1'] at this
        simp at this
        exact this.2
      cases c with
      | nil => exact hc0 rfl
      | cons x c => have := hm x (by simp); subst this; simp at h2
    · have hh : ∀ {x : Text} {n : Nat}, x ≠ [] → x.head? ≠ some '/' →
          (x ++ List.replicate n '/').head? ≠ some '/' := by
        intro x n hx hh
        cases x with
        | nil => exact absurd rfl hx
        | cons y x => simpa using hh
      have e : c ++ List.replicate b '/' = d ++ List.replicate b' '/' := by
        refine replicate_head (a := a) (b := a') (hh hc0 h2) (hh hd0 h2') ?_
        rw [← List.append_assoc, ← h1, h1', List.append_assoc]
      have e' := congrArg List.reverse e
      simp only [List.reverse_append, List.reverse_replicate] at e'
      have := replicate_head (by simpa using h3) (by simpa using h3') e'
      simpa using this

/-- C50: the segments of a path are the only pieces without slashes that joined with slashes give
the path without the slashes at its ends. -/
theorem c50_segments (path : Text) (ss : List Text) :
    segments path = ss ↔
      ss ≠ [] ∧ (∀ s ∈ ss, '/' ∉ s) ∧ Trimmed path (joinText ['/'] ss) := by
  constructor
  · rintro rfl
    exact ⟨splitOn_ne_nil _ _, splitOn_no_sep _ _, by
      unfold segments; rw [joinText_splitOn]; exact trimmed_segments path⟩
  · rintro ⟨h1, h2, h3⟩
    unfold segments
    rw [trimmed_unique (trimmed_segments path) h3, splitOn_joinText '/' ss h1 h2]

/-- C50: slashes at the ends don't matter. -/
theorem c50_slashes (path : Text) (a b : Nat) :
    segments (List.replicate a '/' ++ path ++ List.replicate b '/') = segments path := by
  rw [c50_segments]
  obtain ⟨h1, h2, a', b', h3, h4, h5⟩ := (c50_segments path _).1 rfl
  refine ⟨h1, h2, a + a', b' + b, ?_, h4, h5⟩
  rw [← List.replicate_append_replicate, ← List.replicate_append_replicate]
  conv => lhs; rw [h3]
  simp only [List.append_assoc]

/-- C50: paths without anything other than slashes have one segment, that is empty, instead of
none. -/
theorem c50_root (a : Nat) : segments (List.replicate a '/') = [[]] := by
  rw [c50_segments]
  exact ⟨by simp, by simp, a, 0, by simp [joinText], by simp [joinText], by simp [joinText]⟩

example : segments t!"//api/v1//clusters/" = [t!"api", t!"v1", [], t!"clusters"] := by
  rw [c50_segments]
  exact ⟨by simp, by decide, 2, 1, rfl, by decide, by decide⟩

/-! ## C46 -/

variable {ρ ε : Type}

theorem evalStatus_iff (l : List Int) (s : Int) : evalStatus l s = true ↔ s ∈ l := by
  induction l with
  | nil => simp [evalStatus]
  | cons a l ih =>
    rw [evalStatus]
    by_cases h : s = a
    · simp [h]
    · simp [h, ih]

theorem allPredicates_iff (o : ρ) (l : List (ρ → Bool)) :
    allPredicates o l = true ↔ ∀ p ∈ l, p o = true := by
  induction l with
  | nil => simp [allPredicates]
  | cons a l ih =>
    rw [allPredicates]
    cases h : a o <;> simp [h, ih]

theorem evalPredicates_iff (l : List (ρ → Bool)) (o : Option ρ) :
    evalPredicates l o = true ↔ l = [] ∨ ∃ x, o = some x ∧ ∀ p ∈ l, p x = true := by
  cases o with
  | none =>
    unfold evalPredicates
    cases l <;> simp
  | some o =>
    unfold evalPredicates
    rw [allPredicates_iff]
    constructor
    · intro h; exact .inr ⟨o, rfl, h⟩
    · rintro (rfl | ⟨x, h1, h2⟩)
      · simp
      · rw [Option.some.injEq] at h1; subst h1; exact h2

/-- The loop goes on after the round that ends at that time. -/
def Goes (interval deadline : Int) (statuses : List Int) (predicates : List (ρ → Bool))
    (r : Round ρ ε) (time : Int) : Prop :=
  ¬ CommunicationError r ∧ ¬ Satisfied statuses predicates r ∧ time + interval ≤ deadline

theorem pollLoop_succ (interval deadline : Int) (ss : List Int) (ps : List (ρ → Bool))
    (rounds : Nat → Round ρ ε) (fuel k : Nat) (now : Int) (hs : ss ≠ []) :
    (Goes interval deadline ss ps (rounds k) (now + (rounds k).elapsed) →
      pollLoop interval deadline ss ps rounds (fuel + 1) k now
        = pollLoop interval deadline ss ps rounds fuel (k + 1)
            (now + (rounds k).elapsed + interval + (rounds k).late)) ∧
    (¬ Goes interval deadline ss ps (rounds k) (now + (rounds k).elapsed) →
      pollLoop interval deadline ss ps rounds (fuel + 1) k now
        = some (.returned (rounds k).result (rounds k).err (k + 1) (now + (rounds k).elapsed))) := by
  have h1 : ((rounds k).err.isSome = true ∧ (rounds k).status = 0) ↔
      CommunicationError (rounds k) := by
    unfold CommunicationError
    rw [Option.isSome_iff_ne_none]
  have h2 : (evalStatus ss (rounds k).status && evalPredicates ps (rounds k).result) = true ↔
      Satisfied ss ps (rounds k) := by
    unfold Satisfied
    rw [Bool.and_eq_true, evalStatus_iff, evalPredicates_iff]
    simp [hs]
  unfold Goes
  rw [pollLoop]
  constructor
  · rintro ⟨h3, h4, h5⟩
    rw [if_neg (mt h1.1 h3), if_neg (mt h2.1 h4), if_neg (by omega),
      Int.add_assoc (now + (rounds k).elapsed)]
  · intro h
    by_cases h3 : CommunicationError (rounds k)
    · rw [if_pos (h1.2 h3)]
    · rw [if_neg (mt h1.1 h3)]
      by_cases h4 : Satisfied ss ps (rounds k)
      · rw [if_pos (h2.2 h4)]
      · rw [if_neg (mt h2.1 h4), if_pos]
        exact Int.not_le.1 fun h5 => h ⟨h3, h4, h5⟩

/-- The time when the task is started in an iteration. -/
def startTime (interval start : Int) (rounds : Nat → Round ρ ε) : Nat → Int
  | 0 => start
  | k + 1 => returnTime interval start rounds k + interval + (rounds k).late

theorem returnTime_start (interval start : Int) (rounds : Nat → Round ρ ε) (k : Nat) :
    returnTime interval start rounds k = startTime interval start rounds k + (rounds k).elapsed := by
  cases k <;> rfl

theorem pollLoop_from (interval deadline start : Int) (ss : List Int) (ps : List (ρ → Bool))
    (rounds : Nat → Round ρ ε) (hs : ss ≠ []) (fuel k : Nat) (out : Polled ρ ε) :
    pollLoop interval deadline ss ps rounds fuel k (startTime interval start rounds k) = some out ↔
      ∃ n, n < fuel ∧
        (∀ j, k ≤ j → j < k + n →
          Goes interval deadline ss ps (rounds j) (returnTime interval start rounds j)) ∧
        ¬ Goes interval deadline ss ps (rounds (k + n)) (returnTime interval start rounds (k + n)) ∧
        out = .returned (rounds (k + n)).result (rounds (k + n)).err (k + n + 1)
          (returnTime interval start rounds (k + n)) := by
  induction fuel generalizing k with
  | zero => simp [pollLoop]
  | succ fuel ih =>
    obtain ⟨h1, h2⟩ := pollLoop_succ interval deadline ss ps rounds fuel k
      (startTime interval start rounds k) hs
    rw [← returnTime_start] at h1 h2
    by_cases hg : Goes interval deadline ss ps (rounds k) (returnTime interval start rounds k)
    · rw [h1 hg]
      have : returnTime interval start rounds k + interval + (rounds k).late
          = startTime interval start rounds (k + 1) := rfl
      rw [this, ih (k + 1)]
      constructor
      · rintro ⟨n, hn, ha, hb, ho⟩
        refine ⟨n + 1, by omega, fun j hj1 hj2 => ?_, ?_, ?_⟩
        · by_cases e : j = k
          · rw [e]; exact hg
          · exact ha j (by omega) (by omega)
        · rw [show k + (n + 1) = k + 1 + n by omega]; exact hb
        · rw [show k + (n + 1) = k + 1 + n by omega]; exact ho
      · rintro ⟨n, hn, ha, hb, ho⟩
        cases n with
        | zero => exact absurd hg hb
        | succ n =>
          refine ⟨n, by omega, fun j hj1 hj2 => ha j (by omega) (by omega), ?_, ?_⟩
          · rw [show k + 1 + n = k + (n + 1) by omega]; exact hb
          · rw [show k + 1 + n = k + (n + 1) by omega]; exact ho
    · rw [h2 hg]
      constructor
      · intro h
        rw [Option.some.injEq] at h
        exact ⟨0, by omega, fun j h1 h2 => by omega, hg, h.symm⟩
      · rintro ⟨n, hn, ha, hb, ho⟩
        cases n with
        | zero => rw [ho]; rfl
        | succ n => exact absurd (ha k (by omega) (by omega)) hg

/-- The statuses after adding the default one. -/
theorem satisfied_default (ss : List Int) (ps : List (ρ → Bool)) (r : Round ρ ε) :
    Satisfied (if ss.length = 0 then [200] else ss) ps r ↔ Satisfied ss ps r := by
  unfold Satisfied
  cases ss <;> simp

/-- C46: polling needs a deadline and an interval greater than zero; otherwise the task isn't
executed. -/
theorem c46_arguments (fuel : Nat) (deadline : Option Int) (interval : Int) (ss : List Int)
    (ps : List (ρ → Bool)) (rounds : Nat → Round ρ ε) (now : Int) :
    (deadline = none → pollContext fuel deadline interval ss ps rounds now = some .noDeadline) ∧
    (deadline ≠ none → interval ≤ 0 →
      pollContext fuel deadline interval ss ps rounds now = some .badInterval) := by
  constructor
  · rintro rfl; rfl
  · intro h1 h2
    cases deadline with
    | none => exact absurd rfl h1
    | some d => simp [pollContext, h2]

/-- C46: what polling returns is what the last execution of the task returned; it was the last one
because of a communication error, or because it was satisfactory, or because there wasn't time for
another one, and none of these happened before. -/
theorem c46_result (fuel : Nat) (deadline interval : Int) (hi : 0 < interval) (ss : List Int)
    (ps : List (ρ → Bool)) (rounds : Nat → Round ρ ε) (start : Int) (out : Polled ρ ε) :
    pollContext fuel (some deadline) interval ss ps rounds start = some out ↔
      ∃ n, n < fuel ∧
        out = .returned (rounds n).result (rounds n).err (n + 1)
          (returnTime interval start rounds n) ∧
        (CommunicationError (rounds n) ∨ Satisfied ss ps (rounds n) ∨
          returnTime interval start rounds n + interval > deadline) ∧
        ∀ j < n, ¬ CommunicationError (rounds j) ∧ ¬ Satisfied ss ps (rounds j) ∧
          returnTime interval start rounds j + interval ≤ deadline := by
  unfold pollContext
  simp only
  rw [if_neg (by omega)]
  have h := pollLoop_from interval deadline start (if ss.length = 0 then [200] else ss) ps rounds
    (by cases ss <;> simp) fuel 0 out
  rw [startTime] at h
  rw [h]
  unfold Goes
  simp only [satisfied_default, Nat.zero_add]
  apply exists_congr
  intro n
  constructor
  · rintro ⟨h1, h2, h3, h4⟩
    refine ⟨h1, h4, ?_, fun j hj => h2 j (by omega) hj⟩
    by_cases a : CommunicationError (rounds n)
    · exact .inl a
    by_cases b : Satisfied ss ps (rounds n)
    · exact .inr (.inl b)
    exact .inr (.inr (Int.not_le.1 fun c => h3 ⟨a, b, c⟩))
  · rintro ⟨h1, h4, h3, h2⟩
    refine ⟨h1, fun j _ hj => h2 j hj, ?_, h4⟩
    rintro ⟨a, b, c⟩
    rcases h3 with h3 | h3 | h3
    · exact a h3
    · exact b h3
    · omega

/-- Tasks don't take negative time, and neither sleeps less than requested. -/
def Advances (rounds : Nat → Round ρ ε) : Prop :=
  ∀ k, 0 ≤ (rounds k).elapsed ∧ 0 ≤ (rounds k).late

theorem returnTime_ge (interval start : Int) (hi : 0 < interval) (rounds : Nat → Round ρ ε)
    (h : Advances rounds) (k : Nat) : start + k * interval ≤ returnTime interval start rounds k := by
  induction k with
  | zero => have := (h 0).1; simp [returnTime]; omega
  | succ k ih =>
    rw [returnTime]
    have h1 := (h k).2
    have h2 := (h (k + 1)).1
    have : ((k + 1 : Nat) : Int) * interval = k * interval + interval := by
      rw [Int.natCast_add, Int.add_mul]; simp
    omega

/-- C46: polling always ends, after at most as many executions of the task as intervals fit before
the deadline, plus one. -/
theorem c46_ends (deadline interval : Int) (hi : 0 < interval) (ss : List Int)
    (ps : List (ρ → Bool)) (rounds : Nat → Round ρ ε) (h : Advances rounds) (start : Int) :
    ∃ fuel result err n finish,
      pollContext fuel (some deadline) interval ss ps rounds start
        = some (.returned result err n finish) ∧
      1 ≤ n ∧ (n = 1 ∨ start + (n - 1) * interval ≤ deadline) := by
  -- Eventually there isn't time:
  have hend : ∃ n, returnTime interval start rounds n + interval > deadline := by
    refine ⟨(deadline - start).toNat, ?_⟩
    have h1 := returnTime_ge interval start hi rounds h (deadline - start).toNat
    have h2 : ((deadline - start).toNat : Int) * 1 ≤ (deadline - start).toNat * interval :=
      Int.mul_le_mul_of_nonneg_left (by omega) (by omega)
    omega
  let P : Nat → Prop := fun n => CommunicationError (rounds n) ∨ Satisfied ss ps (rounds n) ∨
    returnTime interval start rounds n + interval > deadline
  have hP : ∃ n, P n := hend.imp fun n h => .inr (.inr h)
  have hmin : ∃ n, P n ∧ ∀ j < n, ¬ P j := by
    obtain ⟨n, hn⟩ := hP
    induction n using Nat.strongRecOn with
    | ind n ih =>
      by_cases hj : ∃ j < n, P j
      · obtain ⟨j, h1, h2⟩ := hj; exact ih j h1 h2
      · exact ⟨n, hn, fun j h1 h2 => hj ⟨j, h1, h2⟩⟩
  obtain ⟨n, hn, hb⟩ := hmin
  refine ⟨n + 1, _, _, _, _, (c46_result _ _ _ hi _ _ _ _ _).2 ⟨n, by omega, rfl, hn,
    fun j hj => ?_⟩, by omega, ?_⟩
  · have := hb j hj
    simp only [P, not_or] at this
    exact ⟨this.1, this.2.1, by omega⟩
  · cases n with
    | zero => exact .inl rfl
    | succ n =>
      right
      have h1 := hb n (by omega)
      simp only [P, not_or] at h1
      have h2 := returnTime_ge interval start hi rounds h n
      have : ((n + 1 + 1 : Nat) : Int) - 1 = n + 1 := by omega
      rw [this, Int.add_mul]
      omega

/-- C46: a result without error is satisfactory, unless there wasn't time for another attempt. -/
theorem c46_success (fuel : Nat) (deadline interval : Int) (hi : 0 < interval) (ss : List Int)
    (ps : List (ρ → Bool)) (rounds : Nat → Round ρ ε) (start : Int) (result : Option ρ) (n : Nat)
    (finish : Int)
    (h : pollContext fuel (some deadline) interval ss ps rounds start
      = some (.returned result none n finish)) :
    finish + interval > deadline ∨
    (result = (rounds (n - 1)).result ∧ Satisfied ss ps (rounds (n - 1))) := by
  obtain ⟨k, -, ho, hw, -⟩ := (c46_result _ _ _ hi _ _ _ _ _).1 h
  simp only [Polled.returned.injEq] at ho
  obtain ⟨h1, h2, rfl, h4⟩ := ho
  rcases hw with ⟨h5, -⟩ | h5 | h5
  · exact absurd h2.symm h5
  · exact .inr ⟨h1, h5⟩
  · exact .inl (h4 ▸ h5)

/-- C46: polling stops at the first communication error, and at the first satisfactory result. -/
theorem c46_stops (fuel : Nat) (deadline interval : Int) (hi : 0 < interval) (ss : List Int)
    (ps : List (ρ → Bool)) (rounds : Nat → Round ρ ε) (start : Int) (result : Option ρ)
    (err : Option ε) (n : Nat) (finish : Int)
    (h : pollContext fuel (some deadline) interval ss ps rounds start
      = some (.returned result err n finish))
    (k : Nat) (hk : CommunicationError (rounds k) ∨ Satisfied ss ps (rounds k)) : n ≤ k + 1 := by
  obtain ⟨m, -, ho, -, hb⟩ := (c46_result _ _ _ hi _ _ _ _ _).1 h
  simp only [Polled.returned.injEq] at ho
  obtain ⟨-, -, rfl, -⟩ := ho
  by_cases hm : m ≤ k
  · omega
  · have := hb k (by omega)
    rcases hk with hk | hk
    · exact absurd hk this.1
    · exact absurd hk this.2.1

/-- C46: if the sleeps are exact then no task is started after the deadline, except the first one,
so polling finishes by the deadline plus the time that the last task takes. -/
theorem c46_deadline (fuel : Nat) (deadline interval : Int) (hi : 0 < interval) (ss : List Int)
    (ps : List (ρ → Bool)) (rounds : Nat → Round ρ ε) (hl : ∀ k, (rounds k).late = 0) (start : Int)
    (result : Option ρ) (err : Option ε) (n : Nat) (finish : Int)
    (h : pollContext fuel (some deadline) interval ss ps rounds start
      = some (.returned result err n finish)) :
    finish ≤ max start deadline + (rounds (n - 1)).elapsed := by
  obtain ⟨k, -, ho, -, hb⟩ := (c46_result _ _ _ hi _ _ _ _ _).1 h
  simp only [Polled.returned.injEq] at ho
  obtain ⟨-, -, h3, h4⟩ := ho
  subst h3 h4
  simp only [Nat.add_sub_cancel]
  cases k with
  | zero => rw [returnTime]; omega
  | succ k =>
    rw [returnTime, hl k]
    have := (hb k (by omega)).2.2
    omega

/-- C46: when there is no time for another attempt the last result is returned as if it was
satisfactory: there is no error that says that it isn't. -/
theorem c46_deadline_silent :
    ∃ (rounds : Nat → Round Nat Unit) (fuel : Nat), Advances rounds ∧
      pollContext fuel (some 10) 7 [200] [fun x => x == 1] rounds 0
        = some (.returned (some 0) none 1 5) ∧ ¬ Satisfied [200] [fun x => x == 1] (rounds 0) := by
  refine ⟨fun _ => { status := 200, result := some 0, err := none, elapsed := 5, late := 0 }, 1,
    fun k => ⟨by simp, by simp⟩, rfl, ?_⟩
  simp [Satisfied]

/-- An example with several attempts. -/
example : pollContext (ε := Unit) 9 (some 100) 10 [] [fun x => x == 2]
      (fun k => { status := 200, result := some k, err := none, elapsed := 3, late := 1 }) 0
    = some (.returned (some 2) none 3 31) := rfl

end GoHelpers

end Verif
