import Verif.Spec.Dates
import Verif.Lemmas.Digits

/-! Lemmas about dates. -/

namespace Verif.GoTime

/-! ## The calendar -/

theorem isLeap_iff (y : Int) : isLeap y = true ↔ 4 ∣ y ∧ (¬ 100 ∣ y ∨ 400 ∣ y) := by
  simp only [isLeap, Bool.and_eq_true, Bool.or_eq_true, beq_iff_eq, bne_iff_ne, ne_eq]
  omega

/-- Length of the months of a year that is leap or not. -/
def lengthOf (leap : Bool) (month : Nat) : Nat :=
  if month ∈ [4, 6, 9, 11] then 30 else if month = 2 then (if leap then 29 else 28) else 31

theorem monthLength_eq (y : Int) (m : Nat) : monthLength y m = lengthOf (isLeap y) m := by
  unfold monthLength lengthOf
  by_cases h : isLeap y = true
  · simp only [h, (isLeap_iff y).1 h, true_and, if_true]
  · have h' := mt (isLeap_iff y).2 h
    simp only [h, h', if_false, Bool.false_eq_true]

theorem daysIn_eq (m : Nat) (y : Int) (h1 : 1 ≤ m) (h2 : m ≤ 12) : daysIn m y = monthLength y m := by
  rw [monthLength_eq]
  unfold daysIn
  generalize isLeap y = leap
  have : ∀ leap : Bool, ∀ m, m < 13 → 1 ≤ m →
      (if m == 2 && leap then 29 else daysBefore m - daysBefore (m - 1)) = lengthOf leap m := by
    decide
  exact this leap m (by omega) h1

/-- Number of the day in the year, counting from zero. -/
def dayOfYear (leap : Bool) (month day : Nat) : Nat :=
  daysBefore (month - 1) + (if leap && decide (3 ≤ month) then 1 else 0) + day - 1

set_option maxRecDepth 20000 in
theorem monthDay_spec : ∀ leap : Bool, ∀ t, t < (if leap then 366 else 365) →
    1 ≤ (monthDay leap t).1 ∧ (monthDay leap t).1 ≤ 12 ∧ 1 ≤ (monthDay leap t).2 ∧
    (monthDay leap t).2 ≤ lengthOf leap (monthDay leap t).1 ∧
    dayOfYear leap (monthDay leap t).1 (monthDay leap t).2 = t := by
  decide

set_option maxRecDepth 20000 in
theorem dayOfYear_spec : ∀ leap : Bool, ∀ m, m < 13 → ∀ d, d < 32 →
    (1 ≤ m ∧ 1 ≤ d ∧ d ≤ lengthOf leap m) → (dayOfYear leap m d < (if leap then 366 else 365) ∧
      (monthDay leap (dayOfYear leap m d)).1 = m ∧ (monthDay leap (dayOfYear leap m d)).2 = d) := by
  decide

theorem lengthOf_le (leap : Bool) (m : Nat) : lengthOf leap m ≤ 31 := by
  unfold lengthOf; split <;> (try split) <;> (try split) <;> omega

theorem dayNumber_eq (d : Day) (h : d.Exists) :
    dayNumber d = 146097 * ((d.year - 1) / 400) + 36524 * ((d.year - 1) % 400 / 100)
      + 1461 * ((d.year - 1) % 100 / 4) + 365 * ((d.year - 1) % 4)
      + (dayOfYear (isLeap d.year) d.month d.day : Nat) := by
  obtain ⟨_, _, h3, _⟩ := h
  simp only [dayNumber, dayOfYear]
  split <;> omega

theorem dayOf_split (a : Int) (b c e t : Nat) (hb : b < 4) (hc : c < 25) (he : e < 4)
    (ht : t < 365 ∨ (t = 365 ∧ e = 3 ∧ (c ≠ 24 ∨ b = 3))) :
    dayOf (146097 * a + 36524 * b + 1461 * c + 365 * e + t) =
      { year := 400 * a + 100 * b + 4 * c + e + 1,
        month := (monthDay (isLeap (400 * a + 100 * b + 4 * c + e + 1)) t).1,
        day := (monthDay (isLeap (400 * a + 100 * b + 4 * c + e + 1)) t).2 } := by
  have h0 : (146097 * a + 36524 * b + 1461 * c + 365 * e + t) / 146097 = a := by omega
  have hd0 : ((146097 * a + 36524 * b + 1461 * c + 365 * e + t) % 146097).toNat =
      36524 * b + 1461 * c + 365 * e + t := by omega
  have h1 : (36524 * b + 1461 * c + 365 * e + t) / 36524
      - (36524 * b + 1461 * c + 365 * e + t) / 36524 / 4 = b := by
    have : (36524 * b + 1461 * c + 365 * e + t) / 36524 = b ∨
        (b = 3 ∧ (36524 * b + 1461 * c + 365 * e + t) / 36524 = 4) := by omega
    rcases this with h | ⟨h, h'⟩
    · rw [h]; omega
    · rw [h']; omega
  have h2 : (36524 * b + 1461 * c + 365 * e + t) - 36524 * b = 1461 * c + 365 * e + t := by omega
  have h3 : (1461 * c + 365 * e + t) / 1461 = c := by omega
  have h4 : (1461 * c + 365 * e + t) - 1461 * c = 365 * e + t := by omega
  have h5 : (365 * e + t) / 365 - (365 * e + t) / 365 / 4 = e := by
    have : (365 * e + t) / 365 = e ∨ (e = 3 ∧ (365 * e + t) / 365 = 4) := by omega
    rcases this with h | ⟨h, h'⟩
    · rw [h]; omega
    · rw [h']; omega
  have h6 : 365 * e + t - 365 * e = t := by omega
  simp only [dayOf, h0, hd0, h1, h2, h3, h4, h5, h6]

theorem split_exists (n : Int) : ∃ (a : Int) (b c e t : Nat), b < 4 ∧ c < 25 ∧ e < 4 ∧
    (t < 365 ∨ (t = 365 ∧ e = 3 ∧ (c ≠ 24 ∨ b = 3))) ∧
    n = 146097 * a + 36524 * b + 1461 * c + 365 * e + t := by
  obtain ⟨d0, hd0, hn⟩ : ∃ d0 : Nat, d0 < 146097 ∧ n = 146097 * (n / 146097) + d0 :=
    ⟨(n % 146097).toNat, by omega, by omega⟩
  obtain ⟨b, hb⟩ : ∃ b, b = d0 / 36524 - d0 / 36524 / 4 := ⟨_, rfl⟩
  obtain ⟨d1, hd1⟩ : ∃ d1, d1 = d0 - 36524 * b := ⟨_, rfl⟩
  obtain ⟨c, hc⟩ : ∃ c, c = d1 / 1461 := ⟨_, rfl⟩
  obtain ⟨d2, hd2⟩ : ∃ d2, d2 = d1 - 1461 * c := ⟨_, rfl⟩
  obtain ⟨e, he⟩ : ∃ e, e = d2 / 365 - d2 / 365 / 4 := ⟨_, rfl⟩
  have hb4 : b < 4 := by omega
  have hd1' : d1 ≤ 36524 ∧ (b ≠ 3 → d1 < 36524) ∧ d0 = 36524 * b + d1 := by omega
  have hc' : c < 25 := by omega
  have hd2' : d2 < 1461 ∧ (b ≠ 3 → c = 24 → d2 < 1460) ∧ d1 = 1461 * c + d2 := by omega
  refine ⟨n / 146097, b, c, e, d2 - 365 * e, hb4, hc', by omega, ?_, ?_⟩
  · omega
  · omega

theorem leap_split (a : Int) (b c e : Nat) (hb : b < 4) (hc : c < 25) (he : e < 4) :
    isLeap (400 * a + 100 * b + 4 * c + e + 1) = true ↔ e = 3 ∧ (c ≠ 24 ∨ b = 3) := by
  rw [isLeap_iff]
  omega

theorem dayOf_spec (n : Int) : (dayOf n).Exists ∧ dayNumber (dayOf n) = n := by
  obtain ⟨a, b, c, e, t, hb, hc, he, ht, rfl⟩ := split_exists n
  have hl := leap_split a b c e hb hc he
  have hbound : t < (if isLeap (400 * a + 100 * b + 4 * c + e + 1) then 366 else 365) := by
    split
    · omega
    · rename_i h
      have := mt hl.2 h
      omega
  have hm := monthDay_spec _ t hbound
  rw [dayOf_split a b c e t hb hc he ht]
  refine ⟨?h, ?_⟩
  case h =>
    refine ⟨hm.1, hm.2.1, hm.2.2.1, ?_⟩
    rw [monthLength_eq]
    exact hm.2.2.2.1
  rw [dayNumber_eq _ (by refine ⟨hm.1, hm.2.1, hm.2.2.1, ?_⟩; rw [monthLength_eq]; exact hm.2.2.2.1)]
  simp only [hm.2.2.2.2]
  omega

theorem dayOf_dayNumber (d : Day) (h : d.Exists) : dayOf (dayNumber d) = d := by
  have hx := h
  obtain ⟨h1, h2, h3, h4⟩ := h
  rw [monthLength_eq] at h4
  have hs := dayOfYear_spec (isLeap d.year) d.month (by omega) d.day
    (by have := lengthOf_le (isLeap d.year) d.month; omega) ⟨h1, h3, h4⟩
  rw [dayNumber_eq d hx]
  obtain ⟨a, b, c, e, hb, hc, he, hy⟩ : ∃ (a : Int) (b c e : Nat), b < 4 ∧ c < 25 ∧ e < 4 ∧
      d.year = 400 * a + 100 * b + 4 * c + e + 1 :=
    ⟨(d.year - 1) / 400, ((d.year - 1) % 400 / 100).toNat, ((d.year - 1) % 100 / 4).toNat,
      ((d.year - 1) % 4).toNat, by omega, by omega, by omega, by omega⟩
  have hl := leap_split a b c e hb hc he
  rw [← hy] at hl
  have e1 : (d.year - 1) / 400 = a := by omega
  have e2 : (d.year - 1) % 400 / 100 = b := by omega
  have e3 : (d.year - 1) % 100 / 4 = c := by omega
  have e4 : (d.year - 1) % 4 = e := by omega
  rw [e1, e2, e3, e4, dayOf_split a b c e _ hb hc he, ← hy, hs.2.1, hs.2.2]
  by_cases hleap : isLeap d.year = true
  · have := hs.1
    simp only [hleap, if_true] at this ⊢
    have := hl.1 hleap
    omega
  · have := hs.1
    simp only [hleap] at this ⊢
    exact .inl (by simpa using this)

theorem next_exists (d : Day) (h : d.Exists) : d.next.Exists := by
  obtain ⟨h1, h2, h3, h4⟩ := h
  have hpos : ∀ y m, 1 ≤ monthLength y m := by
    intro y m
    rw [monthLength_eq]; unfold lengthOf; split <;> (try split) <;> (try split) <;> omega
  unfold Day.next
  split
  · exact ⟨h1, h2, Nat.le_add_left 1 _, by show d.day + 1 ≤ monthLength d.year d.month; omega⟩
  · split
    · exact ⟨Nat.le_add_left 1 _, by show d.month + 1 ≤ 12; omega, Nat.le_refl 1, hpos _ _⟩
    · exact ⟨Nat.le_refl 1, by show 1 ≤ 12; omega, Nat.le_refl 1, hpos _ _⟩

set_option maxRecDepth 20000 in
theorem dayOfYear_next : ∀ leap : Bool, ∀ m, m < 12 → 1 ≤ m →
    dayOfYear leap m (lengthOf leap m) + 1 = dayOfYear leap (m + 1) 1 := by
  decide

theorem dayNumber_next (d : Day) (h : d.Exists) : dayNumber d.next = dayNumber d + 1 := by
  rw [dayNumber_eq d h, dayNumber_eq d.next (next_exists d h)]
  obtain ⟨h1, h2, h3, h4⟩ := h
  unfold Day.next
  by_cases hd : d.day < monthLength d.year d.month
  · simp only [hd, if_true]
    have : dayOfYear (isLeap d.year) d.month (d.day + 1)
        = dayOfYear (isLeap d.year) d.month d.day + 1 := by
      unfold dayOfYear; split <;> omega
    omega
  · have he : d.day = lengthOf (isLeap d.year) d.month := by rw [← monthLength_eq]; omega
    simp only [hd, if_false]
    by_cases hm : d.month < 12
    · simp only [hm, if_true]
      have := dayOfYear_next (isLeap d.year) d.month hm h1
      rw [← he] at this
      omega
    · have hm' : d.month = 12 := by omega
      simp only [hm', Nat.lt_irrefl, if_false]
      have hday : d.day = 31 := by rw [he, hm']; simp [lengthOf]
      have e1 : dayOfYear (isLeap d.year) 12 d.day = if isLeap d.year then 365 else 364 := by
        rw [hday]; cases isLeap d.year <;> rfl
      have e2 : dayOfYear (isLeap (d.year + 1)) 1 1 = 0 := by cases isLeap (d.year + 1) <;> rfl
      rw [e1, e2]
      have hl := isLeap_iff d.year
      split
      · rename_i h
        have := hl.1 h
        omega
      · rename_i h
        have := mt hl.2 h
        omega

/-! ## Reading -/

theorem digitOf_isSome (c : Char) : (digitOf c).isSome = c.isDigit := by
  unfold digitOf Char.isDigit
  have h1 : ('0' ≤ c) ↔ (48 ≤ c.val) := Iff.rfl
  have h2 : (c ≤ '9') ↔ (c.val ≤ 57) := Iff.rfl
  by_cases h : '0' ≤ c ∧ c ≤ '9'
  · rw [if_pos h]
    simp [h1.1 h.1, h2.1 h.2]
  · rw [if_neg h]
    rw [h1, h2] at h
    simp only [Option.isSome_none]
    symm
    rw [Bool.and_eq_false_iff]
    by_cases h3 : 48 ≤ c.val
    · right
      have := fun h4 => h ⟨h3, h4⟩
      simpa using this
    · left
      simpa using h3

theorem digitOf_eq (c : Char) :
    digitOf c = match digitVal c with
      | none => none
      | some d => if d < 10 then some d else none := by
  have h1 : ('0' ≤ c) ↔ ('0'.toNat ≤ c.toNat) := by
    show (48 : UInt32) ≤ c.val ↔ 48 ≤ c.val.toNat
    exact UInt32.le_iff_toNat_le
  have h2 : (c ≤ '9') ↔ (c.toNat ≤ '9'.toNat) := by
    show c.val ≤ (57 : UInt32) ↔ c.val.toNat ≤ 57
    exact UInt32.le_iff_toNat_le
  have e9 : '9'.toNat = 57 := rfl
  have e0 : '0'.toNat = 48 := rfl
  unfold digitOf digitVal
  by_cases h : '0'.toNat ≤ c.toNat ∧ c.toNat ≤ '9'.toNat
  · rw [if_pos h, if_pos ⟨h1.2 h.1, h2.2 h.2⟩]
    have : c.toNat - '0'.toNat < 10 := by omega
    simp only [this, if_true]
  · rw [if_neg h, if_neg fun h' => h ⟨h1.1 h'.1, h2.1 h'.2⟩]
    by_cases h' : 'a'.toNat ≤ c.toNat ∧ c.toNat ≤ 'f'.toNat
    · rw [if_pos h']
      simp
    · rw [if_neg h']

theorem digitsOf_eq (v : Nat) (s : Text) : digitsOf v s = numeralFrom 10 v s := by
  induction s generalizing v with
  | nil => rfl
  | cons c cs ih =>
    rw [digitsOf, numeralFrom, digitOf_eq]
    cases digitVal c with
    | none => rfl
    | some d =>
      simp only
      by_cases h : d < 10
      · simp only [h, if_true, ih, Nat.mul_comm]
      · simp only [h, if_false]

theorem digitsOf_zero (s : Text) (hs : s ≠ []) : digitsOf 0 s = numeral 10 s := by
  rw [digitsOf_eq, numeral, if_neg hs]

theorem parseUint_iff (s : Text) (hs : s ≠ []) (low high n : Nat) :
    parseUint s low high = some n ↔ numeral 10 s = some n ∧ low ≤ n ∧ n ≤ high := by
  unfold parseUint
  rw [digitsOf_zero s hs]
  cases numeral 10 s with
  | none => simp
  | some v =>
    simp only [Option.some.injEq]
    split
    · rename_i h
      simp only [Option.some.injEq]
      exact ⟨fun h' => ⟨h', h' ▸ h⟩, fun h' => h'.1⟩
    · rename_i h
      simp only [reduceCtorEq, false_iff]
      rintro ⟨rfl, h'⟩
      exact h h'

theorem length_two {s : Text} (h : s.length = 2) : ∃ a b, s = [a, b] := by
  match s, h with
  | [a, b], _ => exact ⟨a, b, rfl⟩

theorem length_four {s : Text} (h : s.length = 4) : ∃ a b c d, s = [a, b, c, d] := by
  match s, h with
  | [a, b, c, d], _ => exact ⟨a, b, c, d, rfl⟩

theorem parseZone_sign (sign h1 h2 m1 m2 : Char) (o : Int) :
    parseZone [sign, h1, h2, ':', m1, m2] = some o ↔
      ∃ h m, parseUint [h1, h2] 0 23 = some h ∧ parseUint [m1, m2] 0 59 = some m ∧
        ((sign = '+' ∧ o = 3600 * h + 60 * m) ∨ (sign = '-' ∧ o = -(3600 * h + 60 * m))) := by
  simp only [parseZone]
  cases hh : parseUint [h1, h2] 0 23 with
  | none => simp
  | some h =>
    cases hm : parseUint [m1, m2] 0 59 with
    | none => simp
    | some m =>
      simp only [Option.some.injEq]
      by_cases hm : sign = '-'
      · subst hm
        simp only [true_or, if_true, Option.some.injEq]
        constructor
        · rintro rfl
          exact ⟨h, m, rfl, rfl, .inr ⟨by trivial, by omega⟩⟩
        · rintro ⟨_, _, rfl, rfl, ⟨h', _⟩ | ⟨_, rfl⟩⟩
          · exact absurd h' (by decide)
          · omega
      · by_cases hp : sign = '+'
        · subst hp
          simp only [or_true, if_true, if_neg hm, Option.some.injEq]
          constructor
          · rintro rfl
            exact ⟨h, m, rfl, rfl, .inl ⟨by trivial, by omega⟩⟩
          · rintro ⟨_, _, rfl, rfl, ⟨_, rfl⟩ | ⟨h', _⟩⟩
            · omega
            · exact absurd h' (by decide)
        · simp [hm, hp]

theorem parseZone_iff (s : Text) (o : Int) : parseZone s = some o ↔ OffsetOf s o := by
  constructor
  · intro h
    have h0 := h
    unfold parseZone at h
    split at h
    · exact .inl ⟨rfl, by simpa using h.symm⟩
    · rename_i sign h1 h2 m1 m2
      obtain ⟨h, m, hh, hm, ho⟩ := (parseZone_sign ..).1 h0
      rw [parseUint_iff _ (by simp)] at hh hm
      exact .inr ⟨sign, [h1, h2], [m1, m2], h, m, rfl, ⟨rfl, hh.1⟩, ⟨rfl, hm.1⟩, by omega, by omega, ho⟩
    · cases h
  · rintro (⟨rfl, rfl⟩ | ⟨sign, hs, ms, h, m, rfl, hh, hm, h24, h60, ho⟩)
    · rfl
    · obtain ⟨h1, h2, rfl⟩ := length_two hh.1
      obtain ⟨m1, m2, rfl⟩ := length_two hm.1
      refine (parseZone_sign ..).2 ⟨h, m, ?_, ?_, ho⟩
      · exact (parseUint_iff _ (by simp) ..).2 ⟨hh.2, by omega, by omega⟩
      · exact (parseUint_iff _ (by simp) ..).2 ⟨hm.2, by omega, by omega⟩

theorem offset_head {s : Text} {o : Int} (h : OffsetOf s o) :
    ∃ c cs, s = c :: cs ∧ c.isDigit = false ∧ c ≠ '.' := by
  rcases h with ⟨rfl, _⟩ | ⟨sign, hs, ms, h, m, rfl, _, _, _, _, ⟨rfl, _⟩ | ⟨rfl, _⟩⟩
  · exact ⟨_, _, rfl, by decide, by decide⟩
  · exact ⟨_, _, rfl, by decide, by decide⟩
  · exact ⟨_, _, rfl, by decide, by decide⟩

theorem numeralFrom_digits (v : Nat) (s : Text) (h : ∀ c ∈ s, c.isDigit = true) :
    ∃ n, numeralFrom 10 v s = some n := by
  rw [← digitsOf_eq]
  induction s generalizing v with
  | nil => exact ⟨v, rfl⟩
  | cons c cs ih =>
    have := h c (by simp)
    rw [← digitOf_isSome] at this
    obtain ⟨d, hd⟩ := Option.isSome_iff_exists.1 this
    rw [digitsOf, hd]
    exact ih _ fun c hc => h c (by simp [hc])

theorem digits_fun : (fun c => (digitOf c).isSome) = (fun c : Char => c.isDigit) :=
  funext digitOf_isSome

theorem drop_of_append {a b l : Text} (h : a ++ b = l) : l.drop a.length = b := by
  subst h
  simp

theorem numeralFrom_lt (v n : Nat) (s : Text) (h : numeralFrom 10 v s = some n) :
    n < (v + 1) * 10 ^ s.length := by
  induction s generalizing v with
  | nil => simp [numeralFrom] at h; simp; omega
  | cons c cs ih =>
    rw [numeralFrom] at h
    split at h
    · cases h
    · split at h
      · rename_i d _ hd
        have h1 := ih _ h
        have h2 : (10 * v + d + 1) * 10 ^ cs.length ≤ ((v + 1) * 10) * 10 ^ cs.length :=
          Nat.mul_le_mul_right _ (by omega)
        rw [List.length_cons, Nat.pow_succ, Nat.mul_comm (10 ^ cs.length), ← Nat.mul_assoc]
        omega
      · cases h

theorem written_lt {k n : Nat} {s : Text} (h : Written k s n) : n < 10 ^ k := by
  obtain ⟨rfl, h⟩ := h
  unfold numeral at h
  split at h
  · cases h
  · have := numeralFrom_lt 0 n s h
    omega

theorem fraction_lt {s : Text} {n : Nat} (h : FractionOf s n) : n < 1000000000 := by
  rcases h with ⟨_, rfl⟩ | ⟨ds, _, k, v, hw, _, hk, rfl⟩
  · decide
  · have h1 := written_lt hw
    have h2 : k ≤ 9 := by have := hw.1; simp at this; omega
    have h3 : v * 10 ^ (9 - k) < 10 ^ k * 10 ^ (9 - k) :=
      Nat.mul_lt_mul_of_pos_right h1 (Nat.pow_pos (by decide))
    rw [← Nat.pow_add, show k + (9 - k) = 9 by omega] at h3
    exact h3

theorem parseFraction_dot (c : Char) (rest : Text) (hc : c.isDigit = true) :
    parseFraction ('.' :: c :: rest) =
      ((digitsOf 0 (((c :: rest).takeWhile fun c => c.isDigit).take 9)).getD 0 *
        10 ^ (9 - (((c :: rest).takeWhile fun c => c.isDigit).take 9).length),
        (c :: rest).dropWhile fun c => c.isDigit) := by
  simp only [parseFraction, digits_fun, digitOf_isSome, hc, if_true]
  have h := List.takeWhile_append_dropWhile (p := fun c : Char => c.isDigit) (l := c :: rest)
  have h' : (c :: rest).drop ((c :: rest).takeWhile fun c : Char => c.isDigit).length =
      (c :: rest).dropWhile fun c => c.isDigit := drop_of_append h
  rw [h']

theorem parseFraction_else (s : Text)
    (h : ∀ c rest, s = '.' :: c :: rest → c.isDigit = false) : parseFraction s = (0, s) := by
  unfold parseFraction
  split
  · rename_i c rest
    rw [digitOf_isSome, h c rest rfl]
    rfl
  · rfl

theorem mem_takeWhile_digit (s : Text) (c : Char) (h : c ∈ s.takeWhile fun c => c.isDigit) :
    c.isDigit = true := by
  have := List.all_takeWhile (p := fun c : Char => c.isDigit) (l := s)
  exact List.all_eq_true.1 this c h

theorem parseFraction_spec (s : Text) :
    ∃ f, s = f ++ (parseFraction s).2 ∧ FractionOf f (parseFraction s).1 := by
  by_cases h : ∀ c rest, s = '.' :: c :: rest → c.isDigit = false
  · rw [parseFraction_else s h]
    exact ⟨[], rfl, .inl ⟨rfl, rfl⟩⟩
  · simp only [Classical.not_forall] at h
    obtain ⟨c, rest, rfl, hc⟩ := h
    have hc : c.isDigit = true := by simpa using hc
    rw [parseFraction_dot c rest hc]
    have hne : ((c :: rest).takeWhile (fun c => c.isDigit)).take 9 ≠ [] := by simp [hc]
    refine ⟨'.' :: (c :: rest).takeWhile (fun c => c.isDigit), ?_, .inr ⟨_, rfl, ?_⟩⟩
    · rw [List.cons_append, List.takeWhile_append_dropWhile]
    · obtain ⟨n, hn⟩ := numeralFrom_digits 0 (((c :: rest).takeWhile (fun c => c.isDigit)).take 9)
        fun x hx => mem_takeWhile_digit _ x (List.mem_of_mem_take hx)
      refine ⟨_, n, ⟨rfl, ?_⟩, mem_takeWhile_digit _, ?_, ?_⟩
      · rw [numeral, if_neg hne, hn]
      · exact List.length_pos_iff.2 hne
      · rw [digitsOf_eq, hn]; rfl

theorem parseFraction_append (f : Text) (n : Nat) (hf : FractionOf f n) (c : Char) (cs : Text)
    (hc : c.isDigit = false) (hd : c ≠ '.') : parseFraction (f ++ c :: cs) = (n, c :: cs) := by
  rcases hf with ⟨rfl, rfl⟩ | ⟨ds, rfl, k, v, hw, hds, hk, rfl⟩
  · refine parseFraction_else _ fun c' rest h => ?_
    simp only [List.nil_append, List.cons.injEq] at h
    exact absurd h.1 hd
  · match ds, hw, hds with
    | [], hw, _ => 
      have := hw.1
      simp at this
      omega
    | d :: ds, hw, hds =>
      rw [List.cons_append, List.cons_append, parseFraction_dot d _ (hds d (by simp))]
      have h1 : (d :: (ds ++ c :: cs)).takeWhile (fun c => c.isDigit) = d :: ds := by
        rw [← List.cons_append, List.takeWhile_append_of_pos (by simpa using hds)]
        simp [hc]
      have h2 : (d :: (ds ++ c :: cs)).dropWhile (fun c => c.isDigit) = c :: cs := by
        rw [← List.cons_append, List.dropWhile_append_of_pos (by simpa using hds)]
        simp [hc]
      rw [h1, h2, digitsOf_zero _ (by simp), hw.2, hw.1]
      rfl

/-- The parts of the text of a date. -/
theorem parse_iff (s : Text) (m : Moment) : parse s = some m ↔ Says s m := by
  constructor
  · intro h
    unfold parse at h
    split at h
    case h_2 => cases h
    rename_i y1 y2 y3 y4 s1 m1 m2 s2 d1 d2 s3 h1 h2 s4 i1 i2 s5 c1 c2 rest
    split at h
    case h_2 => cases h
    rename_i year month hy hmo
    split at h
    case h_2 => cases h
    rename_i day hour minute second hd hh hi hs
    split at h
    case isFalse => cases h
    rename_i hsep
    obtain ⟨rfl, rfl, rfl, rfl, rfl⟩ := hsep
    simp only at h
    split at h
    case h_2 => cases h
    rename_i offset ho
    obtain rfl := Option.some.inj h
    obtain ⟨f, hf, hfr⟩ := parseFraction_spec rest
    rw [parseUint_iff _ (by simp)] at hy hmo hd hh hi hs
    rw [parseZone_iff] at ho
    have hlen := daysIn_eq month year hmo.2.1 hmo.2.2
    refine ⟨[y1, y2, y3, y4], [m1, m2], [d1, d2], [h1, h2], [i1, i2], [c1, c2], f,
      (parseFraction rest).2, year, ?_, ⟨rfl, hy.1⟩, rfl, ⟨rfl, hmo.1⟩, ⟨rfl, hd.1⟩, ⟨rfl, hh.1⟩,
      ⟨rfl, hi.1⟩, ⟨rfl, hs.1⟩, hfr, ho, ?_⟩
    · rw [← hf]; rfl
    · refine ⟨⟨hmo.2.1, hmo.2.2, hd.2.1, ?_⟩, ?_, ?_, ?_, ?_⟩
      · exact hlen ▸ hd.2.2
      · exact Nat.lt_succ_of_le hh.2.2
      · exact Nat.lt_succ_of_le hi.2.2
      · exact Nat.lt_succ_of_le hs.2.2
      · exact fraction_lt hfr
  · rintro ⟨y, mo, d, h, mi, sec, f, z, year, rfl, hy, hye, hmo, hd, hh, hi, hs, hf, ho, hx⟩
    obtain ⟨y1, y2, y3, y4, rfl⟩ := length_four hy.1
    obtain ⟨m1, m2, rfl⟩ := length_two hmo.1
    obtain ⟨d1, d2, rfl⟩ := length_two hd.1
    obtain ⟨h1, h2, rfl⟩ := length_two hh.1
    obtain ⟨i1, i2, rfl⟩ := length_two hi.1
    obtain ⟨c1, c2, rfl⟩ := length_two hs.1
    obtain ⟨⟨hx1, hx2, hx3, hx4⟩, hx5, hx6, hx7, hx8⟩ := hx
    obtain ⟨c, cs, rfl, hc, hc'⟩ := offset_head ho
    have hlen := daysIn_eq m.date.month year hx1 hx2
    have e1 : parseUint [y1, y2, y3, y4] 0 9999 = some year :=
      (parseUint_iff _ (by simp) ..).2 ⟨hy.2, by omega, by have := written_lt hy; omega⟩
    have e2 : parseUint [m1, m2] 1 12 = some m.date.month :=
      (parseUint_iff _ (by simp) ..).2 ⟨hmo.2, hx1, hx2⟩
    have e3 : parseUint [d1, d2] 1 (daysIn m.date.month year) = some m.date.day :=
      (parseUint_iff _ (by simp) ..).2 ⟨hd.2, hx3, by rw [hlen, ← hye]; exact hx4⟩
    have e4 : parseUint [h1, h2] 0 23 = some m.hour :=
      (parseUint_iff _ (by simp) ..).2 ⟨hh.2, by omega, by omega⟩
    have e5 : parseUint [i1, i2] 0 59 = some m.minute :=
      (parseUint_iff _ (by simp) ..).2 ⟨hi.2, by omega, by omega⟩
    have e6 : parseUint [c1, c2] 0 59 = some m.second :=
      (parseUint_iff _ (by simp) ..).2 ⟨hs.2, by omega, by omega⟩
    have e7 := parseFraction_append f m.nanos hf c cs hc hc'
    have e8 := (parseZone_iff _ _).2 ho
    simp only [List.cons_append, List.nil_append, parse, e1, e2, e3, e4, e5, e6, e7, e8, and_self,
      if_true]
    rw [← hye]

/-! ## Writing -/

theorem numeralFrom_utod (v d : Nat) (cs : Text) (h : d < 10) :
    numeralFrom 10 v (utod d :: cs) = numeralFrom 10 (10 * v + d) cs := by
  rw [numeralFrom, utod, digitVal_digitChar d (by omega)]
  simp only [h, if_true]

theorem appendNat_two (n : Nat) (h : n < 100) : Written 2 (appendNat 2 n) n := by
  have : appendNat 2 n = [utod (n / 10), utod (n % 10)] := by simp [appendNat, h]
  rw [this]
  refine ⟨rfl, ?_⟩
  rw [numeral, if_neg (by simp), numeralFrom_utod _ _ _ (by omega), numeralFrom_utod _ _ _ (by omega)]
  simp only [numeralFrom]
  congr 1
  omega

theorem appendNat_four (n : Nat) (h : n < 10000) : Written 4 (appendNat 4 n) n := by
  have : appendNat 4 n =
      [utod (n / 1000), utod (n / 100 % 10), utod (n / 10 % 10), utod (n % 10)] := by
    simp [appendNat, h]
  rw [this]
  refine ⟨rfl, ?_⟩
  rw [numeral, if_neg (by simp), numeralFrom_utod _ _ _ (by omega), numeralFrom_utod _ _ _ (by omega),
    numeralFrom_utod _ _ _ (by omega), numeralFrom_utod _ _ _ (by omega)]
  simp only [numeralFrom]
  congr 1
  omega

theorem zoneText_spec (o : Int) (h : 60 ∣ o) (h1 : -86400 < o) (h2 : o < 86400) :
    OffsetOf (zoneText o) o := by
  obtain ⟨z, rfl⟩ := h
  unfold zoneText
  by_cases h0 : 60 * z = 0
  · rw [if_pos h0]
    exact .inl ⟨rfl, h0⟩
  · rw [if_neg h0]
    have hz : (60 * z).tdiv 60 = z := Int.mul_tdiv_cancel_left z (by decide)
    simp only [hz]
    refine .inr ⟨_, _, _, z.natAbs / 60, z.natAbs % 60, rfl, appendNat_two _ (by omega),
      appendNat_two _ (by omega), by omega, by omega, ?_⟩
    by_cases hn : z < 0
    · rw [if_pos hn]
      exact .inr ⟨rfl, by omega⟩
    · rw [if_neg hn]
      exact .inl ⟨rfl, by omega⟩

theorem utod_digit : ∀ d, d < 10 → (utod d).isDigit = true := by decide

theorem nineDigits_spec (n : Nat) (h : n < 1000000000) :
    Written 9 (nineDigits n) n ∧ ∀ c ∈ nineDigits n, c.isDigit = true := by
  refine ⟨⟨rfl, ?_⟩, ?_⟩
  · unfold nineDigits
    rw [numeral, if_neg (by simp)]
    iterate 9 rw [numeralFrom_utod _ _ _ (by omega)]
    simp only [numeralFrom]
    congr 1
    omega
  · intro c hc
    simp only [nineDigits, List.mem_cons, List.not_mem_nil, or_false] at hc
    rcases hc with rfl | rfl | rfl | rfl | rfl | rfl | rfl | rfl | rfl <;>
      exact utod_digit _ (Nat.mod_lt _ (by decide))

theorem trimZeros_spec (s : Text) : ∃ k, s = trimZeros s ++ List.replicate k '0' := by
  induction s with
  | nil => exact ⟨0, rfl⟩
  | cons c cs ih =>
    obtain ⟨k, hk⟩ := ih
    rw [trimZeros]
    split
    · rename_i h
      rw [h, List.nil_append] at hk
      by_cases hc : c = '0'
      · subst hc
        exact ⟨k + 1, by simp [hk, List.replicate_succ]⟩
      · have : (c == '0') = false := by simpa using hc
        simp only [this, Bool.false_eq_true, if_false]
        exact ⟨k, by simp [hk]⟩
    · rename_i h
      exact ⟨k, by conv => lhs; rw [hk]
                   rfl⟩

theorem numeralFrom_zeros (v k : Nat) :
    numeralFrom 10 v (List.replicate k '0') = some (v * 10 ^ k) := by
  induction k generalizing v with
  | zero => simp [numeralFrom]
  | succ k ih =>
    rw [List.replicate_succ, show '0' = utod 0 from rfl, numeralFrom_utod _ _ _ (by decide),
      show utod 0 = '0' from rfl, ih, Nat.pow_succ]
    congr 1
    rw [Nat.add_zero, Nat.mul_comm 10 v, Nat.mul_assoc, Nat.mul_comm 10]

theorem fractionText_spec (n : Nat) (h : n < 1000000000) : FractionOf (fractionText n) n := by
  obtain ⟨⟨hl, hn⟩, hd⟩ := nineDigits_spec n h
  obtain ⟨k, hk⟩ := trimZeros_spec (nineDigits n)
  rw [numeral, if_neg (by intro h0; rw [h0] at hl; cases hl)] at hn
  have hlen : (trimZeros (nineDigits n)).length + k = 9 := by
    rw [hk] at hl
    simpa using hl
  rw [hk, numeralFrom_append] at hn
  unfold fractionText
  split
  · rename_i h0
    rw [h0] at hn
    simp only [numeralFrom, Option.bind_some, numeralFrom_zeros] at hn
    exact .inl ⟨rfl, by simpa using hn.symm⟩
  · rename_i h0
    have h0' : trimZeros (nineDigits n) ≠ [] := h0
    cases hv : numeralFrom 10 0 (trimZeros (nineDigits n)) with
    | none => rw [hv] at hn; cases hn
    | some v =>
      rw [hv, Option.bind_some, numeralFrom_zeros] at hn
      have htake : (trimZeros (nineDigits n)).take 9 = trimZeros (nineDigits n) :=
        List.take_of_length_le (by omega)
      refine .inr ⟨_, rfl, _, v, ?_, ?_, List.length_pos_iff.2 h0', ?_⟩
      · rw [htake]
        exact ⟨rfl, by rw [numeral, if_neg h0', hv]⟩
      · intro c hc
        exact hd c (by rw [hk]; simp [hc])
      · rw [show 9 - (trimZeros (nineDigits n)).length = k by omega]
        exact (Option.some.inj hn).symm

theorem says_clock (m : Moment) (hx : m.Exists) (h0 : 0 ≤ m.date.year) (h1 : m.date.year ≤ 9999)
    (f z : Text) (nanos : Nat) (hf : FractionOf f nanos) (o : Int) (ho : OffsetOf z o) :
    Says (clockText m ++ (f ++ z)) { m with nanos := nanos, offset := o } := by
  obtain ⟨⟨hx1, hx2, hx3, hx4⟩, hx5, hx6, hx7, hx8⟩ := hx
  have h31 : m.date.day ≤ 31 := by
    have := lengthOf_le (isLeap m.date.year) m.date.month
    rw [monthLength_eq] at hx4
    omega
  refine ⟨appendNat 4 m.date.year.natAbs, _, _, _, _, _, f, z, m.date.year.natAbs, ?_,
    appendNat_four _ (by omega), by show m.date.year = _; omega, appendNat_two m.date.month (by omega),
    appendNat_two m.date.day (by omega), appendNat_two m.hour (by omega),
    appendNat_two m.minute (by omega), appendNat_two m.second (by omega), hf, ho,
    ⟨⟨hx1, hx2, hx3, hx4⟩, hx5, hx6, hx7, fraction_lt hf⟩⟩
  have : ¬ m.date.year < 0 := by omega
  simp only [clockText, appendInt, this, if_false, List.append_assoc, List.cons_append]

theorem says_format (m : Moment) (hx : m.Exists) (hw : m.Writable) :
    Says (format m) { m with nanos := 0 } := by
  obtain ⟨h1, h2, h3, h4, h5⟩ := hw
  exact says_clock m hx h1 h2 [] (zoneText m.offset) 0 (.inl ⟨rfl, rfl⟩) m.offset
    (zoneText_spec _ h3 h4 h5)

theorem says_formatNano (m : Moment) (hx : m.Exists) (hw : m.Writable) : Says (formatNano m) m := by
  obtain ⟨h1, h2, h3, h4, h5⟩ := hw
  exact says_clock m hx h1 h2 (fractionText m.nanos) (zoneText m.offset) m.nanos
    (fractionText_spec _ hx.2.2.2.2) m.offset (zoneText_spec _ h3 h4 h5)

/-! ## What was written -/

theorem says_clock_inv (m : Moment) (hx : m.Exists) (h0 : 0 ≤ m.date.year) (h1 : m.date.year ≤ 9999)
    (rest : Text) (m' : Moment) (h : Says (clockText m ++ rest) m') :
    m'.date = m.date ∧ m'.hour = m.hour ∧ m'.minute = m.minute ∧ m'.second = m.second ∧
      ∃ f z, rest = f ++ z ∧ FractionOf f m'.nanos ∧ OffsetOf z m'.offset := by
  obtain ⟨⟨hx1, hx2, hx3, hx4⟩, hx5, hx6, hx7, hx8⟩ := hx
  have h31 : m.date.day ≤ 31 := by
    have := lengthOf_le (isLeap m.date.year) m.date.month
    rw [monthLength_eq] at hx4
    omega
  have hneg : ¬ m.date.year < 0 := by omega
  have wy := appendNat_four m.date.year.natAbs (by omega)
  have wmo := appendNat_two m.date.month (by omega)
  have wd := appendNat_two m.date.day (by omega)
  have wh := appendNat_two m.hour (by omega)
  have wi := appendNat_two m.minute (by omega)
  have ws := appendNat_two m.second (by omega)
  obtain ⟨y, mo, d, hh, mi, sec, f, z, year, he, hy, hye, hmo, hd, hhh, hi, hs, hf, ho, _⟩ := h
  simp only [clockText, appendInt, hneg, if_false] at he
  generalize appendNat 4 m.date.year.natAbs = ty at *
  generalize appendNat 2 m.date.month = tmo at *
  generalize appendNat 2 m.date.day = td at *
  generalize appendNat 2 m.hour = th at *
  generalize appendNat 2 m.minute = ti at *
  generalize appendNat 2 m.second = ts at *
  obtain ⟨_, _, _, _, rfl⟩ := length_four wy.1
  obtain ⟨_, _, rfl⟩ := length_two wmo.1
  obtain ⟨_, _, rfl⟩ := length_two wd.1
  obtain ⟨_, _, rfl⟩ := length_two wh.1
  obtain ⟨_, _, rfl⟩ := length_two wi.1
  obtain ⟨_, _, rfl⟩ := length_two ws.1
  obtain ⟨_, _, _, _, rfl⟩ := length_four hy.1
  obtain ⟨_, _, rfl⟩ := length_two hmo.1
  obtain ⟨_, _, rfl⟩ := length_two hd.1
  obtain ⟨_, _, rfl⟩ := length_two hhh.1
  obtain ⟨_, _, rfl⟩ := length_two hi.1
  obtain ⟨_, _, rfl⟩ := length_two hs.1
  simp only [List.cons_append, List.nil_append, List.cons.injEq, true_and] at he
  obtain ⟨rfl, rfl, rfl, rfl, rfl, rfl, rfl, rfl, rfl, rfl, rfl, rfl, rfl, rfl, rfl⟩ := he
  have ey := Option.some.inj (wy.2.symm.trans hy.2)
  have emo := Option.some.inj (wmo.2.symm.trans hmo.2)
  have ed := Option.some.inj (wd.2.symm.trans hd.2)
  have eh := Option.some.inj (wh.2.symm.trans hhh.2)
  have ei := Option.some.inj (wi.2.symm.trans hi.2)
  have es := Option.some.inj (ws.2.symm.trans hs.2)
  refine ⟨?_, eh.symm, ei.symm, es.symm, f, z, rfl, hf, ho⟩
  obtain ⟨⟨y1, m1, d1⟩, _⟩ := m'
  obtain ⟨⟨y2, m2, d2⟩, _⟩ := m
  simp only [Day.mk.injEq] at *
  exact ⟨by omega, emo.symm, ed.symm⟩

theorem appendNat_digits (w n : Nat) : ∀ c ∈ appendNat w n, c.isDigit = true := by
  unfold appendNat
  split
  · rename_i h
    simp only [Bool.and_eq_true, decide_eq_true_eq] at h
    intro c hc
    simp only [List.mem_cons, List.not_mem_nil, or_false] at hc
    rcases hc with rfl | rfl <;> exact utod_digit _ (by omega)
  · split
    · rename_i h
      simp only [Bool.and_eq_true, decide_eq_true_eq] at h
      intro c hc
      simp only [List.mem_cons, List.not_mem_nil, or_false] at hc
      rcases hc with rfl | rfl | rfl | rfl <;> exact utod_digit _ (by omega)
    · intro c hc
      rcases List.mem_append.1 hc with hc | hc
      · rw [(List.mem_replicate.1 hc).2]; rfl
      · exact Nat.isDigit_of_mem_toDigits (by decide) (by decide) hc

theorem appendNat_long (n : Nat) (h : 10000 ≤ n) : 4 < (appendNat 4 n).length := by
  have h1 : ¬ n < 10000 := by omega
  have : (appendNat 4 n).length = 4 - (Nat.toDigits 10 n).length + (Nat.toDigits 10 n).length := by
    simp [appendNat, h1]
  rw [this]
  have hl := numeralFrom_lt 0 n _ (numeralFrom_toDigits 10 (by decide) (by decide) n)
  by_cases hc : (Nat.toDigits 10 n).length ≤ 4
  · have : 10 ^ (Nat.toDigits 10 n).length ≤ 10 ^ 4 := Nat.pow_le_pow_right (by decide) hc
    omega
  · omega

theorem says_year (m : Moment) (rest : Text) (m' : Moment) (h : Says (clockText m ++ rest) m') :
    0 ≤ m.date.year ∧ m.date.year ≤ 9999 := by
  obtain ⟨y, mo, d, hh, mi, sec, f, z, year, he, hy, _⟩ := h
  obtain ⟨y1, y2, y3, y4, rfl⟩ := length_four hy.1
  by_cases hneg : m.date.year < 0
  · simp only [clockText, appendInt, hneg, if_true, List.cons_append, List.cons.injEq] at he
    obtain ⟨rfl, _⟩ := he
    have := hy.2
    simp [numeral, numeralFrom, digitVal] at this
  · refine ⟨by omega, ?_⟩
    by_cases hbig : m.date.year ≤ 9999
    · exact hbig
    · exfalso
      have hlen := appendNat_long m.date.year.natAbs (by omega)
      have hdig := appendNat_digits 4 m.date.year.natAbs
      simp only [clockText, appendInt, hneg, if_false] at he
      generalize appendNat 4 m.date.year.natAbs = ty at *
      match ty, hlen with
      | a :: b :: c :: d :: e :: ty, _ =>
        simp only [List.cons_append, List.nil_append, List.cons.injEq] at he
        have := hdig e (by simp)
        rw [he.2.2.2.2.1] at this
        exact absurd this (by decide)

theorem offset_bounds {z : Text} {o : Int} (h : OffsetOf z o) :
    60 ∣ o ∧ -86400 < o ∧ o < 86400 := by
  rcases h with ⟨_, rfl⟩ | ⟨_, _, _, h, m, _, _, _, h1, h2, ⟨_, rfl⟩ | ⟨_, rfl⟩⟩ <;> omega

theorem zoneText_head (o : Int) : ∃ c cs, zoneText o = c :: cs ∧ c ≠ '.' := by
  unfold zoneText
  split
  · exact ⟨_, _, rfl, by decide⟩
  · refine ⟨_, _, rfl, ?_⟩
    split <;> decide

/-! ## Locations -/

theorem utc_exists (m : Moment) (h : m.nanos < 1000000000) : m.utc.Exists := by
  refine ⟨(dayOf_spec _).1, ?_, ?_, ?_, h⟩
  · show (m.seconds % 86400).toNat / 3600 < 24
    omega
  · show (m.seconds % 86400).toNat % 3600 / 60 < 60
    omega
  · show (m.seconds % 86400).toNat % 60 < 60
    omega

theorem utc_seconds (m : Moment) : m.utc.seconds = m.seconds := by
  have h := (dayOf_spec (m.seconds / 86400)).2
  simp only [Moment.utc]
  rw [Moment.seconds]
  simp only [h]
  omega

theorem same_fields (a b : Moment) (ha : a.Exists) (hb : b.Exists) (ho : a.offset = b.offset)
    (h : SameInstant a b) : a = b := by
  obtain ⟨hs, hn⟩ := h
  obtain ⟨a0, a1, a2, a3, _⟩ := ha
  obtain ⟨b0, b1, b2, b3, _⟩ := hb
  have hd : dayNumber a.date = dayNumber b.date := by
    unfold Moment.seconds at hs; omega
  have hd' : a.date = b.date := by
    rw [← dayOf_dayNumber _ a0, ← dayOf_dayNumber _ b0, hd]
  unfold Moment.seconds at hs
  obtain ⟨da, _, _, _, _, _⟩ := a
  obtain ⟨db, _, _, _, _, _⟩ := b
  simp only [Moment.mk.injEq] at *
  refine ⟨hd', ?_, ?_, ?_, hn, ho⟩ <;> omega

end Verif.GoTime
