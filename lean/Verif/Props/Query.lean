import Verif.Spec.Query
import Verif.Lemmas.JsonRound

/-! # Query parameters: C40 -/

namespace Verif

open GoQuery
open GoJson (Shape Val)
open Reader (digitsValue maxInt)

/-! ## The values -/

theorem digitVal_isDigit (c : Char) : c.isDigit = true ↔ ∃ d, digitVal c = some d ∧ d < 10 := by
  have h0 : '0'.toNat = 48 := rfl
  have h9 : '9'.toNat = 57 := rfl
  have ha : 'a'.toNat = 97 := rfl
  have hf : 'f'.toNat = 102 := rfl
  have hd : c.isDigit = true ↔ 48 ≤ c.toNat ∧ c.toNat ≤ 57 := by
    simp [Char.isDigit, UInt32.le_iff_toNat_le]
  rw [hd]
  unfold digitVal
  simp only [h0, h9, ha, hf]
  constructor
  · intro h
    exact ⟨c.toNat - 48, by simp [h], by omega⟩
  · rintro ⟨d, h, hlt⟩
    split at h
    · assumption
    · split at h
      · simp at h; omega
      · simp at h

theorem numeralFrom_digits (t : Text) (v : Nat) :
    t.all Char.isDigit = true ↔ ∃ n, numeralFrom 10 v t = some n := by
  induction t generalizing v with
  | nil => simp [numeralFrom]
  | cons c cs ih =>
    simp only [List.all_cons, Bool.and_eq_true, numeralFrom]
    rw [digitVal_isDigit]
    constructor
    · rintro ⟨⟨d, h, hlt⟩, h'⟩
      simp only [h, hlt, if_true]
      exact (ih _).1 h'
    · rintro ⟨n, h⟩
      cases hd : digitVal c with
      | none => simp [hd] at h
      | some d =>
        simp only [hd] at h
        split at h
        · rename_i hlt
          exact ⟨⟨d, rfl, hlt⟩, (ih _).2 ⟨n, h⟩⟩
        · simp at h

theorem parseDigits_iff (limit : Nat) (ds : Text) (n : Nat) :
    parseDigits limit ds = some n ↔ numeral 10 ds = some n ∧ n ≤ limit := by
  unfold parseDigits numeral
  by_cases he : ds = []
  · simp [he]
  · simp only [ne_eq, he, not_false_eq_true, true_and, if_false]
    have hnd := numeralFrom_digits ds 0
    constructor
    · intro h
      split at h
      · rename_i hc
        obtain ⟨hda, hl⟩ := hc
        obtain ⟨m, hm⟩ := hnd.1 hda
        have := GoJson.digitsValue_from _ _ _ hm
        unfold digitsValue at h hl
        rw [this] at h hl
        simp only [Option.some.injEq] at h
        subst h
        exact ⟨hm, hl⟩
      · simp at h
    · rintro ⟨hn, hl⟩
      have := GoJson.digitsValue_from _ _ _ hn
      unfold digitsValue
      rw [this, if_pos ⟨hnd.2 ⟨n, hn⟩, hl⟩]

theorem numeral_sign (c : Char) (ds : Text) (h : digitVal c = none) : numeral 10 (c :: ds) = none := by
  simp [numeral, numeralFrom, h]

theorem denotes_minus (ds : Text) (i : Int) :
    Denotes ('-' :: ds) i ↔ ∃ n, numeral 10 ds = some n ∧ i = -(n : Int) := by
  constructor
  · intro h
    generalize hs : '-' :: ds = s at h
    cases h with
    | plain h => rw [← hs, numeral_sign _ _ (by decide)] at h; simp at h
    | plus h => simp at hs
    | minus h => simp at hs; subst hs; exact ⟨_, h, rfl⟩
  · rintro ⟨n, h, rfl⟩
    exact .minus h

theorem denotes_plus (ds : Text) (i : Int) :
    Denotes ('+' :: ds) i ↔ ∃ n, numeral 10 ds = some n ∧ i = (n : Int) := by
  constructor
  · intro h
    generalize hs : '+' :: ds = s at h
    cases h with
    | plain h => rw [← hs, numeral_sign _ _ (by decide)] at h; simp at h
    | plus h => simp at hs; subst hs; exact ⟨_, h, rfl⟩
    | minus h => simp at hs
  · rintro ⟨n, h, rfl⟩
    exact .plus h

theorem denotes_plain (ds : Text) (i : Int) (h1 : ∀ r, ds ≠ '-' :: r) (h2 : ∀ r, ds ≠ '+' :: r) :
    Denotes ds i ↔ ∃ n, numeral 10 ds = some n ∧ i = (n : Int) := by
  constructor
  · intro h
    cases h with
    | plain h => exact ⟨_, h, rfl⟩
    | plus h => exact absurd rfl (h2 _)
    | minus h => exact absurd rfl (h1 _)
  · rintro ⟨n, h, rfl⟩
    exact .plain h

theorem parseInt_iff (s : Text) (i : Int) :
    parseInt s = some i ↔ Denotes s i ∧ -2 ^ 63 ≤ i ∧ i < 2 ^ 63 := by
  have hm : (maxInt : Int) = 2 ^ 63 - 1 := rfl
  unfold parseInt
  split
  · rename_i ds
    rw [denotes_minus]
    simp only [Option.map_eq_some_iff, parseDigits_iff]
    constructor
    · rintro ⟨n, ⟨h, hl⟩, rfl⟩
      exact ⟨⟨n, h, rfl⟩, by omega, by omega⟩
    · rintro ⟨⟨n, h, rfl⟩, h1, h2⟩
      exact ⟨n, ⟨h, by omega⟩, rfl⟩
  · rename_i ds
    rw [denotes_plus]
    simp only [Option.map_eq_some_iff, parseDigits_iff]
    constructor
    · rintro ⟨n, ⟨h, hl⟩, rfl⟩
      exact ⟨⟨n, h, rfl⟩, by omega, by omega⟩
    · rintro ⟨⟨n, h, rfl⟩, h1, h2⟩
      exact ⟨n, ⟨h, by omega⟩, rfl⟩
  · rename_i h1 h2
    rw [denotes_plain s i (fun r h => h1 r h) (fun r h => h2 r h)]
    simp only [Option.map_eq_some_iff, parseDigits_iff]
    constructor
    · rintro ⟨n, ⟨h, hl⟩, rfl⟩
      exact ⟨⟨n, h, rfl⟩, by omega, by omega⟩
    · rintro ⟨⟨n, h, rfl⟩, h1, h2⟩
      exact ⟨n, ⟨h, by omega⟩, rfl⟩

theorem parseBool_iff (s : Text) (b : Bool) :
    parseBool s = some b ↔ (b = true ∧ s ∈ trueTexts) ∨ (b = false ∧ s ∈ falseTexts) := by
  have ht : (s = t!"1" ∨ s = t!"t" ∨ s = t!"T" ∨ s = t!"true" ∨ s = t!"TRUE" ∨ s = t!"True")
      ↔ s ∈ trueTexts := by simp [trueTexts]
  have hf : (s = t!"0" ∨ s = t!"f" ∨ s = t!"F" ∨ s = t!"false" ∨ s = t!"FALSE" ∨ s = t!"False")
      ↔ s ∈ falseTexts := by simp [falseTexts]
  have hd : s ∈ trueTexts → s ∉ falseTexts := by
    intro h
    simp only [trueTexts, List.mem_cons, List.not_mem_nil, or_false] at h
    rcases h with rfl | rfl | rfl | rfl | rfl | rfl <;> decide
  unfold parseBool
  simp only [ht, hf]
  by_cases h1 : s ∈ trueTexts
  · have := hd h1
    cases b <;> simp [h1, this]
  · by_cases h2 : s ∈ falseTexts
    · cases b <;> simp [h1, h2]
    · cases b <;> simp [h1, h2]

theorem parser_means (C : Codecs) (shape : Shape) (h : shape ∈ parsable) :
    ∃ parse, parserFor C shape = some parse ∧
      ∀ s v, parse s = some v ↔ Means C shape s v := by
  simp only [parsable, List.mem_cons, List.not_mem_nil, or_false] at h
  rcases h with rfl | rfl | rfl | rfl | rfl
  · refine ⟨_, rfl, fun s v => ?_⟩
    simp only [Option.map_eq_some_iff, parseInt_iff]
    constructor
    · rintro ⟨i, ⟨h, h1, h2⟩, rfl⟩; exact .integer h h1 h2
    · intro h; cases h with | integer h h1 h2 => exact ⟨_, ⟨h, h1, h2⟩, rfl⟩
  · refine ⟨_, rfl, fun s v => ?_⟩
    simp only [Option.map_eq_some_iff]
    constructor
    · rintro ⟨i, h, rfl⟩; exact .float h
    · intro h; cases h with | float h => exact ⟨_, h, rfl⟩
  · refine ⟨_, rfl, fun s v => ?_⟩
    simp only [Option.some.injEq]
    constructor
    · rintro rfl; exact .string
    · intro h; cases h; rfl
  · refine ⟨_, rfl, fun s v => ?_⟩
    simp only [Option.map_eq_some_iff, parseBool_iff]
    constructor
    · rintro ⟨i, ⟨rfl, h⟩ | ⟨rfl, h⟩, rfl⟩
      · exact .yes h
      · exact .no h
    · intro h
      cases h with
      | yes h => exact ⟨_, .inl ⟨rfl, h⟩, rfl⟩
      | no h => exact ⟨_, .inr ⟨rfl, h⟩, rfl⟩
  · refine ⟨_, rfl, fun s v => ?_⟩
    simp only [Option.map_eq_some_iff]
    constructor
    · rintro ⟨i, h, rfl⟩; exact .date h
    · intro h; cases h with | date h => exact ⟨_, h, rfl⟩

theorem parseParameter_cases (parse : Text → Option Val) (query : Values) (tag : Text) :
    (parseParameter parse query tag = .absent ↔
      query.find tag = none ∨ query.find tag = some []) ∧
    (∀ v, parseParameter parse query tag = .value v ↔
      ∃ s, query.find tag = some [s] ∧ parse s = some v) ∧
    (∀ n, parseParameter parse query tag = .repeated n ↔
      ∃ values, query.find tag = some values ∧ values.length = n ∧ 2 ≤ n) ∧
    (∀ s, parseParameter parse query tag = .malformed s ↔
      query.find tag = some [s] ∧ parse s = none) := by
  unfold parseParameter Values.get
  cases hq : query.find tag with
  | none => simp
  | some values =>
    match values with
    | [] => simp
    | [s] =>
      simp only [Option.getD_some]
      cases hp : parse s with
      | none => simp [hp]
      | some v => simp [hp]
    | s :: s' :: rest =>
      simp

/-! ## C40 -/

/-- For the types that can be parsed: without default value the result is nothing exactly if the
query doesn't have the parameter, the value exactly if it has one value, which is valid for the
type, and an error exactly if it has several values or one that isn't valid. -/
theorem c40_parse (C : Codecs) (shape : Shape) (h : shape ∈ parsable) (tag : Text)
    (query : Values) :
    ∃ r, readQueryParameter C shape tag none query = .result r ∧
      (r = .absent ↔ query.find tag = none ∨ query.find tag = some []) ∧
      (∀ v, r = .value v ↔ ∃ s, query.find tag = some [s] ∧ Means C shape s v) ∧
      (∀ n, r = .repeated n ↔ ∃ values, query.find tag = some values ∧ values.length = n ∧ 2 ≤ n) ∧
      (∀ s, r = .malformed s ↔ query.find tag = some [s] ∧ ¬ ∃ v, Means C shape s v) := by
  obtain ⟨parse, hp, hm⟩ := parser_means C shape h
  refine ⟨parseParameter parse query tag, by simp [readQueryParameter, hp], ?_⟩
  obtain ⟨h1, h2, h3, h4⟩ := parseParameter_cases parse query tag
  refine ⟨h1, ?_, h3, ?_⟩
  · intro v
    rw [h2]
    simp only [hm]
  · intro s
    rw [h4]
    simp only [← hm]
    cases parse s <;> simp

/-- A text has at most one value of a type. -/
theorem c40_unique (C : Codecs) (shape : Shape) (h : shape ∈ parsable) (s : Text) (v v' : Val)
    (hv : Means C shape s v) (hv' : Means C shape s v') : v = v' := by
  obtain ⟨parse, _, hm⟩ := parser_means C shape h
  have h1 := (hm s v).2 hv
  have h2 := (hm s v').2 hv'
  rw [h1] at h2
  simpa using h2

/-- With a default value, which must be a constant of the type, the default value is the result
exactly where there would be nothing; otherwise it makes no difference. -/
theorem c40_default (C : Codecs) (shape : Shape) (tag : Text) (literal : Literal) (v : Val)
    (query : Values) (hc : (shape, literal, v) ∈
      (match literal with
       | .bool b => [(Shape.boolean, literal, Val.bool b)]
       | .int i => [(Shape.integer, literal, Val.int i), (Shape.float, literal, Val.float (intText i))]
       | .str s => [(Shape.string, literal, Val.str s)])) :
    ∃ r, readQueryParameter C shape tag none query = .result r ∧
      (r = .absent → readQueryParameter C shape tag (some literal) query = .result (.value v)) ∧
      (r ≠ .absent → readQueryParameter C shape tag (some literal) query = .result r) := by
  have key : ∀ parse, parserFor C shape = some parse → defaultFor shape literal = some v →
      ∃ r, readQueryParameter C shape tag none query = .result r ∧
      (r = .absent → readQueryParameter C shape tag (some literal) query = .result (.value v)) ∧
      (r ≠ .absent → readQueryParameter C shape tag (some literal) query = .result r) := by
    intro parse hp hd
    refine ⟨parseParameter parse query tag, by simp [readQueryParameter, hp], ?_, ?_⟩
    · intro hr; simp [readQueryParameter, hp, hd, hr]
    · intro hr
      simp [readQueryParameter, hp, hd, hr]
  cases literal with
  | bool b =>
    simp at hc
    obtain ⟨rfl, rfl⟩ := hc
    exact key _ rfl rfl
  | int i =>
    simp at hc
    rcases hc with ⟨rfl, rfl⟩ | ⟨rfl, rfl⟩
    · exact key _ rfl rfl
    · exact key _ rfl rfl
  | str s =>
    simp at hc
    obtain ⟨rfl, rfl⟩ := hc
    exact key _ rfl rfl

/-- The code for parameters of any other type, or with a default value of other type, doesn't
compile: there are no functions to parse them. This includes long integers and enumerated types,
and default values for dates. -/
theorem c40_types (C : Codecs) (shape : Shape) (tag : Text) (query : Values) :
    (shape ∉ parsable → ∀ dflt, readQueryParameter C shape tag dflt query = .doesNotCompile) ∧
    (readQueryParameter C .date tag (some (.str t!"2020-01-01T00:00:00Z")) query = .doesNotCompile) ∧
    (Shape.long ∉ parsable ∧ Shape.enum ∉ parsable) := by
  refine ⟨?_, rfl, by decide, by decide⟩
  intro h dflt
  cases shape <;> simp [parsable] at h <;> rfl

/-- The two forms of the same integer, the limits of the range, and the texts that aren't
integers. -/
example (C : Codecs) :
    readQueryParameter C .integer t!"page" (some (.int 1)) [(t!"page", [t!"+12"])]
      = .result (.value (.int 12)) ∧
    readQueryParameter C .integer t!"page" none [(t!"page", [t!"9223372036854775808"])]
      = .result (.malformed t!"9223372036854775808") ∧
    readQueryParameter C .integer t!"page" none [(t!"page", [t!"-9223372036854775808"])]
      = .result (.value (.int (-9223372036854775808))) ∧
    readQueryParameter C .integer t!"page" (some (.int 1)) [(t!"size", [t!"2"])]
      = .result (.value (.int 1)) ∧
    readQueryParameter C .boolean t!"dry" none [(t!"dry", [t!"yes"])]
      = .result (.malformed t!"yes") ∧
    readQueryParameter C .string t!"search" none [(t!"search", [t!"a", t!"b"])]
      = .result (.repeated 2) := ⟨rfl, rfl, rfl, rfl, rfl, rfl⟩

end Verif
