import Verif.Lemmas.Literals
import Verif.Lemmas.Trees
import Verif.Lemmas.GoMap

/-!
# Property C74: the values of literals

`literalValue` is what the reader does for a literal: the value, and the number of errors that it
reports.
-/

namespace Verif.Language

/-- The value of a string literal is the one of the Go language. -/
theorem c74_string_iff (text value : Text) : unquote text = some value ↔ StringIs text value :=
  unquote_iff text value

/-- A literal that the lexer accepts has a value, and then no error is reported and the value is that
one, or it has none, and then exactly one error is reported. -/
theorem c74_literal_iff (l : LiteralTree) (h : GoodLiteral l) (v : Literal) :
    literalValue l = (v, 0) ↔ LiteralIs l v := by
  cases l with
  | bool b =>
    rw [literalValue, LiteralIs]
    exact ⟨fun h => by cases h; rfl, fun h => by rw [h]⟩
  | integer text =>
    rw [literalValue, LiteralIs]
    constructor
    · intro he
      split at he
      · rename_i value ha
        cases he
        obtain ⟨n, h1, h2, rfl⟩ := (atoi_iff text h.2 value).mp ha
        exact ⟨n, h1, h2, rfl⟩
      · cases he
    · rintro ⟨n, h1, h2, rfl⟩
      rw [(atoi_iff text h.2 n).mpr ⟨n, h1, h2, rfl⟩]
  | string text =>
    rw [literalValue, LiteralIs]
    constructor
    · intro he
      split at he
      · rename_i value hu
        cases he
        exact ⟨value, (unquote_iff _ _).mp hu, rfl⟩
      · cases he
    · rintro ⟨value, h1, rfl⟩
      rw [(unquote_iff _ _).mpr h1]

theorem c74_literal_error (l : LiteralTree) (h : GoodLiteral l) :
    (literalValue l).2 = 1 ↔ ¬ ∃ v, LiteralIs l v := by
  have h01 : (literalValue l).2 = 0 ∨ (literalValue l).2 = 1 := by
    unfold literalValue
    split
    · exact .inl rfl
    · split
      · exact .inl rfl
      · exact .inr rfl
    · split
      · exact .inl rfl
      · exact .inr rfl
  constructor
  · rintro h1 ⟨v, hv⟩
    rw [(c74_literal_iff l h v).mpr hv] at h1
    cases h1
  · intro hn
    refine h01.resolve_left fun h0 => hn ⟨(literalValue l).1, (c74_literal_iff l h _).mp ?_⟩
    rw [← h0]

/-- The hypotheses are met, with values and without them. -/
example : literalValue (.string t!"\"a\\u0041\\n\"") = (.str t!"aA\n", 0) ∧
    literalValue (.string t!"`a\\n\r\n`") = (.str t!"a\\n\n", 0) ∧
    literalValue (.string t!"\"a\\q\"") = (.str [], 1) ∧
    literalValue (.string t!"\"a\n\"") = (.str [], 1) ∧
    literalValue (.integer t!"0123") = (.int 123, 0) ∧
    literalValue (.integer t!"9223372036854775807") = (.int 9223372036854775807, 0) ∧
    literalValue (.integer t!"9223372036854775808") = (.int 0, 1) := by
  refine ⟨?_, ?_, ?_, ?_, ?_, ?_, ?_⟩ <;> decide

/-- Strings without escape sequences have the value that is written. -/
theorem c74_plain (content : Text) (h1 : '"' ∉ content) (h2 : '\n' ∉ content) (h3 : '\\' ∉ content) :
    StringIs (t!"\"" ++ content ++ t!"\"") content := by
  refine .inr ⟨content, by simp, ?_⟩
  induction content with
  | nil => exact .nil
  | cons c cs ih =>
    simp only [List.mem_cons, not_or] at h1 h2 h3
    exact .plain c cs cs (fun h => h1.1 h.symm) (fun h => h2.1 h.symm) (fun h => h3.1 h.symm)
      (ih h1.2 h2.2 h3.2)

theorem hexNumber (k : Nat) : ∀ n, n < 16 ^ k →
    ∃ digits : Text, digits.length = k ∧ Numeral 16 digits n ∧ '"' ∉ digits := by
  induction k with
  | zero =>
    intro n hn
    have : n = 0 := by omega
    subst this
    exact ⟨[], rfl, .nil, List.not_mem_nil⟩
  | succ k ih =>
    intro n hn
    obtain ⟨digits, h1, h2, h3⟩ := ih (n / 16) (by rw [Nat.pow_succ] at hn; omega)
    have hd : ∃ c, IsDigit c (n % 16) ∧ c ≠ '"' := by
      have key : ∀ m < 16, ∃ c ∈ t!"0123456789abcdef", unhex c = some m ∧ c ≠ '"' := by decide
      obtain ⟨c, -, hc, hq⟩ := key (n % 16) (Nat.mod_lt _ (by decide))
      exact ⟨c, (unhex_iff _ _).mp hc, hq⟩
    obtain ⟨c, hc, hq⟩ := hd
    refine ⟨digits ++ [c], by simp [h1], ?_, ?_⟩
    · have := Numeral.snoc digits (n / 16) c (n % 16) h2 hc (Nat.mod_lt _ (by decide))
      rwa [Nat.div_add_mod] at this
    · simp only [List.mem_append, List.mem_cons, List.not_mem_nil, or_false, not_or]
      exact ⟨h3, fun h => hq h.symm⟩

/-- Every text is the value of some literal that the lexer accepts. -/
theorem c74_every_string (value : Text) :
    ∃ text, GoodLiteral (.string text) ∧ LiteralIs (.string text) (.str value) := by
  have : ∃ content, '"' ∉ content ∧ Content content value := by
    induction value with
    | nil => exact ⟨[], List.not_mem_nil, .nil⟩
    | cons c cs ih =>
      obtain ⟨content, h1, h2⟩ := ih
      obtain ⟨digits, h3, h4, h5⟩ := hexNumber 8 c.toNat (by
        have := c.valid
        have hv : c.toNat < 0x110000 := by
          rcases this with h | h
          · exact Nat.lt_trans h (by decide)
          · exact h.2
        exact Nat.lt_trans hv (by decide))
      refine ⟨'\\' :: ('U' :: digits) ++ content, ?_, .escape _ c content cs (.long digits c h3 h4) h2⟩
      simp only [List.cons_append, List.mem_cons, List.mem_append, not_or]
      exact ⟨by decide, by decide, h5, h1⟩
  obtain ⟨content, h1, h2⟩ := this
  exact ⟨'"' :: (content ++ ['"']), .inl ⟨content, rfl, h1⟩, value, .inr ⟨content, rfl, h2⟩, rfl⟩

/-- It isn't true that every string literal of the Go language can be used: the lexer ends the string
at the first quote, even after a backslash. -/
theorem c74_go_strings_refuted :
    ¬ ∀ text value, StringIs text value → (scan text).tokens = [⟨.string text, 1⟩] := by
  intro h
  have := h t!"\"a\\\"b\"" t!"a\"b" ((unquote_iff _ _).mp (by decide))
  exact absurd this (by decide)

/-- Those that can be used are those that don't have other quotes of the same kind. -/
theorem c74_go_strings_partial (text value : Text) (h : StringIs text value) :
    (∃ tokens, Written 1 tokens text ∧ tokens.map (·.token) = [.string text]) ↔
      GoodLiteral (.string text) := by
  constructor
  · rintro ⟨tokens, hw, ht⟩
    have hs := scan_writable text
    rw [((written_scan _ _).mp hw).1] at hs
    obtain ⟨l, rest, rfl, h1, h2⟩ := List.map_eq_cons_iff.mp ht
    obtain ⟨t, h3⟩ := hs l (List.mem_cons_self ..)
    rw [h1] at h3
    exact h3.2
  · intro hg
    refine ⟨[⟨.string text, 1⟩], ?_, rfl⟩
    have := Written.token 1 [] text [] (.string text) [] .nil ⟨rfl, hg⟩ (fun _ _ h => nomatch h)
      (.done _ [] (.white '\n' [] (.inr (.inr (.inr rfl))) .nil))
    simpa [breaks] using this

example : GoodLiteral (.string t!"\"a\"") := .inl ⟨t!"a", rfl, by decide⟩

/-! ## Annotations -/

/-- The value of a parameter of an annotation is that of the last one with that name. -/
theorem c74_annotation (a : AnnotationTree) (name : Text) (v : Literal) :
    (annotationValue a).1.name = a.name ∧
    ((annotationValue a).1.parameters.find name = some v ↔
      ∃ before p after, a.parameters = before ++ p :: after ∧ p.1 = name ∧
        (∀ q ∈ after, q.1 ≠ name) ∧ v = (literalValue p.2).1) := by
  refine ⟨rfl, ?_⟩
  have key : ∀ (ps : List (Text × LiteralTree)) (m : GoMap Literal),
      (ps.foldl (fun (m : GoMap Literal) p => m.insert p.1 (literalValue p.2).1) m).find name = some v ↔
        (∃ before p after, ps = before ++ p :: after ∧ p.1 = name ∧
          (∀ q ∈ after, q.1 ≠ name) ∧ v = (literalValue p.2).1) ∨
        ((∀ q ∈ ps, q.1 ≠ name) ∧ m.find name = some v) := by
    intro ps
    induction ps with
    | nil =>
      intro m
      constructor
      · exact fun h => .inr ⟨fun _ h => (nomatch h), h⟩
      · rintro (⟨b, p, a, h, _⟩ | ⟨_, h⟩)
        · exact absurd h.symm (by simp)
        · exact h
    | cons p ps ih =>
      intro m
      rw [List.foldl_cons, ih, GoMap.find_insert]
      constructor
      · rintro (⟨b, q, a, rfl, h1, h2, h3⟩ | ⟨h1, h2⟩)
        · exact .inl ⟨p :: b, q, a, rfl, h1, h2, h3⟩
        · split at h2
          · rename_i hp
            exact .inl ⟨[], p, ps, rfl, hp, h1, (Option.some.inj h2).symm⟩
          · rename_i hp
            refine .inr ⟨?_, h2⟩
            intro q hq
            rcases List.mem_cons.mp hq with rfl | hq
            · exact hp
            · exact h1 q hq
      · rintro (⟨b, q, a, h, h1, h2, h3⟩ | ⟨h1, h2⟩)
        · cases b with
          | nil =>
            have e1 := (List.cons.inj h).1
            have e2 := (List.cons.inj h).2
            subst e1
            subst e2
            exact .inr ⟨h2, by rw [if_pos h1, h3]⟩
          | cons x b => exact .inl ⟨b, q, a, (List.cons.inj h).2, h1, h2, h3⟩
        · refine .inr ⟨fun q hq => h1 q (List.mem_cons_of_mem _ hq), ?_⟩
          rw [if_neg (h1 p (List.mem_cons_self ..)), h2]
  have := key a.parameters []
  unfold annotationValue
  dsimp only
  rw [this]
  constructor
  · rintro (h | ⟨_, h⟩)
    · exact h
    · cases h
  · exact .inl

/-- No errors are reported for the annotations of a node exactly when all the literals have
values. -/
theorem c74_annotation_errors (as : List AnnotationTree) (h : GoodAnnotations as) :
    (annotationValues as).2 = 0 ↔ ∀ a ∈ as, ∀ p ∈ a.parameters, ∃ v, LiteralIs p.2 v := by
  have sum : ∀ l : List Nat, l.sum = 0 ↔ ∀ n ∈ l, n = 0 := by
    intro l
    induction l with
    | nil => simp
    | cons x xs ih => rw [List.sum_cons, Nat.add_eq_zero_iff, ih]; simp
  unfold annotationValues annotationValue
  dsimp only
  rw [sum]
  simp only [List.mem_map, forall_exists_index, and_imp, forall_apply_eq_imp_iff₂]
  constructor
  · intro h0 a ha p hp
    have := h0 a ha
    rw [sum] at this
    have := this _ (List.mem_map_of_mem hp)
    exact ⟨_, (c74_literal_iff p.2 ((h a ha).2 p hp).2 (literalValue p.2).1).mp (by rw [← this])⟩
  · intro h0 a ha
    rw [sum]
    intro n hn
    obtain ⟨p, hp, rfl⟩ := List.mem_map.mp hn
    obtain ⟨v, hv⟩ := h0 a ha p hp
    rw [(c74_literal_iff p.2 ((h a ha).2 p hp).2 v).mpr hv]

/-- The hypotheses are met: if the name is repeated the last value is the one that counts. -/
example : (annotationValue ⟨t!"http", [(t!"name", .string t!"\"a\""), (t!"name", .string t!"\"b\"")]⟩).1 =
    { name := t!"http", parameters := [(t!"name", .str t!"b")] } := by decide

end Verif.Language
