import Verif.Lemmas.Parse

/-! Properties C01 to C04: names. -/

namespace Verif

/-! ## C01: names are totally ordered -/

/-- Comparing in the opposite direction gives the opposite sign. -/
theorem c01_compare_opposite (a b : Name) : Name.compare b a = - Name.compare a b :=
  Name.compare_swap a b

/-- The result is always -1, 0 or 1. -/
theorem c01_compare_range (a b : Name) :
    Name.compare a b = -1 ∨ Name.compare a b = 0 ∨ Name.compare a b = 1 :=
  Name.compare_range a b

/-- The result is zero exactly when the names have the same sequence of word texts. -/
theorem c01_compare_zero (a b : Name) :
    Name.compare a b = 0 ↔ a.map Word.text = b.map Word.text :=
  Name.compare_zero a b

/-- `less` is exactly the lexicographical order of the sequences of word texts, where texts are
ordered lexicographically by character (Lean's order of `List (List Char)`). -/
theorem c01_less_lexicographic (a b : Name) :
    Name.less a b = true ↔ a.map Word.text < b.map Word.text := by
  simp [Name.less, Name.compare_lt]

/-- The order is transitive. -/
theorem c01_compare_trans (a b c : Name) (hab : Name.compare a b ≤ 0) (hbc : Name.compare b c ≤ 0) :
    Name.compare a c ≤ 0 := by
  have le_iff : ∀ x y : Name, Name.compare x y ≤ 0 ↔ x.map Word.text ≤ y.map Word.text := by
    intro x y
    rw [← List.not_lt, ← Name.compare_lt, Name.compare_swap x y]
    rcases Name.compare_range x y with h | h | h <;> rw [h] <;> decide
  rw [le_iff] at hab hbc ⊢
  exact List.le_trans hab hbc

/-- `less` is a strict weak order: irreflexive, transitive, and names none of which is less than
the other are exactly those with the same texts. -/
theorem c01_less_strict_order :
    (∀ a : Name, Name.less a a = false) ∧
    (∀ a b c : Name, Name.less a b = true → Name.less b c = true → Name.less a c = true) ∧
    (∀ a b : Name, (Name.less a b = false ∧ Name.less b a = false) ↔
      a.map Word.text = b.map Word.text) := by
  refine ⟨fun a => ?_, fun a b c hab hbc => ?_, fun a b => ?_⟩
  · rw [bool_eq_false_iff_not, c01_less_lexicographic]; exact List.lt_irrefl _
  · rw [c01_less_lexicographic] at *; exact List.lt_trans hab hbc
  · rw [← c01_compare_zero]
    simp only [Name.less, Name.compare_swap a b]
    rcases Name.compare_range a b with h | h | h <;> rw [h] <;> decide

example : Name.less (parseUsingCase t!"CloudProvider") (parseUsingCase t!"CloudRegion") = true := by
  decide

/-- Equality of names: same words with the same texts and initialism flags; nil only equals nil. -/
theorem c01_equals_iff (a b : Option Name) : Name.equals a b = true ↔ a = b := by
  have words : ∀ a b : Name, Name.equalsWords a b = true ↔ a = b := by
    intro a b
    fun_induction Name.equalsWords a b with
    | case1 => simp
    | case2 => simp
    | case3 => simp
    | case4 w ws v vs h =>
      simp only [List.cons.injEq, Bool.false_eq_true, false_iff, not_and]
      intro e; subst e; simp [Word.equals] at h
    | case5 w ws v vs h ih =>
      have : w = v := by
        cases w; cases v
        simpa [Word.equals] using h
      simp [ih, this]
  match a, b with
  | none, none => simp [Name.equals]
  | none, some _ => simp [Name.equals]
  | some _, none => simp [Name.equals]
  | some a, some b => simp [Name.equals, words]

/-! ## C02: parsing a camel case identifier loses nothing -/

/-- Identifiers made of letters and digits: parsing keeps all the letters if and only if the
identifier starts with something other than a lower case letter or is completely in lower
case. -/
theorem c02_parse_spells_iff_partial (t : Text) (ha : Alphanumeric t) (hne : t ≠ []) :
    Spells (parseUsingCase t) t ↔ (StartsNotLower t ∨ ∀ c ∈ t, c.isLower = true) := by
  rw [parseUsingCase_eq t hne]
  have hflat := splitCase_flatten [] t
  rw [List.nil_append] at hflat
  have hall : ∀ c ∈ splitCase [] t, Alphanumeric c := alphanumeric_all (by rw [hflat]; exact ha)
  match t, hne with
  | c :: cs, _ =>
    cases hc : c.isLower with
    | false =>
      have halt := splitCase_alternate [] (c :: cs) false (by simp) ⟨c, cs, rfl, hc⟩
      have := (parseChunks_spells (c :: cs) _ hall halt).1
      rw [hflat] at this
      simp [Spells, StartsNotLower, hc, this]
    | true =>
      have halt := splitCase_alternate [] (c :: cs) true (by simp) ⟨c, cs, rfl, hc⟩
      match hs : splitCase [] (c :: cs), halt with
      | [], _ => rw [hs] at hflat; simp at hflat
      | [x], halt =>
        rw [hs] at hflat
        simp at hflat
        obtain ⟨-, hl, -⟩ := halt
        rw [hflat] at hl
        have hsp : Spells (parseChunks (c :: cs) [x]) (c :: cs) := by
          simp [Spells, parseChunks, parseWord_text, hflat]
        exact ⟨fun _ => Or.inr hl, fun _ => hsp⟩
      | x :: y :: rest, ⟨hx, hxl, halt⟩ =>
        rw [parseChunks_lower_first _ x y rest hx hxl]
        have hsp := (parseChunks_spells (c :: cs) (y :: rest)
          (fun z hz => hall z (by rw [hs]; simp only [List.mem_cons] at hz ⊢; exact Or.inr hz))
          halt).1
        constructor
        · intro h
          exfalso
          have hlen := congrArg List.length h
          simp only [List.map_cons, List.flatten_cons, List.length_append, parseWord_text,
            hsp, toLower_length] at hlen
          have : y.length ≠ 0 := by simpa using halt.1
          omega
        · rintro (h | h)
          · simp [StartsNotLower, hc] at h
          · exfalso
            obtain ⟨hy, hyl, -⟩ := halt
            match y, hy with
            | d :: ds, _ =>
              have h1 := hyl d (by simp)
              have h2 : d ∈ c :: cs := by
                rw [← hflat, hs]; simp
              rw [h d h2] at h1
              simp at h1

/-- No word is empty. -/
theorem c02_no_empty_word_partial (t : Text) (ha : Alphanumeric t) (h : StartsNotLower t) :
    ∀ w ∈ parseUsingCase t, w.text ≠ [] := by
  match t, h with
  | c :: cs, h =>
    rw [parseUsingCase_eq _ (by simp)]
    have hflat := splitCase_flatten [] (c :: cs)
    rw [List.nil_append] at hflat
    have hall : ∀ x ∈ splitCase [] (c :: cs), Alphanumeric x :=
      alphanumeric_all (by rw [hflat]; exact ha)
    have halt := splitCase_alternate [] (c :: cs) false (by simp) ⟨c, cs, rfl, h⟩
    exact (parseChunks_spells (c :: cs) _ hall halt).2

example : Alphanumeric t!"ClientX509CertURL" ∧ StartsNotLower t!"ClientX509CertURL" ∧
    (parseUsingCase t!"ClientX509CertURL").toText = t!"client_X509_cert_URL" := by
  refine ⟨by unfold Alphanumeric; decide, by unfold StartsNotLower; decide, by decide⟩

/-- The full property, for every identifier of the language, is false of the code: the identifier
`fooBar` is parsed as `foobar_bar`, and `Foo_Bar` as `foo_foo_bar_ar`: line 113 of
pkg/names/parser.go passes the complete text, instead of the chunk, to `parseWord`. -/
theorem c02_parse_spells_refuted :
    ¬ ∀ t : Text, isIdentifier t = true → Spells (parseUsingCase t) t := by
  intro h
  exact absurd (h t!"fooBar" (by decide)) (by unfold Spells; decide)

example : (parseUsingCase t!"fooBar").toText = t!"foobar_bar" := by decide
example : (parseUsingCase t!"Foo_Bar").toText = t!"foo_foo_bar_ar" := by decide

/-! ## C03: camel case round trip -/

/-- Rendering a canonical name in camel case and parsing it gives the same name. -/
theorem c03_parse_camel (n : Name) (h : Canonical n) : parseUsingCase n.camel = n := by
  obtain ⟨c, cs, hc, -⟩ := camel_starts n h
  rw [parseUsingCase_eq _ (by rw [hc]; simp)]
  exact parse_canonical _ n h

/-- Different canonical names have different camel case renderings. -/
theorem c03_camel_injective (n m : Name) (hn : Canonical n) (hm : Canonical m)
    (h : n.camel = m.camel) : n = m := by
  rw [← c03_parse_camel n hn, ← c03_parse_camel m hm, h]

/-- The condition is necessary in the sense that there are names that aren't canonical and that
camel case can't tell apart. -/
theorem c03_camel_injective_all_refuted : ¬ ∀ n m : Name, n.camel = m.camel → n = m := by
  intro h
  exact absurd (h [newWord t!"x", newWord t!"axis"] [newInitialism t!"X", newWord t!"axis"]
    (by decide)) (by decide)

example : Canonical [newWord t!"client", newInitialism t!"X509", newWord t!"cert",
    newInitialism t!"URLs", newWord t!"x"] := by
  refine ⟨⟨⟨⟨?_, ?_⟩, ?_⟩, ?_⟩, ?_⟩
  · exact Or.inl ⟨rfl, 'x', [], rfl, Or.inl rfl, by simp⟩
  · exact Or.inr (Or.inl ⟨rfl, t!"URL", rfl, by decide, by decide⟩)
  · exact Or.inl ⟨⟨rfl, 'c', t!"ert", rfl, Or.inl rfl, by decide⟩, by decide⟩
  · exact Or.inr (Or.inr ⟨⟨rfl, by decide, by decide⟩, ⟨rfl, 'c', t!"ert", rfl, Or.inl rfl,
      by decide⟩, by decide, by decide⟩)
  · exact Or.inl ⟨⟨rfl, 'c', t!"lient", rfl, Or.inl rfl, by decide⟩, by decide⟩

/-! ## C04: separator round trip -/

/-- Parsing any text with a separator and joining the words gives the text. -/
theorem c04_join_parse (t : Text) (sep : Char) :
    joinText [sep] ((parseUsingSeparator t sep).map Word.text) = t := by
  have : (parseUsingSeparator t sep).map Word.text = splitOn sep t := by
    simp [parseUsingSeparator, newWord, Function.comp_def]
  rw [this, joinText_splitOn]

/-- In particular the string representation of a name parsed from a directory name is the
directory name. -/
theorem c04_toText_parse (t : Text) : (parseUsingSeparator t '_').toText = t :=
  c04_join_parse t '_'

/-- The words contain no separator, and there is at least one word. -/
theorem c04_words (t : Text) (sep : Char) :
    parseUsingSeparator t sep ≠ [] ∧
    ∀ w ∈ parseUsingSeparator t sep, sep ∉ w.text ∧ w.initialism = false := by
  constructor
  · simp [parseUsingSeparator, splitOn_ne_nil]
  · intro w hw
    simp only [parseUsingSeparator, List.mem_map] at hw
    obtain ⟨x, hx, rfl⟩ := hw
    exact ⟨splitOn_no_sep sep t x hx, rfl⟩

/-- Parsing the rendering of a name gives the same words, if none contains the separator and none
is an initialism. -/
theorem c04_parse_toText (n : Name) (hne : n ≠ [])
    (h : ∀ w ∈ n, '_' ∉ w.text ∧ w.initialism = false) :
    parseUsingSeparator n.toText '_' = n := by
  unfold parseUsingSeparator Name.toText
  rw [splitOn_joinText '_' _ (by simpa using hne) (by
    intro t ht
    obtain ⟨w, hw, rfl⟩ := List.mem_map.mp ht
    exact (h w hw).1), List.map_map]
  conv => rhs; rw [← List.map_id n]
  apply List.map_congr_left
  intro w hw
  have := (h w hw).2
  cases w; simp_all [newWord]

example : (parseUsingSeparator t!"clusters_mgmt" '_') = [newWord t!"clusters", newWord t!"mgmt"] := by
  decide

/-- Joining with a separator puts it between consecutive words, in the case asked for. -/
theorem c04_joined (sep : Text) (n : Name) :
    n.lowerJoined sep = List.intercalate sep (n.map fun w => w.text.map Char.toLower) ∧
    n.upperJoined sep = List.intercalate sep (n.map fun w => w.text.map Char.toUpper) ∧
    n.capitalizedJoined sep = List.intercalate sep (n.map Word.capitalize) := by
  have key : ∀ l : List Text, joinText sep l = List.intercalate sep l := by
    intro l
    induction l with
    | nil => rfl
    | cons t ts ih =>
      cases ts with
      | nil => simp [joinText, List.intercalate]
      | cons u us =>
        simp only [joinText, ih]
        simp [List.intercalate, List.intersperse]
  refine ⟨?_, ?_, ?_⟩
  · unfold Name.lowerJoined; rw [key]; rfl
  · unfold Name.upperJoined; rw [key]; rfl
  · unfold Name.capitalizedJoined; rw [key]

example : (parseUsingCase t!"ClusterID").upperJoined t!"_" = t!"CLUSTER_ID" := by decide

end Verif
