import Verif.Spec.Lexer

/-!
# Lemmas about the lexer: what it takes at each position
-/

namespace Verif.Language

open Keyword

/-! ## Classes of characters -/

theorem char_ofNat_toNat (c : Char) : Char.ofNat c.toNat = c := by
  simp

theorem char_class (f : Char → Bool) (l : List Char) (hl : ∀ d ∈ l, d.toNat < 128)
    (hf : ∀ c : Char, f c = true → c.toNat < 128)
    (h : ∀ n, n < 128 → (f (Char.ofNat n) = true ↔ Char.ofNat n ∈ l)) (c : Char) :
    f c = true ↔ c ∈ l := by
  by_cases hc : c.toNat < 128
  · have := h c.toNat hc
    rwa [char_ofNat_toNat] at this
  · exact ⟨fun h => absurd (hf c h) hc, fun h => absurd (hl c h) hc⟩

theorem char_le (c d : Char) : c ≤ d ↔ c.toNat ≤ d.toNat := by
  show c.val ≤ d.val ↔ _
  rw [UInt32.le_iff_toNat_le]
  rfl

theorem isDigitChar_iff (c : Char) : isDigitChar c = true ↔ Digit c := by
  refine char_class isDigitChar _ (by decide) ?_ ?_ c
  · intro c h
    simp only [isDigitChar, Bool.and_eq_true, decide_eq_true_eq, char_le] at h
    have : ('9' : Char).toNat = 57 := rfl
    omega
  · decide

theorem isWordStart_iff (c : Char) : isWordStart c = true ↔ NameStart c := by
  refine char_class isWordStart _ (by decide) ?_ ?_ c
  · intro c h
    simp only [isWordStart, Bool.or_eq_true, Bool.and_eq_true, decide_eq_true_eq, char_le] at h
    have h1 : ('z' : Char).toNat = 122 := rfl
    have h2 : ('Z' : Char).toNat = 90 := rfl
    rcases h with (h | h) | h
    · omega
    · omega
    · subst h; decide
  · decide

theorem isWordChar_iff (c : Char) : isWordChar c = true ↔ NameChar c := by
  unfold isWordChar NameChar
  rw [Bool.or_eq_true, isWordStart_iff]
  exact or_congr Iff.rfl (isDigitChar_iff c)

theorem isBlankChar_iff (c : Char) : isBlankChar c = true ↔ White c := by
  unfold isBlankChar White
  simp [or_assoc]

theorem inLineComment_iff (c : Char) : inLineComment c = true ↔ c ≠ '\r' ∧ c ≠ '\n' := by
  unfold inLineComment
  simp

/-! ## The loops of the rules -/

theorem takeWhile_longest (p : Char → Bool) (text a b : Text) (h : text = a ++ b)
    (ha : ∀ c ∈ a, p c = true) : a.length ≤ (text.takeWhile p).length := by
  subst h
  induction a with
  | nil => exact Nat.zero_le _
  | cons c cs ih =>
    rw [List.cons_append, List.takeWhile_cons_of_pos (ha c (List.mem_cons_self ..))]
    simp only [List.length_cons]
    have := ih (fun d hd => ha d (List.mem_cons_of_mem _ hd))
    omega

theorem mem_takeWhile (p : Char → Bool) (text : Text) (c : Char) (h : c ∈ text.takeWhile p) :
    p c = true := by
  induction text with
  | nil => cases h
  | cons d ds ih =>
    rw [List.takeWhile_cons] at h
    by_cases hd : p d = true
    · rw [if_pos hd] at h
      cases h with
      | head => exact hd
      | tail _ h => exact ih h
    · rw [if_neg hd] at h; cases h

theorem dropWhile_head (p : Char → Bool) (text : Text) (c : Char) (cs : Text)
    (h : text.dropWhile p = c :: cs) : p c = false := by
  induction text with
  | nil => cases h
  | cons d ds ih =>
    rw [List.dropWhile_cons] at h
    by_cases hd : p d = true
    · rw [if_pos hd] at h; exact ih h
    · rw [if_neg hd] at h
      cases h
      exact Bool.eq_false_iff.mpr hd

theorem upTo_some (q : Char) (text a b : Text) (h : upTo q text = some (a, b)) :
    ∃ content, a = content ++ [q] ∧ text = a ++ b ∧ q ∉ content := by
  induction text generalizing a b with
  | nil => cases h
  | cons c cs ih =>
    unfold upTo at h
    by_cases hc : c = q
    · rw [if_pos hc] at h
      cases h
      exact ⟨[], by rw [hc]; rfl, rfl, List.not_mem_nil⟩
    · rw [if_neg hc] at h
      cases hu : upTo q cs with
      | none => rw [hu] at h; cases h
      | some r =>
        rw [hu] at h
        cases h
        obtain ⟨content, h1, h2, h3⟩ := ih r.1 r.2 hu
        refine ⟨c :: content, by rw [h1]; rfl, by rw [h2]; rfl, ?_⟩
        intro hm
        cases hm with
        | head => exact hc rfl
        | tail _ hm => exact h3 hm

theorem upTo_complete (q : Char) (content rest : Text) (h : q ∉ content) :
    upTo q (content ++ q :: rest) = some (content ++ [q], rest) := by
  induction content with
  | nil => simp [upTo]
  | cons c cs ih =>
    have hc : c ≠ q := fun hc => h (hc ▸ List.mem_cons_self ..)
    have := ih (fun hm => h (List.mem_cons_of_mem _ hm))
    simp [upTo, hc, this]

theorem closes_cons (c : Char) (text : Text) :
    ClosesComment (c :: text) ↔ (∃ rest, c :: text = t!"*/" ++ rest) ∨ ClosesComment text := by
  constructor
  · rintro ⟨a, b, h⟩
    cases a with
    | nil => exact .inl ⟨b, h⟩
    | cons d ds =>
      cases h
      exact .inr ⟨ds, b, rfl⟩
  · rintro (⟨rest, h⟩ | ⟨a, b, h⟩)
    · exact ⟨[], rest, h⟩
    · exact ⟨c :: a, b, by rw [h]; rfl⟩

theorem not_closes_nil : ¬ ClosesComment [] := by
  rintro ⟨a, b, h⟩
  cases a <;> cases h

theorem upToCommentEnd_some (text a b : Text) (h : upToCommentEnd text = some (a, b)) :
    ∃ content, a = content ++ t!"*/" ∧ text = a ++ b ∧ ¬ ClosesComment (content ++ t!"*") := by
  induction text generalizing a b with
  | nil => cases h
  | cons c cs ih =>
    cases cs with
    | nil => cases h
    | cons d ds =>
      unfold upToCommentEnd at h
      by_cases hc : c = '*' ∧ d = '/'
      · rw [if_pos hc] at h
        cases h
        refine ⟨[], rfl, by rw [hc.1, hc.2]; rfl, ?_⟩
        rw [List.nil_append, closes_cons]
        rintro (⟨rest, h⟩ | h)
        · cases h
        · exact not_closes_nil h
      · rw [if_neg hc] at h
        cases hu : upToCommentEnd (d :: ds) with
        | none => rw [hu] at h; cases h
        | some r =>
          rw [hu] at h
          cases h
          obtain ⟨content, h1, h2, h3⟩ := ih r.1 r.2 hu
          refine ⟨c :: content, by rw [h1]; rfl, by rw [h2]; rfl, ?_⟩
          rw [List.cons_append, closes_cons]
          rintro (⟨rest, h⟩ | h)
          · rw [h1] at h2
            cases content with
            | nil =>
              simp only [List.nil_append, List.cons_append, List.cons.injEq] at h h2
              exact absurd h.2.1 (by decide)
            | cons e es =>
              simp only [List.cons_append, List.cons.injEq, List.nil_append] at h h2
              exact hc ⟨h.1, by rw [h2.1]; exact h.2.1⟩
          · exact h3 h

theorem upToCommentEnd_complete (content rest : Text) (h : ¬ ClosesComment (content ++ t!"*")) :
    upToCommentEnd (content ++ t!"*/" ++ rest) = some (content ++ t!"*/", rest) := by
  induction content with
  | nil => simp [upToCommentEnd]
  | cons c cs ih =>
    rw [List.cons_append, closes_cons] at h
    have ih := ih (fun hm => h (.inr hm))
    have hne : ∃ d ds, cs ++ t!"*/" ++ rest = d :: ds ∧ (c = '*' → d ≠ '/') := by
      cases cs with
      | nil => exact ⟨'*', _, rfl, fun _ => by decide⟩
      | cons d ds =>
        refine ⟨d, _, rfl, ?_⟩
        intro h1 h2
        exact h (.inl ⟨ds ++ t!"*", by rw [h1, h2]; rfl⟩)
    obtain ⟨d, ds, h1, h2⟩ := hne
    rw [List.cons_append, List.cons_append, h1]
    rw [h1] at ih
    unfold upToCommentEnd
    rw [if_neg (fun hc => h2 hc.1 hc.2), ih]
    rfl

theorem quoted_length (q : Char) (text a b : Text) (content : Text) (h : text = a ++ b)
    (ha : a = content ++ [q]) (hq : q ∉ content) (content' a' b' : Text) (h' : text = a' ++ b')
    (ha' : a' = content' ++ [q]) (hq' : q ∉ content') : a' = a := by
  have h1 := upTo_complete q content b hq
  have h2 := upTo_complete q content' b' hq'
  have e1 : content ++ q :: b = text := by rw [h, ha]; simp
  have e2 : content' ++ q :: b' = text := by rw [h', ha']; simp
  rw [e1] at h1
  rw [e2] at h2
  rw [h1] at h2
  simp only [Option.some.injEq, Prod.mk.injEq] at h2
  rw [ha, ha', h2.1]

/-! ## The keywords -/

theorem ite_cases {p : Prop} [Decidable p] {a b c : Option Keyword}
    (h : (if p then a else b) = c) : (p ∧ a = c) ∨ b = c := by
  by_cases hp : p
  · rw [if_pos hp] at h; exact .inl ⟨hp, h⟩
  · rw [if_neg hp] at h; exact .inr h

theorem keywordOf_iff (word : Text) (k : Keyword) :
    keywordOf word = some k ↔ spelling (.keyword k) = some word := by
  constructor
  · intro h
    unfold keywordOf at h
    iterate 18
      rcases ite_cases h with ⟨rfl, h⟩ | h
      · cases h; rfl
    cases h
  · intro h
    cases k <;> (cases h; decide)

theorem keyword_word (k : Keyword) (word : Text) (h : spelling (.keyword k) = some word) :
    Word word := by
  cases k <;> cases h <;>
    exact ⟨_, _, rfl, by simp [NameStart], by simp [NameChar, NameStart]⟩

/-! ## Rules that match texts with a given first character -/

theorem matches_nonempty (rule : Rule) : ¬ Matches rule [] := by
  intro h
  cases rule with
  | fixed t => cases t <;> try cases h
               next k => cases k <;> cases h
  | integer => exact h.1 rfl
  | string => rcases h with ⟨_, h, _⟩ | ⟨_, h, _⟩ <;> cases h
  | identifier => obtain ⟨_, _, h, _⟩ := h; cases h
  | lineComment => obtain ⟨_, h, _⟩ := h; cases h
  | blockComment => obtain ⟨_, h, _⟩ := h; cases h
  | white => exact h.1 rfl

/-- The tokens of one character. -/
def punctuation : List (Char × Token) :=
  [('@', .atSign), ('{', .leftCurly), ('}', .rightCurly), ('[', .leftSquare), (']', .rightSquare),
    ('(', .leftParen), (')', .rightParen), ('=', .equalsSign)]

theorem fixed_cases (t : Token) (c : Char) (cs : Text) (h : spelling t = some (c :: cs)) :
    ((c, t) ∈ punctuation ∧ cs = []) ∨ (∃ k, t = .keyword k ∧ Word (c :: cs)) := by
  cases t with
  | keyword k => exact .inr ⟨k, rfl, keyword_word k _ h⟩
  | integer _ => cases h
  | string _ => cases h
  | identifier _ => cases h
  | _ => cases h; exact .inl ⟨by decide, rfl⟩

/-- All the ways in which a rule can match a text. -/
inductive MatchCase (c : Char) (cs : Text) : Rule → Prop
  | punct (t : Token) : (c, t) ∈ punctuation → cs = [] → MatchCase c cs (.fixed t)
  | keyword (k : Keyword) : Word (c :: cs) → spelling (.keyword k) = some (c :: cs) →
      MatchCase c cs (.fixed (.keyword k))
  | integer : Digit c → (∀ d ∈ cs, Digit d) → MatchCase c cs .integer
  | string (content : Text) : c = '"' ∨ c = '`' → cs = content ++ [c] → c ∉ content →
      MatchCase c cs .string
  | identifier : NameStart c → (∀ d ∈ cs, NameChar d) → MatchCase c cs .identifier
  | lineComment (content : Text) : c = '/' → cs = '/' :: content →
      (∀ d ∈ content, d ≠ '\r' ∧ d ≠ '\n') → MatchCase c cs .lineComment
  | blockComment (content : Text) : c = '/' → cs = '*' :: (content ++ t!"*/") →
      ¬ ClosesComment (content ++ t!"*") → MatchCase c cs .blockComment
  | white : White c → (∀ d ∈ cs, White d) → MatchCase c cs .white

theorem matches_iff_case (rule : Rule) (c : Char) (cs : Text) :
    Matches rule (c :: cs) ↔ MatchCase c cs rule := by
  constructor
  · intro h
    cases rule with
    | fixed t =>
      rcases fixed_cases t c cs h with ⟨h1, h2⟩ | ⟨k, rfl, h1⟩
      · exact .punct t h1 h2
      · exact .keyword k h1 h
    | integer =>
      exact .integer (h.2 c (List.mem_cons_self ..)) fun d hd => h.2 d (List.mem_cons_of_mem _ hd)
    | string =>
      rcases h with ⟨content, h1, h2⟩ | ⟨content, h1, h2⟩
      · cases h1; exact .string content (.inl rfl) rfl h2
      · cases h1; exact .string content (.inr rfl) rfl h2
    | identifier =>
      obtain ⟨_, _, h1, h2, h3⟩ := h
      cases h1; exact .identifier h2 h3
    | lineComment =>
      obtain ⟨content, h1, h2, h3⟩ := h
      cases h1
      refine .lineComment content rfl rfl fun d hd => ⟨?_, ?_⟩
      · rintro rfl; exact h2 hd
      · rintro rfl; exact h3 hd
    | blockComment =>
      obtain ⟨content, h1, h2⟩ := h
      cases h1; exact .blockComment content rfl rfl h2
    | white =>
      exact .white (h.2 c (List.mem_cons_self ..)) fun d hd => h.2 d (List.mem_cons_of_mem _ hd)
  · intro h
    cases h with
    | punct t h1 h2 =>
      subst h2
      simp only [punctuation, List.mem_cons, Prod.mk.injEq, List.not_mem_nil, or_false] at h1
      rcases h1 with h | h | h | h | h | h | h | h <;> (obtain ⟨rfl, rfl⟩ := h; rfl)
    | keyword k h1 h2 => exact h2
    | integer h1 h2 =>
      refine ⟨List.cons_ne_nil _ _, fun d hd => ?_⟩
      cases hd with
      | head => exact h1
      | tail _ hd => exact h2 d hd
    | string content h1 h2 h3 =>
      rcases h1 with rfl | rfl
      · exact .inl ⟨content, by rw [h2], h3⟩
      · exact .inr ⟨content, by rw [h2], h3⟩
    | identifier h1 h2 => exact ⟨c, cs, rfl, h1, h2⟩
    | lineComment content h1 h2 h3 =>
      subst h1; subst h2
      exact ⟨content, rfl, fun hd => (h3 _ hd).1 rfl, fun hd => (h3 _ hd).2 rfl⟩
    | blockComment content h1 h2 h3 =>
      subst h1; subst h2
      exact ⟨content, rfl, h3⟩
    | white h1 h2 =>
      refine ⟨List.cons_ne_nil _ _, fun d hd => ?_⟩
      cases hd with
      | head => exact h1
      | tail _ hd => exact h2 d hd

/-- A number for each of the classes of first characters. -/
def charKind (c : Char) : Nat :=
  if c ∈ t!"@{}[]()=" then 1
  else if c = '"' ∨ c = '`' then 2
  else if c = '/' then 3
  else if isDigitChar c then 4
  else if isWordStart c then 5
  else if isBlankChar c then 6
  else 0

/-- The class of the first character of the texts that match a rule. -/
def ruleKind : Rule → Nat
  | .fixed (.keyword _) => 5
  | .fixed _ => 1
  | .integer => 4
  | .string => 2
  | .identifier => 5
  | .lineComment => 3
  | .blockComment => 3
  | .white => 6

theorem nameStart_kind (c : Char) (h : NameStart c) : charKind c = 5 := by
  simp only [NameStart, List.mem_cons, List.not_mem_nil, or_false] at h
  iterate 52
    rcases h with rfl | h
    · decide
  subst h; decide

theorem punct_kind (c : Char) (t : Token) (h : (c, t) ∈ punctuation) :
    ruleKind (.fixed t) = 1 := by
  simp only [punctuation, List.mem_cons, Prod.mk.injEq, List.not_mem_nil, or_false] at h
  rcases h with h | h | h | h | h | h | h | h <;> (obtain ⟨_, rfl⟩ := h; rfl)

theorem matchCase_kind (c : Char) (cs : Text) (rule : Rule) (h : MatchCase c cs rule) :
    charKind c = ruleKind rule := by
  cases h with
  | punct t h1 h2 =>
    simp only [punctuation, List.mem_cons, Prod.mk.injEq, List.not_mem_nil, or_false] at h1
    rcases h1 with h | h | h | h | h | h | h | h <;> (obtain ⟨rfl, rfl⟩ := h; decide)
  | keyword k h1 h2 =>
    obtain ⟨_, _, h, h3, _⟩ := h1
    cases h
    exact nameStart_kind _ h3
  | integer h1 h2 =>
    simp only [Digit, List.mem_cons, List.not_mem_nil, or_false] at h1
    rcases h1 with h | h | h | h | h | h | h | h | h | h <;> (subst h; decide)
  | string content h1 h2 h3 => rcases h1 with rfl | rfl <;> decide
  | identifier h1 h2 => exact nameStart_kind _ h1
  | lineComment content h1 h2 h3 => subst h1; decide
  | blockComment content h1 h2 h3 => subst h1; decide
  | white h1 h2 => rcases h1 with rfl | rfl | rfl | rfl <;> decide

/-- What `next` returns when the text starts with `c`. -/
structure NextGood (c : Char) (cs : Text) (a : Action) (taken rest : Text) (rule : Rule) (t : Text) :
    Prop where
  text : taken = c :: t
  split : cs = t ++ rest
  hit : MatchCase c t rule
  action : a = actionOf rule taken
  longest : ∀ other t' rest', cs = t' ++ rest' → MatchCase c t' other → t'.length ≤ t.length
  first : ∀ other, MatchCase c t other → position rule ≤ position other

/-- No rule matches. -/
def NextBad (c : Char) (cs : Text) : Prop :=
  ∀ rule t rest, cs = t ++ rest → ¬ MatchCase c t rule

theorem next_punct (c : Char) (cs : Text) (t : Token) (h : (c, t) ∈ punctuation) :
    NextGood c cs (.token t) [c] cs (.fixed t) [] := by
  have hk : charKind c = 1 := by
    rw [matchCase_kind c [] _ (.punct t h rfl), punct_kind c t h]
  refine ⟨rfl, rfl, .punct t h rfl, rfl, ?_, fun _ _ => Nat.zero_le _⟩
  intro other t' rest' _ hm
  have := matchCase_kind c t' other hm
  rw [hk] at this
  cases hm with
  | punct _ _ h => rw [h]; exact Nat.le_refl _
  | _ => cases this

theorem next_string (c : Char) (cs : Text) (hc : c = '"' ∨ c = '`') :
    match upTo c cs with
    | none => NextBad c cs
    | some (a, b) =>
      NextGood c cs (.token (.string (c :: a))) (c :: a) b .string a := by
  have hk : charKind c = 2 := by rcases hc with rfl | rfl <;> decide
  have only : ∀ t' other, MatchCase c t' other → ∃ content, t' = content ++ [c] ∧ c ∉ content := by
    intro t' other hm
    have := matchCase_kind c t' other hm
    rw [hk] at this
    cases hm with
    | string content h1 h2 h3 => exact ⟨content, h2, h3⟩
    | punct t h1 _ => rw [punct_kind c t h1] at this; cases this
    | _ => cases this
  cases hu : upTo c cs with
  | none =>
    intro rule t rest hs hm
    obtain ⟨content, h1, h2⟩ := only _ _ hm
    have := upTo_complete c content rest h2
    rw [hs, h1] at hu
    rw [List.append_assoc] at hu
    rw [show [c] ++ rest = c :: rest from rfl, this] at hu
    cases hu
  | some r =>
    obtain ⟨a, b⟩ := r
    obtain ⟨content, h1, h2, h3⟩ := upTo_some c cs a b hu
    refine ⟨rfl, h2, .string content hc h1 h3, rfl, ?_, ?_⟩
    · intro other t' rest' hs hm
      obtain ⟨content', h4, h5⟩ := only _ _ hm
      rw [quoted_length c cs a b content h2 h1 h3 content' t' rest' hs h4 h5]
      exact Nat.le_refl _
    · intro other hm
      have := matchCase_kind c a other hm
      rw [hk] at this
      cases hm with
      | string => exact Nat.le_refl _
      | punct t h1 _ => rw [punct_kind c t h1] at this; cases this
      | _ => cases this

theorem next_slash (cs : Text) :
    match next ('/' :: cs) with
    | none => NextBad '/' cs
    | some (a, taken, rest) => ∃ rule t, NextGood '/' cs a taken rest rule t := by
  have hk : charKind '/' = 3 := by decide
  have only : ∀ t other, MatchCase '/' t other →
      (other = .lineComment ∧ ∃ content, t = '/' :: content ∧
        ∀ d ∈ content, d ≠ '\r' ∧ d ≠ '\n') ∨
      (other = .blockComment ∧ ∃ content, t = '*' :: (content ++ t!"*/") ∧
        ¬ ClosesComment (content ++ t!"*")) := by
    intro t other hm
    have := matchCase_kind _ t other hm
    rw [hk] at this
    cases hm with
    | lineComment content h1 h2 h3 => exact .inl ⟨rfl, content, h2, h3⟩
    | blockComment content h1 h2 h3 => exact .inr ⟨rfl, content, h2, h3⟩
    | punct t h1 _ => rw [punct_kind _ t h1] at this; cases this
    | _ => cases this
  cases cs with
  | nil =>
    show NextBad '/' []
    intro rule t rest hs hm
    rcases only _ _ hm with ⟨_, content, h, _⟩ | ⟨_, content, h, _⟩ <;> (subst h; cases hs)
  | cons d ds =>
    by_cases h1 : d = '/'
    · subst h1
      show ∃ rule t, NextGood '/' ('/' :: ds) .comment ('/' :: '/' :: ds.takeWhile inLineComment)
        (ds.dropWhile inLineComment) rule t
      refine ⟨.lineComment, '/' :: ds.takeWhile inLineComment, rfl, ?_, ?_, rfl, ?_, ?_⟩
      · rw [List.cons_append, List.takeWhile_append_dropWhile]
      · refine .lineComment _ rfl rfl fun d hd => ?_
        exact (inLineComment_iff d).mp (mem_takeWhile _ _ _ hd)
      · intro other t' rest' hs hm
        rcases only _ _ hm with ⟨_, content, h, hd⟩ | ⟨_, content, h, _⟩
        · subst h
          have hs : ds = content ++ rest' := (List.cons.inj hs).2
          have := takeWhile_longest inLineComment ds content rest' hs
            (fun d h => (inLineComment_iff d).mpr (hd d h))
          simp only [List.length_cons]
          omega
        · subst h; cases hs
      · intro other hm
        rcases only _ _ hm with ⟨rfl, content, h, hd⟩ | ⟨_, content, h, _⟩
        · exact Nat.le_refl _
        · cases h
    · by_cases h2 : d = '*'
      · subst h2
        have e : next ('/' :: '*' :: ds) =
            (upToCommentEnd ds).map fun r => (.skip, '/' :: '*' :: r.1, r.2) := rfl
        rw [e]
        cases hu : upToCommentEnd ds with
        | none =>
          show NextBad _ _
          intro rule t rest hs hm
          rcases only _ _ hm with ⟨_, content, h, _⟩ | ⟨_, content, h, hc⟩
          · subst h; cases hs
          · subst h
            have hs : ds = content ++ t!"*/" ++ rest := (List.cons.inj hs).2
            rw [hs, upToCommentEnd_complete content rest hc] at hu
            cases hu
        | some r =>
          obtain ⟨a, b⟩ := r
          obtain ⟨content, h3, h4, h5⟩ := upToCommentEnd_some ds a b hu
          show ∃ rule t, NextGood '/' ('*' :: ds) .skip ('/' :: '*' :: a) b rule t
          refine ⟨.blockComment, '*' :: a, rfl, ?_, .blockComment content rfl (by rw [h3]) h5, rfl,
            ?_, ?_⟩
          · rw [h4]; rfl
          · intro other t' rest' hs hm
            rcases only _ _ hm with ⟨_, content', h, _⟩ | ⟨_, content', h, hc⟩
            · subst h; cases hs
            · subst h
              have hs : ds = content' ++ t!"*/" ++ rest' := (List.cons.inj hs).2
              rw [hs, upToCommentEnd_complete content' rest' hc] at hu
              simp only [Option.some.injEq, Prod.mk.injEq] at hu
              rw [← hu.1]
              exact Nat.le_refl _
          · intro other hm
            rcases only _ _ hm with ⟨rfl, content, h, hd⟩ | ⟨rfl, content, h, _⟩
            · cases h
            · exact Nat.le_refl _
      · have e : next ('/' :: d :: ds) = none := by
          unfold next
          simp [h1, h2]
        rw [e]
        intro rule t rest hs hm
        rcases only _ _ hm with ⟨_, content, h, _⟩ | ⟨_, content, h, _⟩
        · subst h; cases hs; exact h1 rfl
        · subst h; cases hs; exact h2 rfl

theorem next_span (c : Char) (cs : Text) (p : Char → Bool) (P : Char → Prop) (rule : Rule) (n : Nat)
    (hp : ∀ d, p d = true ↔ P d) (hk : charKind c = n)
    (only : ∀ t other, MatchCase c t other → (∀ d ∈ t, P d) ∧ position rule ≤ position other)
    (hit : MatchCase c (cs.takeWhile p) rule) :
    NextGood c cs (actionOf rule (c :: cs.takeWhile p)) (c :: cs.takeWhile p) (cs.dropWhile p) rule
      (cs.takeWhile p) := by
  refine ⟨rfl, List.takeWhile_append_dropWhile.symm, hit, rfl, ?_, fun other h => (only _ _ h).2⟩
  intro other t' rest' hs hm
  exact takeWhile_longest p cs t' rest' hs fun d hd => (hp d).mpr ((only _ _ hm).1 d hd)

theorem next_good (c : Char) (cs : Text) :
    match next (c :: cs) with
    | none => NextBad c cs
    | some (a, taken, rest) => ∃ rule t, NextGood c cs a taken rest rule t := by
  by_cases h1 : c = '@'
  · subst h1; exact ⟨_, _, next_punct _ _ _ (by decide)⟩
  by_cases h2 : c = '{'
  · subst h2; exact ⟨_, _, next_punct _ _ _ (by decide)⟩
  by_cases h3 : c = '}'
  · subst h3; exact ⟨_, _, next_punct _ _ _ (by decide)⟩
  by_cases h4 : c = '['
  · subst h4; exact ⟨_, _, next_punct _ _ _ (by decide)⟩
  by_cases h5 : c = ']'
  · subst h5; exact ⟨_, _, next_punct _ _ _ (by decide)⟩
  by_cases h6 : c = '('
  · subst h6; exact ⟨_, _, next_punct _ _ _ (by decide)⟩
  by_cases h7 : c = ')'
  · subst h7; exact ⟨_, _, next_punct _ _ _ (by decide)⟩
  by_cases h8 : c = '='
  · subst h8; exact ⟨_, _, next_punct _ _ _ (by decide)⟩
  by_cases h9 : c = '"' ∨ c = '`'
  · have e : next (c :: cs) = (upTo c cs).map fun r =>
        (.token (.string (c :: r.1)), c :: r.1, r.2) := by
      rcases h9 with rfl | rfl <;> rfl
    have := next_string c cs h9
    rw [e]
    cases hu : upTo c cs with
    | none => rw [hu] at this; exact this
    | some r => rw [hu] at this; exact ⟨_, _, this⟩
  by_cases h10 : c = '/'
  · subst h10; exact next_slash cs
  have hpunct : c ∉ t!"@{}[]()=" := by
    simp [h1, h2, h3, h4, h5, h6, h7, h8]
  have h9' : (decide (c = '"') || decide (c = '`')) = false := by
    simpa [not_or] using h9
  by_cases h11 : isDigitChar c = true
  · have hk : charKind c = 4 := by
      unfold charKind
      rw [if_neg hpunct, if_neg h9, if_neg h10, if_pos h11]
    have e : next (c :: cs) = some (.token (.integer (c :: cs.takeWhile isDigitChar)),
        c :: cs.takeWhile isDigitChar, cs.dropWhile isDigitChar) := by
      unfold next
      simp only [if_neg h1, if_neg h2, if_neg h3, if_neg h4, if_neg h5, if_neg h6, if_neg h7,
        if_neg h8, h9', if_neg h10, if_pos h11, Bool.false_eq_true, if_false, spanChars]
    rw [e]
    refine ⟨_, _, next_span c cs isDigitChar Digit .integer 4 isDigitChar_iff hk ?_ ?_⟩
    · intro t other hm
      have := matchCase_kind _ t other hm
      rw [hk] at this
      cases hm with
      | integer _ h => exact ⟨h, Nat.le_refl _⟩
      | punct t h1 _ => rw [punct_kind _ t h1] at this; cases this
      | _ => cases this
    · exact .integer ((isDigitChar_iff c).mp h11) fun d hd =>
        (isDigitChar_iff d).mp (mem_takeWhile _ _ _ hd)
  by_cases h12 : isWordStart c = true
  · have hk : charKind c = 5 := by
      unfold charKind
      rw [if_neg hpunct, if_neg h9, if_neg h10, if_neg h11, if_pos h12]
    have hword : ∀ d ∈ cs.takeWhile isWordChar, NameChar d := fun d hd =>
      (isWordChar_iff d).mp (mem_takeWhile _ _ _ hd)
    have hstart := (isWordStart_iff c).mp h12
    have only : ∀ t other, MatchCase c t other → (∀ d ∈ t, NameChar d) ∧
        ((∃ k, other = .fixed (.keyword k) ∧ spelling (.keyword k) = some (c :: t)) ∨
          other = .identifier) := by
      intro t other hm
      have := matchCase_kind _ t other hm
      rw [hk] at this
      cases hm with
      | identifier _ h => exact ⟨h, .inr rfl⟩
      | keyword k h h2 =>
        obtain ⟨_, _, h, _, h4⟩ := h
        cases h
        exact ⟨h4, .inl ⟨k, rfl, h2⟩⟩
      | punct t h1 _ => rw [punct_kind _ t h1] at this; cases this
      | _ => cases this
    cases hkw : keywordOf (c :: cs.takeWhile isWordChar) with
    | some k =>
      have e : next (c :: cs) = some (.token (.keyword k),
          c :: cs.takeWhile isWordChar, cs.dropWhile isWordChar) := by
        unfold next
        simp only [if_neg h1, if_neg h2, if_neg h3, if_neg h4, if_neg h5, if_neg h6, if_neg h7,
          if_neg h8, h9', if_neg h10, if_neg h11, if_pos h12, Bool.false_eq_true, if_false,
          spanChars, hkw]
      rw [e]
      have hs := (keywordOf_iff _ _).mp hkw
      refine ⟨_, _, next_span c cs isWordChar NameChar (.fixed (.keyword k)) 5 isWordChar_iff hk
        (fun t other h => ⟨(only t other h).1, Nat.zero_le _⟩) ?_⟩
      exact .keyword k ⟨c, _, rfl, hstart, hword⟩ hs
    | none =>
      have e : next (c :: cs) = some (.token (.identifier (c :: cs.takeWhile isWordChar)),
          c :: cs.takeWhile isWordChar, cs.dropWhile isWordChar) := by
        unfold next
        simp only [if_neg h1, if_neg h2, if_neg h3, if_neg h4, if_neg h5, if_neg h6, if_neg h7,
          if_neg h8, h9', if_neg h10, if_neg h11, if_pos h12, Bool.false_eq_true, if_false,
          spanChars, hkw]
      rw [e]
      refine ⟨.identifier, cs.takeWhile isWordChar, rfl, List.takeWhile_append_dropWhile.symm,
        .identifier hstart hword, rfl, ?_, ?_⟩
      · intro other t' rest' hs hm
        exact takeWhile_longest isWordChar cs t' rest' hs fun d hd =>
          (isWordChar_iff d).mpr ((only _ _ hm).1 d hd)
      · intro other hm
        rcases (only _ _ hm).2 with ⟨k, rfl, h⟩ | rfl
        · rw [(keywordOf_iff _ _).mpr h] at hkw
          cases hkw
        · exact Nat.le_refl _
  by_cases h13 : isBlankChar c = true
  · have hk : charKind c = 6 := by
      unfold charKind
      rw [if_neg hpunct, if_neg h9, if_neg h10, if_neg h11, if_neg h12, if_pos h13]
    have e : next (c :: cs) = some (.skip,
        c :: cs.takeWhile isBlankChar, cs.dropWhile isBlankChar) := by
      unfold next
      simp only [if_neg h1, if_neg h2, if_neg h3, if_neg h4, if_neg h5, if_neg h6, if_neg h7,
        if_neg h8, h9', if_neg h10, if_neg h11, if_neg h12, if_pos h13, Bool.false_eq_true,
        if_false, spanChars]
    rw [e]
    refine ⟨_, _, next_span c cs isBlankChar White .white 6 isBlankChar_iff hk ?_ ?_⟩
    · intro t other hm
      have := matchCase_kind _ t other hm
      rw [hk] at this
      cases hm with
      | white _ h => exact ⟨h, Nat.le_refl _⟩
      | punct t h1 _ => rw [punct_kind _ t h1] at this; cases this
      | _ => cases this
    · exact .white ((isBlankChar_iff c).mp h13) fun d hd =>
        (isBlankChar_iff d).mp (mem_takeWhile _ _ _ hd)
  · have hk : charKind c = 0 := by
      unfold charKind
      rw [if_neg hpunct, if_neg h9, if_neg h10, if_neg h11, if_neg h12, if_neg h13]
    have e : next (c :: cs) = none := by
      unfold next
      simp only [if_neg h1, if_neg h2, if_neg h3, if_neg h4, if_neg h5, if_neg h6, if_neg h7,
        if_neg h8, h9', if_neg h10, if_neg h11, if_neg h12, if_neg h13, Bool.false_eq_true,
        if_false]
    rw [e]
    intro rule t rest _ hm
    have := matchCase_kind _ t rule hm
    rw [hk] at this
    cases hm with
    | punct t h1 _ => rw [punct_kind _ t h1] at this; cases this
    | _ => cases this

/-! ## What the lexer takes -/

theorem next_isNext (text : Text) (a : Action) (taken rest : Text)
    (h : next text = some (a, taken, rest)) :
    ∃ rule, IsNext text rule taken rest ∧ a = actionOf rule taken := by
  cases text with
  | nil => cases h
  | cons c cs =>
    have hg := next_good c cs
    rw [h] at hg
    obtain ⟨rule, t, hg⟩ := hg
    refine ⟨rule, ⟨?_, ?_, ?_, ?_, ?_⟩, hg.action⟩
    · rw [hg.text, hg.split]; rfl
    · rw [hg.text]; exact List.cons_ne_nil _ _
    · rw [hg.text, matches_iff_case]; exact hg.hit
    · intro other taken' rest' hs hm
      cases taken' with
      | nil => exact Nat.zero_le _
      | cons d ds =>
        cases hs
        rw [matches_iff_case] at hm
        rw [hg.text]
        exact Nat.succ_le_succ (hg.longest other ds rest' rfl hm)
    · intro other hm
      rw [hg.text, matches_iff_case] at hm
      exact hg.first other hm

theorem next_none (text : Text) (h : next text = none) (rule : Rule) (taken rest : Text) :
    ¬ IsNext text rule taken rest := by
  intro hn
  have hs := hn.split
  have hm := hn.hit
  cases taken with
  | nil => exact hn.nonempty rfl
  | cons d ds =>
    subst hs
    have hg := next_good d (ds ++ rest)
    rw [List.cons_append] at h
    rw [h] at hg
    rw [matches_iff_case] at hm
    exact hg rule ds rest rfl hm

theorem fixed_unique (t t' : Token) (text : Text) (h : spelling t = some text)
    (h' : spelling t' = some text) : t = t' := by
  cases text with
  | nil => exact absurd h (matches_nonempty (.fixed t))
  | cons c cs =>
    rcases fixed_cases t c cs h with ⟨h1, h2⟩ | ⟨k, rfl, h1⟩
    · rcases fixed_cases t' c cs h' with ⟨h3, h4⟩ | ⟨k, rfl, h3⟩
      · simp only [punctuation, List.mem_cons, Prod.mk.injEq, List.not_mem_nil, or_false] at h1
        rcases h1 with e | e | e | e | e | e | e | e <;>
          (obtain ⟨rfl, rfl⟩ := e; simpa [punctuation, eq_comm] using h3)
      · have e1 := matchCase_kind c cs _ (.punct t h1 h2)
        have e2 := matchCase_kind c cs _ (.keyword k h3 h')
        rw [e2, punct_kind c t h1] at e1
        cases e1
    · rcases fixed_cases t' c cs h' with ⟨h3, h4⟩ | ⟨k', rfl, h3⟩
      · have e1 := matchCase_kind c cs _ (.punct t' h3 h4)
        have e2 := matchCase_kind c cs _ (.keyword k h1 h)
        rw [e2, punct_kind c t' h3] at e1
        cases e1
      · have e1 := (keywordOf_iff _ _).mpr h
        have e2 := (keywordOf_iff _ _).mpr h'
        rw [e1] at e2
        cases e2
        rfl

theorem isNext_unique (text : Text) (r1 r2 : Rule) (t1 t2 rest1 rest2 : Text)
    (h1 : IsNext text r1 t1 rest1) (h2 : IsNext text r2 t2 rest2) :
    t1 = t2 ∧ rest1 = rest2 ∧ r1 = r2 := by
  have hl : t1.length = t2.length :=
    Nat.le_antisymm (h2.longest _ _ _ h1.split h1.hit) (h1.longest _ _ _ h2.split h2.hit)
  have hs : t1 ++ rest1 = t2 ++ rest2 := by rw [← h1.split, ← h2.split]
  obtain ⟨e1, e2⟩ := List.append_inj hs hl
  subst e1
  refine ⟨rfl, e2, ?_⟩
  have hp : position r1 = position r2 :=
    Nat.le_antisymm (h1.first _ h2.hit) (h2.first _ h1.hit)
  cases r1 <;> cases r2 <;> first | rfl | cases hp | skip
  next t t' => rw [fixed_unique t t' t1 h1.hit h2.hit]

theorem next_iff (text : Text) (a : Action) (taken rest : Text) :
    next text = some (a, taken, rest) ↔
      ∃ rule, IsNext text rule taken rest ∧ a = actionOf rule taken := by
  refine ⟨next_isNext text a taken rest, ?_⟩
  rintro ⟨rule, h, rfl⟩
  cases hn : next text with
  | none => exact absurd h (next_none text hn rule taken rest)
  | some r =>
    obtain ⟨a', taken', rest'⟩ := r
    obtain ⟨rule', h', rfl⟩ := next_isNext text a' taken' rest' hn
    obtain ⟨rfl, rfl, rfl⟩ := isNext_unique text _ _ _ _ _ _ h h'
    rfl

end Verif.Language
