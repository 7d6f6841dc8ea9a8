import Verif.Lemmas.LexerNext

/-!
# Lemmas about the lexer: the tokens of a text
-/

namespace Verif.Language

theorem lineBreaks_eq (text : Text) : lineBreaks text = breaks text := by
  unfold lineBreaks breaks
  rw [List.count_eq_countP, List.countP_eq_length_filter]
  congr 1

theorem breaks_append (a b : Text) : breaks (a ++ b) = breaks a + breaks b := by
  simp [breaks]

theorem next_shorter (text : Text) (a : Action) (taken rest : Text)
    (h : next text = some (a, taken, rest)) : text = taken ++ rest ∧ rest.length < text.length := by
  obtain ⟨rule, hn, _⟩ := next_isNext text a taken rest h
  refine ⟨hn.split, ?_⟩
  have h1 := congrArg List.length hn.split
  have h2 : 0 < taken.length := List.length_pos_iff.mpr hn.nonempty
  rw [List.length_append] at h1
  omega

/-- What a step of the lexer adds to the result of the rest of the steps. -/
def record (line : Nat) (taken : Text) : Action → Scan → Scan
  | .token t, s => { s with tokens := ⟨t, line⟩ :: s.tokens }
  | .comment, s => { s with comments := (line, taken) :: s.comments }
  | .skip, s => s

/-- What a step of the lexer adds to the tokens. -/
def recordToken (line : Nat) : Action → List Lexeme × Bool → List Lexeme × Bool
  | .token t, r => (⟨t, line⟩ :: r.1, r.2)
  | _, r => r

/-- One step of the lexer. -/
theorem scanFrom_step (fuel line : Nat) (text : Text) (a : Action) (taken rest : Text)
    (h : next text = some (a, taken, rest)) :
    scanFrom (fuel + 1) line text =
      record line taken a (scanFrom fuel (line + breaks taken) rest) := by
  cases text with
  | nil => cases h
  | cons c cs =>
    rw [scanFrom, h, ← lineBreaks_eq]
    cases a <;> rfl

theorem scanFrom_stuck (fuel line : Nat) (text : Text) (hne : text ≠ []) (h : next text = none) :
    scanFrom fuel line text = ⟨[], [], false⟩ := by
  cases fuel with
  | zero => rfl
  | succ fuel =>
    cases text with
    | nil => exact absurd rfl hne
    | cons c cs => rw [scanFrom, h]

theorem scans_scanFrom (line : Nat) (text : Text) (ts : List Lexeme) (cs : List (Nat × Text))
    (b : Bool) (h : Scans line text ts cs b) :
    ∀ fuel, text.length < fuel → scanFrom fuel line text = ⟨ts, cs, b⟩ := by
  induction h with
  | done line =>
    intro fuel hf
    cases fuel with
    | zero => cases hf
    | succ fuel => rfl
  | stuck line text h1 h2 =>
    intro fuel _
    refine scanFrom_stuck fuel line text h1 ?_
    cases hn : next text with
    | none => rfl
    | some r =>
      obtain ⟨rule, h, _⟩ := next_isNext text r.1 r.2.1 r.2.2 hn
      exact absurd h (h2 _ _ _)
  | token line text taken rest rule t ts cs b h1 h2 _ ih =>
    intro fuel hf
    have hn := (next_iff text _ taken rest).mpr ⟨rule, h1, rfl⟩
    have hs := (next_shorter _ _ _ _ hn).2
    cases fuel with
    | zero => cases hf
    | succ fuel =>
      rw [scanFrom_step fuel line text _ taken rest hn, h2, ih fuel (by omega)]
      rfl
  | comment line text taken rest rule ts cs b h1 h2 _ ih =>
    intro fuel hf
    have hn := (next_iff text _ taken rest).mpr ⟨rule, h1, rfl⟩
    have hs := (next_shorter _ _ _ _ hn).2
    cases fuel with
    | zero => cases hf
    | succ fuel =>
      rw [scanFrom_step fuel line text _ taken rest hn, h2, ih fuel (by omega)]
      rfl
  | skip line text taken rest rule ts cs b h1 h2 _ ih =>
    intro fuel hf
    have hn := (next_iff text _ taken rest).mpr ⟨rule, h1, rfl⟩
    have hs := (next_shorter _ _ _ _ hn).2
    cases fuel with
    | zero => cases hf
    | succ fuel =>
      rw [scanFrom_step fuel line text _ taken rest hn, h2, ih fuel (by omega)]
      rfl

theorem scans_exists (fuel : Nat) : ∀ (line : Nat) (text : Text), text.length < fuel →
    Scans line text (scanFrom fuel line text).tokens (scanFrom fuel line text).comments
      (scanFrom fuel line text).complete := by
  induction fuel with
  | zero => intro _ _ h; cases h
  | succ fuel ih =>
    intro line text hf
    by_cases hne : text = []
    · subst hne; exact .done line
    cases hn : next text with
    | none =>
      rw [scanFrom_stuck _ _ _ hne hn]
      exact .stuck line text hne fun rule taken rest h => next_none text hn rule taken rest h
    | some r =>
      obtain ⟨a, taken, rest⟩ := r
      have hs := (next_shorter _ _ _ _ hn).2
      obtain ⟨rule, h, ha⟩ := next_isNext text a taken rest hn
      have ih := ih (line + breaks taken) rest (by omega)
      rw [scanFrom_step fuel line text a taken rest hn]
      cases a with
      | token t => exact .token line text taken rest rule t _ _ _ h ha.symm ih
      | comment => exact .comment line text taken rest rule _ _ _ h ha.symm ih
      | skip => exact .skip line text taken rest rule _ _ _ h ha.symm ih

theorem scan_iff (text : Text) (ts : List Lexeme) (cs : List (Nat × Text)) (b : Bool) :
    scan text = ⟨ts, cs, b⟩ ↔ Scans 1 text ts cs b := by
  constructor
  · intro h
    have := scans_exists (text.length + 1) 1 text (Nat.lt_succ_self _)
    unfold scan at h
    rw [h] at this
    exact this
  · intro h
    exact scans_scanFrom 1 text ts cs b h _ (Nat.lt_succ_self _)

/-! ## Scanning from any line -/

/-- The lexer for a text that starts in the given line. -/
def scanAt (line : Nat) (text : Text) : Scan := scanFrom (text.length + 1) line text

theorem scanFrom_eq_scanAt (fuel line : Nat) (text : Text) (h : text.length < fuel) :
    scanFrom fuel line text = scanAt line text :=
  scans_scanFrom line text _ _ _ (scans_exists (text.length + 1) line text (Nat.lt_succ_self _)) fuel h

theorem scanAt_step (line : Nat) (text : Text) (a : Action) (taken rest : Text)
    (h : next text = some (a, taken, rest)) :
    scanAt line text = record line taken a (scanAt (line + breaks taken) rest) := by
  have hs := (next_shorter _ _ _ _ h).2
  rw [scanAt, scanFrom_step _ line text a taken rest h, scanFrom_eq_scanAt _ _ rest hs]

/-- The tokens and whether the end is reached. -/
def tokensAt (line : Nat) (text : Text) : List Lexeme × Bool :=
  ((scanAt line text).tokens, (scanAt line text).complete)

theorem tokensAt_step (line : Nat) (text : Text) (a : Action) (taken rest : Text)
    (h : next text = some (a, taken, rest)) :
    tokensAt line text = recordToken line a (tokensAt (line + breaks taken) rest) := by
  unfold tokensAt
  rw [scanAt_step line text a taken rest h]
  cases a <;> rfl

/-! ## Layout -/

theorem white_not_others (c : Char) (h : White c) : isBlankChar c = true := (isBlankChar_iff c).mpr h

theorem next_white (c : Char) (cs : Text) (h : White c) :
    next (c :: cs) = some (.skip, c :: cs.takeWhile isBlankChar, cs.dropWhile isBlankChar) := by
  rcases h with rfl | rfl | rfl | rfl <;> rfl

theorem tokensAt_white (line : Nat) (c : Char) (rest : Text) (h : White c) :
    tokensAt line (c :: rest) = tokensAt (line + breaks [c]) rest := by
  rw [tokensAt_step line _ _ _ _ (next_white c rest h)]
  cases rest with
  | nil => rfl
  | cons d ds =>
    by_cases hd : White d
    · rw [tokensAt_step _ (d :: ds) _ _ _ (next_white d ds hd)]
      have hb := white_not_others d hd
      rw [List.takeWhile_cons_of_pos hb, List.dropWhile_cons_of_pos hb]
      show tokensAt (line + breaks ([c] ++ (d :: ds.takeWhile isBlankChar))) _ = _
      rw [breaks_append, ← Nat.add_assoc]
      rfl
    · have hb : ¬ isBlankChar d = true := fun hb => hd ((isBlankChar_iff d).mp hb)
      rw [List.takeWhile_cons_of_neg hb, List.dropWhile_cons_of_neg hb]
      rfl

theorem takeWhile_lineComment (content rest : Text) (c : Char) (h1 : '\r' ∉ content)
    (h2 : '\n' ∉ content) (hc : c = '\r' ∨ c = '\n') :
    (content ++ c :: rest).takeWhile inLineComment = content ∧
    (content ++ c :: rest).dropWhile inLineComment = c :: rest := by
  have hcf : inLineComment c ≠ true := by rcases hc with rfl | rfl <;> decide
  induction content with
  | nil => exact ⟨List.takeWhile_cons_of_neg hcf, List.dropWhile_cons_of_neg hcf⟩
  | cons d ds ih =>
    have hd : inLineComment d = true := (inLineComment_iff d).mpr
      ⟨fun h => h1 (h ▸ List.mem_cons_self ..), fun h => h2 (h ▸ List.mem_cons_self ..)⟩
    have ih := ih (fun h => h1 (List.mem_cons_of_mem _ h)) (fun h => h2 (List.mem_cons_of_mem _ h))
    rw [List.cons_append, List.takeWhile_cons_of_pos hd, List.dropWhile_cons_of_pos hd]
    exact ⟨by rw [ih.1], ih.2⟩

theorem takeWhile_lineComment_end (content : Text) (h1 : '\r' ∉ content) (h2 : '\n' ∉ content) :
    content.takeWhile inLineComment = content ∧ content.dropWhile inLineComment = [] := by
  induction content with
  | nil => exact ⟨rfl, rfl⟩
  | cons d ds ih =>
    have hd : inLineComment d = true := (inLineComment_iff d).mpr
      ⟨fun h => h1 (h ▸ List.mem_cons_self ..), fun h => h2 (h ▸ List.mem_cons_self ..)⟩
    have ih := ih (fun h => h1 (List.mem_cons_of_mem _ h)) (fun h => h2 (List.mem_cons_of_mem _ h))
    rw [List.takeWhile_cons_of_pos hd, List.dropWhile_cons_of_pos hd]
    exact ⟨by rw [ih.1], ih.2⟩

theorem next_lineComment (ds : Text) :
    next ('/' :: '/' :: ds) =
      some (.comment, '/' :: '/' :: ds.takeWhile inLineComment, ds.dropWhile inLineComment) := rfl

theorem next_blockComment (content rest : Text) (h : ¬ ClosesComment (content ++ t!"*")) :
    next (t!"/*" ++ content ++ t!"*/" ++ rest) =
      some (.skip, t!"/*" ++ content ++ t!"*/", rest) := by
  have e : next ('/' :: '*' :: (content ++ t!"*/" ++ rest)) =
      (upToCommentEnd (content ++ t!"*/" ++ rest)).map
        fun r => (.skip, '/' :: '*' :: r.1, r.2) := rfl
  rw [upToCommentEnd_complete content rest h] at e
  simpa using e

theorem white_of_line (c : Char) (h : c = '\r' ∨ c = '\n') : White c := by
  rcases h with h | h
  · exact .inr (.inr (.inl h))
  · exact .inr (.inr (.inr h))

theorem breaks_cons (c : Char) (text : Text) : breaks (c :: text) = breaks [c] + breaks text :=
  breaks_append [c] text

theorem tokensAt_layout (layout : Text) (h : Layout layout) : ∀ (line : Nat) (rest : Text),
    tokensAt line (layout ++ rest) = tokensAt (line + breaks layout) rest := by
  induction h with
  | nil => intro line rest; rfl
  | white c cs hc _ ih =>
    intro line rest
    rw [List.cons_append, tokensAt_white line c _ hc, ih, breaks_cons c cs, Nat.add_assoc]
  | line content cs c h1 h2 hc _ ih =>
    intro line rest
    have e : t!"//" ++ content ++ c :: cs ++ rest = '/' :: '/' :: (content ++ c :: (cs ++ rest)) := by
      simp
    have ht := takeWhile_lineComment content (cs ++ rest) c h1 h2 hc
    rw [e, tokensAt_step line _ _ _ _ (next_lineComment _), ht.1, ht.2]
    show tokensAt _ _ = _
    rw [tokensAt_white _ c _ (white_of_line c hc), ih]
    congr 1
    rw [breaks_append, breaks_cons c cs]
    show line + breaks (t!"//" ++ content) + breaks [c] + breaks cs = _
    omega
  | block content cs h1 _ ih =>
    intro line rest
    rw [List.append_assoc, tokensAt_step line _ _ _ _ (next_blockComment content (cs ++ rest) h1)]
    show tokensAt _ _ = _
    rw [ih, breaks_append (t!"/*" ++ content ++ t!"*/") cs, Nat.add_assoc]

theorem append_newline (layout rest : Text) (c : Char) (content : Text)
    (h : layout ++ t!"\n" = content ++ c :: rest) :
    (rest = [] ∧ layout = content ∧ c = '\n') ∨
    ∃ rest', rest = rest' ++ t!"\n" ∧ layout = content ++ c :: rest' := by
  rcases List.eq_nil_or_concat rest with rfl | ⟨r, d, rfl⟩
  · left
    have := List.append_inj' h rfl
    exact ⟨rfl, this.1, (List.cons.inj this.2).1.symm⟩
  · right
    rw [List.concat_eq_append] at h ⊢
    have h' : layout ++ t!"\n" = (content ++ c :: r) ++ [d] := by rw [h]; simp
    have := List.append_inj' h' rfl
    exact ⟨r, by rw [this.2], this.1⟩

theorem tokensAt_layout_end (x : Text) (h : Layout x) : ∀ (line : Nat) (layout : Text),
    x = layout ++ t!"\n" → tokensAt line layout = ([], true) := by
  induction h with
  | nil => intro _ layout h; cases layout <;> cases h
  | white c cs hc _ ih =>
    intro line layout h
    cases layout with
    | nil => rfl
    | cons d ds =>
      have h := List.cons.inj h
      rw [← h.1, tokensAt_white line c ds hc]
      exact ih _ ds h.2
  | line content cs c h1 h2 hc _ ih =>
    intro line layout h
    rcases append_newline layout cs c _ h.symm with ⟨_, rfl, _⟩ | ⟨rest', h3, rfl⟩
    · have ht := takeWhile_lineComment_end content h1 h2
      have e : t!"//" ++ content = '/' :: '/' :: content := rfl
      rw [e, tokensAt_step line _ _ _ _ (next_lineComment _), ht.1, ht.2]
      rfl
    · have e : t!"//" ++ content ++ c :: rest' = '/' :: '/' :: (content ++ c :: rest') := by simp
      have ht := takeWhile_lineComment content rest' c h1 h2 hc
      rw [e, tokensAt_step line _ _ _ _ (next_lineComment _), ht.1, ht.2]
      show tokensAt _ _ = _
      rw [tokensAt_white _ c _ (white_of_line c hc)]
      exact ih _ rest' h3
  | block content cs h1 _ ih =>
    intro line layout h
    have h' : layout ++ t!"\n" = (t!"/*" ++ content ++ t!"*") ++ '/' :: cs := by rw [← h]; simp
    rcases append_newline layout cs '/' _ h' with ⟨_, _, hc⟩ | ⟨rest', h3, rfl⟩
    · exact absurd hc (by decide)
    · have e : t!"/*" ++ content ++ t!"*" ++ '/' :: rest' = t!"/*" ++ content ++ t!"*/" ++ rest' := by
        simp
      rw [e, tokensAt_step line _ _ _ _ (next_blockComment content rest' h1)]
      exact ih _ rest' h3

/-! ## Tokens -/

theorem takeWhile_all (p : Char → Bool) (a b : Text) (ha : ∀ c ∈ a, p c = true)
    (hb : ∀ c cs, b = c :: cs → p c = false) :
    (a ++ b).takeWhile p = a ∧ (a ++ b).dropWhile p = b := by
  induction a with
  | nil =>
    cases b with
    | nil => exact ⟨rfl, rfl⟩
    | cons c cs =>
      have : ¬ p c = true := by rw [hb c cs rfl]; decide
      exact ⟨List.takeWhile_cons_of_neg this, List.dropWhile_cons_of_neg this⟩
  | cons d ds ih =>
    have hd := ha d (List.mem_cons_self ..)
    have ih := ih fun c hc => ha c (List.mem_cons_of_mem _ hc)
    rw [List.cons_append, List.takeWhile_cons_of_pos hd, List.dropWhile_cons_of_pos hd]
    exact ⟨by rw [ih.1], ih.2⟩

theorem next_digit (c : Char) (cs : Text) (h : Digit c) :
    next (c :: cs) = some (.token (.integer (c :: cs.takeWhile isDigitChar)),
      c :: cs.takeWhile isDigitChar, cs.dropWhile isDigitChar) := by
  simp only [Digit, List.mem_cons, List.not_mem_nil, or_false] at h
  rcases h with h | h | h | h | h | h | h | h | h | h <;> (subst h; rfl)

/-- The token of a word. -/
def wordToken (word : Text) : Token :=
  match keywordOf word with
  | some k => .keyword k
  | none => .identifier word

theorem next_word_aux (c : Char) (cs : Text) (h : NameStart c) :
    next (c :: cs) = (match keywordOf (c :: cs.takeWhile isWordChar) with
      | some k => some (.token (.keyword k), c :: cs.takeWhile isWordChar, cs.dropWhile isWordChar)
      | none => some (.token (.identifier (c :: cs.takeWhile isWordChar)),
          c :: cs.takeWhile isWordChar, cs.dropWhile isWordChar)) := by
  simp only [NameStart, List.mem_cons, List.not_mem_nil, or_false] at h
  iterate 52
    rcases h with rfl | h
    · rfl
  subst h; rfl

theorem next_word (c : Char) (cs : Text) (h : NameStart c) :
    next (c :: cs) = some (.token (wordToken (c :: cs.takeWhile isWordChar)),
      c :: cs.takeWhile isWordChar, cs.dropWhile isWordChar) := by
  rw [next_word_aux c cs h]
  unfold wordToken
  cases keywordOf (c :: cs.takeWhile isWordChar) <;> rfl

theorem next_token (t : Token) (text rest : Text) (h : WrittenAs t text)
    (hc : ∀ c cs, rest = c :: cs → ¬ Continues t c) :
    next (text ++ rest) = some (.token t, text, rest) := by
  have word : Word text → wordToken text = t → (∀ c cs, rest = c :: cs → ¬ NameChar c) →
      next (text ++ rest) = some (.token t, text, rest) := by
    rintro ⟨c, cs, rfl, h1, h2⟩ ht hr
    have hw := takeWhile_all isWordChar cs rest (fun d hd => (isWordChar_iff d).mpr (h2 d hd))
      (fun c cs h => Bool.eq_false_iff.mpr fun hn => hr c cs h ((isWordChar_iff c).mp hn))
    rw [List.cons_append, next_word c _ h1, hw.1, hw.2, ht]
  cases t with
  | keyword k =>
    refine word (keyword_word k text h) ?_ hc
    unfold wordToken
    rw [(keywordOf_iff text k).mpr h]
  | integer digits =>
    obtain ⟨rfl, h1, h2⟩ := h
    cases text with
    | nil => exact absurd rfl h1
    | cons c cs =>
      have hw := takeWhile_all isDigitChar cs rest
        (fun d hd => (isDigitChar_iff d).mpr (h2 d (List.mem_cons_of_mem _ hd)))
        (fun c cs h => Bool.eq_false_iff.mpr fun hn => hc c cs h ((isDigitChar_iff c).mp hn))
      rw [List.cons_append, next_digit c _ (h2 c (List.mem_cons_self ..)), hw.1, hw.2]
  | string quoted =>
    obtain ⟨rfl, h1⟩ := h
    have go : ∀ q content, q ∉ content → (q = '"' ∨ q = '`') →
        next (q :: (content ++ [q]) ++ rest) =
          some (.token (.string (q :: (content ++ [q]))), q :: (content ++ [q]), rest) := by
      intro q content hq hqc
      have e : next (q :: (content ++ q :: rest)) = (upTo q (content ++ q :: rest)).map fun r =>
          (.token (.string (q :: r.1)), q :: r.1, r.2) := by
        rcases hqc with rfl | rfl <;> rfl
      rw [upTo_complete q content rest hq] at e
      simpa using e
    rcases h1 with ⟨content, rfl, hq⟩ | ⟨content, rfl, hq⟩
    · exact go _ content hq (.inl rfl)
    · exact go _ content hq (.inr rfl)
  | identifier w =>
    obtain ⟨rfl, h1, h2⟩ := h
    refine word h1 ?_ hc
    unfold wordToken
    cases hk : keywordOf text with
    | none => rfl
    | some k => exact absurd ((keywordOf_iff text k).mp hk) (h2 k)
  | _ => cases h; rfl

theorem written_tokens (line : Nat) (ts : List Lexeme) (text : Text) (h : Written line ts text) :
    tokensAt line text = (ts, true) := by
  induction h with
  | done line layout h => exact tokensAt_layout_end _ h line layout rfl
  | token line layout text rest t ts h1 h2 h3 _ ih =>
    rw [List.append_assoc, tokensAt_layout layout h1,
      tokensAt_step _ _ _ _ _ (next_token t text rest h2 h3), ih]
    rfl

/-! ## Every text that the lexer accepts is written in that way -/

theorem layout_append (a b : Text) (ha : Layout a) (hb : Layout b) : Layout (a ++ b) := by
  induction ha with
  | nil => exact hb
  | white c rest h _ ih => exact .white c _ h ih
  | line content rest c h1 h2 h3 _ ih =>
    rw [List.append_assoc, List.cons_append]
    exact .line content _ c h1 h2 h3 ih
  | block content rest h _ ih =>
    rw [List.append_assoc]
    exact .block content _ h ih

theorem layout_white (a : Text) (h : ∀ c ∈ a, White c) : Layout a := by
  induction a with
  | nil => exact .nil
  | cons c cs ih =>
    exact .white c cs (h c (List.mem_cons_self ..)) (ih fun d hd => h d (List.mem_cons_of_mem _ hd))

theorem written_prepend (line : Nat) (ts : List Lexeme) (a text : Text) (ha : Layout a)
    (h : Written (line + breaks a) ts text) : Written line ts (a ++ text) := by
  generalize hl : line + breaks a = l at h
  cases h with
  | done _ layout h =>
    refine .done line _ ?_
    rw [List.append_assoc]
    exact layout_append a _ ha h
  | token _ layout text rest t ts h1 h2 h3 h4 =>
    subst hl
    have e : a ++ (layout ++ text ++ rest) = (a ++ layout) ++ text ++ rest := by simp
    have hb : line + breaks a + breaks layout = line + breaks (a ++ layout) := by
      rw [breaks_append, Nat.add_assoc]
    rw [e, hb]
    rw [hb] at h4
    exact .token line (a ++ layout) text rest t ts (layout_append a layout ha h1) h2 h3 h4

theorem isNext_token (text : Text) (rule : Rule) (taken rest : Text) (t : Token)
    (h : IsNext text rule taken rest) (ha : actionOf rule taken = .token t) :
    WrittenAs t taken ∧ ∀ c cs, rest = c :: cs → ¬ Continues t c := by
  have longer : ∀ c cs other, rest = c :: cs → ¬ Matches other (taken ++ [c]) := by
    intro c cs other hr hm
    have := h.longest other (taken ++ [c]) cs (by rw [h.split, hr]; simp) hm
    simp at this
    omega
  have hword : Word taken → ∀ c cs, rest = c :: cs → ¬ NameChar c := by
    rintro ⟨d, ds, he, h1, h2⟩ c cs hr hc
    refine longer c cs .identifier hr ⟨d, ds ++ [c], by rw [he]; rfl, h1, ?_⟩
    intro e hm
    rcases List.mem_append.mp hm with hm | hm
    · exact h2 e hm
    · rw [List.mem_singleton.mp hm]; exact hc
  have hhit := h.hit
  cases rule with
  | fixed t' =>
    cases ha
    refine ⟨?_, ?_⟩
    · cases t with
      | integer _ => cases hhit
      | string _ => cases hhit
      | identifier _ => cases hhit
      | _ => exact hhit
    · cases t with
      | keyword k => exact hword (keyword_word k _ hhit)
      | integer _ => cases hhit
      | string _ => cases hhit
      | identifier _ => cases hhit
      | _ => exact fun _ _ _ hc => hc
  | integer =>
    cases ha
    refine ⟨⟨rfl, hhit⟩, fun c cs hr hc => longer c cs .integer hr ⟨by simp, ?_⟩⟩
    intro e hm
    rcases List.mem_append.mp hm with hm | hm
    · exact hhit.2 e hm
    · rw [List.mem_singleton.mp hm]; exact hc
  | string =>
    cases ha
    exact ⟨⟨rfl, hhit⟩, fun _ _ _ hc => hc⟩
  | identifier =>
    cases ha
    refine ⟨⟨rfl, hhit, ?_⟩, hword hhit⟩
    intro k hk
    have : 3 ≤ 0 := h.first (.fixed (.keyword k)) hk
    exact absurd this (by decide)
  | lineComment => cases ha
  | blockComment => cases ha
  | white => cases ha

theorem tokens_written (n : Nat) : ∀ (line : Nat) (ts : List Lexeme) (text : Text),
    text.length < n → tokensAt line text = (ts, true) → Written line ts text := by
  induction n with
  | zero => intro _ _ _ h; cases h
  | succ n ih =>
    intro line ts text hl h
    by_cases hne : text = []
    · subst hne
      have : ts = [] := by
        have h1 := congrArg Prod.fst h
        exact h1.symm
      rw [this]
      exact .done line [] (.white _ _ (white_of_line _ (.inr rfl)) .nil)
    cases hn : next text with
    | none =>
      have := congrArg Prod.snd h
      unfold tokensAt scanAt at this
      rw [scanFrom_stuck _ _ _ hne hn] at this
      cases this
    | some r =>
      obtain ⟨a, taken, rest⟩ := r
      have hshort := next_shorter _ _ _ _ hn
      obtain ⟨rule, hi, ha⟩ := next_isNext text a taken rest hn
      rw [tokensAt_step line text a taken rest hn] at h
      have hhit := hi.hit
      rw [hshort.1]
      have toks : ∀ t, a = .token t → Written line ts (taken ++ rest) := by
        intro t hat
        subst hat
        obtain ⟨h1, h2⟩ := isNext_token text rule taken rest t hi ha.symm
        have e1 := congrArg Prod.fst h
        have e2 := congrArg Prod.snd h
        have e : ts = ⟨t, line + breaks []⟩ :: (tokensAt (line + breaks taken) rest).1 := e1.symm
        rw [e]
        have hw := ih (line + breaks taken) (tokensAt (line + breaks taken) rest).1 rest
          (by omega) (by rw [← show (tokensAt (line + breaks taken) rest).2 = true from e2])
        exact .token line [] taken rest t _ .nil h1 h2 hw
      cases rule with
      | lineComment =>
        cases ha
        obtain ⟨content, hcon, h1, h2⟩ := hhit
        have h : tokensAt (line + breaks taken) rest = (ts, true) := h
        cases rest with
        | nil =>
          have : ts = [] := (congrArg Prod.fst h).symm
          rw [this, List.append_nil]
          refine .done line taken ?_
          rw [hcon]
          exact .line content [] '\n' h1 h2 (.inr rfl) .nil
        | cons c cs =>
          have hc : c = '\r' ∨ c = '\n' := by
            apply Classical.byContradiction
            intro hc
            have hm : Matches .lineComment (taken ++ [c]) := by
              refine ⟨content ++ [c], by rw [hcon]; rfl, ?_, ?_⟩
              · intro hm
                rcases List.mem_append.mp hm with hm | hm
                · exact h1 hm
                · exact hc (.inl (List.mem_singleton.mp hm).symm)
              · intro hm
                rcases List.mem_append.mp hm with hm | hm
                · exact h2 hm
                · exact hc (.inr (List.mem_singleton.mp hm).symm)
            have := hi.longest .lineComment (taken ++ [c]) cs (by rw [hshort.1]; simp) hm
            simp at this
            omega
          rw [tokensAt_white _ c cs (white_of_line c hc)] at h
          have hlen : cs.length < n := by
            have := hshort.2
            simp only [List.length_cons] at this
            omega
          have hw := ih _ ts cs hlen h
          have e : taken ++ c :: cs = (taken ++ [c]) ++ cs := by simp
          rw [e]
          refine written_prepend line ts _ cs ?_ ?_
          · rw [hcon]
            exact .line content [] c h1 h2 hc .nil
          · rw [breaks_append, ← Nat.add_assoc]
            exact hw
      | blockComment =>
        cases ha
        obtain ⟨content, hcon, h1⟩ := hhit
        refine written_prepend line ts taken rest ?_ (ih _ ts rest (by omega) h)
        rw [hcon]
        have := Layout.block content [] h1 .nil
        rwa [List.append_nil] at this
      | white =>
        cases ha
        exact written_prepend line ts taken rest (layout_white taken hhit.2)
          (ih _ ts rest (by omega) h)
      | fixed t => exact toks t ha
      | integer => exact toks _ ha
      | string => exact toks _ ha
      | identifier => exact toks _ ha

theorem written_iff (line : Nat) (ts : List Lexeme) (text : Text) :
    Written line ts text ↔ tokensAt line text = (ts, true) :=
  ⟨written_tokens line ts text, tokens_written _ line ts text (Nat.lt_succ_self _)⟩

end Verif.Language
