import Verif.Model.MetricsCode
import Verif.Spec.MetricsCode
import Verif.Spec.Resources
import Verif.Lemmas.GoFile
import Verif.Lemmas.ClientPaths

/-! Lemmas about the file of the metrics support. -/

namespace Verif.MetricsCode

open GoTemplate GoFile
open Docs (Short)
open Docs (unlines)

/-! ## Texts -/

theorem digit_hex : ∀ k < 16, digitValue (hexDigit k) = some k := by decide +kernel

theorem charOf_toNat (c : Char) : charOf c.toNat = some c := by
  have h : c.toNat.isValidChar := c.valid
  rw [charOf, dif_pos h]
  congr 1

theorem read_escape4 (c : Char) (h : c.toNat < 65536) (r : Text) :
    readText (escape4 c.toNat ++ r) = (readText r).map fun x => (c :: x.1, x.2) := by
  have e : escape4 c.toNat ++ r = '\\' :: 'u' :: hexDigit (c.toNat / 4096 % 16) :: hexDigit (c.toNat / 256 % 16) ::
    hexDigit (c.toNat / 16 % 16) :: hexDigit (c.toNat % 16) :: r := rfl
  have hn : c.toNat / 4096 % 16 * 4096 + c.toNat / 256 % 16 * 256 + c.toNat / 16 % 16 * 16 + c.toNat % 16 = c.toNat := by
    omega
  rw [e, readText, digit_hex _ (by omega), digit_hex _ (by omega), digit_hex _ (by omega), digit_hex _ (by omega)]
  dsimp only
  rw [hn, charOf_toNat]

theorem read_plain (c : Char) (r : Text) (h1 : c ≠ '"') (h2 : c ≠ '\\') (h3 : ¬ c.toNat < 32) :
    readText (c :: r) = (readText r).map fun x => (c :: x.1, x.2) := by
  rw [readText.eq_def]
  split <;> simp_all
  omega

theorem read_char (c : Char) (r : Text) :
    readText (escapeChar c ++ r) = (readText r).map fun x => (c :: x.1, x.2) := by
  rw [escapeChar]
  split
  · subst c; rfl
  split
  · subst c; rfl
  split
  · subst c; rfl
  split
  · subst c; rfl
  split
  · subst c; rfl
  split
  · rename_i h
    refine read_escape4 c ?_ r
    rcases h with h | h | h | h | h | h
    · omega
    · subst c; decide
    · subst c; decide
    · subst c; decide
    · omega
    · omega
  · rename_i h1 h2 h3 h4 h5 h
    exact read_plain c r h1 h2 fun h' => h (Or.inl h')

theorem read_text (t r : Text) : readText (t.flatMap escapeChar ++ '"' :: r) = some (t, r) := by
  induction t with
  | nil => rfl
  | cons c t ih => rw [List.flatMap_cons, List.append_assoc, read_char, ih]; rfl

/-! ## Values -/

theorem skip_indent (n : Nat) (r : Text) : skipBlanks (List.replicate n ' ' ++ r) = skipBlanks r := by
  induction n with
  | zero => rfl
  | succ n ih => rw [List.replicate_succ, List.cons_append, skipBlanks, if_pos (Or.inl rfl), ih]

theorem skip_indent' (d : Nat) (r : Text) : skipBlanks (indent d ++ r) = skipBlanks r := skip_indent _ _

mutual
/-- Enough for the reader. -/
def size : PathTree → Nat
  | .none => 1
  | .branch children => 1 + sizes children
def sizes : List (Text × PathTree) → Nat
  | [] => 1
  | (_, t) :: rest => 1 + size t + sizes rest
end

theorem skip_blank (r : Text) : skipBlanks (' ' :: r) = skipBlanks r := rfl
theorem skip_nl (r : Text) : skipBlanks ('\n' :: r) = skipBlanks r := rfl
theorem skip_quote (r : Text) : skipBlanks ('"' :: r) = '"' :: r := rfl
theorem skip_close (r : Text) : skipBlanks ('}' :: r) = '}' :: r := rfl
theorem skip_open (r : Text) : skipBlanks ('{' :: r) = '{' :: r := rfl
theorem skip_comma (r : Text) : skipBlanks (',' :: r) = ',' :: r := rfl
theorem skip_colon (r : Text) : skipBlanks (':' :: r) = ':' :: r := rfl
theorem skip_null (r : Text) : skipBlanks ('n' :: r) = 'n' :: r := rfl

/-- The text is the same for the reader of trees if it has blanks before. -/
theorem readTree_blank (fuel : Nat) (r : Text) : readTree fuel (' ' :: r) = readTree fuel r := by
  cases fuel <;> simp only [readTree, skip_blank]

theorem readEntries_blank (fuel : Nat) (r s : Text) (h : skipBlanks r = skipBlanks s) :
    readEntries fuel r = readEntries fuel s := by
  cases fuel <;> simp only [readEntries, h]

theorem entries_head (d : Nat) (e : Text × PathTree) (es : List (Text × PathTree)) (r : Text) :
    ∃ k, skipBlanks (encodeEntries d (e :: es) ++ r) = '"' :: k := by
  obtain ⟨label, t⟩ := e
  rw [encodeEntries]
  simp only [List.append_assoc]
  rw [skip_indent', encodeText, List.cons_append, skip_quote]
  exact ⟨_, rfl⟩

theorem entries_last (f : Nat) (text rest label r1 r2 r3 : Text) (tree : PathTree) (h0 : skipBlanks text = '"' :: rest)
    (h1 : readText rest = some (label, ':' :: r1)) (h2 : readTree f r1 = some (tree, r2))
    (h3 : skipBlanks r2 = '}' :: r3) : readEntries (f + 1) text = some ([(label, tree)], r3) := by
  simp [readEntries, h0, h1, skip_colon, h2, h3]

theorem entries_more (f : Nat) (text rest label r1 r2 r3 : Text) (tree : PathTree) (h0 : skipBlanks text = '"' :: rest)
    (h1 : readText rest = some (label, ':' :: r1)) (h2 : readTree f r1 = some (tree, r2))
    (h3 : skipBlanks r2 = ',' :: r3) :
    readEntries (f + 1) text = (readEntries f r3).map fun r => ((label, tree) :: r.1, r.2) := by
  simp [readEntries, h0, h1, skip_colon, h2, h3]

theorem tree_object (f : Nat) (text rest k : Text) (h0 : skipBlanks text = '{' :: rest)
    (h1 : skipBlanks rest = '"' :: k) :
    readTree (f + 1) text = (readEntries f rest).map fun r => (.branch r.1, r.2) := by
  rw [readEntries_blank f rest ('"' :: k) (by rw [h1]; rfl)]
  simp [readTree, h0, h1]

mutual
theorem read_tree : ∀ (t : PathTree) (d fuel : Nat) (r : Text), size t ≤ fuel →
    readTree fuel (encodeTree d t ++ r) = some (t, r)
  | .none, d, fuel, r, h => by
    obtain ⟨f, rfl⟩ : ∃ f, fuel = f + 1 := ⟨fuel - 1, by simp only [size] at h; omega⟩
    rfl
  | .branch [], d, fuel, r, h => by
    obtain ⟨f, rfl⟩ : ∃ f, fuel = f + 1 := ⟨fuel - 1, by simp only [size] at h; omega⟩
    rfl
  | .branch (e :: es), d, fuel, r, h => by
    obtain ⟨f, rfl⟩ : ∃ f, fuel = f + 1 := ⟨fuel - 1, by simp only [size] at h; omega⟩
    have ih := read_entries (e :: es) e es rfl (d + 1) f d r (by simp only [size] at h; omega)
    rw [encodeTree]
    simp only [List.append_assoc]
    obtain ⟨k, hk⟩ := entries_head (d + 1) e es ('\n' :: (indent d ++ '}' :: r))
    refine (tree_object f _ ('\n' :: (encodeEntries (d + 1) (e :: es) ++ ('\n' :: (indent d ++ '}' :: r)))) k rfl hk).trans ?_
    rw [readEntries_blank f _ _ (skip_nl _), ih]
    rfl
theorem read_entries : ∀ (all : List (Text × PathTree)) (e : Text × PathTree) (es : List (Text × PathTree)), all = e :: es →
    ∀ (d fuel k : Nat) (r : Text), sizes all ≤ fuel →
    readEntries fuel (encodeEntries d (e :: es) ++ ('\n' :: (indent k ++ '}' :: r))) = some (e :: es, r)
  | [], _, _, h, _, _, _, _, _ => by cases h
  | (label, t) :: [], _, _, rfl, d, fuel, k, r, h => by
    obtain ⟨f, rfl⟩ : ∃ f, fuel = f + 1 := ⟨fuel - 1, by simp only [sizes] at h; omega⟩
    have ih := read_tree t d f ('\n' :: (indent k ++ '}' :: r)) (by simp only [sizes] at h; omega)
    rw [encodeEntries]
    simp only [List.append_assoc, List.isEmpty_nil, if_true, List.nil_append]
    refine entries_last f _ _ label (' ' :: (encodeTree d t ++ '\n' :: (indent k ++ '}' :: r))) _ r t ?_
      (read_text label _) ((readTree_blank _ _).trans ih) ?_
    · rw [skip_indent', encodeText, List.cons_append, skip_quote, List.append_assoc]
      rfl
    · rw [skip_nl, skip_indent', skip_close]
  | (label, t) :: e :: es, _, _, rfl, d, fuel, k, r, h => by
    obtain ⟨f, rfl⟩ : ∃ f, fuel = f + 1 := ⟨fuel - 1, by simp only [sizes] at h; omega⟩
    have hs : sizes ((label, t) :: e :: es) = 1 + size t + sizes (e :: es) := by rw [sizes]
    have ih := read_tree t d f (',' :: '\n' :: (encodeEntries d (e :: es) ++ '\n' :: (indent k ++ '}' :: r))) (by omega)
    have ih2 := read_entries (e :: es) e es rfl d f k r (by
      have : 0 < size t := by cases t <;> simp only [size] <;> omega
      omega)
    rw [encodeEntries]
    simp only [List.append_assoc, List.isEmpty_cons, Bool.false_eq_true, if_false]
    refine (entries_more f _ _ label
      (' ' :: (encodeTree d t ++ ',' :: '\n' :: (encodeEntries d (e :: es) ++ '\n' :: (indent k ++ '}' :: r)))) _
      ('\n' :: (encodeEntries d (e :: es) ++ '\n' :: (indent k ++ '}' :: r))) t ?_
      (read_text label _) ((readTree_blank _ _).trans ih) rfl).trans ?_
    · rw [skip_indent', encodeText, List.cons_append, skip_quote, List.append_assoc]
      rfl
    · rw [readEntries_blank f _ _ (skip_nl _), ih2]
      rfl
end

theorem read_document (t : PathTree) : Document (document t) (sortTree t) :=
  ⟨_, _, read_tree (sortTree t) 0 _ t!"\n" (Nat.le_refl _), rfl⟩

/-! ## Sorting -/

theorem find_insertSorted (e : Text × PathTree) (x : Text) : ∀ l : List (Text × PathTree),
    GoMap.find (insertSorted e l) x = GoMap.find (e :: l) x
  | [] => rfl
  | y :: ys => by
    rw [insertSorted]
    split
    · rename_i h
      obtain ⟨k, v⟩ := e
      obtain ⟨k', v'⟩ := y
      have ih := find_insertSorted (k, v) x ys
      simp only [GoMap.find] at ih ⊢
      rw [ih]
      by_cases h1 : k' = x
      · subst h1
        have : k ≠ k' := by
          rintro rfl
          exact absurd h (List.lt_irrefl _)
        simp [this]
      · simp [h1]
    · rfl

theorem mem_insertSorted (e x : Text × PathTree) : ∀ l : List (Text × PathTree),
    x ∈ insertSorted e l ↔ x = e ∨ x ∈ l
  | [] => by simp [insertSorted]
  | y :: ys => by
    rw [insertSorted]
    split
    · rw [List.mem_cons, mem_insertSorted e x ys, List.mem_cons]
      grind
    · simp

mutual
theorem sortTree_has : ∀ (t : PathTree) (p : List Text), (sortTree t).Has p ↔ t.Has p
  | .none, p => by rw [sortTree]
  | .branch children, [] => by simp [PathTree.Has]
  | .branch children, x :: p => by
    rw [sortTree]
    simp only [PathTree.Has]
    exact sortEntries_has children x p
theorem sortEntries_has : ∀ (l : List (Text × PathTree)) (x : Text) (p : List Text),
    (∃ t, GoMap.find (sortEntries l) x = some t ∧ t.Has p) ↔ ∃ t, GoMap.find l x = some t ∧ t.Has p
  | [], x, p => by rw [sortEntries]
  | (label, t) :: rest, x, p => by
    have ih := sortEntries_has rest x p
    have ih2 := sortTree_has t p
    rw [sortEntries, find_insertSorted]
    simp only [GoMap.find]
    by_cases h : label = x
    · simp [h, ih2]
    · simp only [h, if_false]
      exact ih
end

/-! ## The value of a document is unique -/

theorem read_more (f : Nat) :
    (∀ text r, readTree f text = some r → readTree (f + 1) text = some r) ∧
    (∀ text r, readEntries f text = some r → readEntries (f + 1) text = some r) := by
  induction f with
  | zero => exact ⟨fun _ _ h => by simp [readTree] at h, fun _ _ h => by simp [readEntries] at h⟩
  | succ f ih =>
    obtain ⟨ih1, ih2⟩ := ih
    constructor
    · intro text r h
      rw [readTree] at h ⊢
      split at h
      · exact h
      · rename_i e
        try (rw [e]; simp only)
        split at h
        · exact h
        · rename_i rest' hr
          obtain ⟨x, hx, e⟩ := Option.map_eq_some_iff.mp h
          rw [ih2 _ _ hx]
          exact congrArg some e
      · cases h
    · intro text r h
      rw [readEntries] at h ⊢
      split at h
      · rename_i e
        try (rw [e]; simp only)
        split at h
        · cases h
        · rename_i e
          try (rw [e]; simp only)
          split at h
          · rename_i e
            try (rw [e]; simp only)
            split at h
            · cases h
            · rename_i e
              rw [ih1 _ _ e]
              simp only
              split at h
              · rename_i e
                try (rw [e]; simp only)
                obtain ⟨x, hx, e⟩ := Option.map_eq_some_iff.mp h
                rw [ih2 _ _ hx]
                exact congrArg some e
              · rename_i e
                exact h
              · cases h
          · cases h
      · cases h

theorem read_enough (f k : Nat) (text : Text) (r : PathTree × Text) (h : readTree f text = some r) :
    readTree (f + k) text = some r := by
  induction k with
  | zero => exact h
  | succ k ih => exact (read_more (f + k)).1 _ _ ih

theorem document_unique (text : Text) (a b : PathTree) (ha : Document text a) (hb : Document text b) : a = b := by
  obtain ⟨f, r, h1, _⟩ := ha
  obtain ⟨k, q, h2, _⟩ := hb
  have h3 := read_enough f k _ _ h1
  have h4 := read_enough k f _ _ h2
  rw [Nat.add_comm] at h4
  rw [h3] at h4
  cases h4
  rfl

/-! ## The characters of a document -/

theorem hex_char : ∀ k < 16, hexDigit k ≠ '`' ∧ hexDigit k ≠ '\r' ∧ hexDigit k ≠ '\n' := by decide +kernel

theorem escape4_char (c : Char) (hc : c = '`' ∨ c = '\r' ∨ c = '\n') (n : Nat) : c ∉ escape4 n := by
  have h : ∀ k < 16, c ≠ hexDigit k := by
    intro k hk
    obtain ⟨h1, h2, h3⟩ := hex_char k hk
    rcases hc with rfl | rfl | rfl
    · exact h1.symm
    · exact h2.symm
    · exact h3.symm
  have h' : c ≠ '\\' ∧ c ≠ 'u' := by rcases hc with rfl | rfl | rfl <;> decide
  simp only [escape4, List.mem_cons, List.not_mem_nil, or_false, not_or]
  exact ⟨h'.1, h'.2, h _ (by omega), h _ (by omega), h _ (by omega), h _ (by omega)⟩

theorem escapeChar_break (c : Char) (hc : c = '\r' ∨ c = '\n') (x : Char) : c ∉ escapeChar x := by
  rw [escapeChar]
  split
  · rcases hc with rfl | rfl <;> decide
  split
  · rcases hc with rfl | rfl <;> decide
  split
  · rcases hc with rfl | rfl <;> decide
  split
  · rcases hc with rfl | rfl <;> decide
  split
  · rcases hc with rfl | rfl <;> decide
  split
  · exact escape4_char c (Or.inr hc) _
  · rename_i h1 h2 h3 h4 h5 h6
    rcases hc with rfl | rfl
    · simpa using fun h : '\r' = x => h4 h.symm
    · simpa using fun h : '\n' = x => h3 h.symm

theorem escapeChar_tick (x : Char) : '`' ∈ escapeChar x ↔ x = '`' := by
  constructor
  · intro h
    rw [escapeChar] at h
    split at h
    · exact absurd h (by decide)
    split at h
    · exact absurd h (by decide)
    split at h
    · exact absurd h (by decide)
    split at h
    · exact absurd h (by decide)
    split at h
    · exact absurd h (by decide)
    split at h
    · exact absurd h (escape4_char _ (Or.inl rfl) _)
    · exact (List.mem_singleton.mp h).symm
  · rintro rfl
    decide

theorem text_break (c : Char) (hc : c = '\r' ∨ c = '\n') (t : Text) : c ∉ encodeText t := by
  have hq : c ≠ '"' := by rcases hc with rfl | rfl <;> decide
  simp only [encodeText, List.mem_cons, List.mem_append, List.mem_flatMap, List.not_mem_nil, or_false, not_or]
  refine ⟨hq, ?_, hq⟩
  rintro ⟨x, _, h⟩
  exact escapeChar_break c hc x h

theorem text_tick (t : Text) : '`' ∈ encodeText t ↔ '`' ∈ t := by
  simp only [encodeText, List.mem_cons, List.mem_append, List.mem_flatMap, List.not_mem_nil, or_false]
  constructor
  · rintro (h | ⟨x, hx, h⟩ | h)
    · exact absurd h (by decide)
    · rw [escapeChar_tick] at h
      exact h ▸ hx
    · exact absurd h (by decide)
  · exact fun h => Or.inr (Or.inl ⟨_, h, by decide⟩)

theorem indent_char (c : Char) (hc : c ≠ ' ') (d : Nat) : c ∉ indent d := by
  intro h
  exact hc (List.eq_of_mem_replicate h)

mutual
theorem tree_tick : ∀ (t : PathTree) (d : Nat), '`' ∈ encodeTree d t ↔ InTree '`' t
  | .none, d => by simp [encodeTree, InTree]
  | .branch [], d => by simp [encodeTree, InTree, InEntries]
  | .branch (e :: es), d => by
    have ih := entries_tick (e :: es) (d + 1)
    rw [encodeTree, InTree, ← ih]
    have := indent_char '`' (by decide) d
    simp [this]
theorem entries_tick : ∀ (l : List (Text × PathTree)) (d : Nat), '`' ∈ encodeEntries d l ↔ InEntries '`' l
  | [], d => by simp [encodeEntries, InEntries]
  | (label, t) :: rest, d => by
    have ih1 := tree_tick t d
    have ih2 := entries_tick rest d
    have := indent_char '`' (by decide) d
    rw [encodeEntries, InEntries, ← ih1, ← ih2]
    cases rest with
    | nil => simp [this, text_tick, encodeEntries]
    | cons e es => simp [this, text_tick]
end

mutual
theorem tree_return : ∀ (t : PathTree) (d : Nat), '\r' ∉ encodeTree d t
  | .none, d => by simp [encodeTree]
  | .branch [], d => by simp [encodeTree]
  | .branch (e :: es), d => by
    have ih := entries_return (e :: es) (d + 1)
    rw [encodeTree]
    have := indent_char '\r' (by decide) d
    simp [this, ih]
theorem entries_return : ∀ (l : List (Text × PathTree)) (d : Nat), '\r' ∉ encodeEntries d l
  | [], d => by simp [encodeEntries]
  | (label, t) :: rest, d => by
    have ih1 := tree_return t d
    have ih2 := entries_return rest d
    have := indent_char '\r' (by decide) d
    have ht := text_break '\r' (Or.inl rfl) label
    rw [encodeEntries]
    cases rest with
    | nil => simp [this, ht, ih1]
    | cons e es => simp [this, ht, ih1, ih2]
end

theorem inEntries_insert (c : Char) (label : Text) (t : PathTree) : ∀ l : List (Text × PathTree),
    InEntries c (insertSorted (label, t) l) ↔ c ∈ label ∨ InTree c t ∨ InEntries c l
  | [] => by simp [insertSorted, InEntries]
  | (label', t') :: ys => by
    rw [insertSorted]
    split
    · rw [InEntries, inEntries_insert c label t ys, InEntries]
      grind
    · rw [InEntries]

mutual
theorem inTree_sort (c : Char) : ∀ t : PathTree, InTree c (sortTree t) ↔ InTree c t
  | .none => by rw [sortTree]
  | .branch l => by rw [sortTree, InTree, InTree, inEntries_sort c l]
theorem inEntries_sort (c : Char) : ∀ l : List (Text × PathTree), InEntries c (sortEntries l) ↔ InEntries c l
  | [] => by rw [sortEntries]
  | (label, t) :: rest => by
    rw [sortEntries, inEntries_insert, inTree_sort c t, inEntries_sort c rest, InEntries]
end

theorem document_tick (t : PathTree) : '`' ∈ document t ↔ InTree '`' t := by
  rw [document, List.mem_append, tree_tick, inTree_sort]
  simp

theorem document_return (t : PathTree) : '\r' ∉ document t := by
  rw [document, List.mem_append, not_or]
  exact ⟨tree_return _ _, by decide⟩

/-! ## The lines of a document -/

/-- All the lines have something. -/
def Solid (t : Text) : Prop := ∀ l ∈ splitOn '\n' t, ¬ BlankLine l

theorem splitOn_cons (c : Char) (t : Text) (h : c ≠ '\n') :
    ∃ w ws, splitOn '\n' t = w :: ws ∧ splitOn '\n' (c :: t) = (c :: w) :: ws := by
  rw [splitOn, if_neg h]
  cases e : splitOn '\n' t with
  | nil => exact absurd e (splitOn_ne_nil _ _)
  | cons w ws => exact ⟨w, ws, rfl, rfl⟩

theorem solid_cons (c : Char) (t : Text) (hc : c ≠ '\n') (h : Solid t) : Solid (c :: t) := by
  obtain ⟨w, ws, e1, e2⟩ := splitOn_cons c t hc
  intro l hl
  rw [e2] at hl
  rcases List.mem_cons.mp hl with rfl | hl
  · intro hb
    exact h w (by rw [e1]; simp) fun x hx => hb x (List.mem_cons_of_mem _ hx)
  · exact h l (by rw [e1]; exact List.mem_cons_of_mem _ hl)

theorem solid_prefix : ∀ (p t : Text), '\n' ∉ p → Solid t → Solid (p ++ t)
  | [], _, _, h => h
  | c :: p, t, hp, h => solid_cons c _ (fun e => hp (e ▸ List.mem_cons_self))
      (solid_prefix p t (fun h' => hp (List.mem_cons_of_mem _ h')) h)

theorem solid_line (a b : Text) (ha : Solid a) (hb : Solid b) : Solid (a ++ '\n' :: b) := by
  intro l hl
  rw [splitOn_append_sep] at hl
  rcases List.mem_append.mp hl with h | h
  · exact ha l h
  · exact hb l h

theorem solid_suffix (a b : Text) (ha : Solid a) (hb : '\n' ∉ b) : Solid (a ++ b) := by
  obtain ⟨ls, l, hl⟩ : ∃ ls l, splitOn '\n' a = ls ++ [l] :=
    ⟨_, _, (List.dropLast_concat_getLast (splitOn_ne_nil '\n' a)).symm⟩
  intro x hx
  rw [splitOn_last a b hb ls l hl] at hx
  rcases List.mem_append.mp hx with h | h
  · exact ha x (by rw [hl]; exact List.mem_append_left _ h)
  · rw [List.mem_singleton.mp h]
    intro hbl
    exact ha l (by rw [hl]; simp) fun c hc => hbl c (List.mem_append_left _ hc)

theorem solid_one (t : Text) (hn : '\n' ∉ t) (h : ¬ BlankLine t) : Solid t := by
  intro l hl
  rw [splitOn_of_not_mem _ _ hn, List.mem_singleton] at hl
  exact hl ▸ h

theorem indent_break (d : Nat) : '\n' ∉ indent d := indent_char _ (by decide) d

mutual
theorem tree_solid : ∀ (t : PathTree) (d : Nat), Solid (encodeTree d t)
  | .none, d => by
    rw [encodeTree]
    exact solid_one _ (by decide) fun h => absurd (h 'n' (by simp)) (by decide)
  | .branch [], d => by
    rw [encodeTree]
    exact solid_one _ (by decide) fun h => absurd (h '{' (by simp)) (by decide)
  | .branch (e :: es), d => by
    have ih := entries_solid (e :: es) e es rfl (d + 1)
    rw [encodeTree]
    have h1 : Solid t!"{" := solid_one _ (by decide) fun h => absurd (h '{' (by simp)) (by decide)
    have h2 : Solid t!"}" := solid_one _ (by decide) fun h => absurd (h '}' (by simp)) (by decide)
    have := solid_line _ _ h1 (solid_line _ _ ih (solid_prefix (indent d) _ (indent_break d) h2))
    simpa using this
theorem entries_solid : ∀ (l : List (Text × PathTree)) (e : Text × PathTree) (es : List (Text × PathTree)),
    l = e :: es → ∀ d, Solid (encodeEntries d (e :: es))
  | [], _, _, h, _ => by cases h
  | (label, t) :: [], _, _, rfl, d => by
    have ih := tree_solid t d
    rw [encodeEntries]
    simp only [List.isEmpty_nil, if_true, List.append_nil]
    refine solid_prefix _ _ ?_ ih
    simp only [List.mem_append, not_or]
    exact ⟨⟨indent_break d, text_break _ (Or.inr rfl) _⟩, by decide⟩
  | (label, t) :: e :: es, _, _, rfl, d => by
    have ih := tree_solid t d
    have ih2 := entries_solid (e :: es) e es rfl d
    rw [encodeEntries]
    simp only [List.isEmpty_cons, Bool.false_eq_true, if_false]
    have h1 : Solid ((indent d ++ encodeText label ++ t!": ") ++ encodeTree d t) := by
      refine solid_prefix _ _ ?_ ih
      simp only [List.mem_append, not_or]
      exact ⟨⟨indent_break d, text_break _ (Or.inr rfl) _⟩, by decide⟩
    have := solid_line _ _ (solid_suffix _ t!"," h1 (by decide)) ih2
    simpa using this
end

/-! ## The file -/

/-- The lines of the template. -/
def commentLine : Text := t!"\t\t// pathTreeData is the JSON representation of the tree of URL paths."
def varStart : Text := t!"\t\tvar pathTreeData = `"

/-- The text that the template generates. -/
def metricsText (data : Text) : Text :=
  t!"\n" ++ commentLine ++ t!"\n" ++ varStart ++ data ++ t!"`\n\t\t"

set_option maxRecDepth 20000 in
theorem parse_metrics : parse metricsTemplate = some [
    .text (t!"\n" ++ commentLine ++ t!"\n\t\tvar pathTreeData = "), .print [t!"backtick"], .text [], .print [t!".Data"],
    .text [], .print [t!"backtick"], .text t!"\n\t\t"] := rfl

theorem emit_metrics (pkg data : Text) :
    Buffer.emit metricsEnv { pkg := pkg, errors := 0 } metricsTemplate [(t!"Data", data)] =
      { pkg := pkg, errors := 0, code := metricsText data ++ t!"\n" } := by
  rw [Buffer.emit, if_neg (by simp), parse_metrics]
  have h : runNodes metricsEnv (.args [(t!"Data", data)]) [] [
      .text (t!"\n" ++ commentLine ++ t!"\n\t\tvar pathTreeData = "), .print [t!"backtick"], .text [],
      .print [t!".Data"], .text [], .print [t!"backtick"], .text t!"\n\t\t"] = some (metricsText data, []) := by
    have : metricsText data = (t!"\n" ++ commentLine ++ t!"\n\t\tvar pathTreeData = ") ++
        (t!"`" ++ ([] ++ (data ++ ([] ++ (t!"`" ++ (t!"\n\t\t" ++ [])))))) := by
      simp [metricsText, varStart]
    rw [this]
    rfl
  simp only [Option.bind_some, h]
  rfl

theorem loop_solid : ∀ (ls : List Text) (depth : Int) (next : Text), (∀ l ∈ (next :: ls).dropLast, ¬ BlankLine l) →
    GoBuffer.blankLoop depth next ls = (next :: ls).dropLast
  | [], _, _, _ => rfl
  | l :: ls, depth, next, h => by
    rw [GoBuffer.blankLoop]
    have hn : ¬ trimSpace next = [] := fun h' => h next (by simp) ((trimSpace_nil_iff _).mp h')
    simp only [GoBuffer.blankStep, if_neg hn]
    rw [loop_solid ls _ l fun k hk => h k (by
      rw [List.dropLast_cons_of_ne_nil (by simp)]
      exact List.mem_cons_of_mem _ hk)]
    rfl

theorem clean_solid (ls : List Text) (last : Text) (h : ∀ l ∈ ls, ¬ BlankLine l) :
    GoBuffer.removeExtraBlankLines ([] :: (ls ++ [last])) = ls := by
  have hd : GoBuffer.removeExtraBlankLines ([] :: (ls ++ [last])) = GoBuffer.blankLoop 0 [] (ls ++ [last]) := rfl
  rw [hd]
  cases ls with
  | nil => rfl
  | cons l ls =>
    have : GoBuffer.blankLoop 0 [] (l :: ls ++ [last]) = GoBuffer.blankLoop 0 l (ls ++ [last]) := rfl
    rw [this, loop_solid]
    · rw [← List.cons_append, List.dropLast_concat]
    · rw [← List.cons_append, List.dropLast_concat]
      exact h

theorem metrics_lines (t : PathTree) :
    splitOn '\n' (metricsText (document t)) =
      [] :: (commentLine :: (splitOn '\n' (varStart ++ encodeTree 0 (sortTree t)) ++ [t!"`"]) ++ [t!"\t\t"]) := by
  have : metricsText (document t) = [] ++ '\n' :: (commentLine ++ '\n' ::
      ((varStart ++ encodeTree 0 (sortTree t)) ++ '\n' :: (t!"`" ++ '\n' :: t!"\t\t"))) := by
    simp [metricsText, document]
  rw [this, splitOn_append_sep, splitOn_append_sep, splitOn_append_sep, splitOn_append_sep,
    splitOn_of_not_mem _ commentLine (by decide +kernel)]
  simp [splitOn]

theorem text_solid (t : PathTree) : Solid (varStart ++ encodeTree 0 (sortTree t)) :=
  solid_prefix _ _ (by decide +kernel) (tree_solid _ _)

theorem clean_metrics (t : PathTree) (h : Short (metricsText (document t))) :
    cleanCode (metricsText (document t) ++ t!"\n") =
      some (commentLine ++ t!"\n" ++ varStart ++ document t ++ t!"`\n") := by
  rw [cleanCode, scan_short _ h, metrics_lines]
  simp only
  rw [clean_solid]
  · have hu := Docs.unlines_splitOn (varStart ++ encodeTree 0 (sortTree t))
    rw [unlines] at hu
    rw [List.flatMap_cons, List.flatMap_append, hu]
    simp [document]
  · intro l hl
    rcases List.mem_cons.mp hl with rfl | hl
    · exact fun h => absurd (h '/' (by decide +kernel)) (by decide)
    · rcases List.mem_append.mp hl with hl | hl
      · exact text_solid t l hl
      · rw [List.mem_singleton.mp hl]
        exact fun h => absurd (h '`' (by simp)) (by decide)

/-- The lines that are long are those of the document. -/
theorem metrics_short (t : PathTree) : Short (metricsText (document t)) ↔ Short (document t) := by
  have hd : splitOn '\n' (document t) = splitOn '\n' (encodeTree 0 (sortTree t)) ++ [[]] := by
    have := splitOn_append_sep '\n' (encodeTree 0 (sortTree t)) []
    simpa [document, splitOn] using this
  have hv : ∃ first rest, splitOn '\n' (encodeTree 0 (sortTree t)) = first :: rest ∧ first.length < 10 ∧
      splitOn '\n' (varStart ++ encodeTree 0 (sortTree t)) = (varStart ++ first) :: rest := by
    have key : ∀ (first text : Text), '\n' ∉ first → first.length < 10 → (text = first ∨ ∃ r, text = first ++ '\n' :: r) →
        ∃ first rest, splitOn '\n' text = first :: rest ∧ first.length < 10 ∧
          splitOn '\n' (varStart ++ text) = (varStart ++ first) :: rest := by
      intro first text hn hl ht
      have hvn : '\n' ∉ varStart ++ first := by
        rw [List.mem_append, not_or]
        exact ⟨by decide +kernel, hn⟩
      rcases ht with rfl | ⟨r, rfl⟩
      · exact ⟨text, [], splitOn_of_not_mem _ _ hn, hl, splitOn_of_not_mem _ _ hvn⟩
      · refine ⟨first, splitOn '\n' r, splitOn_append_of_not_mem _ _ _ hn, hl, ?_⟩
        rw [← List.append_assoc]
        exact splitOn_append_of_not_mem _ _ _ hvn
    cases sortTree t with
    | none => exact key t!"null" _ (by decide) (by decide) (Or.inl rfl)
    | branch l =>
      cases l with
      | nil => exact key t!"{}" _ (by decide) (by decide) (Or.inl rfl)
      | cons e es =>
        refine key t!"{" _ (by decide) (by decide) (Or.inr
          ⟨encodeEntries (0 + 1) (e :: es) ++ (t!"\n" ++ (indent 0 ++ t!"}")), ?_⟩)
        rw [encodeTree]
        simp only [List.append_assoc]
        rfl
  obtain ⟨first, rest, h1, h2, h3⟩ := hv
  have hc : commentLine.length < 65536 := by decide +kernel
  have hs : varStart.length < 100 := by decide +kernel
  rw [Short, Short, metrics_lines, hd, h1, h3]
  constructor
  · intro h l hl
    simp only [List.cons_append, List.mem_cons, List.mem_append, List.not_mem_nil, or_false] at hl
    rcases hl with rfl | hl | rfl
    · omega
    · exact h l (by simp [hl])
    · simp
  · intro h l hl
    simp only [List.cons_append, List.mem_cons, List.mem_append, List.not_mem_nil, or_false] at hl
    rcases hl with rfl | rfl | rfl | (hl | rfl) | rfl
    · simp
    · exact hc
    · rw [List.length_append]; omega
    · exact h l (by simp [hl])
    · simp
    · simp

theorem metrics_write (pkg : Text) (t : PathTree) (h : Short (document t)) :
    metricsFile pkg t 0 =
      (some (preamble pkg [] ++ (commentLine ++ t!"\n" ++ varStart ++ document t ++ t!"`\n")), true) := by
  rw [metricsFile, emit_metrics, Buffer.write, if_neg (by simp)]
  simp only [clean_metrics t ((metrics_short t).mpr h)]

theorem metrics_long (pkg : Text) (t : PathTree) (h : ¬ Short (document t)) :
    metricsFile pkg t 0 = (some (preamble pkg []), false) := by
  rw [metricsFile, emit_metrics, Buffer.write, if_neg (by simp)]
  have := clean_long (metricsText (document t)) fun h' => h ((metrics_short t).mp h')
  simp only [this]

theorem metrics_errors (pkg : Text) (t : PathTree) (errors : Nat) (h : errors > 0) :
    metricsFile pkg t errors = (none, false) := by
  rw [metricsFile, Buffer.emit, if_pos h, Buffer.write, if_pos h]

/-! ## Raw strings -/

theorem raw_eq (data r : Text) (ht : '`' ∉ data) (hr : '\r' ∉ data) : rawString (data ++ '`' :: r) = some (data, r) := by
  induction data with
  | nil => rfl
  | cons c data ih =>
    rw [List.mem_cons, not_or] at ht hr
    have : rawString (c :: data ++ '`' :: r) =
        (rawString (data ++ '`' :: r)).map fun r => (if c = '\r' then r.1 else c :: r.1, r.2) := by
      rw [List.cons_append, rawString.eq_def]
      split
      · rename_i e; cases e
      · rename_i e
        cases e
        exact absurd rfl ht.1
      · rename_i e
        cases e
        rfl
    rw [this, ih ht.2 hr.2, Option.map_some, if_neg (Ne.symm hr.1)]

/-- What follows the first backtick. -/
theorem first_tick : ∀ (a b x y : Text), '`' ∉ a → '`' ∉ b → a ++ '`' :: x = b ++ '`' :: y → a = b ∧ x = y
  | [], [], _, _, _, _, h => by cases h; exact ⟨rfl, rfl⟩
  | [], c :: b, _, _, _, hb, h => by
    simp only [List.nil_append, List.cons_append, List.cons.injEq] at h
    exact absurd (h.1 ▸ List.mem_cons_self) hb
  | c :: a, [], _, _, ha, _, h => by
    simp only [List.nil_append, List.cons_append, List.cons.injEq] at h
    exact absurd (h.1 ▸ List.mem_cons_self) ha
  | c :: a, d :: b, x, y, ha, hb, h => by
    simp only [List.cons_append, List.cons.injEq] at h
    obtain ⟨h1, h2⟩ := first_tick a b x y (fun h => ha (List.mem_cons_of_mem _ h)) (fun h => hb (List.mem_cons_of_mem _ h)) h.2
    exact ⟨by rw [h.1, h1], h2⟩

theorem declares_tick (file name value : Text) (h : Declares file name value) (hn : '`' ∉ name) :
    ∃ a x, file = a ++ '`' :: x ∧ '`' ∉ a ∧ rawString x = some (value, t!"\n") ∧
      ∃ before, a = before ++ t!"var " ++ name ++ t!" = " := by
  obtain ⟨before, text, e, hb, hr⟩ := h
  refine ⟨before ++ t!"var " ++ name ++ t!" = ", text, by simp [e], ?_, hr, before, rfl⟩
  simp only [List.mem_append, not_or]
  exact ⟨⟨⟨hb, by decide⟩, hn⟩, by decide⟩

theorem declares_unique (file name v w : Text) (hn : '`' ∉ name) (h1 : Declares file name v) (h2 : Declares file name w) :
    v = w := by
  obtain ⟨a, x, e, ha, hr, _⟩ := declares_tick _ _ _ h1 hn
  obtain ⟨b, y, e', hb, hr', _⟩ := declares_tick _ _ _ h2 hn
  obtain ⟨-, rfl⟩ := first_tick _ _ _ _ ha hb (e.symm.trans e')
  rw [hr] at hr'
  cases hr'
  rfl

/-- The raw string ends at the first backtick. -/
theorem raw_tick : ∀ (data : Text) (r v : Text), '`' ∈ data → rawString (data ++ r) = some (v, t!"\n") →
    ∃ a, data ++ r = a ++ t!"`\n" ∧ '`' ∉ a
  | [], _, _, h, _ => by cases h
  | c :: data, r, v, h, hr => by
    by_cases hc : c = '`'
    · subst hc
      cases hr' : data ++ r with
      | nil => rw [List.cons_append, hr'] at hr; cases hr
      | cons d k =>
        rw [List.cons_append, hr'] at hr
        have hk : rawString ('`' :: d :: k) = some ([], d :: k) := rfl
        rw [hk] at hr
        cases hr
        exact ⟨[], by rw [List.cons_append, hr']; rfl, by simp⟩
    · have h' : '`' ∈ data := by
        rcases List.mem_cons.mp h with h | h
        · exact absurd h.symm hc
        · exact h
      have : rawString (c :: data ++ r) = (rawString (data ++ r)).map fun r => (if c = '\r' then r.1 else c :: r.1, r.2) := by
        rw [List.cons_append, rawString.eq_def]
        split
        · rename_i e; cases e
        · rename_i e
          cases e
          exact absurd rfl hc
        · rename_i e
          cases e
          rfl
      rw [this] at hr
      obtain ⟨⟨v', r'⟩, h1, h2⟩ := Option.map_eq_some_iff.mp hr
      simp only [Prod.mk.injEq] at h2
      obtain ⟨-, rfl⟩ := h2
      obtain ⟨a, e, ha⟩ := raw_tick data r v' h' h1
      exact ⟨c :: a, by rw [List.cons_append, e]; rfl, by
        rw [List.mem_cons, not_or]; exact ⟨Ne.symm hc, ha⟩⟩

/-- A file that is `data` between backticks declares something only if there are no more backticks. -/
theorem raw_none (data v : Text) (h : '`' ∈ data) : rawString (data ++ t!"`\n") ≠ some (v, t!"\n") := by
  intro hr
  obtain ⟨a, e, ha⟩ := raw_tick data _ v h hr
  have := List.append_inj_left' e rfl
  exact ha (this ▸ h)

/-! ## Order -/

theorem sorted_insert (e : Text × PathTree) (he : SortedTree e.2) : ∀ l : List (Text × PathTree), SortedEntries l →
    SortedEntries (insertSorted e l)
  | [], _ => by
    rw [insertSorted, SortedEntries]
    exact ⟨he, by simp, trivial⟩
  | y :: ys, h => by
    obtain ⟨label, t⟩ := e
    obtain ⟨label', t'⟩ := y
    rw [SortedEntries] at h
    rw [insertSorted]
    split
    · rename_i hlt
      rw [SortedEntries]
      refine ⟨h.1, ?_, sorted_insert _ he ys h.2.2⟩
      intro x hx
      rw [mem_insertSorted] at hx
      rcases hx with rfl | hx
      · exact List.lt_asymm hlt
      · exact h.2.1 x hx
    · rename_i hlt
      rw [SortedEntries, SortedEntries]
      refine ⟨he, ?_, h⟩
      intro x hx
      rcases List.mem_cons.mp hx with rfl | hx
      · exact hlt
      · have h1 := h.2.1 x hx
        simp only [List.not_lt] at h1 hlt ⊢
        exact List.le_trans hlt h1

mutual
theorem sorted_tree : ∀ t : PathTree, SortedTree (sortTree t)
  | .none => by rw [sortTree, SortedTree]; trivial
  | .branch l => by rw [sortTree, SortedTree]; exact sorted_entries l
theorem sorted_entries : ∀ l : List (Text × PathTree), SortedEntries (sortEntries l)
  | [] => by rw [sortEntries, SortedEntries]; trivial
  | (label, t) :: rest => by rw [sortEntries]; exact sorted_insert _ (sorted_tree t) _ (sorted_entries rest)
end

/-! ## The package -/

theorem mem_joined (sep : Text) (c : Char) : ∀ (ws : List Text) (w : Text), w ∈ ws → c ∈ w → c ∈ joinText sep ws
  | [], _, h, _ => by cases h
  | [x], w, h, hc => by
    rw [List.mem_singleton.mp h] at hc
    exact hc
  | x :: y :: ws, w, h, hc => by
    rw [joinText_cons _ _ _ (by simp)]
    rcases List.mem_cons.mp h with rfl | h
    · simp [hc]
    · exact List.mem_append_right _ (mem_joined sep c (y :: ws) w h hc)

theorem mem_base (c : Char) (pkg : Text) (h : c ∈ GoRef.pathBase pkg) : c ∈ pkg := by
  rw [← joinText_splitOn '/' pkg]
  rw [GoRef.pathBase, List.getLastD_eq_getLast?, List.getLast?_eq_some_getLast (splitOn_ne_nil _ _)] at h
  exact mem_joined _ c _ _ (List.getLast_mem (splitOn_ne_nil '/' pkg)) h

theorem mem_cleanPkg (c : Char) (name : Text) (h : c ∈ GoBuffer.cleanPkg name) : c ∈ name := by
  have key : ∀ n : Text, c ∈ (match GoBuffer.lastDash n with
      | some index => if index > 0 then n.drop (index + 1) else n
      | none => n) → c ∈ n := by
    intro n h
    split at h
    · split at h
      · exact List.mem_of_mem_drop h
      · exact h
    · exact h
  rw [GoBuffer.cleanPkg] at h
  have := key _ h
  split at this
  · exact List.mem_of_mem_take this
  · exact this

theorem preamble_tick (pkg : Text) : '`' ∈ preamble pkg [] ↔ '`' ∈ pkg := by
  have hf : '`' ∉ fileHeader := by decide +kernel
  have hi : importBlock [] = [] := rfl
  simp only [preamble, hi, List.mem_append]
  constructor
  · intro h
    rcases h with ((((h | h) | h) | ((((h | h) | h) | h) | h)) | h) | h
    · exact absurd h hf
    · exact absurd h (by decide)
    · exact absurd h (by decide)
    · exact absurd h (by decide)
    · exact mem_base _ _ (mem_cleanPkg _ _ h)
    · exact absurd h (by decide)
    · exact h
    · exact absurd h (by decide)
    · exact absurd h (by decide)
    · cases h
  · intro h
    simp [h]

end Verif.MetricsCode
