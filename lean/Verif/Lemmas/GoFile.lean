import Verif.Lemmas.GoTemplate
import Verif.Spec.GoFile
import Verif.Model.TypesCode
import Verif.Props.GoBuffer

/-! What is in the files written by the buffer of the Go generators. -/

namespace Verif.GoFile

open GoTemplate GoCode
open Docs (Space dropEnd unlines Short)

/-! ## Blank lines -/

theorem dropEnd_nil (l : Text) : dropEnd l = [] ↔ ∀ c ∈ l, Space c := by
  induction l with
  | nil => simp [dropEnd]
  | cons c l ih =>
    rw [dropEnd]
    split
    · rename_i h
      have := ih.mp h
      by_cases hc : Space c
      · simp [hc]; exact this
      · simp [hc]
    · rename_i h
      have : ¬ ∀ c ∈ l, Space c := fun h' => h (ih.mpr h')
      simp only [List.mem_cons, forall_eq_or_imp]
      constructor
      · intro h; cases h
      · exact fun h => absurd h.2 this

theorem dropStart_nil (l : Text) : dropStart l = [] ↔ ∀ c ∈ l, Space c := by
  induction l with
  | nil => simp [dropStart]
  | cons c l ih =>
    rw [dropStart]
    split
    · rename_i h
      rw [ih]; simp [h]
    · rename_i h
      simp [h]

theorem dropEnd_head (c : Char) (l : Text) (h : ¬ Space c) : ∃ k, dropEnd (c :: l) = c :: k := by
  rw [dropEnd]
  split
  · exact ⟨[], by rw [if_neg h]⟩
  · exact ⟨_, rfl⟩

theorem bare_nil (l : Text) : bare l = [] ↔ ∀ c ∈ l, Space c := by
  induction l with
  | nil => simp [bare, dropEnd, dropStart]
  | cons c l ih =>
    by_cases h : Space c
    · rw [bare_space c l h, ih]; simp [h]
    · obtain ⟨k, hk⟩ := dropEnd_head c l h
      rw [bare, hk, dropStart, if_neg h]
      simp [h]

theorem bare_blank (l : Text) : bare l = [] ↔ BlankLine l := by
  rw [bare_nil, BlankLine]
  constructor
  · exact fun h c hc => (Docs.space_iff c).mpr (h c hc)
  · exact fun h c hc => (Docs.space_iff c).mp (h c hc)

/-! ## Lines -/

theorem sig_unlines : ∀ ls : List Text, (∀ l ∈ ls, '\n' ∉ l) →
    significant (unlines ls) = (ls.map bare).filter (· ≠ [])
  | [], _ => rfl
  | l :: ls, h => by
    have e : unlines (l :: ls) = l ++ '\n' :: unlines ls := by simp [unlines]
    rw [e, sig_nl, sig_unlines ls fun k hk => h k (List.mem_cons_of_mem _ hk), significant,
      splitOn_of_not_mem _ _ (h l List.mem_cons_self), ← List.filter_append, ← List.map_append]
    rfl

theorem filter_bare (ls : List Text) :
    (ls.map bare).filter (· ≠ []) = (ls.filter fun l => decide (¬ BlankLine l)).map bare := by
  rw [List.filter_map]
  congr 1
  apply List.filter_congr
  intro l _
  simp only [Function.comp_apply, decide_not, ← bare_blank]

/-- A text whose last line is blank. -/
def EndsBlank (t : Text) : Prop := ∃ ls l, splitOn '\n' t = ls ++ [l] ∧ BlankLine l

theorem joinText_cons (sep w : Text) (ws : List Text) (h : ws ≠ []) :
    joinText sep (w :: ws) = w ++ sep ++ joinText sep ws := by
  cases ws with
  | nil => exact absurd rfl h
  | cons a as => rfl

theorem splitOn_last (t r : Text) (hr : '\n' ∉ r) (ls : List Text) (l : Text)
    (h : splitOn '\n' t = ls ++ [l]) : splitOn '\n' (t ++ r) = ls ++ [l ++ r] := by
  have hl : ∀ w ∈ ls ++ [l], '\n' ∉ w := h ▸ splitOn_no_sep '\n' t
  have ht := joinText_splitOn '\n' t
  rw [h] at ht
  have key : ∀ ws : List Text, joinText ['\n'] (ws ++ [l]) ++ r = joinText ['\n'] (ws ++ [l ++ r]) := by
    intro ws
    induction ws with
    | nil => simp [joinText]
    | cons w ws ih =>
      rw [List.cons_append, List.cons_append, joinText_cons _ _ _ (by simp), joinText_cons _ _ _ (by simp), ← ih]
      simp
  rw [← ht, key, splitOn_joinText _ _ (by simp)]
  intro w hw
  rcases List.mem_append.mp hw with hw | hw
  · exact hl w (List.mem_append_left _ hw)
  · rw [List.mem_singleton.mp hw]
    simp only [List.mem_append, not_or]
    exact ⟨hl l (by simp), hr⟩

theorem endsBlank (t : Text) (s : List Text) (h : ∀ r, significant (t ++ r) = s ++ significant r) :
    EndsBlank t := by
  obtain ⟨ls, l, hl⟩ : ∃ ls l, splitOn '\n' t = ls ++ [l] :=
    ⟨_, _, (List.dropLast_concat_getLast (splitOn_ne_nil '\n' t)).symm⟩
  refine ⟨ls, l, hl, ?_⟩
  have h1 := h t!"x"
  have h0 := h []
  rw [List.append_nil, sig_nil, List.append_nil] at h0
  rw [← h0, significant, significant, splitOn_last t t!"x" (by decide) ls l hl, hl, List.map_append,
    List.map_append, List.filter_append, List.filter_append, List.append_assoc,
    List.append_cancel_left_eq] at h1
  have h2 := congrArg List.length h1
  have hx : significant t!"x" = [t!"x"] := by decide
  rw [hx] at h2
  have hn : bare (l ++ t!"x") ≠ [] := by
    rw [Ne, bare_nil]
    intro h
    exact absurd (h 'x' (by simp)) (by decide)
  rw [← bare_blank]
  refine Classical.byContradiction fun hb => ?_
  simp [hb, hn] at h2

/-! ## Cleaning -/

theorem scan_short (t : Text) (h : Short t) : Markdown.scan (t ++ ['\n']) [] = (splitOn '\n' t, none) := by
  have := Docs.scan_lines (splitOn '\n' t) [] fun l hl => ⟨splitOn_no_sep _ _ _ hl, h l hl⟩
  rw [List.append_nil, Docs.unlines_splitOn] at this
  rw [this]
  simp [Markdown.scan]

theorem clean_short (t : Text) (h : Short t) (hb : EndsBlank t) :
    ∃ c, cleanCode (t ++ ['\n']) = some c ∧ significant c = significant t := by
  refine ⟨unlines (GoBuffer.removeExtraBlankLines (splitOn '\n' t)), ?_, ?_⟩
  · rw [cleanCode, scan_short t h]
    rfl
  · obtain ⟨ls, l, hl, hb⟩ := hb
    have hn : ∀ w ∈ GoBuffer.removeExtraBlankLines (splitOn '\n' t), '\n' ∉ w := fun w hw =>
      splitOn_no_sep _ _ _ (List.dropLast_subset _ ((c33_only_blank_lines_partial _).1.subset hw))
    rw [sig_unlines _ hn, significant, filter_bare, filter_bare, hl, c33_only_blank_lines ls l hb]

theorem scan_not_short : ∀ (ls : List Text), (∀ l ∈ ls, '\n' ∉ l) → (¬ ∀ l ∈ ls, l.length < 65536) →
    (Markdown.scan (unlines ls) []).2 ≠ none
  | [], _, h => absurd (by simp) h
  | l :: ls, hn, h => by
    have e : unlines (l :: ls) = l ++ '\n' :: unlines ls := by simp [unlines]
    by_cases hl : l.length < 65536
    · rw [e, Docs.scan_line l _ (hn l List.mem_cons_self) hl]
      exact scan_not_short ls (fun k hk => hn k (List.mem_cons_of_mem _ hk)) fun h' => h (by
        intro k hk
        rcases List.mem_cons.mp hk with rfl | hk
        · exact hl
        · exact h' k hk)
    · have hs : l = l.take 65536 ++ l.drop 65536 := (List.take_append_drop _ _).symm
      rw [e, hs, List.append_assoc, Docs.scan_long _ _ (fun h' => hn l List.mem_cons_self (List.mem_of_mem_take h'))
        (by rw [List.length_take]; omega)]
      simp

theorem clean_long (t : Text) (h : ¬ Short t) : cleanCode (t ++ ['\n']) = none := by
  have := scan_not_short (splitOn '\n' t) (splitOn_no_sep _ _) h
  rw [Docs.unlines_splitOn] at this
  rw [cleanCode]
  split
  · rename_i hs
    rw [hs] at this
    exact absurd rfl this
  · rfl

/-! ## The file -/

theorem sig_line (a b : Text) : significant (a ++ t!"\n" ++ b) = significant a ++ significant b := by
  rw [List.append_assoc]
  exact sig_nl a b

set_option maxRecDepth 10000 in
theorem sig_header : significant fileHeader = code headerLines := by decide +kernel

theorem code_append (a b : List Text) : code (a ++ b) = code a ++ code b := by
  rw [code, List.flatMap_append]
  rfl

theorem code_cons (a : Text) (b : List Text) : code (a :: b) = significant a ++ code b := by
  rw [code, List.flatMap_cons]
  rfl

theorem code_one (a : Text) : code [a] = significant a := by
  rw [code_cons]
  exact List.append_nil _

theorem sig_imports : ∀ (imports : List (Text × Text)) (r : Text),
    significant (imports.flatMap importLine ++ r) = code (imports.map importSpec) ++ significant r
  | [], r => rfl
  | e :: es, r => by
    have h : importLine e = importSpec e ++ t!"\n" := by
      rw [importLine, importSpec]
      by_cases h : e.2 = []
      · rw [if_neg (by simpa using h), if_pos h]
        simp
      · rw [if_pos h, if_neg h]
        simp
    rw [List.flatMap_cons, h, List.append_assoc, sig_line, sig_imports es r, List.map_cons, code_cons,
      List.append_assoc]

theorem sig_preamble (pkg : Text) (imports : List (Text × Text)) (r : Text) :
    significant (preamble pkg imports ++ r) = code (fileLines pkg imports []) ++ significant r := by
  have hp : ∀ r, significant (importBlock imports ++ r) = code (importLines imports) ++ significant r := by
    intro r
    rw [importBlock, importLines]
    cases imports with
    | nil => rfl
    | cons e es =>
      rw [if_pos (by simp), if_neg (by simp), List.append_assoc, List.append_assoc, List.append_assoc]
      rw [code_append, code_append]
      have : significant (t!"import (\n" ++ ((e :: es).flatMap importLine ++ (t!")\n" ++ (t!"\n" ++ r)))) =
        significant t!"import (" ++ significant ((e :: es).flatMap importLine ++ (t!")\n" ++ (t!"\n" ++ r))) :=
        sig_nl t!"import (" _
      rw [this, sig_imports, List.append_assoc, List.append_assoc]
      have : significant (t!")\n" ++ (t!"\n" ++ r)) = significant t!")" ++ significant r := by
        have h1 : significant (t!")\n" ++ (t!"\n" ++ r)) = significant t!")" ++ significant (t!"\n" ++ r) :=
          sig_nl t!")" _
        rw [h1]
        rfl
      rw [this, code_one, code_one]
  rw [preamble, fileLines, List.append_nil, code_append, code_append]
  simp only [List.append_assoc]
  have h1 : ∀ r, significant (t!"\n" ++ r) = significant r := fun r => sig_nl [] r
  have h2 : significant (fileHeader ++ (t!"\n" ++ (t!"\n" ++ (t!"package " ++ (GoBuffer.cleanPkg
      (GoRef.pathBase pkg) ++ (t!" // " ++ (pkg ++ (t!"\n" ++ (t!"\n" ++ (importBlock imports ++ r)))))))))) =
      significant fileHeader ++ significant (t!"\n" ++ (t!"package " ++ (GoBuffer.cleanPkg
      (GoRef.pathBase pkg) ++ (t!" // " ++ (pkg ++ (t!"\n" ++ (t!"\n" ++ (importBlock imports ++ r)))))))) :=
    sig_nl _ _
  rw [h2, h1, sig_header, code_one, packageLine]
  have h3 : significant (t!"package " ++ (GoBuffer.cleanPkg
      (GoRef.pathBase pkg) ++ (t!" // " ++ (pkg ++ (t!"\n" ++ (t!"\n" ++ (importBlock imports ++ r))))))) =
      significant (t!"package " ++ GoBuffer.cleanPkg (GoRef.pathBase pkg) ++ t!" // " ++ pkg) ++
        significant (t!"\n" ++ (importBlock imports ++ r)) := by
    rw [← sig_nl]
    simp
  rw [h3, h1, hp]

theorem write_eq (b : Buffer) (order : List (Text × Text)) (t : Text) (s : List Text) (he : b.errors = 0)
    (hc : b.code = t ++ t!"\n") (hs : ∀ r, significant (t ++ r) = s ++ significant r) :
    ∃ text ok, b.write order = (some text, ok) ∧ (ok = true ↔ Short t) ∧
      significant text = code (fileLines b.pkg order []) ++ if ok then s else [] := by
  have h0 : ¬ b.errors > 0 := by omega
  by_cases h : Short t
  · obtain ⟨c, h1, h2⟩ := clean_short t h (endsBlank t s hs)
    refine ⟨preamble b.pkg order ++ c, true, ?_, by simp [h], ?_⟩
    · rw [Buffer.write, if_neg h0, hc, h1]
    · have := hs []
      rw [List.append_nil, sig_nil, List.append_nil] at this
      rw [sig_preamble, h2, this]
      rfl
  · refine ⟨preamble b.pkg order, false, ?_, by simp [h], ?_⟩
    · rw [Buffer.write, if_neg h0, hc, clean_long t h]
    · have := sig_preamble b.pkg order []
      rw [List.append_nil, sig_nil] at this
      rw [this]
      rfl

end Verif.GoFile
