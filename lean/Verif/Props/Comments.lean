import Verif.Lemmas.Comments

/-!
# Property C22: documentation comments

`getDoc m line` is what the reader does to get the documentation of a declaration that starts in
the given line; `m` are the comments that haven't been used yet.
-/

namespace Verif

/-- The lexer stores one comment per line, and doesn't change those of other lines. -/
theorem c22_lexer (m : CommentMap) (line : Nat) (text : Text) (i : Nat) :
    (m.add line text).find i = if line = i then some text else m.find i := by
  unfold CommentMap.add
  rw [CommentMap.find]
  by_cases h : line = i
  · simp [h]
  · rw [if_neg h, commentMap_find_delete, if_neg h, if_neg h]

/-- A call takes exactly the block of comments right before the line, and only that block. -/
theorem c22_block (m : CommentMap) (line : Nat) (block : List Text)
    (h : IsBlock m.find line block) (i : Nat) :
    ((getDoc m line).1.find i = none ↔ m.find i = none ∨ Covers line block i) ∧
    (¬ Covers line block i → (getDoc m line).1.find i = m.find i) := by
  obtain ⟨h1, h2⟩ := takeComments_spec m line
  have : (takeComments m [] line).2 = block := isBlock_unique h1 h
  have h3 := h2 i
  rw [this] at h3
  have h4 : (getDoc m line).1.find i = _ := h3
  rw [h4]
  unfold Covers
  by_cases hc : line - block.length ≤ i ∧ i < line
  · rw [if_pos hc]; simp [hc]
  · rw [if_neg hc]
    exact ⟨⟨.inl, fun h => h.resolve_right hc⟩, fun _ => rfl⟩

/-- There is always exactly one block right before a line. -/
theorem c22_block_exists (m : CommentMap) (line : Nat) :
    ∃ block, IsBlock m.find line block ∧ ∀ other, IsBlock m.find line other → other = block :=
  ⟨_, (takeComments_spec m line).1, fun _ h => isBlock_unique h (takeComments_spec m line).1⟩

/-- The text of the documentation is that of the block. -/
theorem c22_text_iff (m : CommentMap) (line : Nat) (doc : Text) :
    (getDoc m line).2 = .done (.text doc) ↔
      ∃ block, IsBlock m.find line block ∧ Documents block doc := by
  have h1 := (takeComments_spec m line).1
  change formatDoc (takeComments m [] line).2 = _ ↔ _
  rw [formatDoc_text]
  exact ⟨fun h => ⟨_, h1, h⟩, fun ⟨b, hb, h⟩ => isBlock_unique hb h1 ▸ h⟩

/-- The reader crashes exactly when the block starts with a comment that has no text. -/
theorem c22_panic_iff (m : CommentMap) (line : Nat) :
    (getDoc m line).2 = .panic ↔
      ∃ first rest, IsBlock m.find line ((t!"//" ++ first) :: rest) ∧ Blank first ∧
        ∀ c ∈ rest, ∃ t, c = t!"//" ++ t := by
  have h1 := (takeComments_spec m line).1
  have hm : ∀ b, IsBlock m.find line b ↔ b = (takeComments m [] line).2 :=
    fun b => ⟨fun h => isBlock_unique h h1, fun h => h ▸ h1⟩
  change formatDoc (takeComments m [] line).2 = _ ↔ _
  simp only [hm]
  generalize (takeComments m [] line).2 = block
  constructor
  · intro h
    unfold formatDoc at h
    split at h
    · cases h
    · cases h
    · rename_i first rest hr
      split at h
      · rename_i hs
        refine ⟨first, rest.map fun t => t!"//" ++ t, (removeMarks_some.mp hr).symm, ?_, ?_⟩
        · intro c hc
          exact (isUnicodeSpace_iff c).mp (List.all_eq_true.mp hs c hc)
        · intro c hc
          obtain ⟨t, -, rfl⟩ := List.mem_map.mp hc
          exact ⟨t, rfl⟩
      · split at h <;> cases h
  · rintro ⟨first, rest, rfl, hb, hr⟩
    have : ∃ ls : List Text, rest = ls.map fun t => t!"//" ++ t := by
      clear hm h1
      induction rest with
      | nil => exact ⟨[], rfl⟩
      | cons c cs ih =>
        obtain ⟨t, rfl⟩ := hr _ (List.mem_cons_self ..)
        obtain ⟨ls, rfl⟩ := ih fun c hc => hr c (List.mem_cons_of_mem _ hc)
        exact ⟨t :: ls, rfl⟩
    obtain ⟨ls, rfl⟩ := this
    have hm : removeMarks ((t!"//" ++ first) :: ls.map fun t => t!"//" ++ t) =
        some (first :: ls) := removeMarks_some.mpr rfl
    unfold formatDoc
    rw [hm]
    dsimp only
    rw [if_pos (List.all_eq_true.mpr fun c hc => (isUnicodeSpace_iff c).mpr (hb c hc))]

/-- The rest of the cases: errors are reported exactly when some line isn't a comment, which the
lexer never produces, or when a line that has text doesn't have the indentation of the first. -/
theorem c22_errors_iff (m : CommentMap) (line : Nat) :
    (∃ n, 0 < n ∧ (getDoc m line).2 = .done (.errors n)) ↔
      (∃ block, IsBlock m.find line block ∧ ∃ c ∈ block, ∀ t, c ≠ t!"//" ++ t) ∨
      ∃ indent first rest, IsBlock m.find line ((t!"//" ++ (indent ++ first)) :: rest) ∧
        Blank indent ∧ StartsWithWord first ∧ ∃ c ∈ rest, ∀ t, ¬ CommentOf indent c t := by
  have h1 := (takeComments_spec m line).1
  have hm : ∀ b, IsBlock m.find line b ↔ b = (takeComments m [] line).2 :=
    fun b => ⟨fun h => isBlock_unique h h1, fun h => h ▸ h1⟩
  change (∃ n, 0 < n ∧ formatDoc (takeComments m [] line).2 = _) ↔ _
  simp only [hm]
  generalize (takeComments m [] line).2 = block
  clear hm h1
  have marks_none : ∀ ls : List Text, removeMarks ls = none ↔ ∃ c ∈ ls, ∀ t, c ≠ t!"//" ++ t := by
    intro ls
    induction ls with
    | nil => simp [removeMarks]
    | cons c cs ih =>
      unfold removeMarks
      split
      · rename_i rest
        rw [Option.map_eq_none_iff, ih]
        constructor
        · rintro ⟨c, hc, h⟩
          exact ⟨c, List.mem_cons_of_mem _ hc, h⟩
        · rintro ⟨c, hc, h⟩
          rcases List.mem_cons.mp hc with rfl | hc
          · exact absurd rfl (h rest)
          · exact ⟨c, hc, h⟩
      · rename_i hne
        simp only [true_iff]
        exact ⟨c, List.mem_cons_self .., fun t ht => hne t (by simpa using ht)⟩
  have prefix_none : ∀ (indent : Text) (ls : List Text), removePrefix indent ls = none ↔
      ∃ l ∈ ls, ∀ t, ¬ CommentOf indent (t!"//" ++ l) t := by
    intro indent ls
    induction ls with
    | nil => simp [removePrefix]
    | cons l ls ih =>
      have hstep : removePrefix indent (l :: ls) = none ↔
          (∀ t, ¬ CommentOf indent (t!"//" ++ l) t) ∨ removePrefix indent ls = none := by
        conv => lhs; rw [removePrefix]
        by_cases hl : l = []
        · subst hl
          rw [if_neg (by simp), Option.map_eq_none_iff]
          refine ⟨.inr, fun h => h.resolve_left fun h => h [] (.inr ⟨rfl, rfl⟩)⟩
        · rw [if_pos hl]
          cases hc : cutPrefix l indent with
          | none =>
            simp only [true_iff]
            refine .inl fun t ht => ?_
            rcases ht with ht | ht
            · have : l = indent ++ t := by simpa using ht
              rw [cutPrefix_some.mpr this] at hc
              cases hc
            · exact hl (by simpa using ht.1)
          | some rest =>
            dsimp only
            rw [Option.map_eq_none_iff]
            refine ⟨.inr, fun h => h.resolve_left fun h => h rest (.inl ?_)⟩
            rw [cutPrefix_some.mp hc]
      rw [hstep, ih]
      constructor
      · rintro (h | ⟨l', hl', h⟩)
        · exact ⟨l, List.mem_cons_self .., h⟩
        · exact ⟨l', List.mem_cons_of_mem _ hl', h⟩
      · rintro ⟨l', hl', h⟩
        rcases List.mem_cons.mp hl' with rfl | hl'
        · exact .inl h
        · exact .inr ⟨l', hl', h⟩
  unfold formatDoc
  constructor
  · rintro ⟨n, hn, h⟩
    split at h
    · rename_i hr
      exact .inl ⟨_, rfl, (marks_none _).mp hr⟩
    · cases h
    · rename_i first rest hr
      split at h
      · cases h
      · rename_i hs
        have hs : first.all isUnicodeSpace = false := by simpa using hs
        obtain ⟨c, tail, h1, h2⟩ := takeWhile_split hs
        split at h
        · rename_i hp
          obtain ⟨l, hl, hbad⟩ := (prefix_none _ _).mp hp
          refine .inr ⟨first.takeWhile isUnicodeSpace, c :: tail, rest.map fun t => t!"//" ++ t, ?_,
            fun x hx => (isUnicodeSpace_iff x).mp (mem_takeWhile hx),
            ⟨c, tail, rfl, (isUnicodeSpace_false c).mp h2⟩, ?_⟩
          · rw [← h1]
            exact (removeMarks_some.mp hr).symm
          · rcases List.mem_cons.mp hl with rfl | hl
            · refine absurd ?_ (hbad (c :: tail))
              left
              rw [← h1]
            · exact ⟨_, List.mem_map.mpr ⟨l, hl, rfl⟩, hbad⟩
        · cases h
  · rintro (⟨block', rfl, h⟩ | ⟨indent, first, rest, rfl, h1, ⟨c, tail, rfl, h2⟩, d, hd, hbad⟩)
    · exact ⟨2, by decide, by rw [(marks_none _).mpr h]⟩
    · cases hr : removeMarks ((t!"//" ++ (indent ++ c :: tail)) :: rest) with
      | none => exact ⟨2, by decide, rfl⟩
      | some ls =>
        have hls := removeMarks_some.mp hr
        cases ls with
        | nil => simp at hls
        | cons l ls =>
          have hl : indent ++ c :: tail = l ∧ rest = ls.map fun t => t!"//" ++ t := by
            simpa using hls
          obtain ⟨rfl, rfl⟩ := hl
          have hc := (isUnicodeSpace_false c).mpr h2
          dsimp only
          rw [if_neg (by simp [hc]),
            takeWhile_exact (fun x hx => (isUnicodeSpace_iff x).mpr (h1 x hx)) hc]
          obtain ⟨l, hl, rfl⟩ := List.mem_map.mp hd
          rw [(prefix_none _ _).mpr ⟨l, List.mem_cons_of_mem _ hl, hbad⟩]
          exact ⟨3, by decide, rfl⟩

/-! ## Several declarations -/

/-- The comments that remain after the given calls. -/
def afterCalls (m : CommentMap) (lines : List Nat) : CommentMap :=
  lines.foldl (fun m line => (getDoc m line).1) m

theorem afterCalls_none (m : CommentMap) (lines : List Nat) (i : Nat) (h : m.find i = none) :
    (afterCalls m lines).find i = none := by
  induction lines generalizing m with
  | nil => exact h
  | cons l ls ih =>
    obtain ⟨b, hb, -⟩ := c22_block_exists m l
    exact ih _ ((c22_block m l b hb i).1.mpr (.inl h))

/-- A comment is never used for two declarations: for any two calls of any history, the blocks that
they take have no line in common. -/
theorem c22_used_once (m : CommentMap) (before between : List Nat) (a b : Nat)
    (blockA blockB : List Text)
    (ha : IsBlock (afterCalls m before).find a blockA)
    (hb : IsBlock (afterCalls m (before ++ a :: between)).find b blockB) (i : Nat) :
    ¬ (Covers a blockA i ∧ Covers b blockB i) := by
  rintro ⟨h1, h2⟩
  have hnone : (afterCalls m (before ++ a :: between)).find i = none := by
    unfold afterCalls
    rw [List.foldl_append, List.foldl_cons]
    exact afterCalls_none _ between i ((c22_block _ a blockA ha i).1.mpr (.inr h1))
  obtain ⟨h3, h4⟩ := h2
  have hfit := hb.fits
  have := hb.lines (i - (b - blockB.length)) (by omega)
  have he : b - blockB.length + (i - (b - blockB.length)) = i := by omega
  rw [he, hnone, List.getElem?_eq_getElem (by omega)] at this
  cases this

/-- If the lines where declarations start have no comments, and are different, then each declaration
gets the block that is right before it in the file, whatever the order of the calls. -/
theorem c22_own_block (m : CommentMap) (before : List Nat) (line : Nat) (block : List Text)
    (hn : ∀ l ∈ line :: before, m.find l = none) (hd : line ∉ before)
    (hb : IsBlock m.find line block) : IsBlock (afterCalls m before).find line block := by
  induction before generalizing m with
  | nil => exact hb
  | cons a as ih =>
    obtain ⟨ba, hba, -⟩ := c22_block_exists m a
    have hne : line ≠ a := fun h => hd (h ▸ List.mem_cons_self ..)
    have hkeep : ∀ i, ¬ Covers a ba i → (getDoc m a).1.find i = m.find i :=
      fun i => (c22_block m a ba hba i).2
    -- Lines of a block have comments:
    have hsome : ∀ (l : Nat) (bl : List Text), IsBlock m.find l bl → ∀ i, Covers l bl i →
        m.find i ≠ none := by
      intro l bl hbl i ⟨h1, h2⟩ hnone
      have hfit := hbl.fits
      have := hbl.lines (i - (l - bl.length)) (by omega)
      have he : l - bl.length + (i - (l - bl.length)) = i := by omega
      rw [he, hnone, List.getElem?_eq_getElem (by omega)] at this
      cases this
    have hline := hn line (List.mem_cons_self ..)
    have ha := hn a (List.mem_cons_of_mem _ (List.mem_cons_self ..))
    have hdisjoint : ∀ i, Covers line block i → ¬ Covers a ba i := by
      intro i h1 h2
      by_cases hlt : a < line
      · by_cases hcov : Covers line block a
        · exact hsome line block hb a hcov ha
        · unfold Covers at *
          omega
      · by_cases hcov : Covers a ba line
        · exact hsome a ba hba line hcov hline
        · unfold Covers at *
          omega
    refine ih (m := (getDoc m a).1) ?_ (fun h => hd (List.mem_cons_of_mem _ h)) ?_
    · intro l hl
      refine (c22_block m a ba hba l).1.mpr (.inl (hn l ?_))
      rcases List.mem_cons.mp hl with rfl | hl
      · exact List.mem_cons_self ..
      · exact List.mem_cons_of_mem _ (List.mem_cons_of_mem _ hl)
    · refine ⟨hb.fits, fun i hi => ?_, fun h => ?_⟩
      · have hfit := hb.fits
        rw [hkeep _ (hdisjoint _ ⟨by omega, by omega⟩)]
        exact hb.lines i hi
      · exact (c22_block m a ba hba _).1.mpr (.inl (hb.stops h))

/-- A file with a comment before a class and another comment before its attribute. -/
def exampleComments : CommentMap :=
  [(1, t!"// A cluster"), (2, t!"//"), (3, t!"//   with text"), (5, t!"//\tThe name")]

/-- The class starts in line 4 and its attribute in line 6; the attribute is processed first. -/
example :
    (∀ l ∈ [4, 6], CommentMap.find exampleComments l = none) ∧
    getDoc (afterCalls exampleComments [6]) 4 =
      ([], .done (.text t!"A cluster\n\n  with text")) ∧
    (getDoc exampleComments 6).2 = .done (.text t!"The name") := by decide

/-- The documentation of a declaration isn't always the block of comments that is right before it:
a comment in the first line of the class, after the brace, makes its attribute take also the
comments of the class. The class is in line 2, its attribute in line 3. -/
theorem c22_refuted : ∃ (m : CommentMap) (block : List Text) (doc : Text),
    IsBlock m.find 2 block ∧ Documents block doc ∧
    (getDoc (afterCalls m [3]) 2).2 = .done (.text []) ∧ doc ≠ [] ∧
    (getDoc m 3).2 = .done (.text (doc ++ t!"\nIt has a name")) := by
  refine ⟨[(1, t!"// A cluster"), (2, t!"// It has a name")], [t!"// A cluster"], t!"A cluster",
    ⟨by decide, ?_, by decide⟩, ?_, by decide, by decide, by decide⟩
  · intro i hi
    have : i = 0 := by simpa using hi
    subst this
    rfl
  · exact (formatDoc_text _ _).mp rfl

/-- And an empty comment before the text makes the reader crash. -/
theorem c22_blank_refuted : ∃ (m : CommentMap) (line : Nat),
    (∀ i t, m.find i = some t → ∃ rest, t = t!"//" ++ rest) ∧ (getDoc m line).2 = .panic := by
  refine ⟨[(1, t!"//"), (2, t!"// A cluster")], 3, ?_, by decide⟩
  intro i t h
  unfold CommentMap.find CommentMap.find CommentMap.find at h
  split at h
  · cases h; exact ⟨[], rfl⟩
  · split at h
    · cases h; exact ⟨t!" A cluster", rfl⟩
    · cases h

end Verif
