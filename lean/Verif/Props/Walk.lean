import Verif.Lemmas.Walk
import Verif.Props.Language

/-!
# Property C75: the declarations of a file

`sourceFile text` are the declarations of a file, with the values of the literals and the
documentation, and the number of errors that are reported.
-/

namespace Verif.Language

/-- The comment of a line is the last one that the lexer finds in that line. -/
theorem c75_comments (text : Text) (line : Nat) (comment : Text) :
    (commentsOf (scan text)).find line = some comment ↔
      CommentAt (scan text).comments line comment :=
  commentsOf_iff (scan text).comments line comment

theorem comment_eq {text : Text} {comment : Nat → Option Text}
    (hcm : ∀ line c, comment line = some c ↔ CommentAt (scan text).comments line c) :
    comment = (commentsOf (scan text)).find := by
  funext line
  cases h : comment line with
  | some c => exact ((c75_comments text line c).mpr ((hcm line c).mp h)).symm
  | none =>
    cases h2 : (commentsOf (scan text)).find line with
    | none => rfl
    | some c =>
      rw [(hcm line c).mpr ((c75_comments text line c).mp h2)] at h
      cases h

/-- If all the declarations, members and parameters start in different lines and those lines have no
comments, all the blocks of comments right before them are well formed, and all the literals have
values, then the file is read without errors, and each declaration has the names, types, values and
documentation that are written for it. -/
theorem c75_read (text : Text) (xs : List DeclTree) (hp : parseText text = some xs)
    (comment : Nat → Option Text)
    (hcm : ∀ line c, comment line = some c ↔ CommentAt (scan text).comments line c)
    (doc : Nat → Text)
    (hd : ∀ line ∈ xs.flatMap declLines, ∃ block, IsBlock comment line block ∧
      Documents block (doc line))
    (hn : (xs.flatMap declLines).Nodup)
    (hc : ∀ line ∈ xs.flatMap declLines, comment line = none)
    (hl : ∀ x ∈ xs, ∀ l ∈ declLiterals x, ∃ v, LiteralIs l v) :
    ∃ ds, sourceFile text = .done { syntaxErrors := 0, decls := ds } ∧ Pairs (DeclIs doc) xs ds := by
  have hfun := comment_eq hcm
  subst hfun
  have hg := c73_names text xs hp
  have := walkAll_reads (m := commentsOf (scan text)) (doc := doc) (f := walkDecl) xs fun x hx =>
    walkDecl_reads _ doc x fun l hm => ⟨good_declLiterals (hg x hx) l hm, hl x hx l hm⟩
  obtain ⟨ds, h1, h2⟩ := this [] hn hc hd
  refine ⟨ds, ?_, h2⟩
  unfold sourceFile
  rw [hp]
  change (walkAll walkDecl xs ⟨afterCalls (commentsOf (scan text)) [], 0⟩).bind _ = _
  rw [h1]
  rfl

/-- If there is a literal without a value, or a syntax error, an error is reported. -/
theorem c75_errors (text : Text) (f : SourceFile) (h : sourceFile text = .done f)
    (h0 : f.syntaxErrors = 0) :
    ∃ xs, parseText text = some xs ∧ ∀ x ∈ xs, ∀ l ∈ declLiterals x, ∃ v, LiteralIs l v := by
  unfold sourceFile at h
  split at h
  · cases h
    cases h0
  · rename_i xs hp
    refine ⟨xs, hp, ?_⟩
    obtain ⟨r, h1, h2⟩ := bind_done_inv h
    cases h2
    have := walkAll_checks (P := fun x => NoErrors (declLiterals x)) xs walkDecl_checks _ r.1 r.2 h1 h0
    intro x hx l hm
    have hz := this.2 x hx l hm
    exact ⟨(literalValue l).1, (c74_literal_iff l
      (good_declLiterals (c73_names text xs hp x hx) l hm) _).mp (by rw [← hz])⟩

/-- If all the declarations, members and parameters start in different lines and those lines have no
comments, a file with the right syntax is read without errors if and only if all the literals have
values and all the blocks of comments right before those lines are well formed. -/
theorem c75_accepted_iff (text : Text) (xs : List DeclTree) (hp : parseText text = some xs)
    (comment : Nat → Option Text)
    (hcm : ∀ line c, comment line = some c ↔ CommentAt (scan text).comments line c)
    (hn : (xs.flatMap declLines).Nodup)
    (hc : ∀ line ∈ xs.flatMap declLines, comment line = none) :
    (∃ f, sourceFile text = .done f ∧ f.syntaxErrors = 0) ↔
      (∀ x ∈ xs, ∀ l ∈ declLiterals x, ∃ v, LiteralIs l v) ∧
      ∀ line ∈ xs.flatMap declLines, ∃ doc block, IsBlock comment line block ∧
        Documents block doc := by
  constructor
  · rintro ⟨f, h, h0⟩
    refine ⟨?_, ?_⟩
    · obtain ⟨ys, hy, h2⟩ := c75_errors text f h h0
      rw [hp] at hy
      cases hy
      exact h2
    · have hfun := comment_eq hcm
      subst hfun
      unfold sourceFile at h
      rw [hp] at h
      obtain ⟨r, h1, h2⟩ := bind_done_inv h
      cases h2
      obtain ⟨-, -, hu⟩ := walkAll_uses xs walkDecl_uses _ r.1 r.2 h1 h0
      intro line hl
      obtain ⟨before, after, he⟩ := List.append_of_mem hl
      obtain ⟨doc, hd⟩ := hu before line after he
      obtain ⟨block, hb, hdoc⟩ := (c22_text_iff _ _ _).mp hd
      obtain ⟨own, ho, -⟩ := c22_block_exists (commentsOf (scan text)) line
      rw [he] at hn
      have hin : ∀ l ∈ line :: before, (commentsOf (scan text)).find l = none := by
        intro l hm
        refine hc l ?_
        rw [he]
        rcases List.mem_cons.mp hm with rfl | hm
        · exact List.mem_append_right _ (List.mem_cons_self ..)
        · exact List.mem_append_left _ hm
      have hnot : line ∉ before := fun hm =>
        (List.nodup_append.mp hn).2.2 line hm line (List.mem_cons_self ..) rfl
      have := c22_own_block _ before line own hin hnot ho
      refine ⟨doc, own, ho, ?_⟩
      rw [isBlock_unique this hb]
      exact hdoc
  · rintro ⟨hl, hd⟩
    have : ∃ doc : Nat → Text, ∀ line ∈ xs.flatMap declLines, ∃ block,
        IsBlock comment line block ∧ Documents block (doc line) := by
      refine ⟨fun line => if h : line ∈ xs.flatMap declLines then (hd line h).choose else [], ?_⟩
      intro line h
      dsimp only
      rw [dif_pos h]
      exact (hd line h).choose_spec
    obtain ⟨doc, hd⟩ := this
    obtain ⟨ds, h1, -⟩ := c75_read text xs hp comment hcm doc hd hn hc hl
    exact ⟨_, h1, rfl⟩

/-- The hypotheses are met, and the file is rejected because of a comment without indentation. -/
example : ¬ ∃ f, sourceFile t!"//  A\n// a\nenum A {\n b\n}" = .done f ∧ f.syntaxErrors = 0 := by
  have e : sourceFile t!"//  A\n// a\nenum A {\n b\n}" =
      .done { syntaxErrors := 3, decls := [.enum t!"A" [] [] [{ name := t!"b" }]] } := rfl
  rintro ⟨f, h, h0⟩
  rw [e] at h
  cases h
  cases h0

/-- What is read from the text of the example: the documentation and the value of the annotation are
those of the class. -/
theorem exampleText_read : sourceFile exampleText = .done
    { syntaxErrors := 0,
      decls :=
        [.class t!"Cluster" t!"Doc." [{ name := t!"json", parameters := [(t!"name", .str t!"x")] }]
          [{ name := t!"owner", ref := .plain t!"Account", link := true },
           { name := t!"names", ref := .list t!"String" },
           { name := t!"labels", ref := .map t!"String" t!"String" }],
         .enum t!"State" [] [] [{ name := t!"Ready" }, { name := t!"Error" }],
         .struct t!"Point" [] [] [{ name := t!"x", ref := .plain t!"Integer" }],
         .error t!"Bad" [] [] [t!"7"],
         .resource t!"Clusters" [] []
          [.method { name := t!"List",
                     parameters :=
                       [{ name := t!"page", ref := .plain t!"Integer",
                          directions := [.input, .output], dflt := some (.int 1) },
                        { name := t!"items", ref := .list t!"Cluster" }] },
           .locator { name := t!"Cluster",
                      members := [.target t!"Cluster", .variableName t!"id"] }]] } := by
  have hs : ∃ s, scan exampleText = s ∧ commentsOf s = [(1, t!"// Doc.")] := ⟨_, rfl, by
    set_option maxRecDepth 20000 in decide⟩
  obtain ⟨s, h1, h2⟩ := hs
  unfold sourceFile
  rw [exampleText_parse, h1, h2]
  rfl

/-- The hypotheses of `c75_read` are met by a text where everything has documentation. -/
example : ∃ ds, sourceFile t!"// A\n// a\nenum A {\n  // B\n  b\n}" =
      .done { syntaxErrors := 0, decls := ds } ∧
    Pairs (DeclIs fun line => if line = 3 then t!"A\na" else t!"B")
      [⟨3, [], t!"A", .enum [⟨5, [], t!"b"⟩]⟩] ds := by
  refine c75_read t!"// A\n// a\nenum A {\n  // B\n  b\n}" _ (by decide)
    (commentsOf (scan t!"// A\n// a\nenum A {\n  // B\n  b\n}")).find
    (fun line c => c75_comments _ line c) _ ?_ (by decide) (by decide) ?_
  · have hm : commentsOf (scan t!"// A\n// a\nenum A {\n  // B\n  b\n}") =
        [(4, t!"// B"), (2, t!"// a"), (1, t!"// A")] := by decide
    intro line hl
    rw [hm]
    have : line = 5 ∨ line = 3 := by
      have : line ∈ [5, 3] := hl
      simpa using this
    rw [← c22_text_iff]
    rcases this with rfl | rfl <;> decide
  · intro x hx l hl
    have := List.mem_singleton.mp hx
    subst this
    cases hl

/-- It isn't true without the condition about the lines: if a declaration and its first member start in
the same line the documentation of the declaration is given to the member. -/
theorem c75_same_line_refuted :
    ¬ ∀ (text : Text) (xs : List DeclTree) (comment : Nat → Option Text) (doc : Nat → Text),
      parseText text = some xs →
      (∀ line c, comment line = some c ↔ CommentAt (scan text).comments line c) →
      (∀ line ∈ xs.flatMap declLines, ∃ block, IsBlock comment line block ∧
        Documents block (doc line)) →
      (∀ line ∈ xs.flatMap declLines, comment line = none) →
      (∀ x ∈ xs, ∀ l ∈ declLiterals x, ∃ v, LiteralIs l v) →
      ∃ ds, sourceFile text = .done { syntaxErrors := 0, decls := ds } ∧ Pairs (DeclIs doc) xs ds := by
  intro h
  obtain ⟨ds, h1, h2⟩ := h t!"// Doc\nenum A { b }" [⟨2, [], t!"A", .enum [⟨2, [], t!"b"⟩]⟩]
    (commentsOf (scan t!"// Doc\nenum A { b }")).find (fun _ => t!"Doc") (by decide)
    (fun line c => c75_comments _ line c) (by
      intro line hl
      have : line = 2 := by
        have : line ∈ [2, 2] := hl
        simpa using this
      subst this
      rw [← c22_text_iff]
      decide) (by decide) (by
      intro x hx l hl
      have := List.mem_singleton.mp hx
      subst this
      cases hl)
  have e : sourceFile t!"// Doc\nenum A { b }" = .done
      { syntaxErrors := 0, decls := [.enum t!"A" [] [] [{ name := t!"b", doc := t!"Doc" }]] } := rfl
  rw [e] at h1
  have hd : [Decl.enum t!"A" [] [] [{ name := t!"b", doc := t!"Doc" }]] = ds := by
    have := Run.done.inj h1
    exact congrArg SourceFile.decls this
  subst hd
  cases h2 with
  | cons _ _ _ _ hx _ =>
    obtain ⟨as, _, ys, he, _⟩ := hx
    exact absurd (Decl.enum.inj he).2.1 (by decide)

end Verif.Language
