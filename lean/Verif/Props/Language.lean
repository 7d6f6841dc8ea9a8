import Verif.Lemmas.Trees

/-!
# Properties C69 to C73: the model language

`scan` is the lexer, `parseText` are the lexer and the parser together. The rules of the lexer are
`Matches` and those of the parser are `IsFile` and the rest of predicates of `Verif.Spec.Parser`.
-/

namespace Verif.Language

open Keyword

/-! ## C70: the text is divided in tokens -/

/-- Each step of the lexer takes the longest text that matches some rule, and uses the first of the
rules that match it. -/
theorem c70_step (text : Text) (a : Action) (taken rest : Text) :
    next text = some (a, taken, rest) ↔
      ∃ rule, IsNext text rule taken rest ∧ a = actionOf rule taken := next_iff text a taken rest

/-- There is at most one way to do a step. -/
theorem c70_step_unique (text : Text) (r1 r2 : Rule) (t1 t2 rest1 rest2 : Text)
    (h1 : IsNext text r1 t1 rest1) (h2 : IsNext text r2 t2 rest2) :
    t1 = t2 ∧ rest1 = rest2 ∧ r1 = r2 := isNext_unique text r1 r2 t1 t2 rest1 rest2 h1 h2

/-- The lexer terminates for every text, and its tokens and comments, with their lines, are those
that result from doing steps until the end of the text or until no rule matches. -/
theorem c70_scan (text : Text) (ts : List Lexeme) (cs : List (Nat × Text)) (complete : Bool) :
    scan text = ⟨ts, cs, complete⟩ ↔ Scans 1 text ts cs complete := scan_iff text ts cs complete

/-- The hypotheses are met: a word that starts with a keyword is a name, and the line comment doesn't
include the line break. -/
example : scan t!"class classic // x\n{}" =
    ⟨[⟨.keyword kwClass, 1⟩, ⟨.identifier t!"classic", 1⟩, ⟨.leftCurly, 2⟩, ⟨.rightCurly, 2⟩],
      [(1, t!"// x")], true⟩ := by decide

/-- And there are texts that can't be divided. -/
example : scan t!"enum A ; b" = ⟨[⟨.keyword kwEnum, 1⟩, ⟨.identifier t!"A", 1⟩], [], false⟩ := by
  decide

example : IsNext t!"/**/x" .blockComment t!"/**/" t!"x" := by
  obtain ⟨rule, h1, h2⟩ := (c70_step t!"/**/x" .skip t!"/**/" t!"x").mp (by decide)
  have : rule = .blockComment := by
    have hm := h1.hit
    cases rule with
    | blockComment => rfl
    | white => exact absurd (hm.2 '/' (by decide)) (by unfold White; decide)
    | _ => cases h2
  exact this ▸ h1

/-! ## C71: blanks and comments don't matter -/

/-- A text is divided completely in some tokens exactly when it consists of the texts of those
tokens with any blanks and comments between them; two words or numbers must be separated. -/
theorem c71_written_iff (ts : List Lexeme) (text : Text) :
    Written 1 ts text ↔ (scan text).tokens = ts ∧ (scan text).complete = true :=
  written_scan ts text

/-- If two texts have the same tokens, with different blanks and comments, then both are accepted or
none is, and the trees only differ in the numbers of the lines. -/
theorem c71_layout (a b : Text) (ts us : List Lexeme) (ha : Written 1 ts a) (hb : Written 1 us b)
    (same : ts.map (·.token) = us.map (·.token)) :
    (parseText a).map (fun xs => xs.map DeclTree.unplaced) =
      (parseText b).map (fun xs => xs.map DeclTree.unplaced) := by
  obtain ⟨ha1, ha2⟩ := (written_scan ts a).mp ha
  obtain ⟨hb1, hb2⟩ := (written_scan us b).mp hb
  have key : ∀ (ts us : List Lexeme), SameTokens ts us → ∀ xs rest, file ts = some (xs, rest) →
      ∃ ys rest', file us = some (ys, rest') ∧
        ys.map DeclTree.unplaced = xs.map DeclTree.unplaced := by
    intro ts us hs xs rest h
    obtain ⟨used, rfl, h1, h2⟩ := (file_iff _ _ _).mp h
    obtain ⟨used', rest', rfl, s1, s2⟩ := sameTokens_append hs
    obtain ⟨ys, hy, he⟩ := file_same h1 s1
    refine ⟨ys, rest', (file_iff _ _ _).mpr ⟨used', rfl, hy, ?_⟩, he⟩
    intro l ls hr hd
    subst hr
    unfold SameTokens at s2
    obtain ⟨l', ls', rfl, h3, h4⟩ := List.map_eq_cons_iff.mp s2
    exact h2 l' ls' rfl (h3 ▸ hd)
  have val : ∀ (c : Text) (vs : List Lexeme), (scan c).tokens = vs → (scan c).complete = true →
      parseText c = (file vs).map (·.1) := by
    intro c vs h1 h2
    unfold parseText
    rw [h1]
    cases file vs with
    | none => rfl
    | some r =>
      obtain ⟨xs, rest⟩ := r
      cases rest with
      | nil => dsimp only; rw [if_pos h2]; rfl
      | cons l ls => rfl
  rw [val a ts ha1 ha2, val b us hb1 hb2]
  cases h1 : file ts with
  | none =>
    cases h2 : file us with
    | none => rfl
    | some r =>
      obtain ⟨ys, rest', h3, _⟩ := key us ts same.symm r.1 r.2 h2
      rw [h1] at h3
      cases h3
  | some r =>
    obtain ⟨ys, rest', h3, h4⟩ := key ts us same r.1 r.2 h1
    rw [h3]
    exact congrArg some h4.symm

/-- The hypotheses are met by two texts with different layout. -/
example : Written 1 [⟨.keyword kwEnum, 1⟩, ⟨.identifier t!"A", 1⟩, ⟨.leftCurly, 1⟩,
      ⟨.rightCurly, 1⟩] t!"enum A{}" ∧
    Written 1 [⟨.keyword kwEnum, 2⟩, ⟨.identifier t!"A", 2⟩, ⟨.leftCurly, 2⟩,
      ⟨.rightCurly, 3⟩] t!"// Text\nenum/*x*/A { \n}" := by
  constructor <;> refine (c71_written_iff _ _).mpr (by decide)

/-! ## C69: the parser accepts the texts of the grammar and builds their trees -/

/-- A sequence of tokens has at most one tree. -/
theorem c69_unambiguous (xs ys : List DeclTree) (ls : List Lexeme) (hx : IsFile xs ls)
    (hy : IsFile ys ls) : xs = ys := by
  have h : ∀ zs, IsFile zs ls → file ls = some (zs, []) := fun zs hz =>
    (file_iff _ _ _).mpr ⟨ls, by simp, hz, fun _ _ h => nomatch h⟩
  have := (h xs hx).symm.trans (h ys hy)
  cases this
  rfl

/-- Every text of the grammar is accepted, and the result is its tree. -/
theorem c69_accepts (ts : List Lexeme) (text : Text) (xs : List DeclTree) (hw : Written 1 ts text)
    (hf : IsFile xs ts) : parseText text = some xs := by
  obtain ⟨h1, h2⟩ := (written_scan ts text).mp hw
  have h : file ts = some (xs, []) :=
    (file_iff _ _ _).mpr ⟨ts, by simp, hf, fun _ _ h => nomatch h⟩
  unfold parseText
  rw [h1, h]
  dsimp only
  rw [if_pos h2]

/-- Exactly the texts that are accepted: the tokens up to the end of the text, or up to the first one
that is found where a declaration could start but that can't start it, are derived from the
grammar. -/
theorem c69_parse_iff (text : Text) (xs : List DeclTree) :
    parseText text = some xs ↔
      ∃ used rest cs complete, Scans 1 text (used ++ rest) cs complete ∧ IsFile xs used ∧
        ((rest = [] ∧ complete = true) ∨ ∃ l ls, rest = l :: ls ∧ ¬ StartsDeclaration l.token) := by
  constructor
  · intro h
    unfold parseText at h
    split at h
    · cases h
    · rename_i ys hf
      obtain ⟨used, h1, h2, -⟩ := (file_iff _ _ _).mp hf
      split at h
      · rename_i hc
        cases h
        refine ⟨used, [], (scan text).comments, true, (scan_iff _ _ _ _).mp ?_, h2, .inl ⟨rfl, rfl⟩⟩
        rw [← h1, ← hc]
      · cases h
    · rename_i ys l ls hf
      cases h
      obtain ⟨used, h1, h2, h3⟩ := (file_iff _ _ _).mp hf
      refine ⟨used, l :: ls, (scan text).comments, (scan text).complete, (scan_iff _ _ _ _).mp ?_, h2,
        .inr ⟨l, ls, rfl, h3 l ls rfl⟩⟩
      rw [← h1]
  · rintro ⟨used, rest, cs, complete, hs, hf, hr⟩
    have hs := (scan_iff _ _ _ _).mpr hs
    unfold parseText
    rw [hs]
    dsimp only
    rcases hr with ⟨rfl, rfl⟩ | ⟨l, ls, rfl, hl⟩
    · rw [(file_iff _ xs []).mpr ⟨used, rfl, hf, fun _ _ h => nomatch h⟩]
      rfl
    · rw [(file_iff _ xs (l :: ls)).mpr ⟨used, rfl, hf, fun l' ls' he => by cases he; exact hl⟩]

/-- The hypotheses are met: a text with all the kinds of declarations. -/
def exampleText : Text :=
  t!"// Doc.\n@json(name = \"x\")\nclass Cluster {\n  link owner Account\n  names []String\n  labels [String]String\n}\n" ++
  t!"enum State { value Ready Error }\nstruct Point { x Integer }\nerror Bad { code 7 }\n" ++
  t!"resource Clusters {\n  method List {\n    in out page Integer = 1\n    items []Cluster\n  }\n" ++
  t!"  locator Cluster {\n    target Cluster\n    variable id\n  }\n}"

def exampleTrees : List DeclTree :=
  [{ line := 2, annotations := [{ name := t!"json", parameters := [(t!"name", .string t!"\"x\"")] }],
     name := t!"Cluster",
     body := .class
       [{ line := 4, annotations := [], link := true, name := t!"owner", ref := .plain t!"Account" },
        { line := 5, annotations := [], link := false, name := t!"names", ref := .list t!"String" },
        { line := 6, annotations := [], link := false, name := t!"labels",
          ref := .map t!"String" t!"String" }] },
   { line := 8, annotations := [], name := t!"State",
     body := .enum [{ line := 8, annotations := [], name := t!"Ready" },
       { line := 8, annotations := [], name := t!"Error" }] },
   { line := 9, annotations := [], name := t!"Point",
     body := .struct
       [{ line := 9, annotations := [], link := false, name := t!"x", ref := .plain t!"Integer" }] },
   { line := 10, annotations := [], name := t!"Bad", body := .error [t!"7"] },
   { line := 11, annotations := [], name := t!"Clusters",
     body := .resource
       [.method 12 [] t!"List"
          [{ line := 13, annotations := [], directions := [.input, .output], name := t!"page",
             ref := .plain t!"Integer", dflt := some (.integer t!"1") },
           { line := 14, annotations := [], directions := [], name := t!"items",
             ref := .list t!"Cluster", dflt := none }],
        .locator 16 [] t!"Cluster" [.target t!"Cluster", .variableName t!"id"]] }]

set_option maxRecDepth 20000 in
theorem exampleText_parse : parseText exampleText = some exampleTrees := by decide

/-- So that text consists of tokens that are derived from the grammar. -/
example : ∃ used cs, Scans 1 exampleText used cs true ∧ IsFile exampleTrees used := by
  obtain ⟨used, rest, cs, complete, h1, h2, h3 | ⟨l, ls, rfl, h3⟩⟩ :=
    (c69_parse_iff _ _).mp exampleText_parse
  · obtain ⟨rfl, rfl⟩ := h3
    rw [List.append_nil] at h1
    exact ⟨used, cs, h1, h2⟩
  · have hs := (scan_iff _ _ _ _).mpr h1
    have hf := (file_iff _ exampleTrees (l :: ls)).mpr
      ⟨used, rfl, h2, fun l' ls' he => by cases he; exact h3⟩
    have ht : (scan exampleText).tokens = used ++ l :: ls := by rw [hs]
    rw [← ht] at hf
    have : (file (scan exampleText).tokens).map (·.2) = some [] := by
      set_option maxRecDepth 20000 in decide
    rw [hf] at this
    cases this

/-! ## C73: names -/

/-- The trees that can be written are exactly those whose names are words that aren't keywords, whose
integers are sequences of digits and whose strings are quoted: nothing else restricts them. -/
theorem c73_trees_iff (xs : List DeclTree) :
    (∃ text ys, parseText text = some ys ∧ ys.map DeclTree.unplaced = xs.map DeclTree.unplaced) ↔
      ∀ x ∈ xs, GoodDecl x := by
  constructor
  · rintro ⟨text, ys, h, he⟩
    obtain ⟨used, rest, cs, complete, h1, h2, -⟩ := (c69_parse_iff _ _).mp h
    have hs := (scan_iff _ _ _ _).mpr h1
    have hw := scan_writable text
    rw [hs] at hw
    exact goodDecls_of_unplaced he.symm ((file_writable h2).mp (writable_append.mp hw).1)
  · intro h
    obtain ⟨ys, a, ha, he⟩ := file_exists xs
    have hw := (file_writable ha).mpr (goodDecls_of_unplaced he h)
    obtain ⟨b, text, hs, hb⟩ := writable_written a hw 1
    obtain ⟨zs, hz, hze⟩ := file_same ha hs
    exact ⟨' ' :: text, zs, c69_accepts b _ zs hb hz, hze.trans he⟩

/-- All the names of the trees of the parser are words that aren't keywords. -/
theorem c73_names (text : Text) (xs : List DeclTree) (h : parseText text = some xs) :
    ∀ x ∈ xs, GoodDecl x := (c73_trees_iff xs).mp ⟨text, xs, h, rfl⟩

example : ∀ x ∈ exampleTrees, GoodDecl x := c73_names _ _ exampleText_parse

/-- No attribute, value, parameter, method, locator, type or resource can have the name of a
keyword, even where the keyword itself wouldn't be possible. -/
theorem c73_keyword_names_refuted :
    ¬ ∀ name : Text, Word name →
      ∃ text, (parseText text).map (fun xs => xs.map DeclTree.unplaced) =
        some [⟨0, [], t!"A", .class [⟨0, [], false, name, .plain t!"String"⟩]⟩] := by
  intro h
  obtain ⟨text, ht⟩ := h t!"code" (by
    refine ⟨'c', t!"ode", rfl, ?_, ?_⟩
    · unfold NameStart; decide
    · intro d hd
      have : d ∈ ['o', 'd', 'e'] := hd
      simp only [List.mem_cons, List.not_mem_nil, or_false] at this
      rcases this with rfl | rfl | rfl <;> exact .inl (by unfold NameStart; decide))
  cases hp : parseText text with
  | none => rw [hp] at ht; cases ht
  | some ys =>
    rw [hp] at ht
    have he := Option.some.inj ht
    have hg := (c73_trees_iff [⟨0, [], t!"A", .class [⟨0, [], false, t!"code", .plain t!"String"⟩]⟩]).mp
      ⟨text, ys, hp, he⟩
    have := (hg _ (List.mem_cons_self ..)).2.2 _ (List.mem_cons_self ..)
    exact this.2.1.2 kwCode rfl

/-- The same text is accepted with another name. -/
example : parseText t!"class A { code String }" = none ∧
    (parseText t!"class A { kode String }").isSome := by decide

/-! ## C72: everything in the file is read -/

/-- It isn't true that if no errors are reported then all the tokens of the file are part of the
declarations: a wrong keyword after the last declaration hides the rest of the file. -/
theorem c72_everything_refuted :
    ¬ ∀ text xs, parseText text = some xs → ∃ ts, Written 1 ts text ∧ IsFile xs ts := by
  intro h
  obtain ⟨ts, h1, h2⟩ := h t!"enum A {}\nclas B {}\n#" [⟨1, [], t!"A", .enum []⟩] (by decide)
  have := (written_scan _ _).mp h1
  exact absurd this.2 (by decide)

/-- If no errors are reported then all the tokens are part of the declarations, or there is a token
that can't start a declaration after some declarations, and the text from that token is ignored. -/
theorem c72_everything_partial (text : Text) (xs : List DeclTree) (h : parseText text = some xs) :
    (∃ ts, Written 1 ts text ∧ IsFile xs ts) ∨
    ∃ used l rest, (scan text).tokens = used ++ l :: rest ∧ IsFile xs used ∧
      ¬ StartsDeclaration l.token := by
  obtain ⟨used, rest, cs, complete, h1, h2, ⟨rfl, rfl⟩ | ⟨l, ls, rfl, h3⟩⟩ := (c69_parse_iff _ _).mp h
  · have hs := (scan_iff _ _ _ _).mpr h1
    refine .inl ⟨used, (written_scan _ _).mpr ?_, h2⟩
    rw [hs]
    exact ⟨List.append_nil used, rfl⟩
  · have hs := (scan_iff _ _ _ _).mpr h1
    refine .inr ⟨used, l, ls, ?_, h2, h3⟩
    rw [hs]

/-- After a text with some declarations, a closing bracket hides any text: it has no effect and no
error is reported. -/
theorem c72_ignored (ts : List Lexeme) (text : Text) (xs : List DeclTree) (hw : Written 1 ts text)
    (hf : IsFile xs ts) (ignored : Text) :
    parseText (text ++ t!"\n}" ++ ignored) = some xs := by
  have e : text ++ t!"\n}" ++ ignored = text ++ '\n' :: ('}' :: ignored) := by simp
  have h := tokensAt_more 1 ts text hw ('}' :: ignored)
  have hn : next ('}' :: ignored) = some (.token .rightCurly, t!"}", ignored) :=
    next_token .rightCurly t!"}" ignored rfl (fun _ _ _ h => h)
  rw [tokensAt_step _ _ _ _ _ hn] at h
  rw [e]
  have h1 := congrArg Prod.fst h
  change (scan _).tokens = ts ++ ⟨Token.rightCurly, _⟩ :: _ at h1
  unfold parseText
  rw [h1, (file_iff _ xs (_ :: _)).mpr ⟨ts, rfl, hf, fun l ls he => by
    cases he
    unfold StartsDeclaration
    simp⟩]

example : ∀ ignored, parseText (t!"enum A {}" ++ t!"\n}" ++ ignored) =
    some [⟨1, [], t!"A", .enum []⟩] := by
  intro ignored
  have h : parseText t!"enum A {}" = some [⟨1, [], t!"A", .enum []⟩] := by decide
  obtain ⟨ts, h1, h2⟩ | ⟨used, l, rest, h1, h2, h3⟩ := c72_everything_partial _ _ h
  · exact c72_ignored ts _ _ h1 h2 ignored
  · have hf := (file_iff _ _ (l :: rest)).mpr
      ⟨used, h1, h2, fun l' ls' he => by cases he; exact h3⟩
    have : (file (scan t!"enum A {}").tokens).map (·.2) = some [] := by decide
    rw [hf] at this
    cases this

end Verif.Language
