import Verif.Lemmas.Source

/-!
# Property C77: reading a model from the texts of its files

`Language.read prior inputs fuel` is the result of the reader for the texts of the files.
-/

namespace Verif.Language

open Session (load)

/-- If all the directories and files can be read, all the texts are right (see `FileMeans`), and the
names that are written in the files of each version are acceptable, then no errors are reported, the
model has exactly the versions that have directories, and the types, resources and errors of each
version are those that are written in its own files. If besides that the checks don't find errors the
model is returned. -/
theorem c77_read_partial (inputs : List TextModel) (hr : ∀ m ∈ inputs, m.Readable)
    (hm : ∀ d ∈ textDirs inputs, ∀ text ∈ d.2.2, ∃ xs doc, FileMeans text xs doc)
    (hg : ∀ before a b texts after, textDirs inputs = before ++ (a, b, texts) :: after →
      NoNameClash (bareDecls (versionTexts before a b ++ texts)) ∧
      Acceptable (bareDecls (versionTexts before a b ++ texts))) :
    ∃ s : Session, s.problems = [] ∧
      (∀ a b, (s.version a b).isSome = true ↔ ∃ texts, (a, b, texts) ∈ textDirs inputs) ∧
      (∀ a b texts, (a, b, texts) ∈ textDirs inputs → ∃ v ds, s.version a b = some v ∧
        TextsAre (versionTexts (textDirs inputs) a b) ds ∧
        TypesAre v.id ds (s.typeView v) ∧ ResourcesAre ds (s.resourceView v) ∧
        ErrorsAre ds v.errors.find) ∧
      ∀ fuel messages,
        Check.checkModel s.graph fuel (s.versions.map s.versionView) = .done messages →
        Accepted messages → read (some 0) inputs fuel = .done { result := .model s, errors := 0 } := by
  obtain ⟨sources, h1, h2, h3⟩ := sources_are inputs hr hm
  have good : ∀ before a b ds after, versionDirs sources = before ++ (a, b, ds) :: after →
      GoodDecls (versionDecls before a b ++ ds) := by
    intro before a b ds after e
    rw [e] at h3
    obtain ⟨before', ⟨a', b', texts⟩, after', e', p1, ⟨q1, q2, q3⟩, -⟩ := h3.around
    dsimp only at q1 q2 q3
    subst q1 q2
    obtain ⟨g1, g2⟩ := hg _ _ _ _ _ e'
    exact texts_good (textsAre_append (versionTexts_are p1 _ _) q3) g1 g2
  obtain ⟨c1, c2, c3⟩ := c76_model_partial sources h2 good
  refine ⟨load sources, c1, ?_, ?_, ?_⟩
  · intro a b
    rw [c2]
    constructor
    · rintro ⟨ds, hd⟩
      obtain ⟨⟨a', b', texts⟩, hx, q1, q2, -⟩ := h3.right _ hd
      dsimp only at q1 q2
      subst q1 q2
      exact ⟨texts, hx⟩
    · rintro ⟨texts, hd⟩
      obtain ⟨⟨a', b', ds⟩, hx, q1, q2, -⟩ := h3.left _ hd
      dsimp only at q1 q2
      subst q1 q2
      exact ⟨ds, hx⟩
  · intro a b texts hd
    obtain ⟨⟨a', b', ds⟩, hx, q1, q2, -⟩ := h3.left _ hd
    dsimp only at q1 q2
    subst q1 q2
    obtain ⟨v, d1, d2, d3, d4⟩ := c3 _ _ _ hx
    exact ⟨v, _, d1, versionTexts_are h3 _ _, d2, d3, d4⟩
  · intro fuel messages hc ha
    unfold read
    dsimp only
    rw [h1]
    exact c76_read_partial sources h2 good fuel messages hc ha

/-- A model is returned only if no errors had been reported before, all the directories and files can
be read, and in all the files the syntax is right and all the literals have values. -/
theorem c77_returned (prior : Option Nat) (inputs : List TextModel) (fuel : Nat)
    (out : Session.ReadOutcome) (s : Session) (h : read prior inputs fuel = .done out)
    (hs : out.result = .model s) :
    prior = some 0 ∧ s.problems = [] ∧ (∀ m ∈ inputs, m.Readable) ∧
    (∀ d ∈ textDirs inputs, ∀ text ∈ d.2.2, ∃ xs, parseText text = some xs ∧
      ∀ x ∈ xs, ∀ l ∈ declLiterals x, ∃ v, LiteralIs l v) ∧
    ∀ v ∈ s.versions, ∃ messages,
      Check.checkVersion s.graph fuel (s.versionView v) = .done messages ∧ Accepted messages := by
  cases prior with
  | none =>
    cases h
    cases hs
  | some prior =>
    unfold read at h
    dsimp only at h
    obtain ⟨sources, h1, h2⟩ := bind_done_inv h
    obtain ⟨rfl, -, h3, h4, h5⟩ := c17_nothing_ignored prior sources fuel out s h2 hs
    have hp := readAll_done inputs sources h1
    -- What is known of each file:
    have key : ∀ m ∈ inputs, m.status = .good ∧ ∀ s ∈ m.services, s.isDir = true →
        s.status = .good ∧ ∀ v ∈ s.versions, v.isDir = true → v.status = .good ∧
          ∀ f ∈ v.files, f.regular = true → f.readable = true ∧
            ∃ g, sourceFile f.text = .done g ∧ g.syntaxErrors = 0 := by
      intro m hm
      obtain ⟨n, hn, hmn⟩ := hp.left m hm
      obtain ⟨r1, r2⟩ := h4 n hn
      unfold TextModel.source at hmn
      split at hmn
      case isFalse hne =>
        cases hmn
        exact absurd r1 hne
      case isTrue hst =>
        refine ⟨hst, fun s hs hsd => ?_⟩
        obtain ⟨services, k1, k2⟩ := bind_done_inv hmn
        cases k2
        obtain ⟨t, ht, hst'⟩ := (readAll_done _ _ k1).left s hs
        have r2 := r2 t ht
        unfold TextService.source at hst'
        rw [hsd, Bool.true_and] at hst'
        split at hst'
        case isFalse hne =>
          cases hst'
          exact absurd (r2 rfl).1 (by simpa using hne)
        case isTrue hsg =>
          refine ⟨by simpa using hsg, fun v hv hvd => ?_⟩
          obtain ⟨versions, k1, k2⟩ := bind_done_inv hst'
          cases k2
          obtain ⟨w, hw, hvw⟩ := (readAll_done _ _ k1).left v hv
          have r3 := (r2 rfl).2 w hw
          unfold TextVersion.source at hvw
          rw [hvd, Bool.true_and] at hvw
          split at hvw
          case isFalse hne =>
            cases hvw
            exact absurd (r3 rfl).1 (by simpa using hne)
          case isTrue hvg =>
            refine ⟨by simpa using hvg, fun f hf hfr => ?_⟩
            obtain ⟨files, k1, k2⟩ := bind_done_inv hvw
            cases k2
            obtain ⟨g, hg, hfg⟩ := (readAll_done _ _ k1).left f hf
            have r4 := (r3 rfl).2 g hg
            unfold TextFile.source at hfg
            rw [hfr, Bool.true_and] at hfg
            split at hfg
            case isFalse hne =>
              cases hfg
              exact absurd (r4 rfl).1 hne
            case isTrue hfo =>
              obtain ⟨g', k1, k2⟩ := bind_done_inv hfg
              cases k2
              exact ⟨hfo, g', k1, (r4 rfl).2⟩
    refine ⟨rfl, h3, ?_, ?_, h5⟩
    · intro m hm
      obtain ⟨a1, a2⟩ := key m hm
      refine ⟨a1, fun s hs hsd => ⟨(a2 s hs hsd).1, fun v hv hvd => ?_⟩⟩
      obtain ⟨b1, b2⟩ := (a2 s hs hsd).2 v hv hvd
      exact ⟨b1, fun f hf hfr => (b2 f hf hfr).1⟩
    · intro d hd text ht
      obtain ⟨m, hm, hd⟩ := List.mem_flatMap.mp hd
      obtain ⟨s, hs, hd⟩ := List.mem_flatMap.mp hd
      obtain ⟨v, hv, rfl⟩ := List.mem_map.mp hd
      obtain ⟨f, hf, rfl⟩ := List.mem_map.mp ht
      obtain ⟨hs, hsd⟩ := List.mem_filter.mp hs
      obtain ⟨hv, hvd⟩ := List.mem_filter.mp hv
      obtain ⟨hf, hfr⟩ := List.mem_filter.mp hf
      obtain ⟨-, g, e1, e2⟩ := (((key m hm).2 s hs hsd).2 v hv hvd).2 f hf hfr
      exact c75_errors f.text g e1 e2

/-- Without a reporter there is an error and nothing is read. -/
theorem c77_no_reporter (inputs : List TextModel) (fuel : Nat) :
    read none inputs fuel =
      .done { result := .error t!"parameter 'reporter' is mandatory", errors := 0 } := rfl

/-! ## Example -/

def exampleTypesText : Text := t!"// A cluster.\nclass Cluster {\n  // Its name.\n  @json(name = \"n\")\n  Name String\n  Points []Point\n}\n\nstruct Point {\n  X Integer\n}\n"

def exampleResourcesText : Text := t!"resource Root {\n  locator Clusters {\n    target Clusters\n  }\n}\n\nresource Clusters {\n  method Get {\n    out Body Cluster\n  }\n}\n"

def exampleTexts : TextModel :=
  { services :=
      [ { name := t!"clusters_mgmt"
          versions :=
            [ { name := t!"v1"
                files := [{ text := exampleTypesText }, { text := exampleResourcesText },
                          { regular := false, text := t!"ignored" }] } ] },
        { name := t!"README", isDir := false } ] }

theorem exampleTypes_means : ∃ xs doc, FileMeans exampleTypesText xs doc := by
  have hp : parseText exampleTypesText = some
      [⟨2, [], t!"Cluster", .class
        [⟨4, [⟨t!"json", [(t!"name", .string t!"\"n\"")]⟩], false, t!"Name", .plain t!"String"⟩,
         ⟨6, [], false, t!"Points", .list t!"Point"⟩]⟩,
       ⟨9, [], t!"Point", .struct [⟨10, [], false, t!"X", .plain t!"Integer"⟩]⟩] := by
    set_option maxRecDepth 20000 in decide
  have hm : commentsOf (scan exampleTypesText) = [(3, t!"// Its name."), (1, t!"// A cluster.")] := by
    set_option maxRecDepth 20000 in decide
  refine ⟨_, fun line => if line = 2 then t!"A cluster." else if line = 4 then t!"Its name." else [],
    hp, ?_, by decide, (commentsOf (scan exampleTypesText)).find,
    fun line c => c75_comments _ line c, by rw [hm]; decide, ?_⟩
  · intro x hx l hl
    have : l = .string t!"\"n\"" := by
      rcases List.mem_cons.mp hx with rfl | hx
      · exact List.mem_singleton.mp hl
      · cases List.mem_singleton.mp hx
        cases hl
    subst this
    exact ⟨.str t!"n", (c74_literal_iff (.string t!"\"n\"")
      (Or.inl ⟨t!"n", rfl, by decide⟩) _).mp (by decide)⟩
  · intro line hl
    rw [← c22_text_iff, hm]
    have : line ∈ [4, 6, 2, 10, 9] := hl
    simp only [List.mem_cons, List.not_mem_nil, or_false] at this
    rcases this with rfl | rfl | rfl | rfl | rfl <;> decide

theorem exampleResources_means : ∃ xs doc, FileMeans exampleResourcesText xs doc := by
  have hp : parseText exampleResourcesText = some
      [⟨1, [], t!"Root", .resource [.locator 2 [] t!"Clusters" [.target t!"Clusters"]]⟩,
       ⟨7, [], t!"Clusters", .resource
        [.method 8 [] t!"Get" [⟨9, [], [.output], t!"Body", .plain t!"Cluster", none⟩]]⟩] := by
    set_option maxRecDepth 20000 in decide
  have hm : commentsOf (scan exampleResourcesText) = [] := by
    set_option maxRecDepth 20000 in decide
  refine ⟨_, fun _ => [], hp, ?_, by decide, (commentsOf (scan exampleResourcesText)).find,
    fun line c => c75_comments _ line c, by rw [hm]; decide, ?_⟩
  · intro x hx l hl
    rcases List.mem_cons.mp hx with rfl | hx
    · cases hl
    · cases List.mem_singleton.mp hx
      cases hl
  · intro line hl
    rw [← c22_text_iff, hm]
    have : line ∈ [2, 1, 9, 8, 7] := hl
    simp only [List.mem_cons, List.not_mem_nil, or_false] at this
    rcases this with rfl | rfl | rfl | rfl | rfl <;> decide

theorem exampleTypes_bare : bareDecls [exampleTypesText, exampleResourcesText] =
    [.class t!"Cluster" [] [] [{ name := t!"Name", ref := .plain t!"String" },
       { name := t!"Points", ref := .list t!"Point" }],
     .struct t!"Point" [] [] [{ name := t!"X", ref := .plain t!"Integer" }],
     .resource t!"Root" [] []
       [.locator { name := t!"Clusters", members := [.target t!"Clusters"] }],
     .resource t!"Clusters" [] []
       [.method { name := t!"Get", parameters := [{ name := t!"Body", ref := .plain t!"Cluster",
                                                    directions := [.output] }] }]] := by
  set_option maxRecDepth 20000 in decide

/-- The example meets the hypotheses of `c77_read_partial`. -/
theorem exampleTexts_good : (∀ m ∈ [exampleTexts], m.Readable) ∧
    (∀ d ∈ textDirs [exampleTexts], ∀ text ∈ d.2.2, ∃ xs doc, FileMeans text xs doc) ∧
    ∀ before a b texts after, textDirs [exampleTexts] = before ++ (a, b, texts) :: after →
      NoNameClash (bareDecls (versionTexts before a b ++ texts)) ∧
      Acceptable (bareDecls (versionTexts before a b ++ texts)) := by
  have hd : textDirs [exampleTexts] =
      [(t!"clusters_mgmt", t!"v1", [exampleTypesText, exampleResourcesText])] := by
    set_option maxRecDepth 20000 in decide
  rw [hd]
  refine ⟨?_, ?_, ?_⟩
  · intro m hm
    cases List.mem_singleton.mp hm
    have hs : ∀ s ∈ exampleTexts.services, s.isDir = true → s.status = .good ∧
        ∀ v ∈ s.versions, v.isDir = true → v.status = .good ∧
          ∀ f ∈ v.files, f.regular = true → f.readable = true := by decide
    exact ⟨rfl, hs⟩
  · intro d hdm text ht
    cases List.mem_singleton.mp hdm
    rcases List.mem_cons.mp ht with rfl | ht
    · exact exampleTypes_means
    · cases List.mem_singleton.mp ht
      exact exampleResources_means
  · intro before a b texts after e
    cases before with
    | cons x xs =>
      injection e with _ e
      cases xs <;> cases e
    | nil =>
      injection e with e _
      cases e
      change NoNameClash (bareDecls [exampleTypesText, exampleResourcesText]) ∧
        Acceptable (bareDecls [exampleTypesText, exampleResourcesText])
      rw [exampleTypes_bare]
      refine (fun hc => ⟨hc, (c18_accepted_iff_partial _ (by unfold WellNamed; decide) hc).mp
        (by decide)⟩) (noNameClash_of_check _ (by decide))

example : ∃ s : Session, s.problems = [] ∧
    ∃ v, s.version t!"clusters_mgmt" t!"v1" = some v ∧
      (s.typeView v t!"cluster").isSome = true ∧
      (s.resourceView v t!"clusters").isSome = true := by
  obtain ⟨g1, g2, g3⟩ := exampleTexts_good
  obtain ⟨s, h1, h2, h3, -⟩ := c77_read_partial [exampleTexts] g1 g2 g3
  obtain ⟨v, ds, a1, a2, a3, a4, -⟩ := h3 t!"clusters_mgmt" t!"v1"
    [exampleTypesText, exampleResourcesText] (List.mem_cons_self ..)
  have hs := bareDecls_same a2
  have hv : versionTexts (textDirs [exampleTexts]) t!"clusters_mgmt" t!"v1" =
      [exampleTypesText, exampleResourcesText] := by
    set_option maxRecDepth 20000 in decide
  rw [hv, exampleTypes_bare] at hs
  obtain ⟨d1, hd1, e1⟩ := hs.left _ (List.mem_cons_self ..)
  obtain ⟨d2, hd2, e2⟩ := hs.left _ (List.mem_cons_of_mem _ (List.mem_cons_of_mem _
    (List.mem_cons_of_mem _ (List.mem_cons_self ..))))
  obtain ⟨x, hx, -⟩ := a3.declared d1 hd1 t!"cluster" .class (e1.type.symm.trans (by decide))
  obtain ⟨y, hy, -⟩ := a4.declared d2 hd2 t!"clusters" (e2.resource.symm.trans (by decide))
  exact ⟨s, h1, v, a1, by rw [hx]; rfl, by rw [hy]; rfl⟩

/-- A model is returned for the example, so the hypotheses of `c77_returned` can be met. -/
example : ∃ s : Session, read (some 0) [exampleTexts] 10 = .done { result := .model s, errors := 0 } :=
  set_option maxRecDepth 20000 in ⟨_, rfl⟩

end Verif.Language
