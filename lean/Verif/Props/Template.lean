import Verif.Lemmas.Template

/-!
# C81: the pages of the documentation

The pages have exactly the lines that the specification says, as long as the lines aren't too long.
-/

namespace Verif.Docs

open Template

/-- The templates are always executed without errors. -/
theorem c81_no_errors (m : List ServiceView) (r : ResourceView) (t : TypeView) :
    documentIndex m ≠ none ∧ documentResource r ≠ none ∧ documentType t ≠ none := by
  refine ⟨by rw [index_run]; simp, by rw [resource_run]; simp, ?_⟩
  by_cases he : t.kind = .enum
  · rw [enum_run t he]
    simp
  · by_cases hs : t.kind = .class ∨ t.kind = .struct
    · rw [struct_run t hs]
      simp
    · have : documentType t = some [] := by
        rw [documentType, if_neg (by simpa using he), if_neg]
        cases hk : t.kind <;> simp_all [Kind.isStruct]
      rw [this]
      simp

theorem dropTabs_spec (l : Text) : ∃ tabs, l = tabs ++ dropTabs l ∧ (∀ c ∈ tabs, c = '\t') ∧
    ∀ rest, dropTabs l ≠ '\t' :: rest := by
  induction l with
  | nil => exact ⟨[], rfl, by simp, by simp [dropTabs]⟩
  | cons c l ih =>
    by_cases h : c = '\t'
    · subst h
      obtain ⟨tabs, h1, h2, h3⟩ := ih
      rw [dropTabs]
      exact ⟨'\t' :: tabs, by rw [List.cons_append, ← h1], by simpa using h2, h3⟩
    · have he : dropTabs (c :: l) = c :: l := by
        rw [dropTabs]
        intro _ h'
        cases h'
        exact h rfl
      rw [he]
      refine ⟨[], rfl, by simp, fun rest h' => h ?_⟩
      cases h'
      rfl

theorem dropTabs_append (tabs l : Text) (h : ∀ c ∈ tabs, c = '\t') : dropTabs (tabs ++ l) = dropTabs l := by
  induction tabs with
  | nil => rfl
  | cons c tabs ih =>
    cases h c List.mem_cons_self
    rw [List.cons_append, dropTabs, ih fun x hx => h x (List.mem_cons_of_mem _ hx)]

theorem dropTabs_self (l : Text) (h : ∀ rest, l ≠ '\t' :: rest) : dropTabs l = l := by
  obtain ⟨tabs, h1, h2, h3⟩ := dropTabs_spec l
  cases tabs with
  | nil => exact h1.symm
  | cons c tabs =>
    cases h2 c List.mem_cons_self
    exact absurd h1 (h _)

theorem dropEnd_append (l blanks : Text) (h : ∀ c ∈ blanks, Space c) :
    dropEnd (l ++ blanks) = dropEnd l := by
  induction l with
  | nil => exact (dropEnd_nil_iff _).mpr h
  | cons x l ih => rw [List.cons_append, dropEnd, dropEnd, ih]

theorem dropEnd_self (l : Text) (h : ∀ rest c, l = rest ++ [c] → ¬ Space c) : dropEnd l = l := by
  induction l with
  | nil => rfl
  | cons x l ih =>
    rw [dropEnd, ih fun rest c hc => h (x :: rest) c (by rw [hc]; rfl)]
    cases l with
    | nil => exact if_neg (h [] x rfl)
    | cons _ _ => rfl

theorem dropEnd_spec (l : Text) : ∃ blanks, l = dropEnd l ++ blanks ∧ (∀ c ∈ blanks, Space c) ∧
    ∀ rest c, dropEnd l = rest ++ [c] → ¬ Space c := by
  induction l with
  | nil => exact ⟨[], rfl, by simp, by simp [dropEnd]⟩
  | cons x l ih =>
    obtain ⟨blanks, h1, h2, h3⟩ := ih
    cases hd : dropEnd l with
    | nil =>
      rw [hd] at h1
      by_cases hx : Space x
      · have he : dropEnd (x :: l) = [] := by rw [dropEnd, hd]; exact if_pos hx
        rw [he]
        exact ⟨x :: l, rfl, by
          intro c hc
          rcases List.mem_cons.mp hc with rfl | hc
          · exact hx
          · rw [h1] at hc
            exact h2 c hc, by simp⟩
      · have he : dropEnd (x :: l) = [x] := by rw [dropEnd, hd]; exact if_neg hx
        rw [he]
        refine ⟨l, rfl, by
          rw [h1]
          exact h2, fun rest c hc => ?_⟩
        cases rest with
        | nil => cases hc; exact hx
        | cons _ rest => cases rest <;> cases hc
    | cons y k =>
      have he : dropEnd (x :: l) = x :: y :: k := by rw [dropEnd, hd]
      rw [he]
      rw [hd] at h1 h3
      refine ⟨blanks, by rw [List.cons_append, ← h1], h2, fun rest c hc => ?_⟩
      cases rest with
      | nil => cases hc
      | cons r rest =>
        rw [List.cons_append] at hc
        exact h3 rest c (List.cons.inj hc).2

/-- What is done to each line: the tabs at the start and the white space at the end are removed, and
nothing else is changed. -/
theorem c81_line_iff (line kept : Text) : Markdown.clean line = kept ↔
    ∃ tabs blanks, line = tabs ++ kept ++ blanks ∧ (∀ c ∈ tabs, c = '\t') ∧ (∀ c ∈ blanks, Space c) ∧
      (∀ rest, kept ≠ '\t' :: rest) ∧ ∀ rest c, kept = rest ++ [c] → ¬ Space c := by
  rw [clean_eq, tidy]
  constructor
  · rintro rfl
    obtain ⟨blanks, h1, h2, h3⟩ := dropEnd_spec line
    obtain ⟨tabs, h4, h5, h6⟩ := dropTabs_spec (dropEnd line)
    refine ⟨tabs, blanks, by rw [← h4, ← h1], h5, h2, h6, fun rest c hc => ?_⟩
    rw [hc] at h4
    exact h3 (tabs ++ rest) c (by rw [h4, List.append_assoc])
  · rintro ⟨tabs, blanks, rfl, h1, h2, h3, h4⟩
    rw [dropEnd_append _ _ h2]
    by_cases hk : kept = []
    · subst hk
      have : dropEnd (tabs ++ []) = [] := (dropEnd_nil_iff _).mpr (by
        intro c hc
        rw [List.append_nil] at hc
        rw [h1 c hc]
        decide)
      rw [this]
      rfl
    · have : dropEnd (tabs ++ kept) = tabs ++ kept := by
        apply dropEnd_self
        intro rest c hc
        have hl : kept = kept.dropLast ++ [kept.getLast hk] := (List.dropLast_concat_getLast hk).symm
        refine h4 kept.dropLast c ?_
        rw [hl, ← List.append_assoc] at hc
        rw [← (List.append_inj' hc rfl).2]
        exact hl
      rw [this, dropTabs_append _ _ h1, dropTabs_self _ h3]

example : Markdown.clean t!"\t\tfor i {  " = t!"for i {" := by decide

/-- The page of a resource has exactly the lines of the specification. -/
theorem c81_resource (r : ResourceView) (h : ∀ t ∈ resourceTexts r, Fits t) :
    (documentResource r).map Markdown.removeTabs = some (unlines (resourcePage r)) := by
  rw [resource_run, Option.map_some, removeTabs_lines _ (resource_short r h), resource_shown]

/-- The page of an enumerated type has exactly the lines of the specification. -/
theorem c81_enum (t : TypeView) (hk : t.kind = .enum) (h : ∀ x ∈ enumTexts t, Fits x) :
    (documentType t).map Markdown.removeTabs = some (unlines (enumPage t)) := by
  rw [enum_run t hk, Option.map_some, removeTabs_lines _ (enum_short t h), enum_shown]

/-- The page of a struct or class has exactly the lines of the specification. -/
theorem c81_struct (t : TypeView) (hk : t.kind = .class ∨ t.kind = .struct)
    (h : ∀ x ∈ structTexts t, Fits x) :
    (documentType t).map Markdown.removeTabs = some (unlines (structPage t)) := by
  rw [struct_run t hk, Option.map_some, removeTabs_lines _ (struct_short t h), struct_shown]

/-- The index has exactly the lines of the specification. -/
theorem c81_index (m : List ServiceView) (h : ∀ t ∈ indexTexts m, Fits t) :
    (documentIndex m).map Markdown.removeTabs = some (unlines (indexPage m)) := by
  rw [index_run, Option.map_some, removeTabs_lines _ (index_short m h), index_shown]

/-- A text is shown as it was written only if none of its lines starts with a tab or ends with white
space. -/
theorem c81_verbatim_iff (t : Text) : shown t = splitOn '\n' t ↔
    ∀ line ∈ splitOn '\n' t, (∀ rest, line ≠ '\t' :: rest) ∧
      ∀ rest c, line = rest ++ [c] → ¬ Space c := by
  have hs : ∀ l : Text, tidy l = l ↔ (∀ rest, l ≠ '\t' :: rest) ∧
      ∀ rest c, l = rest ++ [c] → ¬ Space c := by
    intro l
    rw [← clean_eq, c81_line_iff]
    constructor
    · rintro ⟨_, _, _, _, _, h⟩
      exact h
    · intro h
      exact ⟨[], [], by simp, by simp, by simp, h⟩
  have hm : ∀ ls : List Text, ls.map tidy = ls ↔ ∀ l ∈ ls, tidy l = l := by
    intro ls
    induction ls with
    | nil => simp
    | cons x ls ih => simp [ih]
  rw [shown, hm]
  simp only [hs]

/-- The indentation of an example of code is lost. -/
theorem c81_indentation_refuted : ∃ t, (∀ c ∈ t, c ≠ ' ') ∧ shown t ≠ splitOn '\n' t :=
  ⟨t!"For:\n\tgo", by decide, by decide⟩

/-- If a line is too long then the page loses all the lines before it and the start of it. -/
theorem c81_long_line (ls : List Text) (long rest : Text)
    (h : ∀ l ∈ ls, '\n' ∉ l ∧ l.length < 65536) (hn : '\n' ∉ long) (hl : long.length = 65536) :
    Markdown.removeTabs (unlines ls ++ (long ++ rest)) = rest :=
  removeTabs_long ls long rest h hn hl

/-- There are resources for which a page is written that has neither the title nor the
documentation. -/
theorem c81_long_line_refuted (doc : Text) (hn : '\n' ∉ doc) (hl : doc.length = 65534) :
    (documentResource { name := parseUsingCase t!"Clusters", doc := doc, methods := [] }).map
      Markdown.removeTabs = some t!"\n\n\t\t\n\n\t\t\n\t\t\n" := by
  have hd : resourceText { name := parseUsingCase t!"Clusters", doc := doc, methods := [] } ++ ['\n'] =
      unlines [[], t!"\t\t# Clusters", []] ++ (t!"\t\t" ++ doc ++ t!"\n\n\t\t\n\n\t\t\n\t\t\n") := by
    have hc : (parseUsingCase t!"Clusters").camel = t!"Clusters" := by decide
    simp [resourceText, List.intercalate, List.intersperse, heading, List.replicate, unlines, hc]
  rw [resource_run, Option.map_some, hd, c81_long_line]
  · decide
  · simpa using hn
  · rw [List.length_append, hl]
    rfl

/-- There are such texts. -/
example : ∃ doc : Text, '\n' ∉ doc ∧ doc.length = 65534 :=
  ⟨List.replicate 65534 'x', by intro h; have := (List.mem_replicate.mp h).2; revert this; decide, List.length_replicate⟩

/-- The pages don't depend on the types or directions of the parameters. -/
theorem c81_types_refuted (r : ResourceView) (f : ParameterView → ParameterView)
    (hf : ∀ p, (f p).name = p.name ∧ (f p).doc = p.doc) :
    documentResource { r with methods := r.methods.map fun m =>
      { m with parameters := m.parameters.map f } } = documentResource r := by
  have hi : ∀ p, (f p).item = p.item := fun p => by
    rw [ParameterView.item, ParameterView.item, (hf p).1, (hf p).2]
  have hm : (r.methods.map fun m => { m with parameters := m.parameters.map f }).map MethodView.item =
      r.methods.map MethodView.item := by
    rw [List.map_map]
    refine List.map_congr_left fun m _ => ?_
    simp [MethodView.item, List.map_map, Function.comp_def, hi]
  simp only [documentResource, ResourceView.item, hm]

/-- All the classes have an identifier, but the pages of those that don't have other attributes don't
say so. -/
theorem c81_class_refuted (n : Name) (doc : Text) :
    structPage { name := n, doc := doc, kind := .class, members := [] } =
      structPage { name := n, doc := doc, kind := .struct, members := [] } := rfl

/-- A documentation with several lines and without dots breaks the rows of the tables. -/
theorem c81_row_refuted : ∃ n doc, shown (row [ticked n, summary doc]) = [t!"| `id` | A", t!"B |"] :=
  ⟨parseUsingCase t!"ID", t!"A\nB", by decide⟩

/-- The file written for a page. -/
def pageJob (p : Text × List Text) : Files.Job Text :=
  { path := p.1, content := unlines p.2, reported := 0 }

theorem page_kind (t : TypeView) : (t.kind == .enum || t.kind.isStruct) = (typePage t).isSome := by
  unfold typePage
  cases t.kind <;> rfl

theorem index_file : Markdown.file Nom.index ++ t!".md" = t!"index.md" := by decide

/-- The page of a type and its specification. -/
theorem type_job (t : TypeView) (p : List Text) (hp : typePage t = some p) :
    (∃ code, documentType t = some (code ++ ['\n'])) ∧ ((∀ x ∈ typeTexts t, Fits x) →
      (documentType t).map Markdown.removeTabs = some (unlines p)) := by
  unfold typePage at hp
  split at hp
  · rename_i h
    cases hp
    exact ⟨⟨_, enum_run t h⟩, fun hf => c81_enum t h (by simpa [typeTexts, h] using hf)⟩
  · rename_i h
    cases hp
    exact ⟨⟨_, struct_run t (.inr h)⟩, fun hf => c81_struct t (.inr h) (by simpa [typeTexts, h] using hf)⟩
  · rename_i h
    cases hp
    exact ⟨⟨_, struct_run t (.inl h)⟩, fun hf => c81_struct t (.inl h) (by simpa [typeTexts, h] using hf)⟩
  · cases hp

theorem job_of {file : Text} {code : Option Text} {p : List Text}
    (h : code.map Markdown.removeTabs = some (unlines p)) :
    Page.job { file := file, code := code } = pageJob (file ++ t!".md", p) := by
  cases code with
  | none => cases h
  | some c => simp only [Page.job, pageJob, Option.some.inj h]

theorem types_jobs (f : TypeView → Files.Job Text) (g : TypeView → List Text → Files.Job Text) :
    ∀ ts : List TypeView, (∀ t ∈ ts, ∀ p, typePage t = some p → f t = g t p) →
    (ts.filter fun t => t.kind == .enum || t.kind.isStruct).map f =
      ts.filterMap fun t => (typePage t).map (g t)
  | [], _ => rfl
  | t :: ts, h => by
    have ih := types_jobs f g ts fun x hx => h x (List.mem_cons_of_mem _ hx)
    cases hp : typePage t with
    | none =>
      rw [List.filter_cons_of_neg (by rw [page_kind, hp]; simp), List.filterMap_cons_none (by rw [hp]; rfl), ih]
    | some p =>
      rw [List.filter_cons_of_pos (by rw [page_kind, hp]; rfl),
        List.filterMap_cons_some (by rw [hp]; rfl), List.map_cons, ih, h t List.mem_cons_self p hp]

theorem flatMap_congr' {α β : Type} {l : List α} {f g : α → List β} (h : ∀ x ∈ l, f x = g x) :
    l.flatMap f = l.flatMap g := by
  induction l with
  | nil => rfl
  | cons x l ih =>
    rw [List.flatMap_cons, List.flatMap_cons, h x List.mem_cons_self,
      ih fun y hy => h y (List.mem_cons_of_mem _ hy)]

theorem jobs_eq (m : List ServiceView) (h : ModelFits m) :
    (pagesOf m).map Page.job = (pageList m).map pageJob := by
  rw [pagesOf, pageList, List.map_cons, List.map_cons, job_of (c81_index m h.1), index_file,
    List.map_flatMap, List.map_flatMap]
  refine congrArg (_ :: ·) ?_
  refine flatMap_congr' fun s hs => ?_
  rw [List.map_flatMap, List.map_flatMap]
  refine flatMap_congr' fun v hv => ?_
  rw [List.map_append, List.map_append, List.map_map, List.map_map, List.map_map, List.map_filterMap]
  refine congr (congrArg _ ?_) ?_
  · exact List.map_congr_left fun r hr => by
      have := job_of (file := resourceFile r.name) (c81_resource r ((h.2 s hs v hv).1 r hr))
      simpa only [Function.comp_apply] using this
  · rw [types_jobs _ (fun t p => pageJob (typeFile t.name ++ t!".md", p))]
    · congr 1
      funext t
      cases typePage t <;> rfl
    · exact fun t ht p hp => job_of ((type_job t p hp).2 ((h.2 s hs v hv).2 t ht))

theorem job_path {file : Text} {code : Option Text} :
    (Page.job { file := file, code := code }).path = file ++ t!".md" := by
  cases code <;> rfl

theorem job_reported {p : Page} (h : p.code ≠ none) : p.job.reported = 0 := by
  obtain ⟨file, code⟩ := p
  cases code with
  | none => exact absurd rfl h
  | some c => rfl

theorem pages_code (m : List ServiceView) : ∀ p ∈ pagesOf m, p.code ≠ none := by
  intro p hp
  rcases List.mem_cons.mp hp with rfl | hp
  · show documentIndex m ≠ none
    rw [index_run]
    simp
  · simp only [List.mem_flatMap, List.mem_append, List.mem_map] at hp
    obtain ⟨s, _, v, _, ⟨r, _, rfl⟩ | ⟨t, _, rfl⟩⟩ := hp
    · dsimp only
      rw [resource_run]
      simp
    · exact (c81_no_errors m ⟨[], [], []⟩ t).2.2

theorem jobs_reported (m : List ServiceView) : ∀ j ∈ (pagesOf m).map Page.job, j.reported = 0 := by
  intro j hj
  obtain ⟨p, hp, rfl⟩ := List.mem_map.mp hj
  exact job_reported (pages_code m p hp)

theorem jobs_paths (m : List ServiceView) :
    (pagesOf m).map (fun p => p.file ++ t!".md") = (pageList m).map Prod.fst := by
  rw [pagesOf, pageList, List.map_cons, List.map_cons, index_file, List.map_flatMap, List.map_flatMap]
  congr 1
  refine flatMap_congr' fun s hs => ?_
  rw [List.map_flatMap, List.map_flatMap]
  refine flatMap_congr' fun v hv => ?_
  rw [List.map_append, List.map_append, List.map_map, List.map_map, List.map_map, List.map_filterMap]
  congr 1
  have := types_jobs (fun t => { path := typeFile t.name ++ t!".md", content := [], reported := 0 })
    (fun t _ => { path := typeFile t.name ++ t!".md", content := [], reported := 0 }) v.types
    fun _ _ _ _ => rfl
  have := congrArg (List.map Files.Job.path) this
  rw [List.map_map, List.map_filterMap] at this
  refine Eq.trans this ?_
  congr 1
  funext t
  cases typePage t <;> rfl

theorem job_paths (m : List ServiceView) :
    ((pagesOf m).map Page.job).map Files.Job.path = (pageList m).map Prod.fst := by
  rw [← jobs_paths, List.map_map]
  exact List.map_congr_left fun p _ => by
    obtain ⟨file, code⟩ := p
    exact job_path

theorem fine_iff (writable : Text → Bool) (m : List ServiceView) :
    (∀ j ∈ (pagesOf m).map Page.job, Files.Fine writable j) ↔
      ∀ p ∈ pageList m, writable p.1 = true := by
  have h1 : (∀ j ∈ (pagesOf m).map Page.job, Files.Fine writable j) ↔
      ∀ x ∈ ((pagesOf m).map Page.job).map Files.Job.path, writable x = true := by
    constructor
    · intro h x hx
      obtain ⟨j, hj, rfl⟩ := List.mem_map.mp hx
      exact (h j hj).2
    · exact fun h j hj => ⟨jobs_reported m j hj, h _ (List.mem_map_of_mem hj)⟩
  rw [h1, job_paths, List.forall_mem_map]

/-- The generator succeeds if and only if all the pages can be written. -/
theorem c81_success_iff (writable : Text → Bool) (m : List ServiceView) (disk : Text → Option Text) :
    (generate writable m { disk := disk, errors := 0 }).2 = true ↔
      ∀ p ∈ pageList m, writable p.1 = true := by
  rw [← fine_iff, generate]
  constructor
  · intro h
    cases hr : Files.runJobs writable ((pagesOf m).map Page.job) { disk := disk, errors := 0 } with
    | mk st b =>
      rw [hr] at h
      cases h
      exact (Files.runJobs_true hr).2
  · intro h
    rw [Files.runJobs_ok (st := { disk := disk, errors := 0 }) rfl h]

/-- The files after a successful execution: those of the pages have exactly the lines of the
specification, and the rest aren't changed. -/
theorem c81_written (writable : Text → Bool) (m : List ServiceView) (h : ModelFits m)
    (disk : Text → Option Text) (hs : (generate writable m { disk := disk, errors := 0 }).2 = true) :
    Files.Overlaid ((pageList m).map pageJob) disk
      (generate writable m { disk := disk, errors := 0 }).1.disk := by
  rw [c81_success_iff, ← fine_iff] at hs
  rw [generate, Files.runJobs_ok (st := { disk := disk, errors := 0 }) rfl hs, jobs_eq m h]
  exact Files.overlay_spec _ _

/-- The files after a failure: the pages that precede the one that can't be written have been
written. -/
theorem c81_failure (writable : Text → Bool) (m : List ServiceView) (h : ModelFits m)
    (disk : Text → Option Text) (hs : (generate writable m { disk := disk, errors := 0 }).2 = false) :
    ∃ before p after, pageList m = before ++ p :: after ∧ writable p.1 = false ∧
      (∀ q ∈ before, writable q.1 = true) ∧
      Files.Overlaid (before.map pageJob) disk
        (generate writable m { disk := disk, errors := 0 }).1.disk := by
  rw [generate] at hs ⊢
  cases hr : Files.runJobs writable ((pagesOf m).map Page.job) { disk := disk, errors := 0 } with
  | mk st b =>
    rw [hr] at hs
    cases hs
    obtain ⟨before, j, after, h1, _, h3, h4, h5, _⟩ := Files.runJobs_false hr
    have hj := jobs_reported m j (by rw [h1]; simp)
    rw [jobs_eq m h] at h1
    obtain ⟨b', r', e1, e2, e3⟩ := List.map_eq_append_iff.mp h1
    obtain ⟨p, a', e4, e5, e6⟩ := List.map_eq_cons_iff.mp e3
    subst e2 e5 e4
    refine ⟨b', p, a', e1, ?_, ?_, ?_⟩
    · rcases h4 with h4 | h4
      · simp only [Nat.zero_add] at h4
        rw [hj] at h4
        exact absurd h4 (Nat.lt_irrefl _)
      · exact h4
    · exact fun q hq => (h3 (pageJob q) (List.mem_map_of_mem hq)).2
    · rw [h5]
      exact Files.overlay_spec _ _

/-- The exit code of the command. -/
theorem c81_exit_iff (writable : Text → Bool) (read : List Text → Option (List ServiceView))
    (model : List Text) (output : Text) (disk : Text → Option Text) :
    (command writable read model output disk).2 = 0 ↔ model ≠ [] ∧ output ≠ [] ∧
      ∃ m, read model = some m ∧ ∀ p ∈ pageList m, writable p.1 = true := by
  rw [command]
  by_cases h : model = [] ∨ output = []
  · rw [if_pos h]
    constructor
    · intro h'
      cases h'
    · rintro ⟨h1, h2, _⟩
      exact absurd h (by simp [h1, h2])
  · rw [if_neg h]
    rw [not_or] at h
    cases hr : read model with
    | none => simp
    | some m =>
      have hs := c81_success_iff writable m disk
      cases hg : generate writable m { disk := disk, errors := 0 } with
      | mk st b =>
        rw [hg] at hs
        cases b with
        | true => simpa [h.1, h.2, hg] using hs
        | false => simpa [h.1, h.2, hg] using hs

/-- The files after the command. -/
theorem c81_command (writable : Text → Bool) (read : List Text → Option (List ServiceView))
    (model : List Text) (output : Text) (disk : Text → Option Text) :
    (command writable read model output disk).2 ≤ 1 ∧
    (model = [] ∨ output = [] ∨ read model = none →
      command writable read model output disk = (disk, 1)) ∧
    ∀ m, model ≠ [] → output ≠ [] → read model = some m →
      (command writable read model output disk).1 =
        (generate writable m { disk := disk, errors := 0 }).1.disk := by
  rw [command]
  by_cases h : model = [] ∨ output = []
  · rw [if_pos h]
    refine ⟨Nat.le_refl _, fun _ => rfl, fun m h1 h2 _ => ?_⟩
    exact absurd h (by simp [h1, h2])
  · rw [if_neg h]
    rw [not_or] at h
    cases hr : read model with
    | none => simp
    | some m =>
      cases hg : generate writable m { disk := disk, errors := 0 } with
      | mk st b => cases b <;> simp [h.1, h.2, hg]

/-! ## Examples -/

/-- A model with two resources, a class and an enumerated type. -/
def exampleModel : List ServiceView :=
  [{ name := parseUsingCase t!"Mgmt", versions := [
    { name := parseUsingCase t!"V1",
      resources := [
        { name := parseUsingCase t!"Root", doc := [], methods := [] },
        { name := parseUsingCase t!"Clusters", doc := t!"Manages clusters.\n\nAll of them.", methods := [
          { name := Nom.list, doc := t!"Retrieves the list. Slowly.", parameters := [
            { name := parseUsingCase t!"Page", doc := t!"Index.", kind := .scalar, isIn := true, isOut := true }] }] }],
      types := [
        { name := parseUsingCase t!"String", doc := [], kind := .scalar, members := [] },
        { name := parseUsingCase t!"Cluster", doc := t!"A cluster.", kind := .class, members := [
          { name := parseUsingCase t!"Name", doc := t!"Its name." }] },
        { name := parseUsingCase t!"State", doc := [], kind := .enum, members := [
          { name := parseUsingCase t!"Ready", doc := [] }] }] }] }]

instance (t : Text) : Decidable (Fits t) := inferInstanceAs (Decidable (∀ _ ∈ _, _))

set_option maxRecDepth 10000 in
/-- The hypotheses of the theorems can be satisfied. -/
example : ModelFits exampleModel := by
  unfold ModelFits
  decide

set_option maxRecDepth 10000 in
example : (pageList exampleModel).map Prod.fst = [t!"index.md", t!"root_resource.md",
    t!"clusters_resource.md", t!"cluster_type.md", t!"state_type.md"] := by decide

set_option maxRecDepth 20000 in
example : (pageList exampleModel)[2]?.map Prod.snd = some [
    t!"", t!"# Clusters", t!"", t!"Manages clusters.", t!"", t!"All of them.", t!"",
    t!"", t!"| Name | Summary |", t!"| ---- | ------- |", t!"| List | Retrieves the list. |",
    t!"", t!"", t!"",
    t!"## List - GET", t!"", t!"Retrieves the list. Slowly.", t!"",
    t!"", t!"| Name | Type | Direction | Summary |", t!"| ---- | ---- | --------- | ------- |",
    t!"| `page` | - | - | Index. |", t!"", t!"", t!"",
    t!"### Page", t!"", t!"Index.", t!"", t!"", t!""] := by decide

set_option maxRecDepth 20000 in
example : (pageList exampleModel)[3]?.map Prod.snd = some [
    t!"", t!"# Cluster", t!"", t!"A cluster.", t!"",
    t!"", t!"| Name | Type | Summary |", t!"| ---- | ---- | ------- |",
    t!"| `kind` | String | Name of the type of the object. |",
    t!"| `id` | String | Unique identifier of the object. |",
    t!"| `href` | String | Link to the object. |",
    t!"| `name` | - | Its name. |", t!"", t!"", t!"",
    t!"## `name`", t!"", t!"Its name.", t!"", t!""] := by decide

/-- C81: a trim marker before an action removes the white space at the end of the text, and nothing
else: what remains doesn't end with white space. -/
theorem c81_trim_iff (t s : Text) :
    Template.trimEnd t = s ↔
      (∃ w, t = s ++ w ∧ ∀ c ∈ w, c ∈ [' ', '\t', '\r', '\n']) ∧
      ∀ r c, s = r ++ [c] → c ∉ [' ', '\t', '\r', '\n'] := by
  have hb : ∀ c, Template.isBlank c = true ↔ c ∈ [' ', '\t', '\r', '\n'] := by
    intro c
    simp [Template.isBlank, or_assoc]
  have hlast : ∀ u : Text, ∀ c r, u.dropWhile Template.isBlank = c :: r → Template.isBlank c = false := by
    intro u
    induction u with
    | nil => intro c r h; cases h
    | cons x xs ih =>
      intro c r h
      rw [List.dropWhile_cons] at h
      split at h
      · exact ih c r h
      · rename_i hx
        obtain ⟨rfl, _⟩ := List.cons.inj h
        simpa using hx
  constructor
  · rintro rfl
    refine ⟨⟨(t.reverse.takeWhile Template.isBlank).reverse, ?_, ?_⟩, ?_⟩
    · rw [Template.trimEnd, ← List.reverse_append, List.takeWhile_append_dropWhile,
        List.reverse_reverse]
    · intro c hc
      rw [List.mem_reverse] at hc
      exact (hb c).1 (List.all_eq_true.1 List.all_takeWhile c hc)
    · intro r c h hc
      have h' := congrArg List.reverse h
      simp only [Template.trimEnd, List.reverse_reverse, List.reverse_append, List.reverse_cons,
        List.reverse_nil, List.nil_append, List.cons_append] at h'
      have := hlast _ _ _ h'
      rw [(hb c).2 hc] at this
      cases this
  · rintro ⟨⟨w, rfl, hw⟩, hs⟩
    rw [Template.trimEnd, List.reverse_append, List.dropWhile_append_of_pos
      (by intro c hc; exact (hb c).2 (hw c (List.mem_reverse.1 hc)))]
    cases hr : s.reverse with
    | nil => simpa using hr
    | cons c r =>
      have hs' : s = r.reverse ++ [c] := by
        rw [← List.reverse_reverse s, hr, List.reverse_cons]
      have hn : Template.isBlank c = false := by
        cases h : Template.isBlank c with
        | false => rfl
        | true => exact absurd ((hb c).1 h) (hs _ _ hs')
      rw [List.dropWhile_cons, hn]
      simp [hs']

example : Template.trimEnd t!"| a |\n\t\t" = t!"| a |" := by decide

/-- C81: the functions of the templates work only for their own kinds of values: anything else is an
error instead of an empty text. -/
theorem c81_functions (i : Item) (t : Text) (l : List Item) :
    Markdown.backTicks (.text t) = some ('`' :: (t ++ ['`'])) ∧
    (∀ f ∈ [displayName, tagName, fileName, httpMethodOf, docDetail, docSummary],
      f (.item i) ≠ none ∧ f (.text t) = none ∧ f (.list l) = none) ∧
    Markdown.backTicks (.item i) = none ∧ Markdown.backTicks (.list l) = none := by
  refine ⟨by simp [Markdown.backTicks], ?_, rfl, rfl⟩
  intro f hf
  simp only [List.mem_cons, List.not_mem_nil, or_false] at hf
  rcases hf with rfl | rfl | rfl | rfl | rfl | rfl
  all_goals refine ⟨?_, rfl, rfl⟩
  all_goals simp [displayName, tagName, fileName, httpMethodOf, docDetail, docSummary]
  split <;> simp

/-- C81: conditions are true for the flags that are set and the lists that aren't empty; the templates
don't have other conditions. -/
theorem c81_conditions (i : Item) (t : Text) (l : List Item) (b : Bool) :
    (Value.list l).isTrue = some (decide (l ≠ [])) ∧ (Value.flag b).isTrue = some b ∧
    (Value.text t).isTrue = none ∧ (Value.item i).isTrue = none := by
  refine ⟨?_, rfl, rfl, rfl⟩
  cases l <;> simp [Value.isTrue]

/-- C81: only types can be classes. -/
theorem c81_classes (m : List ServiceView) (s : ServiceView) (v : VersionView) (r : ResourceView)
    (k : MethodView) (p : ParameterView) (a : MemberView) (t : TypeView) :
    (∀ i ∈ [modelItem m, s.item, v.item, r.item, k.item, p.item, a.attribute, a.value],
      i.isClass = false) ∧
    (t.item.isClass = true ↔ t.kind = .class) := by
  refine ⟨?_, ?_⟩
  · intro i hi
    simp only [List.mem_cons, List.not_mem_nil, or_false] at hi
    rcases hi with rfl | rfl | rfl | rfl | rfl | rfl | rfl | rfl <;> rfl
  · show (t.kind == .class) = true ↔ _
    exact beq_iff_eq

/-- C81: an action trims the text before it exactly if it starts with a hyphen and a space, and the text
after it exactly if it ends with a space and a hyphen. -/
theorem c81_trim_markers (action : Text) :
    (Template.trimsBefore action = true ↔ ∃ rest, action = t!"- " ++ rest) ∧
    (Template.trimsAfter action = true ↔ ∃ rest, action = rest ++ t!" -") := by
  unfold Template.trimsBefore Template.trimsAfter
  rw [List.isPrefixOf_iff_prefix, List.isPrefixOf_iff_prefix]
  refine ⟨⟨fun ⟨r, h⟩ => ⟨r, h.symm⟩, fun ⟨r, h⟩ => ⟨r, h.symm⟩⟩, ?_, ?_⟩
  · rintro ⟨r, h⟩
    refine ⟨r.reverse, ?_⟩
    rw [← List.reverse_reverse action, ← h, List.reverse_append]
    rfl
  · rintro ⟨r, rfl⟩
    refine ⟨r.reverse, ?_⟩
    rw [List.reverse_append]
    rfl

/-- C81: only lists can be iterated: anything else is an error. -/
theorem c81_range (fs : Functions) (dot v : Value) (list : Text) (body : List Node)
    (h : dot.argument list = some v) :
    (Node.range list body).run fs dot ≠ none →
      ∃ is, v = .list is ∧ ∀ i ∈ is, runNodes fs (.item i) body ≠ none := by
  intro hn
  rw [Node.run, h] at hn
  cases v with
  | list is =>
    refine ⟨is, rfl, fun i hi e => hn ?_⟩
    show ((is.mapM fun i => runNodes fs (.item i) body).map List.flatten) = none
    have : (is.mapM fun i => runNodes fs (.item i) body) = none := by
      clear hn h
      induction is with
      | nil => cases hi
      | cons x xs ih =>
        rw [List.mapM_cons]
        rcases List.mem_cons.mp hi with rfl | hx
        · rw [e]; rfl
        · rw [ih hx]
          cases runNodes fs (.item x) body <;> rfl
    rw [this]
    rfl
  | _ => exact absurd rfl hn

/-- C81: when the template of a page fails the error is reported once and there is nothing to write;
otherwise nothing is reported. -/
theorem c81_reported (p : Page) :
    p.job.path = p.file ++ t!".md" ∧
    (p.code = none → p.job.reported = 1 ∧ p.job.content = []) ∧
    (∀ code, p.code = some code → p.job.reported = 0 ∧ p.job.content = Markdown.removeTabs code) := by
  unfold Page.job
  cases h : p.code with
  | none => exact ⟨rfl, fun _ => ⟨rfl, rfl⟩, nofun⟩
  | some code => exact ⟨rfl, nofun, fun c e => by cases e; exact ⟨rfl, rfl⟩⟩

example : (TypeView.mk (parseUsingCase t!"Cluster") [] .class []).item.isClass = true := by decide
example : Template.trimsAfter t!" end -" = true ∧ Template.trimsBefore t!" end -" = false := by decide

end Verif.Docs
