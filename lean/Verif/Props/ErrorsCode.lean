import Verif.Lemmas.ErrorsCode
import Verif.Props.TypesCode
import Verif.Props.Whole

/-!
# C104: the file of the errors of a version

The file of the errors of a version has one constant for each error, with its code, if there is at most one error. If
there are more it isn't written.
-/

namespace Verif.ErrorsCode

open GoTemplate GoCode GoFile
open Docs (Short)
open TypesCode (emit_eq short_newline)

theorem errorsSource_eq (pkg : Text) (m : GoMap ErrorConcept) (l : List ErrorConcept)
    (h : errorsListing m = .value l) (hn : ∀ e ∈ l, e.supportName ≠ none) :
    ∃ t, errorsSource m { pkg := pkg } = { pkg := pkg, code := t ++ t!"\n" } ∧
      ∀ r, significant (t ++ r) = code (errorLines (l.map entry)) ++ significant r := by
  obtain ⟨t, h1, h2⟩ := emit_eq env { pkg := pkg } errorsTemplate [(t!"Version", .version m)] templateLines _ _ rfl
    errors_lines (run_errors m l h hn)
  exact ⟨t, by rw [errorsSource, h1]; rfl, h2⟩

theorem file_eq (pkg : Text) (m : GoMap ErrorConcept) (l : List ErrorConcept) (order : List (Text × Text))
    (h : errorsListing m = .value l) (hn : ∀ e ∈ l, e.supportName ≠ none) :
    ∃ text ok, errorsFile pkg m 0 order = (some text, ok) ∧
      (ok = true ↔ Short (errorsSource m { pkg := pkg }).code) ∧
      (ok = true → significant text = code (fileLines pkg order (errorLines (l.map entry)))) ∧
      (errorsSource m { pkg := pkg }).imports = [] := by
  obtain ⟨t, h1, h2⟩ := errorsSource_eq pkg m l h hn
  obtain ⟨text, ok, h3, h4, h5⟩ := write_eq { pkg := pkg, code := t ++ t!"\n" } order t _ rfl rfl h2
  refine ⟨text, ok, by rw [errorsFile, h1, h3], by rw [h4, h1, short_newline], fun h => ?_, by rw [h1]⟩
  rw [h5, h, if_pos rfl, ← code_append]
  simp [fileLines]

/-- **C104.** For a version without errors the file has nothing besides the header and the name of the package. -/
theorem c104_none (pkg : Text) (order : List (Text × Text)) :
    ∃ text ok, errorsFile pkg [] 0 order = (some text, ok) ∧
      (ok = true ↔ Short (errorsSource [] { pkg := pkg }).code) ∧
      (ok = true → significant text = code (fileLines pkg order [])) ∧
      (errorsSource [] { pkg := pkg }).imports = [] :=
  file_eq pkg [] [] order rfl (by simp)

/-- With one error the file has one constant, whose name is that of the error followed by `Error` and whose value is the
code, preceded by the documentation. -/
theorem c104_one (pkg k : Text) (e : ErrorConcept) (n : Name) (order : List (Text × Text)) (hn : e.supportName = some n) :
    ∃ text ok, errorsFile pkg [(k, e)] 0 order = (some text, ok) ∧
      (ok = true ↔ Short (errorsSource [(k, e)] { pkg := pkg }).code) ∧
      (ok = true → significant text = code (fileLines pkg order (errorLines [(e.doc, n, e.code)]))) ∧
      (errorsSource [(k, e)] { pkg := pkg }).imports = [] := by
  obtain ⟨text, ok, h1, h2, h3, h4⟩ := file_eq pkg [(k, e)] [e] order rfl (by simp [hn])
  exact ⟨text, ok, h1, h2, by simpa [entry, hn] using h3, h4⟩

/-- The tree of the template starts with the condition on the errors. -/
def startsWithErrors : Option (List Node) → Bool
  | some (.text _ :: .branch e _ _ :: _) => decide (e = [t!".Version.Errors"])
  | _ => false

set_option maxRecDepth 100000 in
theorem parse_errors : startsWithErrors (parse errorsTemplate) = true := by decide +kernel

theorem run_panic (m : GoMap ErrorConcept) (h : errorsListing m = .panic) :
    (parse errorsTemplate).bind (runNodes env (.args [(t!"Version", .version m)]) []) = none := by
  have hp := parse_errors
  unfold startsWithErrors at hp
  split at hp
  · rename_i a e body no rest hq
    rw [hq, Option.bind_some, of_decide_eq_true hp]
    simp only [runNodes, Node.run, eval_panic m h, andThen, Option.bind_none, Option.map_none, Option.bind_some]
  · cases hp

/-- With two or more errors the file isn't written. -/
theorem c104_two_refuted (pkg : Text) (m : GoMap ErrorConcept) (problems : Nat) (order : List (Text × Text))
    (hm : ∀ e ∈ m, e.2.ownName = none) (h2 : 2 ≤ m.length) : errorsFile pkg m problems order = (none, false) := by
  have hl : errorsListing m = .panic := by
    cases hl : errorsListing m with
    | panic => rfl
    | value l =>
      have := (errorsListing_value m hm).mp ⟨l, hl⟩
      omega
  by_cases h0 : problems = 0
  · subst h0
    rw [errorsFile, errorsSource, Buffer.emit, if_neg (by simp), run_panic m hl]
    rfl
  · rw [errorsFile, errorsSource, Buffer.emit, if_pos (by simp; omega), Buffer.write, if_pos (by simp; omega)]

/-- The file is written exactly if there aren't problems reported before and there is at most one error. -/
theorem c104_written_iff (pkg : Text) (m : GoMap ErrorConcept) (problems : Nat) (order : List (Text × Text))
    (hm : ∀ e ∈ m, e.2.ownName = none ∧ e.2.supportName ≠ none) :
    (errorsFile pkg m problems order).1 ≠ none ↔ problems = 0 ∧ m.length ≤ 1 := by
  by_cases h0 : problems = 0
  · subst h0
    rw [← errorsListing_value m fun e he => (hm e he).1]
    constructor
    · intro h
      refine ⟨rfl, ?_⟩
      cases hl : errorsListing m with
      | value l => exact ⟨l, rfl⟩
      | panic =>
        exfalso
        apply h
        rw [errorsFile, errorsSource, Buffer.emit, if_neg (by simp), run_panic m hl]
        rfl
    · rintro ⟨-, l, hl⟩
      have hlen := (errorsListing_value m fun e he => (hm e he).1).mp ⟨l, hl⟩
      obtain ⟨text, ok, h1, -⟩ := file_eq pkg m l order hl (by
        match m, hlen, hl, hm with
        | [], _, hl, _ => cases hl; simp
        | [x], _, hl, hm => cases hl; exact fun e he => List.mem_singleton.mp he ▸ (hm x (by simp)).2)
      rw [h1]
      simp
  · have : errorsFile pkg m problems order = (none, false) := by
      rw [errorsFile, errorsSource, Buffer.emit, if_pos (by simp; omega), Buffer.write, if_pos (by simp; omega)]
    rw [this]
    simp [h0]

/-- The file fails when the model of the outcome of the generators says that it does. -/
theorem c104_reports (pkg : Text) (v : Outcome.VersionInfo) (order : List (Text × Text))
    (hm : ∀ e ∈ v.errors, e.2.ownName = none ∧ e.2.supportName ≠ none) :
    (errorsFile pkg v.errors 0 order).1 = none ↔ Outcome.errorsReports v = true := by
  have h1 := c104_written_iff pkg v.errors 0 order hm
  have h2 := Outcome.c85_errors_file v fun e he => (hm e he).1
  rw [← Bool.not_eq_false, h2, ← Decidable.not_iff_not]
  simp only [Decidable.not_not]
  rw [← ne_eq, h1]
  simp

/-- From the declarations to the file: with good declarations, the file has the constant of the error that is declared,
nothing if no errors are declared, and it isn't written if two are declared. -/
theorem c104_sources_partial (inputs : List SourceModel) (hr : ∀ m ∈ inputs, m.Readable)
    (hg : ∀ before a b ds after, versionDirs inputs = before ++ (a, b, ds) :: after →
      GoodDecls (versionDecls before a b ++ ds)) (a b : Text) (v : LoadedVersion)
    (hv : (Session.load inputs).version a b = some v) (pkg : Text) (order : List (Text × Text)) :
    (declaredErrors (versionDecls (versionDirs inputs) a b) = [] →
      ∀ text, errorsFile pkg v.errors 0 order = (some text, true) → significant text = code (fileLines pkg order [])) ∧
    (∀ name doc as codes digits, Decl.error name doc as codes ∈ versionDecls (versionDirs inputs) a b →
      codes.getLast? = some digits → (declaredErrors (versionDecls (versionDirs inputs) a b)).length = 1 →
      ∀ text, errorsFile pkg v.errors 0 order = (some text, true) →
        significant text = code (fileLines pkg order (errorLines
          [(doc, parseUsingCase name, (digits.foldl (fun n c => 10 * n + (c.toNat - 48)) 0 : Nat))]))) ∧
    (2 ≤ (declaredErrors (versionDecls (versionDirs inputs) a b)).length →
      errorsFile pkg v.errors 0 order = (none, false)) := by
  have hlen := Whole.errors_length inputs hr hg a b v hv
  obtain ⟨hnd, hown⟩ := ownErrors_version (load_errors inputs) hv
  refine ⟨fun h => ?_, fun name doc as codes digits hd hc h1 => ?_, fun h => ?_⟩
  · rw [h] at hlen
    have : v.errors = [] := List.length_eq_zero_iff.mp hlen
    rw [this]
    intro text ht
    obtain ⟨text', ok, h2, -, h3, -⟩ := c104_none pkg order
    rw [ht] at h2
    cases h2
    exact h3 rfl
  · rw [h1] at hlen
    obtain ⟨⟨k, e⟩, he⟩ := List.length_eq_one_iff.mp hlen
    obtain ⟨-, h2, h3⟩ := c76_model_partial inputs hr hg
    obtain ⟨ds, hds⟩ := (h2 a b).mp (by rw [hv]; rfl)
    obtain ⟨v', hv', -, -, hare⟩ := h3 a b ds hds
    rw [hv] at hv'
    cases hv'
    obtain ⟨e', h4, h5, h6, -, -, h7⟩ := hare.declared name doc as codes hd
    have hmem := GoMap.find_some_mem h4
    rw [he, List.mem_singleton] at hmem
    cases hmem
    rw [he]
    intro text ht
    obtain ⟨text', ok, h8, -, h9, -⟩ := c104_one pkg (keyOf name) e _ order h5
    rw [ht] at h8
    cases h8
    rw [h9 rfl, h6, h7 digits hc]
  · exact c104_two_refuted pkg v.errors 0 order hown (by omega)

/-! ## Examples -/

/-- An error with its documentation. -/
def exampleError : ErrorConcept :=
  { supportName := some (parseUsingCase t!"NotFound"), code := 404, doc := t!"It isn't there.\nTry again." }

set_option maxRecDepth 100000 in
example : (errorsFile t!"example.com/sdk/clustersmgmt/v1" [(t!"not_found", exampleError)] 0 []).2 = true ∧
    significant ((errorsFile t!"example.com/sdk/clustersmgmt/v1" [(t!"not_found", exampleError)] 0 []).1.getD []) =
      headerLines ++ [
        t!"package v1 // example.com/sdk/clustersmgmt/v1",
        t!"const (",
        t!"// It isn't there.",
        t!"// Try again.",
        t!"NotFoundError = 404",
        t!")"] := by
  decide +kernel

/-- The hypotheses of the theorems about maps of errors hold for what the reader makes. -/
example : ∀ e ∈ [(t!"not_found", exampleError), (t!"other", { exampleError with supportName := some [] })],
    e.2.ownName = none ∧ e.2.supportName ≠ none := by
  decide

/-- The file of the errors of a version that has been read. -/
example (pkg : Text) (v : LoadedVersion)
    (hv : (Session.load [exampleInput, exampleMore]).version t!"clusters_mgmt" t!"v1" = some v) (text : Text)
    (h : errorsFile pkg v.errors 0 [] = (some text, true)) :
    significant text = code (fileLines pkg [] [t!"const (", t!"// ", t!"BrokenError = 7", t!")"]) :=
  (c104_sources_partial _ exampleMore_readable exampleMore_good _ _ v hv pkg []).2.1 t!"Broken" [] [] [t!"7"] t!"7"
    (by decide) rfl (by decide) text h

end Verif.ErrorsCode
