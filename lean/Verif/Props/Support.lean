import Verif.Lemmas.Support
import Verif.Props.MetadataCode
import Verif.Props.ClientFile

/-!
# C109: the files that don't depend on the model

The helpers, the helpers of the JSON support, the common errors and the client of the metadata of versions are always
written, with the same lines, unless an error was reported before. The functions of the helpers that the rest of the
generated code calls are declared there, once. But the imports of two of the files aren't those of the packages that
their code uses.
-/

namespace Verif.Support

open GoTemplate GoCode GoFile
open JsonCode (importEffects imports_effects import_mem imports_order)

/-- The import path of the package of a file, given the base of the import paths and the import path of the package of
the version. -/
def pathOf (base version : Text) : Kind → Text
  | .helpers => GoRef.pathJoin base t!"helpers"
  | .jsonHelpers => GoRef.pathJoin base t!"helpers"
  | .commonErrors => GoRef.pathJoin base t!"errors"
  | .metadataClient => version

/-- What is written to a file, and if it was completely written. -/
def fileOf (base version : Text) (errors : Nat) (order : List (Text × Text)) : Kind → Option Text × Bool
  | .helpers => helpersFile base errors order
  | .jsonHelpers => jsonHelpersFile base errors order
  | .commonErrors => commonErrorsFile base errors order
  | .metadataClient => metadataClientFile base version errors order

/-- The buffer of a file after generating the code. -/
def sourceOf (base : Text) (b : Buffer) : Kind → Buffer
  | .helpers => helpersSource b
  | .jsonHelpers => jsonHelpersSource b
  | .commonErrors => commonErrorsSource base b
  | .metadataClient => metadataClientSource base b

theorem helpersImport_eq (base : Text) : Go.helpersImport base = base ++ t!"/helpers" := by
  rw [Go.helpersImport, List.append_assoc]
  rfl

theorem errorsImport_eq (base : Text) : Go.errorsImport base = base ++ t!"/errors" := by
  rw [Go.errorsImport, List.append_assoc]
  rfl

/-- The template of a file. -/
def templateOf : Kind → Text
  | .helpers => helpersTemplate
  | .jsonHelpers => jsonHelpersTemplate
  | .commonErrors => commonErrorsTemplate
  | .metadataClient => metadataClientTemplate

theorem source_eq (base : Text) (b : Buffer) (k : Kind) :
    sourceOf base b k = (JsonCode.Buffer.imports b (importsOf base k)).emit env (templateOf k) [] := by
  cases k
  · rfl
  · rfl
  · rw [sourceOf, commonErrorsSource, helpersImport_eq]; rfl
  · rw [sourceOf, metadataClientSource, helpersImport_eq, errorsImport_eq]; rfl

theorem file_eq (base version : Text) (errors : Nat) (order : List (Text × Text)) (k : Kind) :
    fileOf base version errors order k =
      (sourceOf base { pkg := pathOf base version k, errors := errors } k).write order := by
  cases k <;> rfl

/-- The files are always written, and they contain the lines of the specification. -/
theorem c109_file (k : Kind) (base version : Text) (order : List (Text × Text)) :
    ∃ text, fileOf base version 0 order k = (some text, true) ∧
      significant text = code (fileLines (pathOf base version k) order (linesOf k)) := by
  rw [file_eq, source_eq]
  cases k
  · exact plain_write _ _ _ _ _ helpers_lines helpers_parse helpers_short
  · exact plain_write _ _ _ _ _ jsonHelpers_lines jsonHelpers_parse jsonHelpers_short
  · exact plain_write _ _ _ _ _ commonErrors_lines commonErrors_parse commonErrors_short
  · exact plain_write _ _ _ _ _ metadataClient_lines metadataClient_parse metadataClient_short

/-- If an error has been reported before then nothing is written. -/
theorem c109_errors (k : Kind) (base version : Text) (errors : Nat) (order : List (Text × Text)) (h : errors ≠ 0) :
    fileOf base version errors order k = (none, false) := by
  rw [file_eq, source_eq]
  exact plain_errors _ _ _ _ _ h

/-- The imports of the files, in whatever order they are written: those of the specification, once each, other than
that of the package of the file. -/
theorem c109_imports (k : Kind) (base version : Text) (order : List (Text × Text))
    (ho : order.Perm (sourceOf base { pkg := pathOf base version k } k).imports) :
    (order.map Prod.fst).Nodup ∧
    (∀ path, path ∈ order.map Prod.fst ↔ path ≠ pathOf base version k ∧ path ∈ (importsOf base k).map Prod.fst) ∧
    ∀ i ∈ order, i ∈ importsOf base k := by
  have h1 : (sourceOf base { pkg := pathOf base version k } k).imports =
      ((importEffects (importsOf base k)).foldl Buffer.effect { pkg := pathOf base version k }).imports := by
    rw [source_eq]
    cases k
    · exact Eq.trans (congrArg Buffer.imports (plain_emit _ _ _ _ helpers_lines helpers_parse).1) rfl
    · exact Eq.trans (congrArg Buffer.imports (plain_emit _ _ _ _ jsonHelpers_lines jsonHelpers_parse).1) rfl
    · exact Eq.trans (congrArg Buffer.imports (plain_emit _ _ _ _ commonErrors_lines commonErrors_parse).1) rfl
    · exact Eq.trans (congrArg Buffer.imports (plain_emit _ _ _ _ metadataClient_lines metadataClient_parse).1) rfl
  rw [h1] at ho
  obtain ⟨h2, h3, h4⟩ := imports_order _ _ _ ho
  refine ⟨h2, fun p => ?_, fun i hp => (import_mem _ _ _).mp (h4 i.1 i.2 hp)⟩
  rw [h3]
  simp only [import_mem, List.mem_map]
  constructor
  · rintro ⟨-, hp, sel, hm⟩
    exact ⟨hp, _, hm, rfl⟩
  · rintro ⟨hp, i, hm, rfl⟩
    refine ⟨fun e => ?_, hp, i.2, hm⟩
    have : ∀ j ∈ importsOf base k, j.1 ≠ [] := by cases k <;> simp [importsOf]
    exact this i hm e

/-! ## The packages that are used and those that are imported -/

theorem names_eq (base : Text) (k : Kind) :
    (importsOf base k).map packageName = (importsOf [] k).map packageName := by
  have h1 : packageName (base ++ t!"/helpers", []) = packageName (t!"/helpers", []) := by simp [packageName]
  have h2 : packageName (base ++ t!"/errors", []) = packageName (t!"/errors", []) := by simp [packageName]
  cases k <;> simp only [importsOf, List.map_cons, List.map_nil, List.nil_append, h1, h2]

/-- The packages that a file uses and doesn't import. -/
def missing (k : Kind) (base : Text) : List Text :=
  packages.filter fun p => uses (linesOf k) p && !((importsOf base k).map packageName).contains p

/-- The packages that a file imports and doesn't use. -/
def unused (k : Kind) (base : Text) : List Text :=
  packages.filter fun p => !uses (linesOf k) p && ((importsOf base k).map packageName).contains p

set_option maxRecDepth 100000 in
/-- Exactly which packages each file uses without importing them, and imports without using them. -/
theorem c109_packages (base : Text) :
    missing .helpers base = [] ∧ unused .helpers base = [] ∧
    missing .metadataClient base = [] ∧ unused .metadataClient base = [] ∧
    missing .jsonHelpers base = [t!"time"] ∧ unused .jsonHelpers base = [t!"bytes"] ∧
    missing .commonErrors base = [t!"http", t!"strconv", t!"jsoniter"] ∧
    unused .commonErrors base = [t!"runtime"] := by
  simp only [missing, unused, names_eq base]
  decide +kernel

/-- The packages that are imported are those that are used. -/
def ExactImports (k : Kind) (base : Text) : Prop :=
  ∀ p ∈ packages, uses (linesOf k) p = true ↔ p ∈ (importsOf base k).map packageName

/-- Only the imports of the helpers and of the client of the metadata are the packages that the code uses. -/
theorem c109_exact_iff_partial (k : Kind) (base : Text) :
    ExactImports k base ↔ k = .helpers ∨ k = .metadataClient := by
  have key : ExactImports k base ↔ missing k base = [] ∧ unused k base = [] := by
    rw [ExactImports, missing, unused]
    simp only [List.filter_eq_nil_iff, Bool.and_eq_true, Bool.not_eq_true', List.contains_eq_mem,
      decide_eq_true_eq, decide_eq_false_iff_not, ← forall_and]
    refine forall_congr' fun p => ?_
    by_cases hp : p ∈ packages
    · by_cases hu : uses (linesOf k) p = true
      · simp [hp, hu]
      · simp [hp, hu]
    · simp [hp]
  obtain ⟨h1, h2, h3, h4, h5, h6, h7, h8⟩ := c109_packages base
  rw [key]
  cases k <;> simp [h1, h2, h3, h4, h5, h7]

/-- It is false that the imports of every file are the packages that its code uses. -/
theorem c109_exact_refuted : ¬ ∀ k base, ExactImports k base := fun h => by
  have := (c109_exact_iff_partial .commonErrors []).mp (h _ _)
  revert this
  decide

/-! ## What the rest of the generated code needs -/

/-- The functions declared by the two files of the package of the helpers. -/
def helperFunctions : List Text := declared helpersLines ++ declared jsonHelpersLines

set_option maxRecDepth 100000 in
/-- The two files of the package of the helpers, and the file of the common errors, don't declare a function twice. -/
theorem c109_functions :
    helperFunctions.Nodup ∧ (declared commonErrorsLines).Nodup ∧ (declaredTypes commonErrorsLines).Nodup ∧
    declared helpersLines = [t!"AddValue", t!"CopyQuery", t!"AddHeader", t!"CopyHeader", t!"AddImpersonationHeader",
      t!"CopyValues", t!"Segments", t!"PollContext", t!"evalStatus", t!"evalPredicates"] ∧
    declared jsonHelpersLines = [t!"NewIterator", t!"NewStream", t!"NewBoolean", t!"NewInteger", t!"NewFloat",
      t!"NewString", t!"NewDate", t!"ParseInteger", t!"ParseFloat", t!"ParseString", t!"ParseBoolean",
      t!"ParseDate"] := by
  decide +kernel

set_option maxRecDepth 100000 in
/-- The functions of the helpers that the common errors and the client of the metadata call are declared in the package
of the helpers, and what the client of the metadata uses of the package of the errors is declared in the common
errors. -/
theorem c109_calls :
    (∀ f ∈ members t!"helpers" (commonErrorsLines ++ metadataClientLines), f ∈ helperFunctions) ∧
    (∀ f ∈ members t!"errors" metadataClientLines,
      f ∈ declared commonErrorsLines ++ declaredTypes commonErrorsLines) ∧
    (∀ f ∈ members t!"helpers" (TypesCode.itemsLines JsonCode.metadataJson), f ∈ helperFunctions) ∧
    t!"MetadataRequest" ∈ declaredTypes metadataClientLines ∧
    t!"MetadataResponse" ∈ declaredTypes metadataClientLines := by
  decide +kernel

/-- The templates, other than those of the files that don't depend on the model, whose code calls the helpers. -/
def callers : List Text :=
  [JsonCode.structTemplate, JsonCode.listTemplate, MethodsCode.listTemplate, MethodsCode.searchTemplate,
    MethodsCode.actionTemplate, MessagesCode.requestTemplate, MessagesCode.responseTemplate, ClientFile.pollTemplate]

set_option maxRecDepth 100000 in
/-- The functions of the helpers and the members of the package of the errors that the other templates use are declared
by the files that don't depend on the model. -/
theorem c109_templates : ∀ t ∈ callers,
    (∀ f ∈ members t!"helpers" (significant t), f ∈ helperFunctions) ∧
    (∀ f ∈ members t!"errors" (significant t), f ∈ declared commonErrorsLines ++ declaredTypes commonErrorsLines) := by
  decide +kernel

set_option maxRecDepth 100000 in
/-- The templates do call helpers. -/
example : members t!"helpers" (significant MessagesCode.requestTemplate) =
    [t!"AddValue", t!"AddHeader", t!"AddImpersonationHeader", t!"CopyQuery", t!"AddValue", t!"CopyHeader"] := by
  decide +kernel

/-- A non-trivial case: two imports of a file that is written. -/
example : ∃ text, fileOf t!"a/b" t!"a/b/c/v1" 0 [(t!"fmt", []), (t!"time", [])] .helpers = (some text, true) := by
  obtain ⟨text, h, -⟩ := c109_file .helpers t!"a/b" t!"a/b/c/v1" [(t!"fmt", []), (t!"time", [])]
  exact ⟨text, h⟩

example : fileOf t!"a/b" t!"a/b/c/v1" 2 [] .commonErrors = (none, false) := c109_errors _ _ _ _ _ (by decide)

end Verif.Support
