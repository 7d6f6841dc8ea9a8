import Verif.Spec.MetadataCode
import Verif.Lemmas.MetadataLines
import Verif.Props.JsonCode
import Verif.Props.TypesCode

/-!
# C101: the file of the JSON support of the metadata

The file that the JSON support generator writes for the metadata of a version contains exactly the declarations of the
specification, in that order, except for blank lines and indentation.
-/

namespace Verif.JsonCode

open GoTemplate GoCode GoFile
open Docs (Short)
open TypesCode (itemsLines errorCount effects_foldl emit_eq isText isText_eq)

/-- The imports that the code of the metadata needs. -/
def metadataImports (x : Context) : List (Text × Text) :=
  [(t!"fmt", []), (t!"io", []), (x.base ++ t!"/helpers", []), (t!"github.com/json-iterator/go", t!"jsoniter")]

theorem metadataJson_run (x : Context) :
    runLines (typeEnv x) (.args []) [] metadataLines = some (itemsLines metadataJson, []) := by
  rfl

set_option maxRecDepth 100000 in
theorem metadataJson_parse : isText metadataTemplate (parse metadataTemplate) = true := by decide +kernel

set_option maxRecDepth 100000 in
theorem metadataJson_short : (splitOn '\n' metadataTemplate).all (fun l => decide (l.length < 65536)) = true := by
  decide +kernel

theorem metadataSource_eq (x : Context) : ∃ t, metadataSource x { pkg := x.pkg } =
      { (importEffects (metadataImports x)).foldl Buffer.effect { pkg := x.pkg } with code := t ++ t!"\n" } ∧
    (∀ r, significant (t ++ r) = code (itemsLines metadataJson) ++ significant r) ∧ t = metadataTemplate := by
  have hs : metadataSource x { pkg := x.pkg } = ((importEffects (metadataImports x)).foldl Buffer.effect
      { pkg := x.pkg }).emit (typeEnv x) metadataTemplate [] := by
    have hh : Go.helpersImport x.base = x.base ++ t!"/helpers" := by
      rw [Go.helpersImport, List.append_assoc]
      rfl
    rw [metadataSource, imports_effects, hh]
    rfl
  rw [hs]
  obtain ⟨b, hb⟩ : ∃ b, b = (importEffects (metadataImports x)).foldl Buffer.effect { pkg := x.pkg } := ⟨_, rfl⟩
  have he : b.errors = 0 := by rw [hb, (effects_foldl _ _).1, importErrors]
  have hc : b.code = [] := by rw [hb, (effects_foldl _ _).2.2]
  rw [← hb]
  obtain ⟨t, h1, h2⟩ := emit_eq (typeEnv x) b metadataTemplate [] metadataLines _ _ he metadata_lines
    (metadataJson_run x)
  refine ⟨t, ?_, h2, ?_⟩
  · rw [h1, hc]
    rfl
  · have h3 : Buffer.emit (typeEnv x) b metadataTemplate [] = { b with code := b.code ++ (metadataTemplate ++ t!"\n") } := by
      rw [Buffer.emit, isText_eq _ _ metadataJson_parse]
      simp [runNodes, Node.run, andThen, he]
    rw [h1] at h3
    have := congrArg Buffer.code h3
    simpa [hc] using this

/-- The file of the JSON support of the metadata of a version is always written, and it contains the declarations of
the specification. -/
theorem c101_file (x : Context) (order : List (Text × Text)) :
    ∃ text, metadataFile x 0 order = (some text, true) ∧
      significant text = code (fileLines x.pkg order (itemsLines metadataJson)) := by
  obtain ⟨t, h1, h2, h3⟩ := metadataSource_eq x
  obtain ⟨h4, h5, h6⟩ := written _ _ _ _ _ order h1 h2
  rw [importErrors] at h4
  have h7 : ((metadataSource x { pkg := x.pkg }).write order).2 = true := by
    refine h5.mpr ⟨h4.mpr rfl, ?_⟩
    rw [h1, h3, TypesCode.short_newline]
    intro l hl
    have := List.all_eq_true.mp metadataJson_short l hl
    simpa using this
  obtain ⟨text, ht⟩ := Option.ne_none_iff_exists'.mp (h4.mpr rfl)
  have h8 : (metadataSource x { pkg := x.pkg }).write order = (some text, true) := Prod.ext ht h7
  refine ⟨text, h8, ?_⟩
  rw [h6 text h8, ← code_append]
  simp [fileLines]

/-- If an error has been reported before then nothing is written. -/
theorem c101_errors (x : Context) (errors : Nat) (order : List (Text × Text)) (h : errors ≠ 0) :
    metadataFile x errors order = (none, false) := by
  have he : (metadataSource x { pkg := x.pkg, errors := errors }).errors = errors := by
    have hi : (Buffer.imports { pkg := x.pkg, errors := errors } [(t!"fmt", []), (t!"io", []),
        (Go.helpersImport x.base, []), (t!"github.com/json-iterator/go", t!"jsoniter")]).errors = errors := by
      rw [imports_effects, (effects_foldl _ _).1, importErrors, Nat.add_zero]
    rw [metadataSource, Buffer.emit, if_pos (by omega), hi]
  rw [metadataFile, Buffer.write, if_pos (by omega)]

/-- The imports of the file, in whatever order they are written: the four packages that the code uses, once each,
other than that of the file. -/
theorem c101_imports (x : Context) (order : List (Text × Text))
    (ho : order.Perm (metadataSource x { pkg := x.pkg }).imports) :
    (order.map Prod.fst).Nodup ∧
    (∀ path, path ∈ order.map Prod.fst ↔ path ≠ x.pkg ∧ path ∈ (metadataImports x).map Prod.fst) ∧
    ∀ i ∈ order, i ∈ metadataImports x := by
  obtain ⟨t, h1, -⟩ := metadataSource_eq x
  rw [h1] at ho
  obtain ⟨h2, h3, h4⟩ := imports_order _ _ _ ho
  refine ⟨h2, fun p => ?_, fun i hp => (import_mem _ _ _).mp (h4 i.1 i.2 hp)⟩
  rw [h3]
  simp only [import_mem, List.mem_map]
  constructor
  · rintro ⟨-, hp, sel, hm⟩
    exact ⟨hp, _, hm, rfl⟩
  · rintro ⟨hp, i, hm, rfl⟩
    refine ⟨fun e => ?_, hp, i.2, hm⟩
    rw [metadataImports] at hm
    simp only [List.mem_cons, List.not_mem_nil, or_false] at hm
    rcases hm with rfl | rfl | rfl | rfl
    · exact absurd e (by decide)
    · exact absurd e (by decide)
    · exact absurd e (by simp)
    · exact absurd e (by decide)

end Verif.JsonCode
