import Verif.Model.Support
import Verif.Spec.Support
import Verif.Props.JsonCode
import Verif.Props.TypesCode

namespace Verif.Support

open GoTemplate GoCode GoFile
open Docs (Short)
open JsonCode (importEffects imports_effects importErrors written import_mem imports_order)
open TypesCode (errorCount effects_foldl emit_eq isText isText_eq)

/-- The lines of a template without actions. -/
def plain (ls : List Text) : List Line := ls.map fun l => .line [.lit l]

theorem plain_run {α : Type} (E : Env α) (dot : Value α) (ls : List Text) :
    runLines E dot [] (plain ls) = some (ls, []) := by
  induction ls with
  | nil => rfl
  | cons l ls ih =>
    rw [plain, List.map_cons, runLines, ← plain, ih]
    · simp [Line.run, runParts, andThen]
    · simp

set_option maxRecDepth 100000 in
theorem helpers_lines : hasLines helpersTemplate (plain helpersLines) = true := by decide +kernel

set_option maxRecDepth 100000 in
theorem helpers_parse : isText helpersTemplate (parse helpersTemplate) = true := by decide +kernel

set_option maxRecDepth 100000 in
theorem helpers_short : (splitOn '\n' helpersTemplate).all (fun l => decide (l.length < 65536)) = true := by
  decide +kernel

set_option maxRecDepth 100000 in
theorem jsonHelpers_lines : hasLines jsonHelpersTemplate (plain jsonHelpersLines) = true := by decide +kernel

set_option maxRecDepth 100000 in
theorem jsonHelpers_parse : isText jsonHelpersTemplate (parse jsonHelpersTemplate) = true := by decide +kernel

set_option maxRecDepth 100000 in
theorem jsonHelpers_short : (splitOn '\n' jsonHelpersTemplate).all (fun l => decide (l.length < 65536)) = true := by
  decide +kernel

set_option maxRecDepth 100000 in
theorem commonErrors_lines : hasLines commonErrorsTemplate (plain commonErrorsLines) = true := by decide +kernel

set_option maxRecDepth 100000 in
theorem commonErrors_parse : isText commonErrorsTemplate (parse commonErrorsTemplate) = true := by decide +kernel

set_option maxRecDepth 100000 in
theorem commonErrors_short : (splitOn '\n' commonErrorsTemplate).all (fun l => decide (l.length < 65536)) = true := by
  decide +kernel

set_option maxRecDepth 100000 in
theorem metadataClient_lines : hasLines metadataClientTemplate (plain metadataClientLines) = true := by decide +kernel

set_option maxRecDepth 100000 in
theorem metadataClient_parse : isText metadataClientTemplate (parse metadataClientTemplate) = true := by decide +kernel

set_option maxRecDepth 100000 in
theorem metadataClient_short : (splitOn '\n' metadataClientTemplate).all (fun l => decide (l.length < 65536)) = true := by
  decide +kernel

/-- What a template without actions writes. -/
theorem plain_emit (template : Text) (ls : List Text) (is : List (Text × Text)) (pkg : Text)
    (hl : hasLines template (plain ls) = true) (hp : isText template (parse template) = true) :
    (JsonCode.Buffer.imports { pkg := pkg } is).emit env template [] =
      { (importEffects is).foldl Buffer.effect { pkg := pkg } with code := template ++ t!"\n" } ∧
    ∀ r, significant (template ++ r) = code ls ++ significant r := by
  rw [imports_effects]
  obtain ⟨b, hb⟩ : ∃ b, b = (importEffects is).foldl Buffer.effect { pkg := pkg } := ⟨_, rfl⟩
  have he : b.errors = 0 := by rw [hb, (effects_foldl _ _).1, importErrors]
  have hc : b.code = [] := by rw [hb, (effects_foldl _ _).2.2]
  rw [← hb]
  obtain ⟨t, h1, h2⟩ := emit_eq env b template [] (plain ls) _ _ he hl (plain_run env _ ls)
  have h3 : Buffer.emit env b template [] = { b with code := b.code ++ (template ++ t!"\n") } := by
    rw [Buffer.emit, isText_eq _ _ hp]
    simp [runNodes, Node.run, andThen, he]
  have ht : t = template := by
    rw [h1] at h3
    have := congrArg Buffer.code h3
    simpa [hc] using this
  subst ht
  refine ⟨?_, h2⟩
  rw [h3, hc]
  rfl

theorem plain_write (template : Text) (ls : List Text) (is : List (Text × Text)) (pkg : Text)
    (order : List (Text × Text))
    (hl : hasLines template (plain ls) = true) (hp : isText template (parse template) = true)
    (hs : (splitOn '\n' template).all (fun l => decide (l.length < 65536)) = true) :
    ∃ text, ((JsonCode.Buffer.imports { pkg := pkg } is).emit env template []).write order = (some text, true) ∧
      significant text = code (fileLines pkg order ls) := by
  obtain ⟨h1, h2⟩ := plain_emit template ls is pkg hl hp
  obtain ⟨b, hb⟩ : ∃ b, b = (JsonCode.Buffer.imports { pkg := pkg } is).emit env template [] := ⟨_, rfl⟩
  rw [← hb] at h1 ⊢
  obtain ⟨h4, h5, h6⟩ := written _ _ _ _ _ order h1 h2
  rw [importErrors] at h4
  have h7 : (b.write order).2 = true := by
    refine h5.mpr ⟨h4.mpr rfl, ?_⟩
    rw [h1, TypesCode.short_newline]
    intro l hm
    have := List.all_eq_true.mp hs l hm
    simpa using this
  obtain ⟨text, ht⟩ := Option.ne_none_iff_exists'.mp (h4.mpr rfl)
  have h8 : b.write order = (some text, true) := Prod.ext ht h7
  refine ⟨text, h8, ?_⟩
  rw [h6 text h8, ← code_append]
  simp [fileLines]

theorem plain_errors (template pkg : Text) (is : List (Text × Text)) (errors : Nat) (order : List (Text × Text))
    (h : errors ≠ 0) :
    ((JsonCode.Buffer.imports { pkg := pkg, errors := errors } is).emit env template []).write order =
      (none, false) := by
  have hi : (JsonCode.Buffer.imports { pkg := pkg, errors := errors } is).errors = errors := by
    rw [imports_effects, (effects_foldl _ _).1, importErrors, Nat.add_zero]
  have he : ((JsonCode.Buffer.imports { pkg := pkg, errors := errors } is).emit env template []).errors = errors := by
    rw [Buffer.emit, if_pos (by omega), hi]
  rw [Buffer.write, if_pos (by omega)]

end Verif.Support
