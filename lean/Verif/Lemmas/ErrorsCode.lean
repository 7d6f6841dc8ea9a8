import Verif.Model.ErrorsCode
import Verif.Spec.ErrorsCode
import Verif.Lemmas.TypesCode
import Verif.Lemmas.Declarations
import Verif.Lemmas.ErrorNames

/-! The code that the template of the errors of a version produces. -/

namespace Verif.ErrorsCode

open GoTemplate GoCode GoFile
open TypesCode (runLines_nil run_range commentOf)

/-- The lines of the template. -/
def templateLines : List Line := [
  .branch [t!".Version.Errors"]
    [
      .line [.lit t!"const ("],
      .range [t!".Version.Errors"]
        [
          .line [.print [t!"lineComment", t!".Doc"]],
          .line [.print [t!"errorName", t!"."], .lit t!" = ", .print [t!".Code"]]],
      .line [.lit t!")"]]
    []]

set_option maxRecDepth 100000 in
theorem errors_lines : hasLines errorsTemplate templateLines = true := by decide +kernel

theorem eval_errors (m : GoMap ErrorConcept) (l : List ErrorConcept) (h : errorsListing m = .value l) :
    eval env (.args [(t!"Version", .version m)]) [] [t!".Version.Errors"] = some (.list (l.map .error), []) := by
  have : eval env (.args [(t!"Version", .version m)]) [] [t!".Version.Errors"] =
      ((match errorsListing m with
        | .panic => none
        | .value l => some (GoTemplate.Value.list (l.map Obj.error)) :
          Option (GoTemplate.Value Obj))).map fun v => (v, []) := rfl
  rw [this, h]
  rfl

theorem eval_panic (m : GoMap ErrorConcept) (h : errorsListing m = .panic) :
    eval env (.args [(t!"Version", .version m)]) [] [t!".Version.Errors"] = none := by
  have : eval env (.args [(t!"Version", .version m)]) [] [t!".Version.Errors"] =
      ((match errorsListing m with
        | .panic => none
        | .value l => some (GoTemplate.Value.list (l.map Obj.error)) :
          Option (GoTemplate.Value Obj))).map fun v => (v, []) := rfl
  rw [this, h]
  rfl

theorem run_truth {α : Type} (E : Env α) (dot : GoTemplate.Value α) (vars : List (Text × GoTemplate.Value α))
    (e : List Text) (yes no ls : List Line) (v : GoTemplate.Value α) (he : eval E dot vars e = some (v, [])) :
    runLines E dot vars (.branch e yes no :: ls) =
      andThen (if v.truth then runLines E dot vars yes else runLines E dot vars no) (runLines E dot vars ls) := by
  have h1 : (Line.branch e yes no).run E dot vars =
      if v.truth then runLines E dot vars yes else runLines E dot vars no := by
    rw [Line.run, he]
    simp only [Option.bind_some]
    cases v.truth
    · change GoTemplate.after [] (runLines E dot vars no) = runLines E dot vars no
      cases runLines E dot vars no <;> rfl
    · change GoTemplate.after [] (runLines E dot vars yes) = runLines E dot vars yes
      cases runLines E dot vars yes <;> rfl
  rw [runLines, h1]
  simp

/-- The documentation, name and code of an error. -/
def entry (e : ErrorConcept) : Text × Name × Int := (e.doc, e.supportName.getD [], e.code)

theorem run_errors (m : GoMap ErrorConcept) (l : List ErrorConcept) (h : errorsListing m = .value l)
    (hn : ∀ e ∈ l, e.supportName ≠ none) :
    runLines env (.args [(t!"Version", .version m)]) [] templateLines = some (errorLines (l.map entry), []) := by
  have he := eval_errors m l h
  have hv : ∀ v ∈ l.map Obj.error, runLines env (.obj v) [] [
      .line [.print [t!"lineComment", t!".Doc"]],
      .line [.print [t!"errorName", t!"."], .lit t!" = ", .print [t!".Code"]]] = some ((match v with
        | .error e => [commentOf e.doc, upperCamel (e.supportName.getD []) ++ t!"Error = " ++ intText e.code]
        | _ => []), []) := by
    intro v hv
    obtain ⟨e, hm, rfl⟩ := List.mem_map.mp hv
    obtain ⟨n, hs⟩ := Option.ne_none_iff_exists'.mp (hn e hm)
    have h1 : printed env (.obj (.error e)) [] [t!"lineComment", t!".Doc"] = some (commentOf e.doc, []) := rfl
    have h2 : printed env (.obj (.error e)) [] [t!"errorName", t!"."] = some (upperCamel n ++ t!"Error", []) := by
      have : printed env (.obj (.error e)) [] [t!"errorName", t!"."] =
        ((e.supportName.map fun n => ((.text (Decls.errorName n) : GoTemplate.Value Obj), ([] : List Effect)))).bind
          fun (v, fx) => (v.print env).map fun t => (t, fx) := rfl
      rw [this, hs, Option.map_some, Option.bind_some, Decls.errorName_eq]
      rfl
    have h3 : printed env (.obj (.error e)) [] [t!".Code"] = some (intText e.code, []) := rfl
    simp only [runLines_line, runLines_nil, runParts, h1, h2, h3, andThen_some, Option.map_some]
    simp [hs]
  have hr := run_range (he := he) (hb := hv) (ls := [.line [.lit t!")"]])
  rw [templateLines, run_truth (he := he), runLines_nil]
  cases l with
  | nil => rfl
  | cons e es =>
    have ht : (GoTemplate.Value.list ((e :: es).map Obj.error)).truth = true := rfl
    rw [ht, if_pos rfl]
    simp only [runLines_line, hr, runLines_nil, runParts, andThen_some, Option.map_some]
    simp [errorLines, entry, List.flatMap_map]

end Verif.ErrorsCode
