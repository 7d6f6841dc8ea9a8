import Verif.Spec.Writer

/-!
# C111: writing a model

Writing a model fails exactly when something hasn't been given or errors were reported before, and otherwise it announces
all the types and resources. But it never writes anything.
-/

namespace Verif.ModelWriter

open Report Files

theorem writeType_eq (r : Reporter) (t : TypeView) :
    writeType r t = { r with out := r.out ++ announcement t!"type" t.name } := by
  simp [writeType, infof, printf, sprintf, announcement, argText]

theorem writeResource_eq (r : Reporter) (n : Name) :
    writeResource r n = { r with out := r.out ++ announcement t!"resource" n } := by
  simp [writeResource, infof, printf, sprintf, announcement, argText]

theorem foldl_out {α : Type} (f : Reporter → α → Reporter) (g : α → List Text)
    (h : ∀ r a, f r a = { r with out := r.out ++ (g a).flatten }) (l : List α) (r : Reporter) :
    l.foldl f r = { r with out := r.out ++ (l.flatMap g).flatten } := by
  induction l generalizing r with
  | nil => simp
  | cons a l ih => simp [ih, h]

theorem writeModel_eq (r : Reporter) (m : List ServiceView) :
    writeModel r m = { r with out := r.out ++ (announcements m).flatten } := by
  rw [writeModel, announcements]
  refine foldl_out _ _ (fun r s => ?_) m r
  refine foldl_out _ _ (fun r v => ?_) s.versions r
  rw [writeVersion, foldl_out writeType (fun t => [announcement t!"type" t.name]) (fun r t => by simp [writeType_eq]),
    foldl_out writeResource (fun n => [announcement t!"resource" n]) (fun r n => by simp [writeResource_eq])]
  have h1 : ∀ {β : Type} (f : β → Text) (l : List β), l.flatMap (fun a => [f a]) = l.map f := by
    intro β f l
    induction l with
    | nil => rfl
    | cons a l ih => simp [ih]
  rw [h1, h1]
  simp

/-- Writing fails exactly when something hasn't been given, and the message is about the first thing that is missing, or
when errors were reported before, and the message has their number. -/
theorem c111_error_iff (w : Writer) (disk : Text → Option Text) (e : Text) :
    (write w disk).1 = some e ↔
      (w.reporter = none ∧ e = t!"parameter 'reporter' is mandatory") ∨
      ∃ r, w.reporter = some r ∧
        ((w.model = none ∧ e = t!"parameter 'model' is mandatory") ∨
        (w.model ≠ none ∧ w.output = [] ∧ e = t!"parameter 'output' is mandatory") ∨
        (w.model ≠ none ∧ w.output ≠ [] ∧ r.errors = 1 ∧ e = t!"there was 1 error") ∨
        (w.model ≠ none ∧ w.output ≠ [] ∧ 1 < r.errors ∧
          e = t!"there were " ++ natText r.errors ++ t!" errors")) := by
  obtain ⟨r, m, o⟩ := w
  cases r with
  | none => simp [write, eq_comm]
  | some r =>
    cases m with
    | none => simp [write, eq_comm]
    | some m =>
      by_cases ho : o = []
      · simp [write, ho, eq_comm]
      · rcases Nat.lt_trichotomy r.errors 1 with h | h | h
        · have h0 : r.errors = 0 := by omega
          simp [write, ho, h0]
        · simp [write, ho, h, eq_comm]
        · have h1 : r.errors ≠ 1 := by omega
          have h2 : 0 < r.errors := by omega
          have h3 : (write { reporter := some r, model := some m, output := o } disk).1 =
              some (t!"there were " ++ natText r.errors ++ t!" errors") := by
            simp only [write]
            rw [if_neg ho, if_pos h2, if_pos h]
          rw [h3]
          constructor
          · intro he
            exact Or.inr ⟨r, rfl, Or.inr (Or.inr (Or.inr ⟨by simp, ho, h, by cases he; rfl⟩))⟩
          · rintro (⟨hn, -⟩ | ⟨r', hr, hx⟩)
            · cases hn
            · cases hr
              rcases hx with ⟨hn, -⟩ | ⟨-, hn, -⟩ | ⟨-, -, hn, -⟩ | ⟨-, -, -, he⟩
              · cases hn
              · exact absurd hn ho
              · exact absurd hn h1
              · rw [he]

/-- When nothing is missing and no errors were reported, the types and resources are announced, in order, and nothing else
is sent to the reporter. -/
theorem c111_announces (r : Reporter) (m : List ServiceView) (output : Text) (disk : Text → Option Text)
    (ho : output ≠ []) (hr : r.errors = 0) :
    write { reporter := some r, model := some m, output := output } disk =
      (none, { reporter := some { r with out := r.out ++ (announcements m).flatten }, disk := disk }) := by
  simp [write, ho, hr, writeModel_eq]

/-- If writing fails then nothing is announced. -/
theorem c111_failed (w : Writer) (disk : Text → Option Text) (h : (write w disk).1 ≠ none) :
    (write w disk).2 = { reporter := w.reporter, disk := disk } := by
  obtain ⟨r, m, o⟩ := w
  revert h
  rw [write]
  cases r with
  | none => simp
  | some r =>
    cases m with
    | none => simp
    | some m =>
      dsimp only
      split
      · simp
      · split
        · split <;> simp
        · simp

/-- The files are never changed. -/
theorem c111_disk (w : Writer) (disk : Text → Option Text) : (write w disk).2.disk = disk := by
  rw [write]
  repeat' split
  all_goals rfl

/-- The models that are written can't be read back: no function of the files gives them. -/
theorem c111_written_refuted :
    ¬ ∃ back : (Text → Option Text) → List ServiceView, ∀ (r : Reporter) (m : List ServiceView) (output : Text)
      (disk : Text → Option Text), output ≠ [] → r.errors = 0 →
      back (write { reporter := some r, model := some m, output := output } disk).2.disk = m := by
  rintro ⟨back, h⟩
  have h1 := h Report.new [] t!"out" (fun _ => none) (by decide) rfl
  have h2 := h Report.new [{ name := [], versions := [] }] t!"out" (fun _ => none) (by decide) rfl
  rw [c111_disk] at h1 h2
  rw [h1] at h2
  cases h2

/-! ## Examples -/

/-- A model with a type and a resource. -/
def exampleWritten : List ServiceView :=
  [{ name := [{ text := t!"sample", initialism := false }],
     versions := [{ name := [{ text := t!"v1", initialism := false }], types := [{ name := [{ text := t!"cluster", initialism := false }], kind := .struct }],
                    resources := [[{ text := t!"root", initialism := false }]] }] }]

example : announcements exampleWritten =
    [infoPrefix ++ t!"Writing type 'Cluster'\n", infoPrefix ++ t!"Writing resource 'Root'\n"] := by decide +kernel

example : (write { reporter := some { Report.new with errors := 3 }, model := some [], output := t!"x" }
    (fun _ => none)).1 = some t!"there were 3 errors" := by decide +kernel

end Verif.ModelWriter
