import Verif.Lemmas.ReaderWalk
import Verif.Lemmas.ListTypes
import Verif.Spec.Session

/-! Helper lemmas about the state of `Read`. -/

namespace Verif

open Reader Session

/-! ## Problems are never forgotten -/

/-- The problems start with the given ones. -/
def ProblemsFrom (ps : List ReadProblem) (r : Reader) : Prop := ps <+: r.problems

theorem problemsFrom (ps : List ReadProblem) : Preserved (ProblemsFrom ps) where
  report := fun _ _ h => h.trans (List.prefix_append _ _)
  newType := fun _ _ h _ _ _ _ _ => h
  found := fun _ _ _ _ _ => trivial
  fresh := fun _ _ => trivial
  undefinedTypes := fun _ _ h => h
  undefinedResources := fun _ _ h => h
  heap := fun _ _ _ _ _ h => h
  newResource := fun _ _ h _ => h
  graph := fun _ _ _ _ h => h
  errors := fun _ _ _ h _ => h

theorem loadFiles_prefix (fs : List SourceFile) (r : Reader) :
    r.problems <+: (fs.foldl loadFile r).problems :=
  (problemsFrom r.problems).loadFiles fs (fun _ _ _ _ _ _ => trivial) (List.prefix_refl _)

theorem reports_problems (ps : List ReadProblem) (r : Reader) :
    (ps.foldl Reader.report r).problems = r.problems ++ ps := by
  induction ps generalizing r with
  | nil => simp
  | cons p ps ih => rw [List.foldl_cons, ih]; simp [Reader.report]

theorem loadFile_problems (r : Reader) (f : SourceFile) (h : (loadFile r f).problems = []) :
    f.regular = true → f.readable = true ∧ f.syntaxErrors = 0 := by
  intro hr
  unfold loadFile at h
  rw [hr] at h
  simp only [Bool.not_true, Bool.false_eq_true, if_false] at h
  split at h
  · simp [Reader.report] at h
  · rename_i hread
    refine ⟨by simpa using hread, ?_⟩
    have h1 := (problemsFrom _).decls f.decls (fun _ _ _ _ => trivial)
      (List.prefix_refl ((List.replicate f.syntaxErrors
        ReadProblem.syntaxError).foldl Reader.report r).problems)
    unfold ProblemsFrom at h1
    rw [h] at h1
    have h2 := List.prefix_nil.mp h1
    rw [reports_problems] at h2
    have h3 := (List.append_eq_nil_iff.mp h2).2
    simpa using congrArg List.length h3

theorem loadFiles_problems (fs : List SourceFile) (r : Reader)
    (h : (fs.foldl loadFile r).problems = []) :
    ∀ f ∈ fs, f.regular = true → f.readable = true ∧ f.syntaxErrors = 0 := by
  induction fs generalizing r with
  | nil => intro f hf; cases hf
  | cons x xs ih =>
    intro f hf
    rcases List.mem_cons.mp hf with rfl | hf
    · have h1 := loadFiles_prefix xs (loadFile r f)
      rw [List.foldl_cons] at h
      rw [h] at h1
      exact loadFile_problems r f (List.prefix_nil.mp h1)
    · exact ih (loadFile r x) h f hf

theorem store_problems (s : Session) (k : Text) (v : LoadedVersion) :
    (s.store k v).problems = s.problems := by
  unfold Session.store
  split <;> rfl

theorem store_heap (s : Session) (k : Text) (v : LoadedVersion) :
    (s.store k v).heap = s.heap := by
  unfold Session.store
  split <;> rfl

theorem store_created (s : Session) (k : Text) (v : LoadedVersion) :
    (s.store k v).created = s.created := by
  unfold Session.store
  split <;> rfl

theorem findOrCreateVersion_problems (s : Session) (k : Text) (n : Name) :
    (s.findOrCreateVersion k n).1.problems = s.problems := by
  unfold Session.findOrCreateVersion
  split
  · rfl
  · exact store_problems _ _ _

theorem findOrCreateService_problems (s : Session) (n : Name) :
    (s.findOrCreateService n).problems = s.problems := by
  unfold Session.findOrCreateService
  split <;> rfl

theorem leave_problems (s : Session) (k : Text) (v : LoadedVersion) (r : Reader) :
    (s.leave k v r).problems = r.problems := by
  unfold Session.leave
  exact store_problems _ _ _

theorem loadVersion_prefix (k : Text) (s : Session) (d : SourceVersion) :
    s.problems <+: (loadVersion k s d).problems := by
  unfold loadVersion
  split
  · exact List.prefix_refl _
  · split
    · exact List.prefix_append _ _
    · exact List.prefix_append _ _
    · exact List.prefix_append _ _
    · rw [Session.report, findOrCreateVersion_problems]; exact List.prefix_append _ _
    · dsimp only
      rw [leave_problems]
      have := loadFiles_prefix d.files
        ((s.findOrCreateVersion k (parseUsingSeparator d.name '_')).1.enter
          (s.findOrCreateVersion k (parseUsingSeparator d.name '_')).2)
      unfold Session.enter at this ⊢
      dsimp only at this
      rwa [findOrCreateVersion_problems] at this ⊢

theorem foldl_prefix {α : Type} (f : Session → α → Session)
    (hf : ∀ s x, s.problems <+: (f s x).problems) (xs : List α) (s : Session) :
    s.problems <+: (xs.foldl f s).problems := by
  induction xs generalizing s with
  | nil => exact List.prefix_refl _
  | cons x xs ih => exact (hf s x).trans (ih _)

theorem loadService_prefix (s : Session) (d : SourceService) :
    s.problems <+: (loadService s d).problems := by
  unfold loadService
  split
  · exact List.prefix_refl _
  · split
    · exact List.prefix_append _ _
    · exact List.prefix_append _ _
    · exact List.prefix_append _ _
    · rw [Session.report, findOrCreateService_problems]; exact List.prefix_append _ _
    · have := foldl_prefix _ (loadVersion_prefix (parseUsingSeparator d.name '_').toText)
        d.versions (s.findOrCreateService (parseUsingSeparator d.name '_'))
      rwa [findOrCreateService_problems] at this

theorem loadModel_prefix (s : Session) (d : SourceModel) :
    s.problems <+: (loadModel s d).problems := by
  unfold loadModel
  split
  · exact foldl_prefix _ loadService_prefix _ _
  · exact List.prefix_append _ _

/-- If there are no problems after a loop then the property that each step guarantees holds for all
the elements. -/
theorem foldl_all {α : Type} (f : Session → α → Session) (Q : α → Prop)
    (hp : ∀ s x, s.problems <+: (f s x).problems)
    (hq : ∀ s x, (f s x).problems = [] → Q x) (xs : List α) (s : Session)
    (h : (xs.foldl f s).problems = []) : ∀ x ∈ xs, Q x := by
  induction xs generalizing s with
  | nil => intro x hx; cases hx
  | cons y ys ih =>
    intro x hx
    rcases List.mem_cons.mp hx with rfl | hx
    · have h1 := foldl_prefix f hp ys (f s x)
      rw [List.foldl_cons] at h
      rw [h] at h1
      exact hq s x (List.prefix_nil.mp h1)
    · exact ih (f s y) h x hx

theorem loadVersion_good (k : Text) (s : Session) (d : SourceVersion)
    (h : (loadVersion k s d).problems = []) : d.Readable := by
  intro hd
  unfold loadVersion at h
  rw [hd] at h
  simp only [Bool.not_true, Bool.false_eq_true, if_false] at h
  cases hs : d.status <;> rw [hs] at h <;> dsimp only at h
  case good =>
    rw [leave_problems] at h
    exact ⟨rfl, loadFiles_problems d.files _ h⟩
  all_goals
    exfalso
    rw [Session.report] at h
    exact absurd h (by simp)

theorem loadService_good (s : Session) (d : SourceService)
    (h : (loadService s d).problems = []) : d.Readable := by
  intro hd
  unfold loadService at h
  rw [hd] at h
  simp only [Bool.not_true, Bool.false_eq_true, if_false] at h
  cases hs : d.status <;> rw [hs] at h <;> dsimp only at h
  case good => exact ⟨rfl, foldl_all _ _ (loadVersion_prefix _) (loadVersion_good _) _ _ h⟩
  all_goals
    exfalso
    rw [Session.report] at h
    exact absurd h (by simp)

theorem loadModel_good (s : Session) (d : SourceModel)
    (h : (loadModel s d).problems = []) : d.Readable := by
  unfold loadModel at h
  cases hs : d.status <;> rw [hs] at h <;> dsimp only at h
  case good => exact ⟨hs, foldl_all _ _ loadService_prefix loadService_good _ _ h⟩
  all_goals
    exfalso
    rw [Session.report] at h
    exact absurd h (by simp)

theorem completeService_problems (s : Session) (l : LoadedService) :
    (completeService s l).problems = s.problems := by
  unfold completeService
  generalize listing LoadedVersion.name l.versions = vs
  induction vs generalizing s with
  | nil => rfl
  | cons v vs ih => rw [List.foldl_cons, ih]; exact store_problems _ _ _

theorem complete_problems (s : Session) : s.complete.problems = s.problems := by
  unfold complete
  generalize listing LoadedService.name s.services = ls
  induction ls generalizing s with
  | nil => rfl
  | cons v vs ih => rw [List.foldl_cons, ih]; exact completeService_problems _ _

theorem load_problems (inputs : List SourceModel) :
    (load inputs).problems = ((inputs.foldl loadModel {}).reportUndefined).problems := by
  unfold load
  exact complete_problems _

end Verif
