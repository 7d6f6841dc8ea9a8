import Verif.Model.GoTemplate
import Verif.Spec.GoCode
import Verif.Lemmas.Template

/-!
# Templates line by line

The templates of the generators of Go code have the actions that don't print in their own lines. Those
templates are translated here to lists of lines, and executing the lines gives the same code.
-/

namespace Verif.GoTemplate

open Docs (Space) 
open GoCode

/-- Parts of a line. -/
inductive Part where
  | lit (t : Text)
  | print (e : List Text)
deriving DecidableEq

/-- Lines. -/
inductive Line where
  | line (parts : List Part)
  | set (x : Text) (e : List Text)
  | branch (e : List Text) (yes no : List Line)
  | range (e : List Text) (body : List Line)

/-- Only white space. -/
def blankText (t : Text) : Bool := t.all fun c => decide (Space c)

/-- Only white space. -/
def blankParts : List Part → Bool
  | [] => true
  | .lit t :: ps => blankText t && blankParts ps
  | .print _ :: _ => false

/-- Adds a text at the end of some parts. -/
def addLit (ps : List Part) (t : Text) : List Part := if t = [] then ps else ps ++ [.lit t]

/-- Removes the white space at the start. -/
def trimParts : List Part → List Part
  | .lit t :: ps => if blankText t then trimParts ps else .lit (dropStart t) :: ps
  | ps => ps

/-- Adds a line, unless it is blank. -/
def addLine (ps : List Part) (ls : List Line) : List Line :=
  if blankParts ps then ls else .line (trimParts ps) :: ls

/-- The complete lines at the start of a text, with what precedes it, and the start of the last line. -/
def textLines : List Part → List Text → List (List Part) × List Part
  | pend, [] => ([], pend)
  | pend, [t] => ([], addLit pend t)
  | pend, t :: ts =>
    let r := textLines [] ts
    (addLit pend t :: r.1, r.2)

mutual
/-- The lines of an action that doesn't print. -/
def Node.lines : Node → Option Line
  | .text _ => none
  | .print _ => none
  | .set x e => some (.set x e)
  | .branch e yes no => (lines [] yes).bind fun ys => (lines [] no).map fun ns => .branch e ys ns
  | .range e body => (lines [] body).map fun ls => .range e ls
/-- The lines of a template. The first argument is the start of the current line. -/
def lines : List Part → List Node → Option (List Line)
  | pend, [] => if blankParts pend then some [] else none
  | pend, .text t :: ns =>
    let r := textLines pend (splitOn '\n' t)
    (lines r.2 ns).map fun ls => r.1.foldr addLine ls
  | pend, .print e :: ns => lines (pend ++ [.print e]) ns
  | pend, n :: ns =>
    if blankParts pend then n.lines.bind fun l => (lines [] ns).map fun ls => l :: ls else none
end

mutual
/-- Tells if two lines are the same. -/
def Line.same : Line → Line → Bool
  | .line ps, .line qs => decide (ps = qs)
  | .set x e, .set y f => decide (x = y) && decide (e = f)
  | .branch e yes no, .branch f yes' no' => decide (e = f) && sameLines yes yes' && sameLines no no'
  | .range e body, .range f body' => decide (e = f) && sameLines body body'
  | _, _ => false
/-- Tells if some lines are the same. -/
def sameLines : List Line → List Line → Bool
  | [], [] => true
  | l :: ls, k :: ks => l.same k && sameLines ls ks
  | _, _ => false
end

mutual
theorem Line.same_eq : ∀ (l k : Line), l.same k = true → l = k
  | .line ps, .line qs, h => by rw [Line.same, decide_eq_true_eq] at h; rw [h]
  | .set x e, .set y f, h => by
    rw [Line.same, Bool.and_eq_true, decide_eq_true_eq, decide_eq_true_eq] at h
    rw [h.1, h.2]
  | .branch e yes no, .branch f yes' no', h => by
    rw [Line.same, Bool.and_eq_true, Bool.and_eq_true, decide_eq_true_eq] at h
    rw [h.1.1, sameLines_eq yes yes' h.1.2, sameLines_eq no no' h.2]
  | .range e body, .range f body', h => by
    rw [Line.same, Bool.and_eq_true, decide_eq_true_eq] at h
    rw [h.1, sameLines_eq body body' h.2]
  | .line _, .set _ _, h => by simp [Line.same] at h
  | .line _, .branch _ _ _, h => by simp [Line.same] at h
  | .line _, .range _ _, h => by simp [Line.same] at h
  | .set _ _, .line _, h => by simp [Line.same] at h
  | .set _ _, .branch _ _ _, h => by simp [Line.same] at h
  | .set _ _, .range _ _, h => by simp [Line.same] at h
  | .branch _ _ _, .line _, h => by simp [Line.same] at h
  | .branch _ _ _, .set _ _, h => by simp [Line.same] at h
  | .branch _ _ _, .range _ _, h => by simp [Line.same] at h
  | .range _ _, .line _, h => by simp [Line.same] at h
  | .range _ _, .set _ _, h => by simp [Line.same] at h
  | .range _ _, .branch _ _ _, h => by simp [Line.same] at h
theorem sameLines_eq : ∀ (ls ks : List Line), sameLines ls ks = true → ls = ks
  | [], [], _ => rfl
  | [], _ :: _, h => by simp [sameLines] at h
  | _ :: _, [], h => by simp [sameLines] at h
  | l :: ls, k :: ks, h => by
    rw [sameLines, Bool.and_eq_true] at h
    rw [Line.same_eq l k h.1, sameLines_eq ls ks h.2]
end

/-- Tells if those are the lines of a template. -/
def hasLines (template : Text) (ls : List Line) : Bool :=
  match (parse template).bind (lines []) with
  | some ks => sameLines ks ls
  | none => false

theorem hasLines_eq (template : Text) (ls : List Line) (h : hasLines template ls = true) :
    (parse template).bind (lines []) = some ls := by
  rw [hasLines] at h
  split at h
  · rename_i ks hk
    rw [hk, sameLines_eq ks ls h]
  · cases h

section

variable {α : Type}

/-- The text of a line. -/
def runParts (E : Env α) (dot : Value α) (vars : List (Text × Value α)) :
    List Part → Option (Text × List Effect)
  | [] => some ([], [])
  | .lit t :: ps => andThen (some (t, [])) (runParts E dot vars ps)
  | .print e :: ps => andThen (printed E dot vars e) (runParts E dot vars ps)

mutual
/-- Executes a line. -/
def Line.run (E : Env α) (dot : Value α) (vars : List (Text × Value α)) :
    Line → Option (List Text × List Effect)
  | .line ps => (runParts E dot vars ps).map fun (t, fx) => ([t], fx)
  | .set _ e => (eval E dot vars e).map fun (_, fx) => ([], fx)
  | .branch e yes no =>
    (eval E dot vars e).bind fun (v, fx) =>
      after fx (if v.truth then runLines E dot vars yes else runLines E dot vars no)
  | .range e body =>
    (eval E dot vars (rangeValue e)).bind fun (v, fx) =>
      match v with
      | .list as => after fx (each (fun p => runLines E (.obj p.1) (rangeVars e p ++ vars) body) as.zipIdx)
      | _ => none
/-- Executes some lines. -/
def runLines (E : Env α) (dot : Value α) (vars : List (Text × Value α)) :
    List Line → Option (List Text × List Effect)
  | [] => some ([], [])
  | .set x e :: ls =>
    (eval E dot vars e).bind fun (v, fx) => after fx (runLines E dot ((x, v) :: vars) ls)
  | l :: ls => andThen (l.run E dot vars) (runLines E dot vars ls)
end

/-! ## The same code -/

theorem bare_space (c : Char) (l : Text) (h : Space c) : bare (c :: l) = bare l := by
  rw [bare, bare, Docs.dropEnd]
  split
  · rename_i hd
    rw [hd, if_pos h]
  · rw [dropStart, if_pos h]

theorem sig_nl (a b : Text) : significant (a ++ '\n' :: b) = significant a ++ significant b := by
  rw [significant, splitOn_append_sep, List.map_append, List.filter_append]
  rfl

theorem sig_space (c : Char) (t : Text) (h : Space c) : significant (c :: t) = significant t := by
  by_cases hc : c = '\n'
  · subst hc
    exact sig_nl [] t
  · obtain ⟨l, ls, h1, h2⟩ := splitOn_cons_ne '\n' c t hc
    rw [significant, significant, h1, h2, List.map_cons, List.map_cons, bare_space c l h]

theorem sig_blank (w t : Text) (h : blankText w = true) : significant (w ++ t) = significant t := by
  induction w with
  | nil => rfl
  | cons c w ih =>
    simp only [blankText, List.all_cons, Bool.and_eq_true, decide_eq_true_eq] at h ih
    rw [List.cons_append, sig_space c _ h.1, ih h.2]

theorem sig_nil : significant [] = [] := rfl

theorem dropStart_split (t : Text) : ∃ w, blankText w = true ∧ t = w ++ dropStart t := by
  induction t with
  | nil => exact ⟨[], rfl, rfl⟩
  | cons c t ih =>
    rw [dropStart]
    split
    · rename_i h
      obtain ⟨w, h1, h2⟩ := ih
      refine ⟨c :: w, ?_, by rw [List.cons_append, ← h2]⟩
      simp only [blankText, List.all_cons, Bool.and_eq_true, decide_eq_true_eq] at h1 ⊢
      exact ⟨h, h1⟩
    · exact ⟨[], rfl, rfl⟩

theorem andThen_some {β : Type} {x y : List β} {fx fy : List Effect} :
    andThen (some (x, fx)) (some (y, fy)) = some (x ++ y, fx ++ fy) := rfl

theorem andThen_assoc {β : Type} (a b c : Option (List β × List Effect)) :
    andThen (andThen a b) c = andThen a (andThen b c) := by
  cases a <;> cases b <;> cases c <;> simp [andThen]

theorem andThen_nil {β : Type} (a : Option (List β × List Effect)) :
    andThen a (some ([], [])) = a := by
  cases a <;> simp [andThen]

theorem nil_andThen {β : Type} (a : Option (List β × List Effect)) :
    andThen (some ([], [])) a = a := by
  cases a <;> simp [andThen]

theorem runParts_append (E : Env α) (dot : Value α) (vars : List (Text × Value α)) (ps qs : List Part) :
    runParts E dot vars (ps ++ qs) = andThen (runParts E dot vars ps) (runParts E dot vars qs) := by
  induction ps with
  | nil => rw [List.nil_append, runParts, nil_andThen]
  | cons p ps ih =>
    cases p <;> rw [List.cons_append, runParts, runParts, ih, andThen_assoc]

theorem runParts_lit (E : Env α) (dot : Value α) (vars : List (Text × Value α)) (ps : List Part)
    (t : Text) :
    runParts E dot vars (addLit ps t) = andThen (runParts E dot vars ps) (some (t, [])) := by
  rw [addLit]
  split
  · rename_i h
    rw [h, andThen_nil]
  · rw [runParts_append]
    simp [runParts, andThen]

theorem blankParts_run (E : Env α) (dot : Value α) (vars : List (Text × Value α)) :
    ∀ ps : List Part, blankParts ps = true →
      ∃ w, blankText w = true ∧ runParts E dot vars ps = some (w, [])
  | [], _ => ⟨[], rfl, rfl⟩
  | .lit t :: ps, h => by
    rw [blankParts, Bool.and_eq_true] at h
    obtain ⟨w, h1, h2⟩ := blankParts_run E dot vars ps h.2
    refine ⟨t ++ w, ?_, by rw [runParts, h2]; rfl⟩
    have := h.1
    simp only [blankText, List.all_append, Bool.and_eq_true] at *
    exact ⟨this, h1⟩
  | .print _ :: _, h => by cases h

theorem trimParts_run (E : Env α) (dot : Value α) (vars : List (Text × Value α)) :
    ∀ ps : List Part, ∃ w, blankText w = true ∧
      runParts E dot vars ps = andThen (some (w, [])) (runParts E dot vars (trimParts ps))
  | [] => ⟨[], rfl, by rw [trimParts, nil_andThen]; simp⟩
  | .print e :: ps => ⟨[], rfl, by rw [trimParts, nil_andThen]; simp⟩
  | .lit t :: ps => by
    rw [trimParts]
    split
    · rename_i h
      obtain ⟨w, h1, h2⟩ := trimParts_run E dot vars ps
      refine ⟨t ++ w, ?_, ?_⟩
      · simp only [blankText, List.all_append, Bool.and_eq_true] at *
        exact ⟨h, h1⟩
      · rw [runParts, h2, ← andThen_assoc]
        rfl
    · obtain ⟨w, h1, h2⟩ := dropStart_split t
      refine ⟨w, h1, ?_⟩
      rw [runParts, runParts, ← andThen_assoc, andThen_some, ← h2]
      rfl

/-- The result of executing a template, after the start of a line, is the same code as the result of
executing lines. -/
def Same (pre : Text) (f0 : List Effect) (x : Option (Text × List Effect))
    (y : Option (List Text × List Effect)) : Prop :=
  (x = none ∧ y = none) ∨
  ∃ t fx ls, x = some (t, fx) ∧ y = some (ls, f0 ++ fx) ∧
    ∀ r, significant (pre ++ t ++ r) = code ls ++ significant r

theorem runLines_line (E : Env α) (dot : Value α) (vars : List (Text × Value α)) (ps : List Part)
    (ls : List Line) :
    runLines E dot vars (.line ps :: ls) =
      andThen ((runParts E dot vars ps).map fun (t, fx) => ([t], fx)) (runLines E dot vars ls) := by
  rw [runLines, Line.run]
  simp

/-- The texts joined with ends of line. -/
def joined : List Text → Text
  | [] => []
  | [t] => t
  | t :: ts => t ++ '\n' :: joined ts

theorem joined_split (t : Text) : joined (splitOn '\n' t) = t := by
  induction t with
  | nil => rfl
  | cons c t ih =>
    by_cases h : c = '\n'
    · subst h
      have : splitOn '\n' ('\n' :: t) = [] :: splitOn '\n' t := by simp [splitOn]
      rw [this]
      cases hs : splitOn '\n' t with
      | nil => exact absurd hs (splitOn_ne_nil _ _)
      | cons a as =>
        rw [hs] at ih
        rw [joined, ih]
        · rfl
        · simp
    · obtain ⟨l, ls, h1, h2⟩ := splitOn_cons_ne '\n' c t h
      rw [h2]
      rw [h1] at ih
      cases ls with
      | nil => rw [joined] at *; rw [ih]
      | cons a as =>
        rw [joined, List.cons_append]
        · rw [joined] at ih
          · rw [ih]
          · simp
        · simp

theorem textLines_run (E : Env α) (dot : Value α) (vars : List (Text × Value α)) (ls : List Line)
    (x : Option (Text × List Effect)) :
    ∀ (ts : List Text) (pend : List Part), ts ≠ [] →
      (∀ pt f w, runParts E dot vars (textLines pend ts).2 = some (pt, f) → blankText w = true →
        Same (w ++ pt) f x (runLines E dot vars ls)) →
      ∀ pt f w, runParts E dot vars pend = some (pt, f) → blankText w = true →
        Same (w ++ pt) f (andThen (some (joined ts, [])) x)
          (runLines E dot vars ((textLines pend ts).1.foldr addLine ls))
  | [], _, h, _ => absurd rfl h
  | [t], pend, _, hx => by
    intro pt f w hp hw
    have h1 : runParts E dot vars (addLit pend t) = some (pt ++ t, f) := by
      rw [runParts_lit, hp, andThen_some, List.append_nil]
    rw [textLines] at hx ⊢
    rcases hx _ _ w h1 hw with ⟨rfl, h3⟩ | ⟨u, fx, us, rfl, h3, h4⟩
    · exact .inl ⟨rfl, h3⟩
    · refine .inr ⟨t ++ u, fx, us, rfl, h3, fun r => ?_⟩
      rw [← h4 r]
      simp
  | t :: t' :: ts, pend, _, hx => by
    intro pt f w hp hw
    rw [textLines] at hx ⊢
    · have ih := textLines_run E dot vars ls x (t' :: ts) [] (by simp) hx [] [] [] rfl rfl
      have h1 : runParts E dot vars (addLit pend t) = some (pt ++ t, f) := by
        rw [runParts_lit, hp, andThen_some, List.append_nil]
      simp only [List.foldr_cons]
      rw [joined]
      · generalize hls : (textLines [] (t' :: ts)).1.foldr addLine ls = rest at ih
        generalize hj : joined (t' :: ts) = j at ih
        rw [addLine]
        by_cases hb : blankParts (addLit pend t) = true
        · rw [if_pos hb]
          obtain ⟨w1, hw1, h2⟩ := blankParts_run E dot vars _ hb
          rw [h1] at h2
          injection h2 with h2
          injection h2 with h2 h2'
          subst h2'
          rcases ih with ⟨h3, h4⟩ | ⟨u, fx, us, h3, h4, h5⟩
          · left
            refine ⟨?_, h4⟩
            cases x with
            | none => rfl
            | some x => cases h3
          · right
            cases x with
            | none => cases h3
            | some x =>
              obtain ⟨u', fx'⟩ := x
              rw [andThen_some] at h3
              injection h3 with h3
              injection h3 with h3 h3'
              subst h3'
              subst h3
              refine ⟨_, _, us, rfl, h4, fun r => ?_⟩
              rw [← h5 r]
              have : w ++ pt ++ (t ++ '\n' :: j ++ u') ++ r = w ++ (w1 ++ '\n' :: (j ++ u' ++ r)) := by
                rw [← h2]; simp
              rw [this, sig_blank _ _ hw, sig_blank _ _ hw1]
              exact (sig_nl [] _).trans (by simp [sig_nil])
        · rw [if_neg hb, runLines_line]
          obtain ⟨w1, hw1, h2⟩ := trimParts_run E dot vars (addLit pend t)
          rw [h1] at h2
          cases hq : runParts E dot vars (trimParts (addLit pend t)) with
          | none =>
            rw [hq] at h2
            cases h2
          | some q =>
            obtain ⟨q, fq⟩ := q
            rw [hq, andThen_some] at h2
            injection h2 with h2
            injection h2 with h2 h2'
            simp only [List.nil_append] at h2'
            subst h2'
            rcases ih with ⟨h3, h4⟩ | ⟨u, fx, us, h3, h4, h5⟩
            · left
              rw [h4]
              refine ⟨?_, rfl⟩
              cases x with
              | none => rfl
              | some x => cases h3
            · right
              cases x with
              | none => cases h3
              | some x =>
                obtain ⟨u', fx'⟩ := x
                rw [andThen_some] at h3
                injection h3 with h3
                injection h3 with h3 h3'
                subst h3'
                subst h3
                rw [h4]
                refine ⟨_, _, q :: us, rfl, ?_, fun r => ?_⟩
                · rfl
                · have : w ++ pt ++ (t ++ '\n' :: j ++ u') ++ r =
                      (w ++ (w1 ++ q)) ++ '\n' :: (j ++ u' ++ r) := by
                    rw [← h2]; simp
                  have h6 := h5 r
                  rw [List.nil_append, List.nil_append] at h6
                  rw [this, sig_nl, sig_blank _ _ hw, sig_blank _ _ hw1, h6]
                  simp [code]
      · simp
    all_goals simp

theorem textLines_none (E : Env α) (dot : Value α) (vars : List (Text × Value α)) (ls : List Line) :
    ∀ (ts : List Text) (pend : List Part), ts ≠ [] → runParts E dot vars pend = none →
      runParts E dot vars (textLines pend ts).2 = none ∨
        runLines E dot vars ((textLines pend ts).1.foldr addLine ls) = none
  | [], _, h, _ => absurd rfl h
  | [t], pend, _, hp => by
    left
    rw [textLines, runParts_lit, hp]
    rfl
  | t :: t' :: ts, pend, _, hp => by
    right
    have h1 : runParts E dot vars (addLit pend t) = none := by
      rw [runParts_lit, hp]
      rfl
    rw [textLines]
    · rw [List.foldr_cons, addLine, if_neg, runLines_line]
      · obtain ⟨w1, hw1, h2⟩ := trimParts_run E dot vars (addLit pend t)
        rw [h1] at h2
        cases hq : runParts E dot vars (trimParts (addLit pend t)) with
        | none => rfl
        | some q =>
          rw [hq] at h2
          cases h2
      · intro hb
        obtain ⟨w1, hw1, h2⟩ := blankParts_run E dot vars _ hb
        rw [h1] at h2
        cases h2
    · simp

theorem lines_none (E : Env α) (dot : Value α) (vars : List (Text × Value α)) :
    ∀ (nodes : List Node) (pend : List Part) (ls : List Line), lines pend nodes = some ls →
      runParts E dot vars pend = none → runLines E dot vars ls = none
  | [], pend, ls, h, hp => by
    rw [lines] at h
    split at h
    · rename_i hb
      obtain ⟨w1, hw1, h2⟩ := blankParts_run E dot vars _ hb
      rw [hp] at h2
      cases h2
    · cases h
  | .text t :: ns, pend, ls, h, hp => by
    rw [lines] at h
    cases hl : lines (textLines pend (splitOn '\n' t)).2 ns with
    | none =>
      simp only [hl] at h
      cases h
    | some ls' =>
      simp only [hl, Option.map_some, Option.some.injEq] at h
      subst h
      rcases textLines_none E dot vars ls' (splitOn '\n' t) pend (splitOn_ne_nil _ _) hp with h1 | h1
      · have h2 := lines_none E dot vars ns _ _ hl h1
        clear hl h1
        generalize (textLines pend (splitOn '\n' t)).1 = as
        induction as with
        | nil => exact h2
        | cons a as ih =>
          rw [List.foldr_cons, addLine]
          split
          · exact ih
          · rw [runLines_line, ih]
            cases runParts E dot vars (trimParts a) <;> rfl
      · exact h1
  | .print e :: ns, pend, ls, h, hp => by
    rw [lines] at h
    refine lines_none E dot vars ns _ _ h ?_
    rw [runParts_append, hp]
    rfl
  | .set x e :: ns, pend, ls, h, hp => by
    rw [lines] at h
    · split at h
      · rename_i hb
        obtain ⟨w1, hw1, h2⟩ := blankParts_run E dot vars _ hb
        rw [hp] at h2
        cases h2
      · cases h
    all_goals simp
  | .branch e yes no :: ns, pend, ls, h, hp => by
    rw [lines] at h
    · split at h
      · rename_i hb
        obtain ⟨w1, hw1, h2⟩ := blankParts_run E dot vars _ hb
        rw [hp] at h2
        cases h2
      · cases h
    all_goals simp
  | .range e body :: ns, pend, ls, h, hp => by
    rw [lines] at h
    · split at h
      · rename_i hb
        obtain ⟨w1, hw1, h2⟩ := blankParts_run E dot vars _ hb
        rw [hp] at h2
        cases h2
      · cases h
    all_goals simp

theorem Same.blank {w : Text} {f0 : List Effect} {x : Option (Text × List Effect)}
    {y : Option (List Text × List Effect)} (hw : blankText w = true) (h : Same [] f0 x y) :
    Same w f0 x y := by
  rcases h with h | ⟨t, fx, ls, h1, h2, h3⟩
  · exact .inl h
  · refine .inr ⟨t, fx, ls, h1, h2, fun r => ?_⟩
    rw [← h3 r, List.append_assoc, List.append_assoc, sig_blank _ _ hw]
    rfl

theorem Same.andThen {x x' : Option (Text × List Effect)}
    {y y' : Option (List Text × List Effect)} (h : Same [] [] x y) (h' : Same [] [] x' y') :
    Same [] [] (andThen x x') (andThen y y') := by
  rcases h with ⟨rfl, rfl⟩ | ⟨t, fx, ls, rfl, rfl, h3⟩
  · exact .inl ⟨rfl, rfl⟩
  · rcases h' with ⟨rfl, rfl⟩ | ⟨t', fx', ls', rfl, rfl, h3'⟩
    · exact .inl ⟨rfl, rfl⟩
    · refine .inr ⟨t ++ t', fx ++ fx', ls ++ ls', rfl, rfl, fun r => ?_⟩
      have h4 := h3 (t' ++ r)
      have h5 := h3' r
      simp only [List.nil_append, List.append_assoc] at *
      rw [h4, h5]
      simp [code]

theorem Same.after {x : Option (Text × List Effect)} {y : Option (List Text × List Effect)}
    (fx : List Effect) (h : Same [] [] x y) : Same [] [] (after fx x) (after fx y) := by
  rcases h with ⟨rfl, rfl⟩ | ⟨t, fy, ls, rfl, rfl, h3⟩
  · exact .inl ⟨rfl, rfl⟩
  · exact .inr ⟨t, fx ++ fy, ls, rfl, rfl, h3⟩

theorem Same.nil : Same [] [] (some ([], [])) (some ([], [])) :=
  .inr ⟨[], [], [], rfl, rfl, fun r => by simp [code]⟩

theorem Same.each {α : Type} {f : α → Option (Text × List Effect)} {g : α → Option (List Text × List Effect)}
    (h : ∀ a, Same [] [] (f a) (g a)) : ∀ as : List α, Same [] [] (each f as) (each g as)
  | [] => Same.nil
  | a :: as => (h a).andThen (Same.each h as)

mutual
theorem Node.lines_run (E : Env α) (dot : Value α) (vars : List (Text × Value α)) :
    ∀ (n : Node) (l : Line), n.lines = some l → Same [] [] (n.run E dot vars) (l.run E dot vars)
  | .text _, _, h => by cases h
  | .print _, _, h => by cases h
  | .set x e, l, h => by
    rw [Node.lines] at h
    injection h with h
    subst h
    rw [Node.run, Line.run]
    cases eval E dot vars e with
    | none => exact .inl ⟨rfl, rfl⟩
    | some v => exact .inr ⟨[], v.2, [], rfl, rfl, fun r => by simp [code]⟩
  | .branch e yes no, l, h => by
    rw [Node.lines] at h
    cases hy : lines [] yes with
    | none =>
      rw [hy] at h
      cases h
    | some ys =>
      cases hn : lines [] no with
      | none =>
        rw [hy, hn] at h
        cases h
      | some ns =>
        rw [hy, hn] at h
        simp only [Option.bind_some, Option.map_some, Option.some.injEq] at h
        subst h
        rw [Node.run, Line.run]
        cases eval E dot vars e with
        | none => exact .inl ⟨rfl, rfl⟩
        | some v =>
          simp only [Option.bind_some]
          refine Same.after _ ?_
          split
          · exact lines_run E dot vars yes [] ys hy [] [] [] rfl rfl
          · exact lines_run E dot vars no [] ns hn [] [] [] rfl rfl
  | .range e body, l, h => by
    rw [Node.lines] at h
    cases hb : lines [] body with
    | none =>
      rw [hb] at h
      cases h
    | some bs =>
      rw [hb] at h
      simp only [Option.map_some, Option.some.injEq] at h
      subst h
      rw [Node.run, Line.run]
      cases eval E dot vars (rangeValue e) with
      | none => exact .inl ⟨rfl, rfl⟩
      | some v =>
        obtain ⟨v, fx⟩ := v
        simp only [Option.bind_some]
        cases v with
        | list as =>
          exact Same.after _ (Same.each (fun p =>
            lines_run E (.obj p.1) (rangeVars e p ++ vars) body [] bs hb [] [] [] rfl rfl) as.zipIdx)
        | _ => exact .inl ⟨rfl, rfl⟩
theorem lines_run (E : Env α) (dot : Value α) (vars : List (Text × Value α)) :
    ∀ (nodes : List Node) (pend : List Part) (ls : List Line), lines pend nodes = some ls →
      ∀ pt f w, runParts E dot vars pend = some (pt, f) → blankText w = true →
        Same (w ++ pt) f (runNodes E dot vars nodes) (runLines E dot vars ls)
  | [], pend, ls, h, pt, f, w, hp, hw => by
    rw [lines] at h
    split at h
    · rename_i hb
      obtain ⟨w1, hw1, h2⟩ := blankParts_run E dot vars _ hb
      rw [hp] at h2
      injection h2 with h2
      injection h2 with h2 h3
      injection h with h
      subst h h2 h3
      rw [runNodes, runLines]
      refine Same.blank ?_ Same.nil
      simp only [blankText, List.all_append, Bool.and_eq_true] at *
      exact ⟨hw, hw1⟩
    · cases h
  | .text t :: ns, pend, ls, h, pt, f, w, hp, hw => by
    rw [lines] at h
    cases hl : lines (textLines pend (splitOn '\n' t)).2 ns with
    | none =>
      simp only [hl] at h
      cases h
    | some ls' =>
      simp only [hl, Option.map_some, Option.some.injEq] at h
      subst h
      rw [runNodes, Node.run]
      · have := textLines_run E dot vars ls' (runNodes E dot vars ns) (splitOn '\n' t) pend
          (splitOn_ne_nil _ _)
          (fun pt f w h1 h2 => lines_run E dot vars ns _ _ hl pt f w h1 h2) pt f w hp hw
        rwa [joined_split] at this
      · simp
  | .print e :: ns, pend, ls, h, pt, f, w, hp, hw => by
    rw [lines] at h
    rw [runNodes, Node.run]
    · have hr : runParts E dot vars (pend ++ [.print e]) =
          GoTemplate.andThen (runParts E dot vars pend) (printed E dot vars e) := by
        rw [runParts_append]
        simp only [runParts, andThen_nil]
      cases he : printed E dot vars e with
      | none =>
        refine .inl ⟨rfl, lines_none E dot vars ns _ _ h ?_⟩
        rw [hr, he, hp]
        rfl
      | some q =>
        obtain ⟨q, fq⟩ := q
        rw [he, hp, andThen_some] at hr
        rcases lines_run E dot vars ns _ _ h _ _ w hr hw with ⟨h1, h2⟩ | ⟨u, fx, us, h1, h2, h3⟩
        · rw [h1, h2]
          exact .inl ⟨rfl, rfl⟩
        · rw [h1, h2]
          refine .inr ⟨q ++ u, fq ++ fx, us, rfl, by rw [List.append_assoc], fun r => ?_⟩
          rw [← h3 r]
          simp
    · simp
  | .set x e :: ns, pend, ls, h, pt, f, w, hp, hw => by
    rw [lines] at h
    · split at h
      · rename_i hb
        obtain ⟨w1, hw1, h2⟩ := blankParts_run E dot vars _ hb
        rw [hp] at h2
        injection h2 with h2
        injection h2 with h2 h3
        subst h2 h3
        have hw2 : blankText (w ++ pt) = true := by
          simp only [blankText, List.all_append, Bool.and_eq_true] at *
          exact ⟨hw, hw1⟩
        refine Same.blank hw2 ?_
        rw [Node.lines, Option.bind_some] at h
        cases hl : lines [] ns with
        | none =>
          rw [hl] at h
          cases h
        | some ls' =>
          rw [hl] at h
          injection h with h
          subst h
          rw [runNodes, runLines]
          cases eval E dot vars e with
          | none => exact .inl ⟨rfl, rfl⟩
          | some v => exact Same.after _ (lines_run E dot _ ns [] ls' hl [] [] [] rfl rfl)
      · cases h
    all_goals simp
  | .branch e yes no :: ns, pend, ls, h, pt, f, w, hp, hw => by
    rw [lines] at h
    · split at h
      · rename_i hb
        obtain ⟨w1, hw1, h2⟩ := blankParts_run E dot vars _ hb
        rw [hp] at h2
        injection h2 with h2
        injection h2 with h2 h3
        subst h2 h3
        have hw2 : blankText (w ++ pt) = true := by
          simp only [blankText, List.all_append, Bool.and_eq_true] at *
          exact ⟨hw, hw1⟩
        refine Same.blank hw2 ?_
        cases hn : (Node.branch e yes no).lines with
        | none =>
          rw [hn] at h
          cases h
        | some l =>
          cases hl : lines [] ns with
          | none =>
            rw [hn, hl] at h
            cases h
          | some ls' =>
            rw [hn, hl] at h
            injection h with h
            subst h
            have h4 := Node.lines_run E dot vars (.branch e yes no) l hn
            have h5 := lines_run E dot vars ns [] ls' hl [] [] [] rfl rfl
            have : runLines E dot vars (l :: ls') =
                GoTemplate.andThen (l.run E dot vars) (runLines E dot vars ls') := by
              rw [runLines]
              intro x e' h6
              subst h6
              rw [Node.lines] at hn
              cases hy : lines [] yes <;> cases hz : lines [] no <;> simp [hy, hz] at hn
            rw [runNodes, this]
            · exact h4.andThen h5
            · simp
      · cases h
    all_goals simp
  | .range e body :: ns, pend, ls, h, pt, f, w, hp, hw => by
    rw [lines] at h
    · split at h
      · rename_i hb
        obtain ⟨w1, hw1, h2⟩ := blankParts_run E dot vars _ hb
        rw [hp] at h2
        injection h2 with h2
        injection h2 with h2 h3
        subst h2 h3
        have hw2 : blankText (w ++ pt) = true := by
          simp only [blankText, List.all_append, Bool.and_eq_true] at *
          exact ⟨hw, hw1⟩
        refine Same.blank hw2 ?_
        cases hn : (Node.range e body).lines with
        | none =>
          rw [hn] at h
          cases h
        | some l =>
          cases hl : lines [] ns with
          | none =>
            rw [hn, hl] at h
            cases h
          | some ls' =>
            rw [hn, hl] at h
            injection h with h
            subst h
            have h4 := Node.lines_run E dot vars (.range e body) l hn
            have h5 := lines_run E dot vars ns [] ls' hl [] [] [] rfl rfl
            have : runLines E dot vars (l :: ls') =
                GoTemplate.andThen (l.run E dot vars) (runLines E dot vars ls') := by
              rw [runLines]
              intro x e' h6
              subst h6
              rw [Node.lines] at hn
              cases hy : lines [] body <;> simp [hy] at hn
            rw [runNodes, this]
            · exact h4.andThen h5
            · simp
      · cases h
    all_goals simp
end

/-- Executing a template gives the code that executing its lines gives. -/
theorem run_template (E : Env α) (dot : Value α) (template : Text) (ls : List Line)
    (hl : (parse template).bind (lines []) = some ls) (rs : List Text) (fx : List Effect)
    (hr : runLines E dot [] ls = some (rs, fx)) :
    ∃ t, (parse template).bind (runNodes E dot []) = some (t, fx) ∧
      ∀ r, significant (t ++ r) = code rs ++ significant r := by
  cases hp : parse template with
  | none =>
    rw [hp] at hl
    cases hl
  | some nodes =>
    rw [hp] at hl
    rcases lines_run E dot [] nodes [] ls hl [] [] [] rfl rfl with ⟨_, h⟩ | ⟨t, fx', rs', h1, h2, h3⟩
    · rw [hr] at h
      cases h
    · rw [hr] at h2
      injection h2 with h2
      injection h2 with h2 h4
      subst h2 h4
      exact ⟨t, h1, h3⟩

end

end Verif.GoTemplate
