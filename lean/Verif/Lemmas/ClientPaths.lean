import Verif.Spec.ClientPaths
import Verif.Lemmas.Names
import Verif.Lemmas.Reader

/-! Lemmas about paths. -/

namespace Verif

open GoPath GoClient

theorem splitOn_append_sep (sep : Char) (a b : Text) :
    splitOn sep (a ++ sep :: b) = splitOn sep a ++ splitOn sep b := by
  induction a with
  | nil => simp [splitOn]
  | cons c cs ih =>
    simp only [List.cons_append, splitOn]
    rw [ih]
    split
    · rfl
    · cases h : splitOn sep cs with
      | nil => exact absurd h (splitOn_ne_nil _ _)
      | cons w ws => rfl

theorem foldl_cleanStep (rooted : Bool) : ∀ (ps done : List Text), t!"." ∉ ps → t!".." ∉ ps →
    ps.foldl (cleanStep rooted) done = (ps.filter fun s => s ≠ []).reverse ++ done
  | [], done, _, _ => rfl
  | p :: ps, done, h1, h2 => by
    simp only [List.mem_cons, not_or] at h1 h2
    rw [List.foldl_cons, foldl_cleanStep rooted ps _ h1.2 h2.2]
    by_cases hp : p = []
    · subst hp; simp [cleanStep]
    · have : cleanStep rooted done p = p :: done := by
        unfold cleanStep
        rw [if_neg hp, if_neg (Ne.symm h1.1), if_neg (Ne.symm h2.1)]
      rw [this]
      simp [hp]

theorem absolute_eq : ∀ (ps : List Text), ps ≠ [] → absolute ps = '/' :: joinText t!"/" ps
  | [], h => absurd rfl h
  | [p], _ => by simp [absolute, joinText]
  | p :: q :: ps, _ => by
    have ih := absolute_eq (q :: ps) (by simp)
    rw [joinText_cons _ _ _ (by simp)]
    simp only [absolute, List.flatMap_cons] at ih ⊢
    rw [ih]; simp

/-- Cleaning a path that begins with a slash. -/
theorem clean_rooted (t : Text) (h : t.head? = some '/') (hd : NoDots t) (hne : partsOf t ≠ []) :
    clean t = absolute (partsOf t) := by
  rw [clean, h]
  simp only [beq_self_eq_true, foldl_cleanStep _ _ _ hd.1 hd.2, List.append_nil,
    List.reverse_reverse, if_true]
  rw [absolute_eq _ hne, if_neg (by simp)]
  rfl

/-- Cleaning a path that doesn't begin with a slash. -/
theorem clean_relative (t : Text) (h : t.head? ≠ some '/') (hd : NoDots t) (hne : partsOf t ≠ []) :
    clean t = (absolute (partsOf t)).tail := by
  have hb : (t.head? == some '/') = false := by simpa using h
  rw [clean, hb]
  simp only [foldl_cleanStep _ _ _ hd.1 hd.2, List.append_nil, List.reverse_reverse]
  rw [absolute_eq _ hne, List.tail_cons]
  simp only [Bool.false_eq_true, if_false, List.nil_append]
  rw [if_neg]
  · rfl
  · intro e
    have : ∀ ps : List Text, ps ≠ [] → (∀ p ∈ ps, p ≠ []) → joinText t!"/" ps ≠ [] := by
      intro ps hps hall
      cases ps with
      | nil => exact absurd rfl hps
      | cons p ps =>
        have hp := hall p List.mem_cons_self
        cases ps with
        | nil => simpa [joinText] using hp
        | cons q qs => rw [joinText_cons _ _ _ (by simp)]; simp [hp]
    exact this _ hne (by intro p hp; simpa using (List.mem_filter.1 hp).2) e

theorem partsOf_append (a b : Text) : partsOf (a ++ '/' :: b) = partsOf a ++ partsOf b := by
  simp [partsOf, splitOn_append_sep]

theorem noDots_append (a b : Text) : NoDots (a ++ '/' :: b) ↔ NoDots a ∧ NoDots b := by
  simp only [NoDots, splitOn_append_sep, List.mem_append, not_or]
  exact ⟨fun h => ⟨⟨h.1.1, h.2.1⟩, h.1.2, h.2.2⟩, fun h => ⟨⟨h.1.1, h.2.1⟩, h.1.2, h.2.2⟩⟩

theorem PlainSegment.partsOf {s : Text} (h : PlainSegment s) : Verif.partsOf s = [s] := by
  simp [Verif.partsOf, splitOn_of_not_mem _ _ h.2.1, h.1]

theorem PlainSegment.noDots {s : Text} (h : PlainSegment s) : NoDots s := by
  simp only [NoDots, splitOn_of_not_mem _ _ h.2.1, List.mem_singleton]
  exact ⟨Ne.symm h.2.2.1, Ne.symm h.2.2.2⟩

theorem splitOn_absolute : ∀ (ps : List Text), (∀ p ∈ ps, '/' ∉ p) →
    splitOn '/' (absolute ps) = [] :: ps
  | [], _ => rfl
  | p :: ps, h => by
    have ih := splitOn_absolute ps fun q hq => h q (List.mem_cons_of_mem _ hq)
    have e : absolute (p :: ps) = [] ++ '/' :: (p ++ absolute ps) := by
      simp [absolute]
    rw [e, splitOn_append_sep]
    cases ps with
    | nil =>
      rw [show absolute [] = ([] : Text) from rfl, List.append_nil,
        splitOn_of_not_mem _ _ (h p List.mem_cons_self)]
      rfl
    | cons q qs =>
      have e2 : absolute (q :: qs) = '/' :: (q ++ absolute qs) := by simp [absolute]
      rw [e2, splitOn_append_of_not_mem _ _ _ (h p List.mem_cons_self)]
      rw [e2] at ih
      simp only [splitOn, if_true, List.cons.injEq, true_and] at ih
      rw [ih]; rfl

theorem partsOf_absolute (ps : List Text) (h : ∀ p ∈ ps, PlainSegment p) :
    partsOf (absolute ps) = ps := by
  rw [partsOf, splitOn_absolute ps fun p hp => (h p hp).2.1]
  simp only [ne_eq, decide_not, List.filter_cons, decide_true, Bool.not_true]
  simp only [Bool.false_eq_true, if_false]
  rw [List.filter_eq_self]
  intro p hp
  simp [(h p hp).1]

theorem noDots_absolute (ps : List Text) (h : ∀ p ∈ ps, PlainSegment p) : NoDots (absolute ps) := by
  rw [NoDots, splitOn_absolute ps fun p hp => (h p hp).2.1]
  simp only [List.mem_cons, not_or]
  exact ⟨⟨by simp, fun hm => (h _ hm).2.2.1 rfl⟩, by simp, fun hm => (h _ hm).2.2.2 rfl⟩

theorem absolute_head (ps : List Text) (h : ps ≠ []) : (absolute ps).head? = some '/' := by
  rw [absolute_eq ps h]; rfl

theorem absolute_append (a b : List Text) : absolute (a ++ b) = absolute a ++ absolute b := by
  simp [absolute]

/-- Joining a path that begins with a slash and a text. -/
theorem join_rooted (base t : Text) (hb : base.head? = some '/') (h1 : NoDots base) (h2 : NoDots t)
    (hne : partsOf base ++ partsOf t ≠ []) :
    join [base, t] = absolute (partsOf base ++ partsOf t) := by
  have hbn : base ≠ [] := by intro e; simp [e] at hb
  rw [join, if_neg hbn]
  have e : joinText t!"/" [base, t] = base ++ '/' :: t := by simp [joinText]
  rw [e, clean_rooted, partsOf_append]
  · cases base with
    | nil => exact absurd rfl hbn
    | cons c cs => simpa using hb
  · exact (noDots_append _ _).2 ⟨h1, h2⟩
  · rwa [partsOf_append]

theorem join_absolute (ps : List Text) (hne : ps ≠ []) (hp : ∀ p ∈ ps, PlainSegment p) (t : Text)
    (h : NoDots t) : join [absolute ps, t] = absolute (ps ++ partsOf t) := by
  rw [join_rooted _ _ (absolute_head ps hne) (noDots_absolute ps hp) h, partsOf_absolute ps hp]
  rw [partsOf_absolute ps hp]
  simp [hne]

theorem locatorPath_eq (path : Text) (hop : Hop) :
    locatorPath path hop = join [path, hopPart hop] := by
  unfold locatorPath hopPart
  split <;> rfl

theorem clientPath_absolute : ∀ (hops : List Hop) (ps : List Text), ps ≠ [] →
    (∀ p ∈ ps, PlainSegment p) → (∀ h ∈ hops, PlainSegment (hopPart h)) →
    clientPath (absolute ps) hops = absolute (ps ++ hops.map hopPart)
  | [], ps, _, _, _ => by simp [clientPath]
  | h :: hs, ps, hne, hp, hh => by
    have hplain := hh h List.mem_cons_self
    have e : clientPath (absolute ps) (h :: hs)
        = clientPath (locatorPath (absolute ps) h) hs := rfl
    rw [e, locatorPath_eq, join_absolute ps hne hp _ hplain.noDots, hplain.partsOf,
      clientPath_absolute hs (ps ++ [hopPart h]) (by simp) _
        fun k hk => hh k (List.mem_cons_of_mem _ hk)]
    · simp
    · intro p hm
      rcases List.mem_append.1 hm with hm | hm
      · exact hp p hm
      · rw [List.mem_singleton.1 hm]; exact hplain

theorem methodPath_absolute (m : Method) (ps : List Text) (hne : ps ≠ [])
    (hp : ∀ p ∈ ps, PlainSegment p) (hm : ∀ p ∈ methodParts m, PlainSegment p) :
    methodPath (absolute ps) m = absolute (ps ++ methodParts m) := by
  unfold methodPath methodParts at *
  by_cases h : Binding.methodSegment m = []
  · simp [h]
  · rw [if_neg h] at hm ⊢
    have hs := hm _ List.mem_cons_self
    rw [if_pos h, join_absolute ps hne hp _ hs.noDots, hs.partsOf]

theorem fillTemplate_plain : ∀ (as ps vs : List Text), (∀ a ∈ as, isTemplateVariable a = false) →
    fillTemplate (as ++ ps) vs = (fillTemplate ps vs).map (as ++ ·)
  | [], ps, vs, _ => by simp
  | a :: as, ps, vs, h => by
    rw [List.cons_append, fillTemplate.eq_def]
    simp only [h a List.mem_cons_self, Bool.false_eq_true, if_false]
    rw [fillTemplate_plain as ps vs fun b hb => h b (List.mem_cons_of_mem _ hb)]
    simp [Function.comp_def]

theorem isTemplateVariable_brackets (s : Text) : isTemplateVariable (t!"{" ++ s ++ t!"}") = true := by
  have e : t!"{" ++ s ++ t!"}" = ('{' :: s) ++ ['}'] := rfl
  rw [isTemplateVariable, e, List.getLast?_concat]
  rfl

theorem fillTemplate_hops : ∀ (hops : List Hop) (ps vs : List Text),
    (∀ h ∈ hops, h.locator.isVariable = false →
      isTemplateVariable (Binding.locatorSegment h.locator) = false) →
    fillTemplate ((hops.map fun h => OpenApi.locatorTemplate h.locator) ++ ps) (hopIds hops ++ vs)
      = (fillTemplate ps vs).map (hops.map hopPart ++ ·)
  | [], ps, vs, _ => by simp [hopIds]
  | h :: hs, ps, vs, hh => by
    have ih := fillTemplate_hops hs ps vs fun k hk => hh k (List.mem_cons_of_mem _ hk)
    rw [List.map_cons, List.cons_append, fillTemplate.eq_def]
    cases hv : h.locator.isVariable with
    | true =>
      have e : isTemplateVariable (OpenApi.locatorTemplate h.locator) = true := by
        rw [OpenApi.locatorTemplate, if_pos hv, List.append_assoc t!"{"]
        exact isTemplateVariable_brackets _
      have ei : hopIds (h :: hs) = h.id :: hopIds hs := by simp [hopIds, hv]
      simp only [e, if_true, ei, List.cons_append]
      rw [ih]
      simp [hopPart, hv, Function.comp_def]
    | false =>
      have e : OpenApi.locatorTemplate h.locator = Binding.locatorSegment h.locator := by
        rw [OpenApi.locatorTemplate, hv]; rfl
      have ei : hopIds (h :: hs) = hopIds hs := by simp [hopIds, hv]
      simp only [e, hh h List.mem_cons_self hv, Bool.false_eq_true, if_false, ei]
      rw [ih]
      simp [hopPart, hv, Function.comp_def]

end Verif
