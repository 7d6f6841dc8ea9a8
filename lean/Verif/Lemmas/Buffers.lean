import Verif.Spec.Buffers
import Verif.Lemmas.ClientPaths
import Verif.Lemmas.Char
import Verif.Props.GoNames

/-! Lemmas about the paths of buffers. -/

namespace Verif.Buffers

open GoPath

/-- What the parts of a clean path are. -/
def Part (p : Text) : Prop := p ≠ [] ∧ p ≠ t!"." ∧ '/' ∉ p

theorem cleanStep_part (rooted : Bool) (done : List Text) (p : Text) (hd : ∀ q ∈ done, Part q) (hp : '/' ∉ p) :
    ∀ q ∈ cleanStep rooted done p, Part q := by
  unfold cleanStep
  split
  · exact hd
  rename_i h1
  split
  · exact hd
  rename_i h2
  have hpp : Part p := ⟨h1, h2, hp⟩
  split
  · cases done with
    | nil =>
      dsimp only
      split
      · simp
      · intro q hq; rw [List.mem_singleton.1 hq]; exact hpp
    | cons l b =>
      dsimp only
      split
      · intro q hq
        rcases List.mem_cons.1 hq with rfl | hq
        · exact hpp
        · exact hd q hq
      · exact fun q hq => hd q (List.mem_cons_of_mem _ hq)
  · intro q hq
    rcases List.mem_cons.1 hq with rfl | hq
    · exact hpp
    · exact hd q hq

theorem foldl_part (rooted : Bool) : ∀ (ps done : List Text), (∀ q ∈ done, Part q) → (∀ p ∈ ps, '/' ∉ p) →
    ∀ q ∈ ps.foldl (cleanStep rooted) done, Part q
  | [], _, hd, _ => hd
  | p :: ps, done, hd, hp => by
    rw [List.foldl_cons]
    exact foldl_part rooted ps _ (cleanStep_part rooted done p hd (hp p List.mem_cons_self))
      (fun q hq => hp q (List.mem_cons_of_mem _ hq))

theorem not_mem_splitOn (sep : Char) : ∀ (t : Text), ∀ p ∈ splitOn sep t, sep ∉ p
  | [] => by simp [splitOn]
  | c :: cs => by
    have ih := not_mem_splitOn sep cs
    simp only [splitOn]
    split
    · intro p hp
      rcases List.mem_cons.1 hp with rfl | hp
      · simp
      · exact ih p hp
    · rename_i hc
      cases h : splitOn sep cs with
      | nil => exact absurd h (splitOn_ne_nil _ _)
      | cons w ws =>
        rw [h] at ih
        intro p hp
        rcases List.mem_cons.1 hp with rfl | hp
        · have := ih w List.mem_cons_self
          simp only [List.mem_cons, not_or]
          exact ⟨fun e => hc (by simp [e]), this⟩
        · exact ih p (List.mem_cons_of_mem _ hp)

theorem joinText_append (a b : List Text) (ha : a ≠ []) (hb : b ≠ []) :
    joinText t!"/" (a ++ b) = joinText t!"/" a ++ '/' :: joinText t!"/" b := by
  induction a with
  | nil => exact absurd rfl ha
  | cons p ps ih =>
    cases ps with
    | nil =>
      rw [List.singleton_append, joinText_cons _ _ _ hb]
      simp [joinText]
    | cons q qs =>
      rw [List.cons_append, joinText_cons _ _ _ (by simp), ih (by simp), joinText_cons _ p (q :: qs) (by simp)]
      simp

theorem joinText_parts (ps : List Text) (hp : ∀ p ∈ ps, Part p) (hne : ps ≠ []) :
    joinText t!"/" ps ≠ [] ∧ joinText t!"/" ps ≠ t!"." ∧ joinText t!"/" ps ≠ t!"/" := by
  cases ps with
  | nil => exact absurd rfl hne
  | cons p ps =>
    obtain ⟨h1, h2, h3⟩ := hp p List.mem_cons_self
    cases ps with
    | nil =>
      simp only [joinText]
      exact ⟨h1, h2, fun e => h3 (by rw [e]; decide)⟩
    | cons q qs =>
      rw [joinText_cons _ _ _ (by simp)]
      cases p with
      | nil => exact absurd rfl h1
      | cons c cs => refine ⟨by simp, ?_, ?_⟩ <;> (intro e; have := congrArg List.length e; simp at this)

/-- Cleaning a path that begins with any directory. -/
theorem clean_under (dir tail : Text) (hd : dir ≠ []) (hn : NoDots tail) (ht : partsOf tail ≠ []) :
    clean (dir ++ '/' :: tail) = under (clean dir) (joinText t!"/" (partsOf tail)) := by
  have hh : (dir ++ '/' :: tail).head? = dir.head? := by
    cases dir with
    | nil => exact absurd rfl hd
    | cons c cs => rfl
  have hb : joinText t!"/" (partsOf tail) ≠ [] := by
    cases hq : partsOf tail with
    | nil => exact absurd hq ht
    | cons p ps =>
      have hp : p ≠ [] := by
        have : p ∈ partsOf tail := by rw [hq]; exact List.mem_cons_self
        simpa using (List.mem_filter.1 this).2
      cases ps with
      | nil => simpa [joinText] using hp
      | cons q qs => rw [joinText_cons _ _ _ (by simp)]; simp [hp]
  rw [clean, clean, hh]
  generalize (dir.head? == some '/') = rooted
  rw [splitOn_append_sep, List.foldl_append, foldl_cleanStep rooted _ _ hn.1 hn.2, List.reverse_append,
    List.reverse_reverse]
  have hpart := foldl_part rooted (splitOn '/' dir) [] (by simp) (not_mem_splitOn '/' dir)
  generalize (splitOn '/' dir).foldl (cleanStep rooted) [] = done at hpart ⊢
  change (if (if rooted then t!"/" else []) ++ joinText t!"/" (done.reverse ++ partsOf tail) = [] then t!"."
    else (if rooted then t!"/" else []) ++ joinText t!"/" (done.reverse ++ partsOf tail)) = _
  by_cases he : done = []
  · subst he
    cases rooted
    · simp [hb, under, joinText]
    · simp [under, joinText]
  · have hr : done.reverse ≠ [] := by simpa using he
    have hp' : ∀ p ∈ done.reverse, Part p := fun p hp => hpart p (List.mem_reverse.1 hp)
    obtain ⟨h1, h2, h3⟩ := joinText_parts _ hp' hr
    rw [joinText_append _ _ hr ht]
    cases rooted
    · simp [h1, h2, h3, under]
    · simp [h1, under]

theorem joinText_relative (ps : List Text) (h : ps ≠ []) : joinText t!"/" ps = relative ps := by
  rw [relative, absolute_eq ps h, List.tail_cons]

theorem clean_slash (dir : Text) (hd : dir ≠ []) : clean (dir ++ '/' :: []) = clean dir := by
  have hh : (dir ++ '/' :: []).head? = dir.head? := by
    cases dir with
    | nil => exact absurd rfl hd
    | cons c cs => rfl
  rw [clean, clean, hh, splitOn_append_sep, List.foldl_append]
  rfl

theorem relative_parts (ps : List Text) (h : ∀ p ∈ ps, PlainSegment p) :
    NoDots (relative ps) ∧ partsOf (relative ps) = ps := by
  cases ps with
  | nil => exact ⟨⟨by decide, by decide⟩, by decide⟩
  | cons p qs =>
    have e : absolute (p :: qs) = [] ++ '/' :: relative (p :: qs) := by simp [relative, absolute]
    have h1 := noDots_absolute _ h
    have h2 := partsOf_absolute _ h
    rw [e] at h1 h2
    rw [partsOf_append] at h2
    exact ⟨((noDots_append _ _).1 h1).2, h2⟩

/-- The characters of a path aren't changed by the conversion to lower case. -/
theorem toLower_special (c d : Char) (hd : d = '.' ∨ d = '/') : c.toLower = d ↔ c = d := by
  have hn : d.toNat = 46 ∨ d.toNat = 47 := by rcases hd with rfl | rfl <;> decide
  rw [char_eq_iff, char_eq_iff, toNat_toLower]
  split <;> omega

theorem flatten_splitOn (sep : Char) : ∀ (t : Text), (splitOn sep t).flatten = t.filter (· ≠ sep)
  | [] => by simp [splitOn]
  | c :: cs => by
    have ih := flatten_splitOn sep cs
    simp only [splitOn]
    split
    · rename_i hc
      subst hc
      simpa using ih
    · rename_i hc
      cases h : splitOn sep cs with
      | nil => exact absurd h (splitOn_ne_nil _ _)
      | cons w ws =>
        rw [h] at ih
        simp only [List.flatten_cons, List.cons_append] at ih ⊢
        rw [ih]
        simp [hc]

theorem servicePackage_directory (dir : Text) :
    Go.servicePackage (parseUsingSeparator dir '_') = (dir.filter (· ≠ '_')).map Char.toLower := by
  rw [c35_service_package, flatName, parseUsingSeparator, List.map_map, ← flatten_splitOn, List.map_flatten]
  rfl

theorem joinText_splitOn_lower (t : Text) :
    joinText t!"_" ((splitOn '_' t).map (fun w => w.map Char.toLower)) = t.map Char.toLower := by
  induction t with
  | nil => rfl
  | cons c cs ih =>
    simp only [splitOn]
    split
    · rename_i hc
      rw [List.map_cons, joinText_cons _ _ _ (by simpa using splitOn_ne_nil _ _), ih]
      subst hc
      rfl
    · cases h : splitOn '_' cs with
      | nil => exact absurd h (splitOn_ne_nil _ _)
      | cons w ws =>
        rw [h] at ih
        cases ws with
        | nil =>
          simp only [List.map_cons, List.map_nil, joinText] at ih ⊢
          rw [ih]
        | cons x xs =>
          rw [List.map_cons, joinText_cons _ _ _ (by simp)] at ih ⊢
          simp only [List.map_cons, List.cons_append] at ih ⊢
          rw [ih]

theorem plain_lower (t : Text) (h : PlainSegment t) : PlainSegment (t.map Char.toLower) := by
  refine ⟨by simpa using h.1, ?_, ?_, ?_⟩
  · intro hm
    obtain ⟨c, hc, he⟩ := List.mem_map.1 hm
    rw [toLower_special c '/' (Or.inr rfl)] at he
    exact h.2.1 (he ▸ hc)
  · have := h.2.2.1
    rcases t with _ | ⟨a, _ | ⟨b, t⟩⟩ <;> simp_all [toLower_special]
  · have := h.2.2.2
    rcases t with _ | ⟨a, _ | ⟨b, _ | ⟨c, t⟩⟩⟩ <;> simp_all [toLower_special]

theorem snake_directory (dir : Text) : (parseUsingSeparator dir '_').lowerJoined t!"_" = dir.map Char.toLower := by
  rw [Name.lowerJoined, parseUsingSeparator, List.map_map, ← joinText_splitOn_lower]
  rfl

/-- Joining parts of paths. -/
theorem join_plain (ps : List Text) (hne : ps ≠ []) (h : ∀ p ∈ ps, PlainSegment p) : join ps = relative ps := by
  obtain ⟨h1, h2⟩ := relative_parts ps h
  cases ps with
  | nil => exact absurd rfl hne
  | cons p qs =>
    obtain ⟨hp1, hp2, _⟩ := h p List.mem_cons_self
    have hh : (relative (p :: qs)).head? ≠ some '/' := by
      cases p with
      | nil => exact absurd rfl hp1
      | cons c cs =>
        simp only [List.mem_cons, not_or] at hp2
        simp only [relative, absolute, List.flatMap_cons, List.cons_append, List.tail_cons, List.head?_cons, ne_eq,
          Option.some.injEq]
        exact fun e => hp2.1 e.symm
    rw [join, if_neg hp1, joinText_relative _ hne, clean_relative _ hh h1 (by rw [h2]; simp), h2, relative]

variable {ρ φ : Type}

/-- The functions that have been added to a builder by a sequence of calls. -/
theorem lastAdded_go (calls : List (Text × φ)) (b : GoBuilder ρ φ) (name : Text) :
    (calls.foldl (fun b c => b.function c.1 c.2) b).functions name =
      (lastAdded calls name).or (b.functions name) := by
  induction calls generalizing b with
  | nil => rfl
  | cons c cs ih =>
    rw [List.foldl_cons, ih, lastAdded, lastAdded, List.reverse_cons, List.find?_append]
    cases (cs.reverse.find? fun c => decide (c.1 = name)) with
    | some x => rfl
    | none =>
      by_cases h : c.1 = name
      · simp [GoBuilder.function, h]
      · simp [GoBuilder.function, h, Ne.symm h]

theorem lastAdded_doc (calls : List (Text × φ)) (b : DocBuilder ρ φ) (name : Text) :
    (calls.foldl (fun b c => b.function c.1 c.2) b).functions name =
      (lastAdded calls name).or (b.functions name) := by
  induction calls generalizing b with
  | nil => rfl
  | cons c cs ih =>
    rw [List.foldl_cons, ih, lastAdded, lastAdded, List.reverse_cons, List.find?_append]
    cases (cs.reverse.find? fun c => decide (c.1 = name)) with
    | some x => rfl
    | none =>
      by_cases h : c.1 = name
      · simp [DocBuilder.function, h]
      · simp [DocBuilder.function, h, Ne.symm h]

end Verif.Buffers
