import Verif.Spec.Names
import Verif.Lemmas.Names
import Verif.Lemmas.Char

/-! Helper lemmas about the parser of camel case. -/

namespace Verif

theorem splitCase_flatten (buf t : Text) : (splitCase buf t).flatten = buf ++ t := by
  fun_induction splitCase buf t <;> simp_all

/-- Chunks that are not empty and alternate between lower case and not lower case. -/
def Alternate (b : Bool) : List Text → Prop
  | [] => True
  | c :: cs => c ≠ [] ∧ (∀ x ∈ c, x.isLower = b) ∧ Alternate (!b) cs

theorem splitCase_alternate (buf t : Text) (b : Bool) (hb : ∀ x ∈ buf, x.isLower = b)
    (ht : ∃ c cs, t = c :: cs ∧ c.isLower = b) : Alternate b (splitCase buf t) := by
  fun_induction splitCase buf t generalizing b with
  | case1 => simp at ht
  | case2 buf r =>
    obtain ⟨c, cs, h, hc⟩ := ht
    simp only [List.cons.injEq] at h
    obtain ⟨rfl, rfl⟩ := h
    refine ⟨by simp, ?_, trivial⟩
    intro x hx
    rcases List.mem_append.mp hx with hx | hx
    · exact hb x hx
    · simp only [List.mem_singleton] at hx; rw [hx]; exact hc
  | case3 buf current next rest h ih =>
    obtain ⟨c, cs, he, hc⟩ := ht
    simp only [List.cons.injEq] at he
    obtain ⟨rfl, rfl⟩ := he
    refine ⟨by simp, ?_, ?_⟩
    · intro x hx
      rcases List.mem_append.mp hx with hx | hx
      · exact hb x hx
      · simp only [List.mem_singleton] at hx; rw [hx]; exact hc
    · apply ih
      · simp
      · refine ⟨next, rest, rfl, ?_⟩
        subst hc
        revert h
        cases current.isLower <;> cases next.isLower <;> simp
  | case4 buf current next rest h ih =>
    obtain ⟨c, cs, he, hc⟩ := ht
    simp only [List.cons.injEq] at he
    obtain ⟨rfl, rfl⟩ := he
    apply ih
    · intro x hx
      rcases List.mem_append.mp hx with hx | hx
      · exact hb x hx
      · simp only [List.mem_singleton] at hx; rw [hx]; exact hc
    · refine ⟨next, rest, rfl, ?_⟩
      subst hc
      revert h
      cases current.isLower <;> cases next.isLower <;> simp

theorem caseChunks_eq (t : Text) (h : t ≠ []) : caseChunks t = splitCase [] t := by
  unfold caseChunks
  match t, h with
  | [c], _ => simp [splitCase]
  | c :: d :: rest, _ => simp

theorem parseUsingCase_eq (t : Text) (h : t ≠ []) :
    parseUsingCase t = parseChunks t (splitCase [] t) := by
  unfold parseUsingCase
  rw [caseChunks_eq t h]
  have hf := splitCase_flatten [] t
  match hs : splitCase [] t with
  | [] => rw [hs] at hf; simp at hf; exact absurd hf h
  | [c] => rw [hs] at hf; simp at hf; simp [parseChunks, hf]
  | c :: d :: rest => simp

theorem toLower_append (a b : Text) : toLower (a ++ b) = toLower a ++ toLower b := by
  simp [toLower]

theorem toLower_toLower (t : Text) : toLower (toLower t) = toLower t := by
  simp [toLower, toLower_toLower_char]

theorem toLower_length (t : Text) : (toLower t).length = t.length := by simp [toLower]

theorem parseWord_text (t : Text) : toLower (parseWord t).text = toLower t := by
  unfold parseWord
  split
  · rfl
  · simp [newWord, toLower_toLower]

theorem parseWord_ne_nil (t : Text) (h : t ≠ []) : (parseWord t).text ≠ [] := by
  unfold parseWord
  split
  · exact h
  · simpa [newWord, toLower] using h

theorem isUpperText_of (c : Text) (ha : Alphanumeric c) (hl : ∀ x ∈ c, x.isLower = false) :
    isUpperText c = true := by
  simp only [isUpperText, List.all_eq_true]
  intro x hx
  exact upper_or_digit_of_alphanum x (ha x hx) (hl x hx)

theorem isLowerText_of (c : Text) (hl : ∀ x ∈ c, x.isLower = true) : isLowerText c = true := by
  simpa [isLowerText, List.all_eq_true] using hl

theorem isUpperText_lower (c : Text) (h : c ≠ []) (hl : ∀ x ∈ c, x.isLower = true) :
    isUpperText c = false := by
  cases c with
  | nil => exact absurd rfl h
  | cons x xs =>
    have hx := hl x (by simp)
    have : (x.isUpper || x.isDigit) = false := by
      cases hd : (x.isUpper || x.isDigit) with
      | false => rfl
      | true => rw [isLower_of_upper_or_digit x hd] at hx; simp at hx
    simp [isUpperText, List.all_cons, this]

theorem dropLast_append_drop (c : Text) : c.dropLast ++ c.drop (c.length - 1) = c := by
  rw [List.dropLast_eq_take]; exact List.take_append_drop _ _

/-- The spelling of the words produced from chunks that start with one that isn't lower case. -/
theorem parseChunks_spells (text : Text) (cs : List Text) (ha : ∀ c ∈ cs, Alphanumeric c)
    (h : Alternate false cs) :
    ((parseChunks text cs).map fun w => toLower w.text).flatten = toLower cs.flatten ∧
    ∀ w ∈ parseChunks text cs, w.text ≠ [] := by
  match cs with
  | [] => simp [parseChunks, toLower]
  | [c] =>
    obtain ⟨hne, hl, -⟩ := h
    simp [parseChunks, parseWord_text, parseWord_ne_nil c hne]
  | c :: n :: rest =>
    obtain ⟨hne, hl, hne', hl', hr⟩ := h
    have ihr := parseChunks_spells text rest (fun x hx => ha x (by simp [hx])) hr
    have hu := isUpperText_of c (ha c (by simp)) hl
    have hlow := isLowerText_of n hl'
    have hs : toLower t!"s" = t!"s" := by decide
    unfold parseChunks
    split
    · simp [newWord, toLower_append, toLower_toLower, ihr.1, hne']
      exact ihr.2
    · split
      · rename_i h2
        simp only [Bool.and_eq_true, beq_iff_eq] at h2
        obtain ⟨-, hn⟩ := h2
        subst hn
        refine ⟨?_, by simpa [newInitialism] using ihr.2⟩
        simp only [newInitialism, List.map_cons, List.flatten_cons, toLower_append, ihr.1,
          List.append_assoc]
      · rename_i h1 h2
        simp only [hu, hlow, Bool.and_self, ↓reduceIte]
        simp only [hu, hlow, Bool.and_true, beq_iff_eq] at h1
        have hlen : 2 ≤ c.length := by
          cases c with
          | nil => exact absurd rfl hne
          | cons a as =>
            cases as with
            | nil => simp at h1
            | cons b bs => simp
        constructor
        · simp only [newInitialism, newWord, List.map_cons, List.flatten_cons, toLower_append,
            toLower_toLower, ihr.1]
          rw [← List.append_assoc, ← List.append_assoc, ← toLower_append, dropLast_append_drop,
            List.append_assoc]
        · intro w hw
          simp only [List.mem_cons] at hw
          rcases hw with rfl | rfl | hw
          · simp only [newInitialism, ne_eq]
            intro e
            have := congrArg List.length e
            simp at this
            omega
          · simp [newWord, hne']
          · exact ihr.2 w hw
termination_by cs.length

theorem parseChunks_lower_first (text : Text) (c n : Text) (rest : List Text) (h : c ≠ [])
    (hl : ∀ x ∈ c, x.isLower = true) :
    parseChunks text (c :: n :: rest) = parseWord text :: parseChunks text (n :: rest) := by
  have := isUpperText_lower c h hl
  simp [parseChunks, this]

theorem alphanumeric_all {cs : List Text} (ha : Alphanumeric cs.flatten) : ∀ c ∈ cs, Alphanumeric c := by
  intro c hc x hx
  exact ha x (List.mem_flatten.mpr ⟨c, hc, hx⟩)

/-! ## Canonical names -/

theorem splitCase_run (b : Bool) (buf u r : Text) (hu : ∀ x ∈ u, x.isLower = b) (hne : u ≠ [])
    (hr : ∃ c cs, r = c :: cs ∧ c.isLower = !b) :
    splitCase buf (u ++ r) = (buf ++ u) :: splitCase [] r := by
  obtain ⟨c, cs, rfl, hc⟩ := hr
  induction u generalizing buf with
  | nil => exact absurd rfl hne
  | cons x xs ih =>
    have hx := hu x (by simp)
    cases xs with
    | nil =>
      simp only [List.cons_append, List.nil_append, splitCase, hx, hc]
      cases b <;> simp
    | cons y ys =>
      have hy := hu y (by simp)
      simp only [List.cons_append, splitCase, hx, hy]
      have := ih (buf ++ [x]) (fun z hz => hu z (by simp [hz])) (by simp)
      simp only [List.cons_append] at this
      simp [this]

theorem splitCase_run_end (b : Bool) (buf u : Text) (hu : ∀ x ∈ u, x.isLower = b) :
    splitCase buf u = [buf ++ u] := by
  induction u generalizing buf with
  | nil => simp [splitCase]
  | cons x xs ih =>
    have hx := hu x (by simp)
    cases xs with
    | nil => simp [splitCase]
    | cons y ys =>
      have hy := hu y (by simp)
      have := ih (buf ++ [x]) (fun z hz => hu z (by simp [hz]))
      simp [splitCase, hx, hy, this]

/-- The first character isn't a lower case letter. -/
theorem capitalize_plain (w : Word) (h : w.Plain) :
    ∃ c cs, w.text = c :: cs ∧ w.capitalize = c.toUpper :: cs ∧ w = newWord (c :: cs) ∧
      (c.toUpper.isUpper || c.toUpper.isDigit) = true ∧ c.toUpper.toLower = c ∧
      ∀ x ∈ cs, x.isLower = true := by
  obtain ⟨hi, c, cs, ht, hc, hcs⟩ := h
  refine ⟨c, cs, ht, ?_, ?_, isUpper_or_digit_toUpper c hc, toLower_toUpper_of c hc, hcs⟩
  · unfold Word.capitalize
    rw [hi, ht]
    simp only [Bool.false_eq_true, if_false, title, titleFrom]
    have hsp : isTitleSeparator ' ' = true := by decide
    rw [hsp]
    simp only [if_true, List.cons.injEq, true_and]
    have hsep : isTitleSeparator c = false := by
      have : c.isAlphanum = true := by
        rw [isAlphanum_iff]; rcases hc with h | h <;> simp [h]
      simp [isTitleSeparator, this]
    clear ht hc
    induction cs generalizing c with
    | nil => rfl
    | cons d ds ih =>
      simp only [titleFrom, hsep, Bool.false_eq_true, if_false]
      congr 1
      apply ih d (fun x hx => hcs x (by simp [hx]))
      have : d.isAlphanum = true := by rw [isAlphanum_iff]; simp [hcs d (by simp)]
      simp [isTitleSeparator, this]
  · cases w; simp_all [newWord]

theorem capitalize_initialism (w : Word) (h : w.initialism = true) : w.capitalize = w.text := by
  simp [Word.capitalize, h]

theorem camel_nil : Name.camel [] = [] := rfl

theorem camel_cons (w : Word) (n : Name) : Name.camel (w :: n) = w.capitalize ++ n.camel := by
  simp [Name.camel, Name.capitalizedJoined, joinText_nil_sep]

/-- The camel case of a canonical name starts with an upper case letter or digit. -/
theorem camel_starts (n : Name) (h : Canonical n) :
    ∃ c cs, n.camel = c :: cs ∧ (c.isUpper || c.isDigit) = true := by
  match n, h with
  | w :: rest, h =>
    rw [camel_cons]
    have : w.Plain ∨ w.Acronym ∨ w.Plural := by
      cases rest with
      | nil => rcases h with h | h | h <;> simp [h]
      | cons v vs => rcases h.2 with h | h | h <;> simp [h]
    rcases this with h | h | h
    · obtain ⟨c, cs, -, hc, -, hu, -⟩ := capitalize_plain w h
      exact ⟨_, _, by rw [hc]; rfl, hu⟩
    · obtain ⟨hi, hne, hu⟩ := h
      rw [capitalize_initialism w hi]
      match ht : w.text, hne with
      | c :: cs, _ => exact ⟨c, _, rfl, hu c (by simp [ht])⟩
    · obtain ⟨hi, u, ht, hlen, hu⟩ := h
      rw [capitalize_initialism w hi, ht]
      match u, hlen with
      | c :: cs, _ => exact ⟨c, _, rfl, hu c (by simp)⟩

theorem isUpperText_of' (u : Text) (h : ∀ x ∈ u, (x.isUpper || x.isDigit) = true) :
    isUpperText u = true := by
  simpa [isUpperText, List.all_eq_true] using h

theorem not_lower_of (u : Text) (h : ∀ x ∈ u, (x.isUpper || x.isDigit) = true) :
    ∀ x ∈ u, x.isLower = false :=
  fun x hx => isLower_of_upper_or_digit x (h x hx)

/-- Split of `upper lower rest`, where the rest is the camel case of a canonical name or nothing. -/
theorem splitCase_pair (u l : Text) (rest : Name)
    (hu : ∀ x ∈ u, (x.isUpper || x.isDigit) = true) (hune : u ≠ [])
    (hl : ∀ x ∈ l, x.isLower = true) (hlne : l ≠ [])
    (hr : rest = [] ∨ Canonical rest) :
    splitCase [] (u ++ l ++ rest.camel) =
      u :: l :: (if rest = [] then [] else splitCase [] rest.camel) := by
  rw [List.append_assoc, splitCase_run false [] u _ (not_lower_of u hu) hune]
  · simp only [List.nil_append, List.cons.injEq, true_and]
    rcases hr with rfl | hr
    · rw [camel_nil, List.append_nil, splitCase_run_end true [] l hl]; simp
    · obtain ⟨c, cs, hc, hcu⟩ := camel_starts rest hr
      have hne : rest ≠ [] := by rintro rfl; exact hr
      rw [splitCase_run true [] l _ hl hlne ⟨c, cs, hc, by
        rw [isLower_of_upper_or_digit c hcu]; rfl⟩]
      simp [hne]
  · match l, hlne with
    | c :: cs, _ => exact ⟨c, _, rfl, hl c (by simp)⟩

theorem parse_canonical (text : Text) (n : Name) (h : Canonical n) :
    parseChunks text (splitCase [] n.camel) = n := by
  match n, h with
  | [w], h =>
    rcases h with h | h | h
    · obtain ⟨c, cs, ht, hcap, hw, hup, hlow, hcs⟩ := capitalize_plain w h
      rw [camel_cons, hcap]
      cases cs with
      | nil =>
        rw [camel_nil]
        simp [splitCase, parseChunks, parseWord, toLower, hlow, hw]
      | cons d ds =>
        have := splitCase_pair [c.toUpper] (d :: ds) [] (by simpa using hup) (by simp) hcs (by simp)
          (Or.inl rfl)
        simp only [List.cons_append, List.nil_append] at this
        rw [List.cons_append, List.cons_append, this]
        have h1 : isUpperText [c.toUpper] = true := isUpperText_of' _ (by simpa using hup)
        have h2 := isLowerText_of (d :: ds) hcs
        simp [parseChunks, h1, h2, toLower, hlow, hw]
    · obtain ⟨⟨hi, hne, hu⟩, hlen⟩ := h
      rw [camel_cons, capitalize_initialism w hi, camel_nil, List.append_nil,
        splitCase_run_end false [] w.text (not_lower_of _ hu)]
      have h1 := isUpperText_of' _ hu
      simp only [List.nil_append, parseChunks, parseWord, h1]
      cases w; simp_all [newInitialism]
    · obtain ⟨hi, u, ht, hlen, hu⟩ := h
      have hne : u ≠ [] := by rintro rfl; simp at hlen
      have := splitCase_pair u ['s'] [] hu hne (by decide) (by simp) (Or.inl rfl)
      rw [camel_cons, capitalize_initialism w hi, ht, this]
      have h1 := isUpperText_of' _ hu
      have h3 : ¬ u.length = 1 := by omega
      simp only [parseChunks, h1, hlen]
      cases w; simp_all [newInitialism, parseChunks]
  | w :: v :: rest, ⟨hc, h⟩ =>
    have ih := parse_canonical text (v :: rest) hc
    rcases h with ⟨h, hlen⟩ | h | ⟨h, hv, hvlen, hvs⟩
    · obtain ⟨c, cs, ht, hcap, hw, hup, hlow, hcs⟩ := capitalize_plain w h
      rw [camel_cons, hcap]
      have hcsne : cs ≠ [] := by rintro rfl; simp [ht] at hlen
      have := splitCase_pair [c.toUpper] cs (v :: rest) (by simpa using hup) (by simp) hcs hcsne
        (Or.inr hc)
      simp only [List.cons_append, List.nil_append] at this
      rw [List.cons_append, this]
      have h1 : isUpperText [c.toUpper] = true := isUpperText_of' _ (by simpa using hup)
      have h2 := isLowerText_of cs hcs
      simp [parseChunks, h1, h2, toLower, hlow, hw, ih]
    · obtain ⟨hi, u, ht, hlen, hu⟩ := h
      have hne : u ≠ [] := by rintro rfl; simp at hlen
      have := splitCase_pair u ['s'] (v :: rest) hu hne (by decide) (by simp) (Or.inr hc)
      rw [camel_cons, capitalize_initialism w hi, ht, this]
      have h1 := isUpperText_of' _ hu
      have h3 : ¬ u.length = 1 := by omega
      simp only [parseChunks, h1, hlen]
      cases w; simp_all [newInitialism]
    · obtain ⟨hi, hne, hu⟩ := h
      obtain ⟨c, cs, ht, hcap, hw, hup, hlow, hcs⟩ := capitalize_plain v hv
      have hcsne : cs ≠ [] := by rintro rfl; simp [ht] at hvlen
      have hrest : rest = [] ∨ Canonical rest := by
        cases rest with
        | nil => exact Or.inl rfl
        | cons x xs => exact Or.inr hc.1
      have hu' : ∀ x ∈ w.text ++ [c.toUpper], (x.isUpper || x.isDigit) = true := by
        intro x hx
        rcases List.mem_append.mp hx with hx | hx
        · exact hu x hx
        · rw [List.mem_singleton.mp hx]; exact hup
      have := splitCase_pair (w.text ++ [c.toUpper]) cs rest hu' (by simp) hcs hcsne hrest
      rw [camel_cons, camel_cons, capitalize_initialism w hi, hcap]
      have e : w.text ++ (c.toUpper :: cs ++ Name.camel rest) =
          w.text ++ [c.toUpper] ++ cs ++ Name.camel rest := by simp
      rw [e, this]
      have h1 := isUpperText_of' _ hu'
      have h2 := isLowerText_of cs hcs
      have h3 : w.text.length ≠ 0 := by simpa using hne
      have h4 : cs ≠ ['s'] := by simpa [ht] using hvs
      have ihr : parseChunks text (if rest = [] then [] else splitCase [] (Name.camel rest)) = rest := by
        rcases hrest with rfl | hr
        · simp [parseChunks]
        · have : rest ≠ [] := by rintro rfl; exact hr
          simp only [this, if_false]
          exact parse_canonical text rest hr
      simp [parseChunks, h1, h2, h3, h4, toLower, hlow, hw]
      cases w; simp_all [newInitialism]
termination_by n.length

end Verif
