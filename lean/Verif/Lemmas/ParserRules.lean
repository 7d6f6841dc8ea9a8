import Verif.Lemmas.Parser

/-!
# Lemmas about the parser: members and declarations
-/

namespace Verif.Language

open Keyword

/-! ## Type references -/

theorem typeReference_sound : Sound typeReference IsTypeReference := by
  intro ls x rest h
  unfold typeReference at h
  split at h
  · next n1 n2 ls1 =>
    split at h
    · cases h
    · next e ls2 h1 =>
      cases h
      obtain ⟨n3, rfl⟩ := identifier_sound _ _ _ h1
      exact ⟨[⟨_, n1⟩] ++ [⟨_, n2⟩] ++ [⟨_, n3⟩], rfl, _, _, _, rfl, ⟨n1, rfl⟩, ⟨n2, rfl⟩, ⟨n3, rfl⟩⟩
  · next n1 ls1 _ =>
    split at h
    · cases h
    · next i ls2 h1 =>
      split at h
      · cases h
      · next ls3 h2 =>
        split at h
        · cases h
        · next e ls4 h3 =>
          cases h
          obtain ⟨n2, rfl⟩ := identifier_sound _ _ _ h1
          obtain ⟨n3, rfl⟩ := expect_sound _ _ _ h2
          obtain ⟨n4, rfl⟩ := identifier_sound _ _ _ h3
          exact ⟨[⟨_, n1⟩] ++ [⟨_, n2⟩] ++ [⟨_, n3⟩] ++ [⟨_, n4⟩], rfl, _, _, _, _, rfl, ⟨n1, rfl⟩,
            ⟨n2, rfl⟩, ⟨n3, rfl⟩, ⟨n4, rfl⟩⟩
  · split at h
    · cases h
    · next name ls1 h1 =>
      cases h
      obtain ⟨n1, rfl⟩ := identifier_sound _ _ _ h1
      exact ⟨[⟨_, n1⟩], rfl, n1, rfl⟩

theorem typeReference_complete : Complete typeReference IsTypeReference fun _ => False := by
  intro x used rest h _
  cases x with
  | plain name => obtain ⟨n, rfl⟩ := h; rfl
  | list e =>
    obtain ⟨a, b, c, rfl, ⟨n1, rfl⟩, ⟨n2, rfl⟩, ⟨n3, rfl⟩⟩ := h
    rfl
  | map i e =>
    obtain ⟨a, b, c, d, rfl, ⟨n1, rfl⟩, ⟨n2, rfl⟩, ⟨n3, rfl⟩, ⟨n4, rfl⟩⟩ := h
    show typeReference (⟨_, n1⟩ :: ⟨_, n2⟩ :: ⟨_, n3⟩ :: ⟨_, n4⟩ :: rest) = _
    unfold typeReference
    simp [identifier, expect]

/-! ## Nodes that start with annotations -/

/-- The first line of a node that starts with annotations. -/
theorem startLine_append (used rest : List Lexeme) (h : used ≠ []) :
    FirstLine (startLine (used ++ rest)) used := by
  cases used with
  | nil => exact absurd rfl h
  | cons l ls => exact ⟨l.token, ls, rfl⟩

theorem startLine_of (line : Nat) (used rest : List Lexeme) (h : FirstLine line used) :
    startLine (used ++ rest) = line := by
  obtain ⟨t, ls, rfl⟩ := h
  rfl

theorem annotated_starts (st : Token → Bool) (as : List AnnotationTree) (a b : List Lexeme)
    (h : Many IsAnnotation as a) (hat : st .atSign = true)
    (hb : ∃ l ls, b = l :: ls ∧ st l.token = true) :
    ∃ l ls, a ++ b = l :: ls ∧ st l.token = true := by
  cases h with
  | nil => exact hb
  | cons x xs c d hx _ =>
    obtain ⟨l, ls, rfl, hl⟩ := annotation_starts x c hx
    refine ⟨l, _, rfl, ?_⟩
    have : l.token = .atSign := by simpa using hl
    rw [this]; exact hat

/-! ## Members of enums -/

theorem enumMember_sound : Sound enumMember IsEnumMember := by
  intro ls x rest h
  unfold enumMember at h
  dsimp only at h
  split at h
  · cases h
  · next as ls1 h1 =>
    split at h
    · cases h
    · next name ls2 h2 =>
      cases h
      obtain ⟨a, rfl, ha⟩ := annotations_sound _ _ _ h1
      obtain ⟨b, e, hb⟩ := optional_sound (.keyword kwValue) ls1
      obtain ⟨n, hc⟩ := identifier_sound _ _ _ h2
      rw [hc] at e
      subst e
      have e : a ++ (b ++ ⟨.identifier name, n⟩ :: rest) =
          (a ++ b ++ [⟨.identifier name, n⟩]) ++ rest := by simp
      rw [e]
      exact ⟨_, rfl, startLine_append _ _ (by simp), a, b, _, rfl, ha, hb, ⟨n, rfl⟩⟩

theorem enumMember_complete : Complete enumMember IsEnumMember fun _ => False := by
  rintro ⟨line, as, name⟩ used rest ⟨hl, a, b, c, rfl, ha, hb, ⟨n, rfl⟩⟩ _
  unfold enumMember
  rw [startLine_of _ _ _ hl]
  have e : a ++ b ++ [⟨.identifier name, n⟩] ++ rest =
      a ++ (b ++ ⟨.identifier name, n⟩ :: rest) := by simp
  rw [e]
  rw [annotations_complete as a _ ha (by
    rcases hb with rfl | ⟨m, rfl⟩ <;> exact notNext_cons _ _ _ (by simp))]
  dsimp only
  rw [optional_complete _ b _ hb (notNext_cons _ _ _ (by simp)), identifier_cons]

theorem enumMember_starts : Starts IsEnumMember startsEnumMember := by
  rintro x used ⟨hl, a, b, c, rfl, ha, hb, ⟨n, rfl⟩⟩
  rw [List.append_assoc]
  refine annotated_starts _ _ a _ ha rfl ?_
  rcases hb with rfl | ⟨m, rfl⟩
  · exact ⟨_, _, rfl, rfl⟩
  · exact ⟨_, _, rfl, rfl⟩

/-! ## Members of classes and structs -/

theorem structMember_sound : Sound structMember IsStructMember := by
  intro ls x rest h
  unfold structMember at h
  dsimp only at h
  split at h
  · cases h
  · next as ls1 h1 =>
    obtain ⟨a, rfl, ha⟩ := annotations_sound _ _ _ h1
    have kind : ∃ b, ls1 = b ++ (if nextIs (.keyword kwLink) ls1 = true
        then optional (.keyword kwLink) ls1 else optional (.keyword kwAttribute) ls1) ∧
        IsAttributeKind (nextIs (.keyword kwLink) ls1) b := by
      by_cases hk : nextIs (.keyword kwLink) ls1 = true
      · rw [if_pos hk, hk]
        obtain ⟨n, rest', rfl⟩ := nextIs_true _ _ hk
        refine ⟨[⟨_, n⟩], ?_, .inl ⟨rfl, n, rfl⟩⟩
        simp [optional, expect]
      · rw [if_neg hk]
        obtain ⟨b, e, hb⟩ := optional_sound (.keyword kwAttribute) ls1
        exact ⟨b, e, .inr ⟨by simpa using hk, hb⟩⟩
    obtain ⟨b, e, hb⟩ := kind
    split at h
    · cases h
    · next name ls2 h2 =>
      split at h
      · cases h
      · next ref ls3 h3 =>
        cases h
        obtain ⟨n, hc⟩ := identifier_sound _ _ _ h2
        obtain ⟨d, rfl, hd⟩ := typeReference_sound _ _ _ h3
        rw [hc] at e
        generalize nextIs (.keyword kwLink) ls1 = link at hb ⊢
        subst e
        have e : a ++ (b ++ ⟨.identifier name, n⟩ :: (d ++ rest)) =
            (a ++ b ++ [⟨.identifier name, n⟩] ++ d) ++ rest := by simp
        rw [e]
        exact ⟨_, rfl, startLine_append _ _ (by simp), a, b, _, d, rfl, ha, hb, ⟨n, rfl⟩, hd⟩

theorem structMember_complete : Complete structMember IsStructMember fun _ => False := by
  rintro ⟨line, as, link, name, ref⟩ used rest ⟨hl, a, b, c, d, rfl, ha, hb, ⟨n, rfl⟩, hd⟩ hn
  unfold structMember
  rw [startLine_of _ _ _ hl]
  have e : a ++ b ++ [⟨.identifier name, n⟩] ++ d ++ rest =
      a ++ (b ++ ⟨.identifier name, n⟩ :: (d ++ rest)) := by simp
  rw [e]
  have hr := typeReference_complete ref d rest hd hn
  rcases hb with ⟨hlink, m, rfl⟩ | ⟨hlink, hb⟩
  · rw [List.singleton_append]
    rw [annotations_complete as a _ ha (notNext_cons _ _ _ (by simp))]
    dsimp only at hlink ⊢
    subst hlink
    rw [nextIs_cons, if_pos rfl]
    rw [show optional (.keyword kwLink) (⟨.keyword kwLink, m⟩ :: ⟨.identifier name, n⟩ :: (d ++ rest)) =
      ⟨.identifier name, n⟩ :: (d ++ rest) from by simp [optional, expect]]
    rw [identifier_cons]
    dsimp only
    rw [hr]
  · rw [annotations_complete as a _ ha (by
      rcases hb with rfl | ⟨m, rfl⟩ <;> exact notNext_cons _ _ _ (by simp))]
    dsimp only at hlink ⊢
    subst hlink
    have hk : nextIs (.keyword kwLink) (b ++ ⟨.identifier name, n⟩ :: (d ++ rest)) = false := by
      rcases hb with rfl | ⟨m, rfl⟩ <;> exact nextIs_ne _ _ (notNext_cons _ _ _ (by simp))
    rw [hk, if_neg (by decide), optional_complete _ b _ hb (notNext_cons _ _ _ (by simp)),
      identifier_cons]
    dsimp only
    rw [hr]

theorem structMember_starts : Starts IsStructMember startsStructMember := by
  rintro x used ⟨hl, a, b, c, d, rfl, ha, hb, ⟨n, rfl⟩, hd⟩
  rw [List.append_assoc, List.append_assoc]
  refine annotated_starts _ _ a _ ha rfl ?_
  rcases hb with ⟨_, m, rfl⟩ | ⟨_, rfl | ⟨m, rfl⟩⟩
  · exact ⟨_, _, rfl, rfl⟩
  · exact ⟨_, _, rfl, rfl⟩
  · exact ⟨_, _, rfl, rfl⟩

/-! ## Parameters of methods -/

theorem direction_sound : Sound direction IsDirection := by
  intro ls x rest h
  unfold direction at h
  split at h <;> first | cases h | skip
  all_goals exact ⟨[_], rfl, _, rfl⟩

theorem direction_complete : Complete direction IsDirection fun _ => False := by
  intro x used rest h _
  cases x <;> (obtain ⟨n, rfl⟩ := h; rfl)

/-- The tokens of directions. -/
def startsDirection (t : Token) : Bool := t = .keyword .kwIn || t = .keyword .kwOut

theorem direction_starts : Starts IsDirection startsDirection := by
  intro x used h
  cases x <;> (obtain ⟨n, rfl⟩ := h; exact ⟨_, _, rfl, rfl⟩)

theorem methodParameter_sound : Sound methodParameter IsMethodParameter := by
  intro ls x rest h
  unfold methodParameter at h
  dsimp only at h
  split at h
  · cases h
  · next as ls1 h1 =>
    obtain ⟨a, rfl, ha⟩ := annotations_sound _ _ _ h1
    obtain ⟨b, e, hb⟩ := optional_sound (.keyword kwParameter) ls1
    split at h
    · cases h
    · next ds ls2 h2 =>
      obtain ⟨⟨c, e2, hc⟩, _⟩ := loop_sound direction_sound _ _ _ h2
      rw [e2] at e
      subst e
      split at h
      · cases h
      · next name ls3 h3 =>
        obtain ⟨n, rfl⟩ := identifier_sound _ _ _ h3
        split at h
        · cases h
        · next ref ls4 h4 =>
          obtain ⟨r, rfl, hr⟩ := typeReference_sound _ _ _ h4
          split at h
          · cases h
            have e : a ++ (b ++ (c ++ ⟨.identifier name, n⟩ :: (r ++ rest))) =
                (a ++ b ++ c ++ [⟨.identifier name, n⟩] ++ r ++ []) ++ rest := by simp
            rw [e]
            exact ⟨_, rfl, startLine_append _ _ (by simp), a, b, c, _, r, [], rfl, ha, hb, hc,
              ⟨n, rfl⟩, hr, rfl⟩
          · next ls5 h5 =>
            obtain ⟨m, rfl⟩ := expect_sound _ _ _ h5
            split at h
            · cases h
            · next dflt ls6 h6 =>
              cases h
              obtain ⟨l, rfl, hl⟩ := literal_sound _ _ _ h6
              have e : a ++ (b ++ (c ++ ⟨.identifier name, n⟩ :: (r ++ ⟨.equalsSign, m⟩ ::
                  (l ++ rest)))) = (a ++ b ++ c ++ [⟨.identifier name, n⟩] ++ r ++
                  ([⟨.equalsSign, m⟩] ++ l)) ++ rest := by simp
              rw [e]
              exact ⟨_, rfl, startLine_append _ _ (by simp), a, b, c, _, r, _, rfl, ha, hb, hc,
                ⟨n, rfl⟩, hr, _, _, rfl, ⟨m, rfl⟩, hl⟩

theorem direction_first (ds : List Direction) (c : List Lexeme) (h : Many IsDirection ds c)
    (n : Nat) (name : Text) (rest : List Lexeme) (bad : Token → Prop)
    (h1 : ¬ bad (.keyword kwIn)) (h2 : ¬ bad (.keyword kwOut)) (h3 : ¬ bad (.identifier name)) :
    NotNext bad (c ++ ⟨.identifier name, n⟩ :: rest) := by
  cases h with
  | nil => exact notNext_cons _ _ _ h3
  | cons x xs d e hx _ =>
    cases x <;> (obtain ⟨m, rfl⟩ := hx)
    · exact notNext_cons _ _ _ h1
    · exact notNext_cons _ _ _ h2

theorem methodParameter_complete :
    Complete methodParameter IsMethodParameter fun t => t = .equalsSign := by
  rintro ⟨line, as, ds, name, ref, dflt⟩ used rest
    ⟨hl, a, b, c, d, r, f, rfl, ha, hb, hc, ⟨n, rfl⟩, hr, hf⟩ hn
  unfold methodParameter
  rw [startLine_of _ _ _ hl]
  have e : a ++ b ++ c ++ [⟨.identifier name, n⟩] ++ r ++ f ++ rest =
      a ++ (b ++ (c ++ ⟨.identifier name, n⟩ :: (r ++ (f ++ rest)))) := by simp
  rw [e]
  rw [annotations_complete as a _ ha (by
    rcases hb with rfl | ⟨m, rfl⟩
    · exact direction_first ds c hc n name _ _ (by simp) (by simp) (by simp)
    · exact notNext_cons _ _ _ (by simp))]
  dsimp only
  rw [optional_complete _ b _ hb (direction_first ds c hc n name _ _ (by simp) (by simp) (by simp))]
  have hds := loop_complete direction_complete direction_starts (fun _ _ h => h) ds c
    (⟨.identifier name, n⟩ :: (r ++ (f ++ rest))) hc (notNext_none _)
    (notNext_cons _ _ _ (by simp [startsDirection]))
  unfold startsDirection at hds
  rw [hds]
  dsimp only
  rw [identifier_cons]
  dsimp only
  rw [typeReference_complete ref r _ hr (notNext_none _)]
  dsimp only
  cases dflt with
  | none =>
    have : f = [] := hf
    subst this
    rw [List.nil_append, expect_ne _ _ hn]
  | some value =>
    obtain ⟨g, l, rfl, ⟨m, rfl⟩, hlit⟩ := hf
    rw [List.append_assoc, List.singleton_append, expect_cons]
    dsimp only
    rw [literal_complete value l rest hlit (notNext_none _)]

theorem methodParameter_starts : Starts IsMethodParameter startsMethodParameter := by
  rintro x used ⟨hl, a, b, c, d, r, f, rfl, ha, hb, hc, ⟨n, rfl⟩, hr, hf⟩
  rw [List.append_assoc, List.append_assoc, List.append_assoc, List.append_assoc]
  refine annotated_starts _ _ a _ ha rfl ?_
  rcases hb with rfl | ⟨m, rfl⟩
  · generalize x.directions = ds at hc
    cases hc with
    | nil => exact ⟨_, _, rfl, rfl⟩
    | cons x xs d e hx _ =>
      cases x <;> (obtain ⟨m, rfl⟩ := hx; exact ⟨_, _, rfl, rfl⟩)
  · exact ⟨_, _, rfl, rfl⟩

/-! ## Members of locators and errors -/

theorem locatorMember_sound : Sound locatorMember IsLocatorMember := by
  intro ls x rest h
  unfold locatorMember at h
  split at h
  · next n ls1 =>
    split at h
    · cases h
    · next name ls2 h1 =>
      cases h
      obtain ⟨m, rfl⟩ := identifier_sound _ _ _ h1
      exact ⟨[⟨_, n⟩] ++ [⟨_, m⟩], rfl, _, _, rfl, ⟨n, rfl⟩, ⟨m, rfl⟩⟩
  · next n ls1 =>
    split at h
    · cases h
    · next name ls2 h1 =>
      cases h
      obtain ⟨m, rfl⟩ := identifier_sound _ _ _ h1
      exact ⟨[⟨_, n⟩] ++ [⟨_, m⟩], rfl, _, _, rfl, ⟨n, rfl⟩, ⟨m, rfl⟩⟩
  · cases h

theorem locatorMember_complete : Complete locatorMember IsLocatorMember fun _ => False := by
  intro x used rest h _
  cases x <;> (obtain ⟨a, b, rfl, ⟨n, rfl⟩, ⟨m, rfl⟩⟩ := h; rfl)

theorem locatorMember_starts : Starts IsLocatorMember startsLocatorMember := by
  intro x used h
  cases x <;> (obtain ⟨a, b, rfl, ⟨n, rfl⟩, ⟨m, rfl⟩⟩ := h; exact ⟨_, _, rfl, rfl⟩)

theorem errorMember_sound : Sound errorMember IsErrorMember := by
  intro ls x rest h
  unfold errorMember at h
  split at h
  · next n text m ls1 =>
    cases h
    exact ⟨[⟨_, n⟩] ++ [⟨_, m⟩], rfl, _, _, rfl, ⟨n, rfl⟩, ⟨m, rfl⟩⟩
  · cases h

theorem errorMember_complete : Complete errorMember IsErrorMember fun _ => False := by
  rintro x used rest ⟨a, b, rfl, ⟨n, rfl⟩, ⟨m, rfl⟩⟩ _
  rfl

theorem errorMember_starts : Starts IsErrorMember fun t => t = .keyword kwCode := by
  rintro x used ⟨a, b, rfl, ⟨n, rfl⟩, ⟨m, rfl⟩⟩
  exact ⟨_, _, rfl, rfl⟩

/-! ## Blocks -/

theorem block_sound {α : Type} {st : Token → Bool} {p : Parser α} {R : α → List Lexeme → Prop}
    (hp : Sound p R) (ls : List Lexeme) (name : Text) (xs : List α) (rest : List Lexeme)
    (h : block st p ls = some ((name, xs), rest)) :
    ∃ used, ls = used ++ rest ∧ IsBlock' R name xs used := by
  unfold block at h
  split at h
  · cases h
  · next nm ls1 h1 =>
    obtain ⟨n1, rfl⟩ := identifier_sound _ _ _ h1
    split at h
    · cases h
    · next ls2 h2 =>
      obtain ⟨n2, rfl⟩ := expect_sound _ _ _ h2
      split at h
      · cases h
      · next ms ls3 h3 =>
        obtain ⟨⟨c, rfl, hc⟩, _⟩ := loop_sound hp _ _ _ h3
        split at h
        · cases h
        · next ls4 h4 =>
          cases h
          obtain ⟨n4, rfl⟩ := expect_sound _ _ _ h4
          exact ⟨[⟨_, n1⟩] ++ [⟨_, n2⟩] ++ c ++ [⟨_, n4⟩], by simp, _, _, _, _, rfl, ⟨n1, rfl⟩,
            ⟨n2, rfl⟩, hc, ⟨n4, rfl⟩⟩

theorem block_complete {α : Type} {st : Token → Bool} {p : Parser α} {R : α → List Lexeme → Prop}
    {bad : Token → Prop} (hp : Complete p R bad) (hs : Starts R st)
    (hb : ∀ t, st t = true → ¬ bad t) (h1 : ¬ bad .rightCurly) (h2 : st .rightCurly = false)
    (name : Text) (xs : List α) (used rest : List Lexeme) (h : IsBlock' R name xs used) :
    block st p (used ++ rest) = some ((name, xs), rest) := by
  obtain ⟨a, b, c, d, rfl, ⟨n1, rfl⟩, ⟨n2, rfl⟩, hc, ⟨n4, rfl⟩⟩ := h
  have e : [⟨.identifier name, n1⟩] ++ [⟨.leftCurly, n2⟩] ++ c ++ [⟨.rightCurly, n4⟩] ++ rest =
      ⟨.identifier name, n1⟩ :: ⟨.leftCurly, n2⟩ :: (c ++ ⟨.rightCurly, n4⟩ :: rest) := by simp
  rw [e]
  unfold block
  rw [identifier_cons]
  dsimp only
  rw [expect_cons]
  dsimp only
  rw [loop_complete hp hs hb xs c (⟨.rightCurly, n4⟩ :: rest) hc (notNext_cons _ _ _ h1)
    (notNext_cons _ _ _ (by simp [h2]))]
  dsimp only
  rw [expect_cons]

/-! ## Members of resources -/

theorem isBlock_starts {α : Type} {R : α → List Lexeme → Prop} {name : Text} {xs : List α}
    {used : List Lexeme} (h : IsBlock' R name xs used) :
    ∃ n rest, used = ⟨.identifier name, n⟩ :: rest := by
  obtain ⟨a, b, c, d, rfl, ⟨n1, rfl⟩, _⟩ := h
  exact ⟨n1, _, rfl⟩

theorem resourceMember_sound : Sound resourceMember IsResourceMember := by
  intro ls x rest h
  unfold resourceMember at h
  dsimp only at h
  split at h
  · cases h
  · next as ls1 h1 =>
    obtain ⟨a, rfl, ha⟩ := annotations_sound _ _ _ h1
    split at h
    · next ls2 h2 =>
      obtain ⟨n, rfl⟩ := expect_sound _ _ _ h2
      split at h
      · cases h
      · next name ms ls3 h3 =>
        cases h
        obtain ⟨c, rfl, hc⟩ := block_sound locatorMember_sound _ _ _ _ h3
        have e : a ++ ⟨.keyword kwLocator, n⟩ :: (c ++ rest) =
            (a ++ [⟨.keyword kwLocator, n⟩] ++ c) ++ rest := by simp
        rw [e]
        exact ⟨_, rfl, startLine_append _ _ (by simp), a, _, c, rfl, ha, ⟨n, rfl⟩, hc⟩
    · next h2 =>
      split at h
      · cases h
      · next name ps ls3 h3 =>
        cases h
        obtain ⟨b, e, hb⟩ := optional_sound (.keyword kwMethod) ls1
        obtain ⟨c, e3, hc⟩ := block_sound methodParameter_sound _ _ _ _ h3
        rw [e3] at e
        subst e
        have e : a ++ (b ++ (c ++ rest)) = (a ++ b ++ c) ++ rest := by simp
        rw [e]
        refine ⟨_, rfl, startLine_append _ _ ?_, a, b, c, rfl, ha, hb, hc⟩
        obtain ⟨m, r, rfl⟩ := isBlock_starts hc
        simp

theorem methodBlock_complete (name : Text) (xs : List ParameterTree) (used rest : List Lexeme)
    (h : IsBlock' IsMethodParameter name xs used) :
    block startsMethodParameter methodParameter (used ++ rest) = some ((name, xs), rest) := by
  refine block_complete methodParameter_complete methodParameter_starts ?_ (by simp) rfl name xs used
    rest h
  intro t ht hb
  subst hb
  cases ht

theorem resourceMember_complete : Complete resourceMember IsResourceMember fun _ => False := by
  intro x used rest h _
  cases x with
  | method line as name ps =>
    obtain ⟨hl, a, b, c, rfl, ha, hb, hc⟩ := h
    unfold resourceMember
    rw [startLine_of _ _ _ hl]
    have e : a ++ b ++ c ++ rest = a ++ (b ++ (c ++ rest)) := by simp
    rw [e]
    obtain ⟨n, r, hn⟩ := isBlock_starts hc
    have hfirst : ∀ bad : Token → Prop, ¬ bad (.keyword kwMethod) → ¬ bad (.identifier name) →
        NotNext bad (b ++ (c ++ rest)) := by
      intro bad h1 h2
      rw [hn]
      rcases hb with rfl | ⟨m, rfl⟩
      · exact notNext_cons _ _ _ h2
      · exact notNext_cons _ _ _ h1
    rw [annotations_complete as a _ ha (hfirst _ (by simp) (by simp))]
    dsimp only
    rw [expect_ne _ _ (hfirst _ (by simp) (by simp))]
    dsimp only
    rw [optional_complete _ b _ hb (by rw [hn]; exact notNext_cons _ _ _ (by simp)),
      methodBlock_complete name ps c rest hc]
  | locator line as name ms =>
    obtain ⟨hl, a, b, c, rfl, ha, ⟨n, rfl⟩, hc⟩ := h
    unfold resourceMember
    rw [startLine_of _ _ _ hl]
    have e : a ++ [⟨.keyword kwLocator, n⟩] ++ c ++ rest =
        a ++ ⟨.keyword kwLocator, n⟩ :: (c ++ rest) := by simp
    rw [e, annotations_complete as a _ ha (notNext_cons _ _ _ (by simp))]
    dsimp only
    rw [expect_cons]
    dsimp only
    rw [block_complete locatorMember_complete locatorMember_starts (fun _ _ h => h) (fun h => h) rfl
      name ms c rest hc]

theorem resourceMember_starts : Starts IsResourceMember startsResourceMember := by
  intro x used h
  cases x with
  | method line as name ps =>
    obtain ⟨hl, a, b, c, rfl, ha, hb, hc⟩ := h
    rw [List.append_assoc]
    refine annotated_starts _ _ a _ ha rfl ?_
    obtain ⟨n, r, rfl⟩ := isBlock_starts hc
    rcases hb with rfl | ⟨m, rfl⟩
    · exact ⟨_, _, rfl, rfl⟩
    · exact ⟨_, _, rfl, rfl⟩
  | locator line as name ms =>
    obtain ⟨hl, a, b, c, rfl, ha, ⟨n, rfl⟩, hc⟩ := h
    rw [List.append_assoc]
    exact annotated_starts _ _ a _ ha rfl ⟨_, _, rfl, rfl⟩

/-! ## Declarations -/

theorem body_sound (ls : List Lexeme) (name : Text) (x : BodyTree) (rest : List Lexeme)
    (h : body ls = some ((name, x), rest)) : ∃ used, ls = used ++ rest ∧ IsBody name x used := by
  unfold body at h
  split at h
  · next n ls1 =>
    split at h
    · cases h
    · next h1 =>
      cases h
      obtain ⟨b, rfl, hb⟩ := block_sound enumMember_sound _ _ _ _ h1
      exact ⟨[⟨_, n⟩] ++ b, rfl, _, b, rfl, ⟨n, rfl⟩, hb⟩
  · next n ls1 =>
    split at h
    · cases h
    · next h1 =>
      cases h
      obtain ⟨b, rfl, hb⟩ := block_sound structMember_sound _ _ _ _ h1
      exact ⟨[⟨_, n⟩] ++ b, rfl, _, b, rfl, ⟨n, rfl⟩, hb⟩
  · next n ls1 =>
    split at h
    · cases h
    · next h1 =>
      cases h
      obtain ⟨b, rfl, hb⟩ := block_sound structMember_sound _ _ _ _ h1
      exact ⟨[⟨_, n⟩] ++ b, rfl, _, b, rfl, ⟨n, rfl⟩, hb⟩
  · next n ls1 =>
    split at h
    · cases h
    · next h1 =>
      cases h
      obtain ⟨b, rfl, hb⟩ := block_sound errorMember_sound _ _ _ _ h1
      exact ⟨[⟨_, n⟩] ++ b, rfl, _, b, rfl, ⟨n, rfl⟩, hb⟩
  · next n ls1 =>
    split at h
    · cases h
    · next h1 =>
      cases h
      obtain ⟨b, rfl, hb⟩ := block_sound resourceMember_sound _ _ _ _ h1
      exact ⟨[⟨_, n⟩] ++ b, rfl, _, b, rfl, ⟨n, rfl⟩, hb⟩
  · cases h

theorem body_complete (name : Text) (x : BodyTree) (used rest : List Lexeme) (h : IsBody name x used) :
    body (used ++ rest) = some ((name, x), rest) := by
  cases x with
  | enum vs =>
    obtain ⟨a, b, rfl, ⟨n, rfl⟩, hb⟩ := h
    have := block_complete enumMember_complete enumMember_starts (fun _ _ h => h) (fun h => h) rfl
      name vs b rest hb
    rw [List.append_assoc, List.singleton_append]
    unfold body
    dsimp only
    rw [this]
  | «class» ms =>
    obtain ⟨a, b, rfl, ⟨n, rfl⟩, hb⟩ := h
    have := block_complete structMember_complete structMember_starts (fun _ _ h => h) (fun h => h) rfl
      name ms b rest hb
    rw [List.append_assoc, List.singleton_append]
    unfold body
    dsimp only
    rw [this]
  | struct ms =>
    obtain ⟨a, b, rfl, ⟨n, rfl⟩, hb⟩ := h
    have := block_complete structMember_complete structMember_starts (fun _ _ h => h) (fun h => h) rfl
      name ms b rest hb
    rw [List.append_assoc, List.singleton_append]
    unfold body
    dsimp only
    rw [this]
  | error cs =>
    obtain ⟨a, b, rfl, ⟨n, rfl⟩, hb⟩ := h
    have := block_complete errorMember_complete errorMember_starts (fun _ _ h => h) (fun h => h) rfl
      name cs b rest hb
    rw [List.append_assoc, List.singleton_append]
    unfold body
    dsimp only
    rw [this]
  | resource ms =>
    obtain ⟨a, b, rfl, ⟨n, rfl⟩, hb⟩ := h
    have := block_complete resourceMember_complete resourceMember_starts (fun _ _ h => h) (fun h => h)
      rfl name ms b rest hb
    rw [List.append_assoc, List.singleton_append]
    unfold body
    dsimp only
    rw [this]

theorem body_first (name : Text) (x : BodyTree) (used : List Lexeme) (h : IsBody name x used) :
    ∃ k n rest, used = ⟨.keyword k, n⟩ :: rest ∧ startsDeclaration (.keyword k) = true := by
  cases x <;>
    (obtain ⟨a, b, rfl, ⟨n, rfl⟩, hb⟩ := h; exact ⟨_, n, _, rfl, rfl⟩)

theorem declaration_sound : Sound declaration IsDeclaration := by
  intro ls x rest h
  unfold declaration at h
  dsimp only at h
  split at h
  · cases h
  · next as ls1 h1 =>
    obtain ⟨a, rfl, ha⟩ := annotations_sound _ _ _ h1
    split at h
    · cases h
    · next name bd ls2 h2 =>
      cases h
      obtain ⟨b, rfl, hb⟩ := body_sound _ _ _ _ h2
      rw [← List.append_assoc]
      refine ⟨_, rfl, startLine_append _ _ ?_, a, b, rfl, ha, hb⟩
      obtain ⟨k, n, r, rfl, _⟩ := body_first _ _ _ hb
      simp

theorem declaration_complete : Complete declaration IsDeclaration fun _ => False := by
  rintro ⟨line, as, name, bd⟩ used rest ⟨hl, a, b, rfl, ha, hb⟩ _
  unfold declaration
  rw [startLine_of _ _ _ hl, List.append_assoc]
  rw [annotations_complete as a _ ha (by
    obtain ⟨k, n, r, rfl, _⟩ := body_first _ _ _ hb
    exact notNext_cons _ _ _ (by simp))]
  dsimp only
  rw [body_complete name bd b rest hb]

theorem declaration_starts : Starts IsDeclaration startsDeclaration := by
  rintro x used ⟨hl, a, b, rfl, ha, hb⟩
  refine annotated_starts _ _ a _ ha rfl ?_
  obtain ⟨k, n, r, rfl, h⟩ := body_first _ _ _ hb
  exact ⟨_, _, rfl, h⟩

theorem startsDeclaration_iff (t : Token) : startsDeclaration t = true ↔ StartsDeclaration t := by
  unfold startsDeclaration StartsDeclaration
  simp only [Bool.or_eq_true, decide_eq_true_eq]
  constructor
  · rintro (((((h | h) | h) | h) | h) | h) <;> simp [h]
  · rintro (h | h | h | h | h | h) <;> simp [h]

theorem file_iff (ls : List Lexeme) (xs : List DeclTree) (rest : List Lexeme) :
    file ls = some (xs, rest) ↔
      ∃ used, ls = used ++ rest ∧ IsFile xs used ∧
        ∀ l ls', rest = l :: ls' → ¬ StartsDeclaration l.token := by
  constructor
  · intro h
    obtain ⟨⟨used, h1, h2⟩, h3⟩ := loop_sound declaration_sound ls xs rest h
    exact ⟨used, h1, h2, fun l ls' he hs => h3 l ls' he ((startsDeclaration_iff _).mpr hs)⟩
  · rintro ⟨used, rfl, h2, h3⟩
    exact loop_complete declaration_complete declaration_starts (fun _ _ h => h) xs used rest h2
      (notNext_none _) fun l ls' he hs => h3 l ls' he ((startsDeclaration_iff _).mp hs)

end Verif.Language
