import Verif.Spec.Parser

/-!
# Lemmas about the parser
-/

namespace Verif.Language

open Keyword

/-- The next token isn't one of the given ones. -/
def NotNext (bad : Token → Prop) (rest : List Lexeme) : Prop :=
  ∀ l ls, rest = l :: ls → ¬ bad l.token

/-- What the parser accepts is derived from the grammar. -/
def Sound {α : Type} (p : Parser α) (R : α → List Lexeme → Prop) : Prop :=
  ∀ ls x rest, p ls = some (x, rest) → ∃ used, ls = used ++ rest ∧ R x used

/-- What is derived from the grammar is accepted by the parser, when the token that follows isn't one
of the given ones. -/
def Complete {α : Type} (p : Parser α) (R : α → List Lexeme → Prop) (bad : Token → Prop) : Prop :=
  ∀ x used rest, R x used → NotNext bad rest → p (used ++ rest) = some (x, rest)

/-- The first token is one of the given ones. -/
def Starts {α : Type} (R : α → List Lexeme → Prop) (st : Token → Bool) : Prop :=
  ∀ x used, R x used → ∃ l ls, used = l :: ls ∧ st l.token = true

theorem notNext_cons (bad : Token → Prop) (l : Lexeme) (ls : List Lexeme) (h : ¬ bad l.token) :
    NotNext bad (l :: ls) := by
  intro l' ls' he
  cases he
  exact h

theorem notNext_none (rest : List Lexeme) : NotNext (fun _ => False) rest := fun _ _ _ h => h

theorem notNext_of {bad : Token → Prop} {bad' : Token → Prop} (rest : List Lexeme)
    (h : ∀ t, bad' t → bad t) (hn : NotNext bad rest) : NotNext bad' rest :=
  fun l ls he hb => hn l ls he (h _ hb)

/-! ## Tokens -/

theorem expect_sound (t : Token) (ls rest : List Lexeme) (h : expect t ls = some rest) :
    ∃ n, ls = ⟨t, n⟩ :: rest := by
  cases ls with
  | nil => cases h
  | cons l ls =>
    rw [expect] at h
    by_cases hl : l.token = t
    · rw [if_pos hl] at h
      cases h
      exact ⟨l.line, by rw [← hl]⟩
    · rw [if_neg hl] at h; cases h

theorem expect_cons (t : Token) (n : Nat) (ls : List Lexeme) : expect t (⟨t, n⟩ :: ls) = some ls := by
  simp [expect]

theorem expect_ne (t : Token) (ls : List Lexeme) (h : NotNext (fun x => x = t) ls) :
    expect t ls = none := by
  cases ls with
  | nil => rfl
  | cons l ls =>
    rw [expect, if_neg (show ¬ l.token = t from h l ls rfl)]

theorem expect_none (t : Token) (ls : List Lexeme) (h : expect t ls = none) :
    NotNext (fun x => x = t) ls := by
  intro l ls' he hx
  subst he
  rw [expect, if_pos hx] at h
  cases h

theorem nextIs_true (t : Token) (ls : List Lexeme) (h : nextIs t ls = true) :
    ∃ n rest, ls = ⟨t, n⟩ :: rest := by
  cases ls with
  | nil => cases h
  | cons l ls =>
    have : l.token = t := by simpa [nextIs] using h
    exact ⟨l.line, ls, by rw [← this]⟩

theorem nextIs_cons (t : Token) (n : Nat) (ls : List Lexeme) : nextIs t (⟨t, n⟩ :: ls) = true := by
  simp [nextIs]

theorem nextIs_ne (t : Token) (ls : List Lexeme) (h : NotNext (fun x => x = t) ls) :
    nextIs t ls = false := by
  cases ls with
  | nil => rfl
  | cons l ls => simpa [nextIs] using h l ls rfl

theorem optional_sound (t : Token) (ls : List Lexeme) :
    ∃ used, ls = used ++ optional t ls ∧ OptTok t used := by
  unfold optional
  cases h : expect t ls with
  | none => exact ⟨[], rfl, .inl rfl⟩
  | some rest =>
    obtain ⟨n, rfl⟩ := expect_sound t ls rest h
    exact ⟨[⟨t, n⟩], rfl, .inr ⟨n, rfl⟩⟩

theorem optional_complete (t : Token) (used rest : List Lexeme) (h : OptTok t used)
    (hn : NotNext (fun x => x = t) rest) : optional t (used ++ rest) = rest := by
  unfold optional
  rcases h with rfl | ⟨n, rfl⟩
  · rw [List.nil_append, expect_ne t rest hn]
  · rw [List.singleton_append, expect_cons]

theorem identifier_sound (ls : List Lexeme) (x : Text) (rest : List Lexeme)
    (h : identifier ls = some (x, rest)) : ∃ n, ls = ⟨.identifier x, n⟩ :: rest := by
  unfold identifier at h
  split at h
  · cases h; exact ⟨_, rfl⟩
  · cases h

theorem identifier_cons (x : Text) (n : Nat) (rest : List Lexeme) :
    identifier (⟨.identifier x, n⟩ :: rest) = some (x, rest) := rfl

theorem literal_sound : Sound literal IsLiteral := by
  intro ls x rest h
  unfold literal at h
  split at h <;> first | cases h | skip
  all_goals exact ⟨[_], rfl, _, rfl⟩

theorem literal_complete : Complete literal IsLiteral fun _ => False := by
  intro x used rest h _
  match x, h with
  | .bool true, ⟨n, h⟩ => subst h; rfl
  | .bool false, ⟨n, h⟩ => subst h; rfl
  | .integer _, ⟨n, h⟩ => subst h; rfl
  | .string _, ⟨n, h⟩ => subst h; rfl

/-! ## Loops -/

theorem many_sound {α : Type} {st : Token → Bool} {p : Parser α} {R : α → List Lexeme → Prop}
    (hp : Sound p R) : ∀ (fuel : Nat) (ls : List Lexeme) (xs : List α) (rest : List Lexeme),
    many st p fuel ls = some (xs, rest) →
      (∃ used, ls = used ++ rest ∧ Many R xs used) ∧ NotNext (fun t => st t = true) rest := by
  intro fuel
  induction fuel with
  | zero =>
    intro ls xs rest h
    cases ls with
    | nil =>
      cases h
      exact ⟨⟨[], rfl, .nil⟩, fun _ _ h => nomatch h⟩
    | cons l ls => cases h
  | succ fuel ih =>
    intro ls xs rest h
    cases ls with
    | nil =>
      cases h
      exact ⟨⟨[], rfl, .nil⟩, fun _ _ h => nomatch h⟩
    | cons l ls =>
      rw [many] at h
      by_cases hs : st l.token = true
      · rw [if_pos hs] at h
        cases h1 : p (l :: ls) with
        | none => rw [h1] at h; cases h
        | some r =>
          obtain ⟨x, rest1⟩ := r
          rw [h1] at h
          dsimp only at h
          cases h2 : many st p fuel rest1 with
          | none => rw [h2] at h; cases h
          | some r =>
            obtain ⟨ys, rest2⟩ := r
            rw [h2] at h
            cases h
            obtain ⟨used1, e1, hR⟩ := hp _ _ _ h1
            obtain ⟨⟨used2, e2, hM⟩, hn⟩ := ih _ _ _ h2
            refine ⟨⟨used1 ++ used2, ?_, .cons x ys used1 used2 hR hM⟩, hn⟩
            rw [e1, e2, List.append_assoc]
      · rw [if_neg hs] at h
        cases h
        exact ⟨⟨[], rfl, .nil⟩, notNext_cons _ _ _ hs⟩

theorem many_complete {α : Type} {st : Token → Bool} {p : Parser α} {R : α → List Lexeme → Prop}
    {bad : Token → Prop} (hp : Complete p R bad) (hs : Starts R st)
    (hb : ∀ t, st t = true → ¬ bad t) (xs : List α) (used : List Lexeme) (h : Many R xs used) :
    ∀ (rest : List Lexeme) (fuel : Nat), NotNext bad rest → NotNext (fun t => st t = true) rest →
      (used ++ rest).length ≤ fuel → many st p fuel (used ++ rest) = some (xs, rest) := by
  induction h with
  | nil =>
    intro rest fuel _ h2 hf
    cases rest with
    | nil => unfold many; rfl
    | cons l ls =>
      cases fuel with
      | zero => cases hf
      | succ fuel =>
        rw [List.nil_append, many, if_neg (h2 l ls rfl)]
  | cons x xs a b hR hM ih =>
    intro rest fuel h1 h2 hf
    obtain ⟨l, ls, rfl, hl⟩ := hs x a hR
    cases fuel with
    | zero => simp at hf
    | succ fuel =>
      have hb' : NotNext bad (b ++ rest) := by
        cases hM with
        | nil => exact h1
        | cons y ys c d hR' _ =>
          obtain ⟨l', ls', rfl, hl'⟩ := hs y c hR'
          exact notNext_cons _ _ _ (hb _ hl')
      have hp := hp x (l :: ls) (b ++ rest) hR hb'
      have e : l :: ls ++ b ++ rest = l :: ls ++ (b ++ rest) := List.append_assoc _ _ _
      rw [e]
      rw [List.cons_append] at hp ⊢
      have hf' : (b ++ rest).length ≤ fuel := by
        simp at hf ⊢
        omega
      rw [many, if_pos hl, hp]
      dsimp only
      rw [ih rest fuel h1 h2 hf']

theorem loop_sound {α : Type} {st : Token → Bool} {p : Parser α} {R : α → List Lexeme → Prop}
    (hp : Sound p R) (ls : List Lexeme) (xs : List α) (rest : List Lexeme)
    (h : loop st p ls = some (xs, rest)) :
    (∃ used, ls = used ++ rest ∧ Many R xs used) ∧ NotNext (fun t => st t = true) rest :=
  many_sound hp _ ls xs rest h

theorem loop_complete {α : Type} {st : Token → Bool} {p : Parser α} {R : α → List Lexeme → Prop}
    {bad : Token → Prop} (hp : Complete p R bad) (hs : Starts R st)
    (hb : ∀ t, st t = true → ¬ bad t) (xs : List α) (used rest : List Lexeme) (h : Many R xs used)
    (h1 : NotNext bad rest) (h2 : NotNext (fun t => st t = true) rest) :
    loop st p (used ++ rest) = some (xs, rest) :=
  many_complete hp hs hb xs used h rest _ h1 h2 (Nat.le_refl _)

/-! ## Annotations -/

theorem annotationParameter_sound : Sound annotationParameter IsAnnotationParameter := by
  intro ls x rest h
  unfold annotationParameter at h
  cases h1 : identifier ls with
  | none => rw [h1] at h; cases h
  | some r1 =>
    obtain ⟨name, ls1⟩ := r1
    rw [h1] at h
    dsimp only at h
    cases h2 : expect .equalsSign ls1 with
    | none => rw [h2] at h; cases h
    | some ls2 =>
      rw [h2] at h
      dsimp only at h
      cases h3 : literal ls2 with
      | none => rw [h3] at h; cases h
      | some r3 =>
        obtain ⟨value, ls3⟩ := r3
        rw [h3] at h
        cases h
        obtain ⟨n1, rfl⟩ := identifier_sound _ _ _ h1
        obtain ⟨n2, rfl⟩ := expect_sound _ _ _ h2
        obtain ⟨used, rfl, hl⟩ := literal_sound _ _ _ h3
        exact ⟨⟨_, n1⟩ :: ⟨_, n2⟩ :: used, rfl, [⟨_, n1⟩], [⟨_, n2⟩], used, rfl, ⟨n1, rfl⟩,
          ⟨n2, rfl⟩, hl⟩

theorem annotationParameter_complete :
    Complete annotationParameter IsAnnotationParameter fun _ => False := by
  rintro ⟨name, value⟩ used rest ⟨a, b, c, rfl, ⟨n1, rfl⟩, ⟨n2, rfl⟩, hl⟩ hn
  have := literal_complete value c rest hl hn
  show annotationParameter (⟨_, n1⟩ :: ⟨_, n2⟩ :: (c ++ rest)) = _
  unfold annotationParameter
  rw [identifier_cons]
  dsimp only
  rw [expect_cons]
  dsimp only
  rw [this]

theorem annotationParameter_starts : Starts IsAnnotationParameter isIdentifier := by
  rintro x used ⟨a, b, c, rfl, ⟨n1, rfl⟩, ⟨n2, rfl⟩, hl⟩
  exact ⟨_, _, rfl, rfl⟩

theorem annotationParameters_sound : Sound annotationParameters IsAnnotationParameters := by
  intro ls x rest h
  unfold annotationParameters at h
  cases h1 : expect .leftParen ls with
  | none => rw [h1] at h; cases h
  | some ls1 =>
    rw [h1] at h
    dsimp only at h
    cases h2 : loop isIdentifier annotationParameter ls1 with
    | none => rw [h2] at h; cases h
    | some r2 =>
      obtain ⟨ps, ls2⟩ := r2
      rw [h2] at h
      dsimp only at h
      cases h3 : expect .rightParen ls2 with
      | none => rw [h3] at h; cases h
      | some ls3 =>
        rw [h3] at h
        cases h
        obtain ⟨n1, rfl⟩ := expect_sound _ _ _ h1
        obtain ⟨⟨used, rfl, hm⟩, _⟩ := loop_sound annotationParameter_sound _ _ _ h2
        obtain ⟨n3, rfl⟩ := expect_sound _ _ _ h3
        exact ⟨[⟨_, n1⟩] ++ used ++ [⟨_, n3⟩], by simp, _, _, _, rfl, ⟨n1, rfl⟩, hm, ⟨n3, rfl⟩⟩

theorem annotationParameters_complete :
    Complete annotationParameters IsAnnotationParameters fun _ => False := by
  rintro ps used rest ⟨a, b, c, rfl, ⟨n1, rfl⟩, hm, ⟨n3, rfl⟩⟩ _
  have := loop_complete annotationParameter_complete annotationParameter_starts (fun _ _ h => h) ps b
    (⟨.rightParen, n3⟩ :: rest) hm (notNext_none _) (notNext_cons _ _ _ (by simp [isIdentifier]))
  have e : [⟨.leftParen, n1⟩] ++ b ++ [⟨.rightParen, n3⟩] ++ rest =
      ⟨.leftParen, n1⟩ :: (b ++ ⟨.rightParen, n3⟩ :: rest) := by simp
  rw [e]
  unfold annotationParameters
  rw [expect_cons]
  dsimp only
  rw [this]
  dsimp only
  rw [expect_cons]

theorem annotation_sound : Sound annotation IsAnnotation := by
  intro ls x rest h
  unfold annotation at h
  cases h1 : expect .atSign ls with
  | none => rw [h1] at h; cases h
  | some ls1 =>
    rw [h1] at h
    dsimp only at h
    cases h2 : identifier ls1 with
    | none => rw [h2] at h; cases h
    | some r2 =>
      obtain ⟨name, ls2⟩ := r2
      rw [h2] at h
      dsimp only at h
      obtain ⟨n1, rfl⟩ := expect_sound _ _ _ h1
      obtain ⟨n2, rfl⟩ := identifier_sound _ _ _ h2
      by_cases h3 : nextIs .leftParen ls2 = true
      · rw [if_pos h3] at h
        cases h4 : annotationParameters ls2 with
        | none => rw [h4] at h; cases h
        | some r4 =>
          obtain ⟨ps, ls4⟩ := r4
          rw [h4] at h
          cases h
          obtain ⟨used, rfl, hm⟩ := annotationParameters_sound _ _ _ h4
          exact ⟨[⟨_, n1⟩] ++ [⟨_, n2⟩] ++ used, rfl, _, _, _, rfl, ⟨n1, rfl⟩, ⟨n2, rfl⟩, .inr hm⟩
      · rw [if_neg h3] at h
        cases h
        exact ⟨[⟨_, n1⟩] ++ [⟨_, n2⟩] ++ [], rfl, _, _, _, rfl, ⟨n1, rfl⟩, ⟨n2, rfl⟩,
          .inl ⟨rfl, rfl⟩⟩

theorem annotation_complete : Complete annotation IsAnnotation fun t => t = .leftParen := by
  rintro ⟨name, ps⟩ used rest ⟨a, b, c, rfl, ⟨n1, rfl⟩, ⟨n2, rfl⟩, hc⟩ hn
  show annotation (⟨_, n1⟩ :: ⟨_, n2⟩ :: (c ++ rest)) = _
  unfold annotation
  rw [expect_cons]
  dsimp only
  rw [identifier_cons]
  dsimp only
  rcases hc with ⟨rfl, rfl⟩ | hc
  · rw [List.nil_append, nextIs_ne _ _ hn]
    rfl
  · have := annotationParameters_complete ps c rest hc (notNext_none _)
    obtain ⟨d, e, f, rfl, ⟨n3, rfl⟩, _⟩ := hc
    have h : nextIs .leftParen ([⟨.leftParen, n3⟩] ++ e ++ f ++ rest) = true := by simp [nextIs]
    rw [if_pos h, this]

theorem annotation_starts : Starts IsAnnotation fun t => t = .atSign := by
  rintro x used ⟨a, b, c, rfl, ⟨n1, rfl⟩, _⟩
  exact ⟨_, _, rfl, rfl⟩

theorem annotations_sound (ls : List Lexeme) (xs : List AnnotationTree) (rest : List Lexeme)
    (h : annotations ls = some (xs, rest)) : ∃ used, ls = used ++ rest ∧ Many IsAnnotation xs used :=
  (loop_sound annotation_sound ls xs rest h).1

theorem annotations_complete (xs : List AnnotationTree) (used rest : List Lexeme)
    (h : Many IsAnnotation xs used) (h1 : NotNext (fun t => t = .leftParen ∨ t = .atSign) rest) :
    annotations (used ++ rest) = some (xs, rest) := by
  refine loop_complete annotation_complete annotation_starts ?_ xs used rest h
    (notNext_of rest (fun _ h => .inl h) h1) (notNext_of rest (fun _ h => .inr ?_) h1)
  · intro t ht hb
    subst hb
    cases ht
  · simpa using h

end Verif.Language
