import Verif.Spec.Trees
import Verif.Lemmas.LexerScan
import Verif.Lemmas.ParserRules

namespace Verif.Language

open Keyword

/-! ## The lines of the tokens don't matter -/

/-- The same tokens, maybe in other lines. -/
def SameTokens (a b : List Lexeme) : Prop := a.map (·.token) = b.map (·.token)

theorem sameTokens_append {a b c : List Lexeme} (h : SameTokens (a ++ b) c) :
    ∃ a' b', c = a' ++ b' ∧ SameTokens a a' ∧ SameTokens b b' := by
  unfold SameTokens at h
  rw [List.map_append] at h
  obtain ⟨a', b', h1, h2, h3⟩ := List.map_eq_append_iff.mp h.symm
  exact ⟨a', b', h1, h2.symm, h3.symm⟩

theorem sameTokens_nil {a : List Lexeme} (h : SameTokens [] a) : a = [] := by
  unfold SameTokens at h
  exact List.map_eq_nil_iff.mp h.symm

theorem tok_same {t : Token} {a b : List Lexeme} (h : SameTokens a b) (ha : Tok t a) : Tok t b := by
  obtain ⟨n, rfl⟩ := ha
  unfold SameTokens at h
  obtain ⟨l, rest, rfl, h1, h2⟩ := List.map_eq_cons_iff.mp h.symm
  obtain rfl := List.map_eq_nil_iff.mp h2
  cases l
  cases h1
  exact ⟨_, rfl⟩

theorem optTok_same {t : Token} {a b : List Lexeme} (h : SameTokens a b) (ha : OptTok t a) :
    OptTok t b := by
  rcases ha with rfl | ha
  · exact .inl (sameTokens_nil h)
  · exact .inr (tok_same h ha)

/-- The rule has, for the same tokens in other lines, a node that only differs in the lines. -/
def Relabels {α : Type} (e : α → α) (R : α → List Lexeme → Prop) : Prop :=
  ∀ x a b, R x a → SameTokens a b → ∃ y, R y b ∧ e y = e x

theorem many_same {α : Type} {e : α → α} {R : α → List Lexeme → Prop} (hr : Relabels e R)
    {xs : List α} {a b : List Lexeme} (ha : Many R xs a) (h : SameTokens a b) :
    ∃ ys, Many R ys b ∧ ys.map e = xs.map e := by
  induction ha generalizing b with
  | nil =>
    obtain rfl := sameTokens_nil h
    exact ⟨[], .nil, rfl⟩
  | cons x xs a1 a2 h1 _ ih =>
    obtain ⟨b1, b2, rfl, s1, s2⟩ := sameTokens_append h
    obtain ⟨y, hy, he⟩ := hr x a1 b1 h1 s1
    obtain ⟨ys, hys, hes⟩ := ih s2
    exact ⟨y :: ys, .cons y ys b1 b2 hy hys, by rw [List.map_cons, List.map_cons, he, hes]⟩

/-- For rules whose nodes don't have lines. -/
theorem relabels_id {α : Type} {R : α → List Lexeme → Prop}
    (h : ∀ x a b, R x a → SameTokens a b → R x b) : Relabels id R :=
  fun x a b h1 h2 => ⟨x, h x a b h1 h2, rfl⟩

theorem many_same_id {α : Type} {R : α → List Lexeme → Prop} (hr : Relabels id R)
    {xs : List α} {a b : List Lexeme} (ha : Many R xs a) (h : SameTokens a b) : Many R xs b := by
  obtain ⟨ys, hy, he⟩ := many_same hr ha h
  rw [List.map_id, List.map_id] at he
  exact he ▸ hy

theorem firstLine_same {line : Nat} {a b : List Lexeme} (ha : FirstLine line a)
    (h : SameTokens a b) : ∃ line', FirstLine line' b := by
  obtain ⟨t, rest, rfl⟩ := ha
  unfold SameTokens at h
  obtain ⟨l, rest', rfl, _, _⟩ := List.map_eq_cons_iff.mp h.symm
  exact ⟨l.line, l.token, rest', rfl⟩

theorem literal_same {x : LiteralTree} {a b : List Lexeme} (ha : IsLiteral x a)
    (h : SameTokens a b) : IsLiteral x b := by
  unfold IsLiteral at ha ⊢
  split <;> exact tok_same h ha

theorem annotationParameter_relabels : Relabels id IsAnnotationParameter := by
  refine relabels_id fun x a b h s => ?_
  obtain ⟨a1, a2, a3, rfl, h1, h2, h3⟩ := h
  obtain ⟨b12, b3, rfl, s12, s3⟩ := sameTokens_append s
  obtain ⟨b1, b2, rfl, s1, s2⟩ := sameTokens_append s12
  exact ⟨b1, b2, b3, rfl, tok_same s1 h1, tok_same s2 h2, literal_same h3 s3⟩

theorem annotationParameters_same {ps : List (Text × LiteralTree)} {a b : List Lexeme}
    (ha : IsAnnotationParameters ps a) (s : SameTokens a b) : IsAnnotationParameters ps b := by
  obtain ⟨a1, a2, a3, rfl, h1, h2, h3⟩ := ha
  obtain ⟨b12, b3, rfl, s12, s3⟩ := sameTokens_append s
  obtain ⟨b1, b2, rfl, s1, s2⟩ := sameTokens_append s12
  exact ⟨b1, b2, b3, rfl, tok_same s1 h1, many_same_id annotationParameter_relabels h2 s2,
    tok_same s3 h3⟩

theorem annotation_relabels : Relabels id IsAnnotation := by
  refine relabels_id fun x a b h s => ?_
  obtain ⟨a1, a2, a3, rfl, h1, h2, h3⟩ := h
  obtain ⟨b12, b3, rfl, s12, s3⟩ := sameTokens_append s
  obtain ⟨b1, b2, rfl, s1, s2⟩ := sameTokens_append s12
  refine ⟨b1, b2, b3, rfl, tok_same s1 h1, tok_same s2 h2, ?_⟩
  rcases h3 with ⟨rfl, h3⟩ | h3
  · exact .inl ⟨sameTokens_nil s3, h3⟩
  · exact .inr (annotationParameters_same h3 s3)

theorem annotations_same {as : List AnnotationTree} {a b : List Lexeme}
    (ha : Many IsAnnotation as a) (s : SameTokens a b) : Many IsAnnotation as b :=
  many_same_id annotation_relabels ha s

theorem typeReference_same {x : TypeExpr} {a b : List Lexeme} (ha : IsTypeReference x a)
    (s : SameTokens a b) : IsTypeReference x b := by
  cases x with
  | plain name => exact tok_same s ha
  | list element =>
    obtain ⟨a1, a2, a3, rfl, h1, h2, h3⟩ := ha
    obtain ⟨b12, b3, rfl, s12, s3⟩ := sameTokens_append s
    obtain ⟨b1, b2, rfl, s1, s2⟩ := sameTokens_append s12
    exact ⟨b1, b2, b3, rfl, tok_same s1 h1, tok_same s2 h2, tok_same s3 h3⟩
  | map index element =>
    obtain ⟨a1, a2, a3, a4, rfl, h1, h2, h3, h4⟩ := ha
    obtain ⟨b13, b4, rfl, s13, s4⟩ := sameTokens_append s
    obtain ⟨b12, b3, rfl, s12, s3⟩ := sameTokens_append s13
    obtain ⟨b1, b2, rfl, s1, s2⟩ := sameTokens_append s12
    exact ⟨b1, b2, b3, b4, rfl, tok_same s1 h1, tok_same s2 h2, tok_same s3 h3, tok_same s4 h4⟩

theorem enumMember_relabels : Relabels (fun x => { x with line := 0 }) IsEnumMember := by
  rintro x a b ⟨hl, a1, a2, a3, rfl, h1, h2, h3⟩ s
  obtain ⟨line', hl'⟩ := firstLine_same hl s
  obtain ⟨b12, b3, rfl, s12, s3⟩ := sameTokens_append s
  obtain ⟨b1, b2, rfl, s1, s2⟩ := sameTokens_append s12
  exact ⟨{ x with line := line' }, ⟨hl', b1, b2, b3, rfl, annotations_same h1 s1, optTok_same s2 h2,
    tok_same s3 h3⟩, rfl⟩

theorem structMember_relabels : Relabels (fun x => { x with line := 0 }) IsStructMember := by
  rintro x a b ⟨hl, a1, a2, a3, a4, rfl, h1, h2, h3, h4⟩ s
  obtain ⟨line', hl'⟩ := firstLine_same hl s
  obtain ⟨b13, b4, rfl, s13, s4⟩ := sameTokens_append s
  obtain ⟨b12, b3, rfl, s12, s3⟩ := sameTokens_append s13
  obtain ⟨b1, b2, rfl, s1, s2⟩ := sameTokens_append s12
  refine ⟨{ x with line := line' }, ⟨hl', b1, b2, b3, b4, rfl, annotations_same h1 s1, ?_,
    tok_same s3 h3, typeReference_same h4 s4⟩, rfl⟩
  rcases h2 with ⟨h, h2⟩ | ⟨h, rfl | h2⟩
  · exact .inl ⟨h, tok_same s2 h2⟩
  · exact .inr ⟨h, .inl (sameTokens_nil s2)⟩
  · exact .inr ⟨h, .inr (tok_same s2 h2)⟩

theorem direction_relabels : Relabels id IsDirection := by
  refine relabels_id fun x a b h s => ?_
  cases x <;> exact tok_same s h

theorem default_same {x : Option LiteralTree} {a b : List Lexeme} (ha : IsDefault x a)
    (s : SameTokens a b) : IsDefault x b := by
  cases x with
  | none =>
    change a = [] at ha
    subst ha
    exact sameTokens_nil s
  | some v =>
    obtain ⟨a1, a2, rfl, h1, h2⟩ := ha
    obtain ⟨b1, b2, rfl, s1, s2⟩ := sameTokens_append s
    exact ⟨b1, b2, rfl, tok_same s1 h1, literal_same h2 s2⟩

theorem methodParameter_relabels :
    Relabels (fun x => { x with line := 0 }) IsMethodParameter := by
  rintro x a b ⟨hl, a1, a2, a3, a4, a5, a6, rfl, h1, h2, h3, h4, h5, h6⟩ s
  obtain ⟨line', hl'⟩ := firstLine_same hl s
  obtain ⟨b15, b6, rfl, s15, s6⟩ := sameTokens_append s
  obtain ⟨b14, b5, rfl, s14, s5⟩ := sameTokens_append s15
  obtain ⟨b13, b4, rfl, s13, s4⟩ := sameTokens_append s14
  obtain ⟨b12, b3, rfl, s12, s3⟩ := sameTokens_append s13
  obtain ⟨b1, b2, rfl, s1, s2⟩ := sameTokens_append s12
  exact ⟨{ x with line := line' }, ⟨hl', b1, b2, b3, b4, b5, b6, rfl, annotations_same h1 s1,
    optTok_same s2 h2, many_same_id direction_relabels h3 s3, tok_same s4 h4,
    typeReference_same h5 s5, default_same h6 s6⟩, rfl⟩

theorem locatorMember_relabels : Relabels id IsLocatorMember := by
  refine relabels_id fun x a b h s => ?_
  cases x <;>
  · obtain ⟨a1, a2, rfl, h1, h2⟩ := h
    obtain ⟨b1, b2, rfl, s1, s2⟩ := sameTokens_append s
    exact ⟨b1, b2, rfl, tok_same s1 h1, tok_same s2 h2⟩

theorem errorMember_relabels : Relabels id IsErrorMember := by
  refine relabels_id fun x a b h s => ?_
  obtain ⟨a1, a2, rfl, h1, h2⟩ := h
  obtain ⟨b1, b2, rfl, s1, s2⟩ := sameTokens_append s
  exact ⟨b1, b2, rfl, tok_same s1 h1, tok_same s2 h2⟩

theorem block_same {α : Type} {e : α → α} {R : α → List Lexeme → Prop} (hr : Relabels e R)
    {name : Text} {xs : List α} {a b : List Lexeme} (ha : IsBlock' R name xs a)
    (s : SameTokens a b) : ∃ ys, IsBlock' R name ys b ∧ ys.map e = xs.map e := by
  obtain ⟨a1, a2, a3, a4, rfl, h1, h2, h3, h4⟩ := ha
  obtain ⟨b13, b4, rfl, s13, s4⟩ := sameTokens_append s
  obtain ⟨b12, b3, rfl, s12, s3⟩ := sameTokens_append s13
  obtain ⟨b1, b2, rfl, s1, s2⟩ := sameTokens_append s12
  obtain ⟨ys, hy, he⟩ := many_same hr h3 s3
  exact ⟨ys, ⟨b1, b2, b3, b4, rfl, tok_same s1 h1, tok_same s2 h2, hy, tok_same s4 h4⟩, he⟩

theorem resourceMember_relabels : Relabels ResourceMemberTree.unplaced IsResourceMember := by
  intro x a b h s
  cases x with
  | method line annotations name parameters =>
    obtain ⟨hl, a1, a2, a3, rfl, h1, h2, h3⟩ := h
    obtain ⟨line', hl'⟩ := firstLine_same hl s
    obtain ⟨b12, b3, rfl, s12, s3⟩ := sameTokens_append s
    obtain ⟨b1, b2, rfl, s1, s2⟩ := sameTokens_append s12
    obtain ⟨ys, hy, he⟩ := block_same methodParameter_relabels h3 s3
    refine ⟨.method line' annotations name ys, ⟨hl', b1, b2, b3, rfl, annotations_same h1 s1,
      optTok_same s2 h2, hy⟩, ?_⟩
    unfold ResourceMemberTree.unplaced
    dsimp only
    rw [he]
  | locator line annotations name members =>
    obtain ⟨hl, a1, a2, a3, rfl, h1, h2, h3⟩ := h
    obtain ⟨line', hl'⟩ := firstLine_same hl s
    obtain ⟨b12, b3, rfl, s12, s3⟩ := sameTokens_append s
    obtain ⟨b1, b2, rfl, s1, s2⟩ := sameTokens_append s12
    obtain ⟨ys, hy, he⟩ := block_same locatorMember_relabels h3 s3
    rw [List.map_id, List.map_id] at he
    subst he
    exact ⟨.locator line' annotations name ys, ⟨hl', b1, b2, b3, rfl, annotations_same h1 s1,
      tok_same s2 h2, hy⟩, rfl⟩

theorem body_same {name : Text} {x : BodyTree} {a b : List Lexeme} (ha : IsBody name x a)
    (s : SameTokens a b) : ∃ y, IsBody name y b ∧ y.unplaced = x.unplaced := by
  cases x <;> obtain ⟨a1, a2, rfl, h1, h2⟩ := ha <;>
    obtain ⟨b1, b2, rfl, s1, s2⟩ := sameTokens_append s
  · obtain ⟨ys, hy, he⟩ := block_same enumMember_relabels h2 s2
    exact ⟨.enum ys, ⟨b1, b2, rfl, tok_same s1 h1, hy⟩, by rw [BodyTree.unplaced, BodyTree.unplaced, he]⟩
  · obtain ⟨ys, hy, he⟩ := block_same structMember_relabels h2 s2
    exact ⟨.class ys, ⟨b1, b2, rfl, tok_same s1 h1, hy⟩, by rw [BodyTree.unplaced, BodyTree.unplaced, he]⟩
  · obtain ⟨ys, hy, he⟩ := block_same structMember_relabels h2 s2
    exact ⟨.struct ys, ⟨b1, b2, rfl, tok_same s1 h1, hy⟩, by rw [BodyTree.unplaced, BodyTree.unplaced, he]⟩
  · obtain ⟨ys, hy, he⟩ := block_same errorMember_relabels h2 s2
    rw [List.map_id, List.map_id] at he
    exact ⟨.error ys, ⟨b1, b2, rfl, tok_same s1 h1, hy⟩, by rw [he]⟩
  · obtain ⟨ys, hy, he⟩ := block_same resourceMember_relabels h2 s2
    exact ⟨.resource ys, ⟨b1, b2, rfl, tok_same s1 h1, hy⟩,
      by rw [BodyTree.unplaced, BodyTree.unplaced, he]⟩

theorem declaration_relabels : Relabels DeclTree.unplaced IsDeclaration := by
  rintro x a b ⟨hl, a1, a2, rfl, h1, h2⟩ s
  obtain ⟨line', hl'⟩ := firstLine_same hl s
  obtain ⟨b1, b2, rfl, s1, s2⟩ := sameTokens_append s
  obtain ⟨y, hy, he⟩ := body_same h2 s2
  refine ⟨{ line := line', annotations := x.annotations, name := x.name, body := y },
    ⟨hl', b1, b2, rfl, annotations_same h1 s1, hy⟩, ?_⟩
  unfold DeclTree.unplaced
  dsimp only
  rw [he]

theorem file_same {xs : List DeclTree} {a b : List Lexeme} (ha : IsFile xs a)
    (s : SameTokens a b) :
    ∃ ys, IsFile ys b ∧ ys.map DeclTree.unplaced = xs.map DeclTree.unplaced :=
  many_same declaration_relabels ha s

/-! ## Names and literals of the trees -/

/-- The tokens can be written. -/
def Writable (ls : List Lexeme) : Prop := ∀ l ∈ ls, ∃ text, WrittenAs l.token text

theorem writable_append {a b : List Lexeme} : Writable (a ++ b) ↔ Writable a ∧ Writable b := by
  unfold Writable
  simp only [List.mem_append]
  exact ⟨fun h => ⟨fun l hl => h l (.inl hl), fun l hl => h l (.inr hl)⟩,
    fun h l hl => hl.elim (h.1 l) (h.2 l)⟩

theorem writable_nil : Writable [] := fun _ h => nomatch h

theorem writable_tok {t : Token} {a : List Lexeme} (ha : Tok t a) :
    Writable a ↔ ∃ text, WrittenAs t text := by
  obtain ⟨n, rfl⟩ := ha
  unfold Writable
  simp

theorem written_identifier {name : Text} :
    (∃ text, WrittenAs (.identifier name) text) ↔ GoodName name :=
  ⟨fun ⟨_, h⟩ => ⟨h.2.1, h.2.2⟩, fun h => ⟨name, rfl, h.1, h.2⟩⟩

theorem written_integer {digits : Text} :
    (∃ text, WrittenAs (.integer digits) text) ↔ GoodInteger digits :=
  ⟨fun ⟨_, h⟩ => ⟨h.2.1, h.2.2⟩, fun h => ⟨digits, rfl, h.1, h.2⟩⟩

theorem written_string {text : Text} :
    (∃ t, WrittenAs (.string text) t) ↔ (Quoted '"' text ∨ Quoted '`' text) :=
  ⟨fun ⟨_, h⟩ => h.2, fun h => ⟨text, rfl, h⟩⟩

theorem written_keyword (k : Keyword) : ∃ text, WrittenAs (.keyword k) text := by
  cases k <;> exact ⟨_, rfl⟩

theorem writable_identifier {name : Text} {a : List Lexeme} (ha : Tok (.identifier name) a) :
    Writable a ↔ GoodName name := (writable_tok ha).trans written_identifier

theorem writable_keyword {k : Keyword} {a : List Lexeme} (ha : Tok (.keyword k) a) : Writable a :=
  (writable_tok ha).mpr (written_keyword k)

theorem writable_optTok {k : Keyword} {a : List Lexeme} (ha : OptTok (.keyword k) a) : Writable a := by
  rcases ha with rfl | h
  · exact writable_nil
  · exact writable_keyword h

theorem writable_fixed {t : Token} {a : List Lexeme} {text : Text} (ha : Tok t a)
    (h : WrittenAs t text) : Writable a := (writable_tok ha).mpr ⟨text, h⟩

/-- The tokens of a node can be written exactly when the names and literals of the node are good. -/
def Exactly {α : Type} (R : α → List Lexeme → Prop) (good : α → Prop) : Prop :=
  ∀ x a, R x a → (Writable a ↔ good x)

theorem many_writable {α : Type} {R : α → List Lexeme → Prop} {good : α → Prop}
    (hr : Exactly R good) {xs : List α} {a : List Lexeme} (ha : Many R xs a) :
    Writable a ↔ ∀ x ∈ xs, good x := by
  induction ha with
  | nil => exact ⟨fun _ _ h => (nomatch h), fun _ => writable_nil⟩
  | cons x xs a b h1 _ ih =>
    rw [writable_append, hr x a h1, ih]
    simp

theorem literal_writable : Exactly IsLiteral GoodLiteral := by
  intro x a h
  unfold IsLiteral at h
  split at h
  · exact ⟨fun _ => trivial, fun _ => writable_keyword h⟩
  · exact ⟨fun _ => trivial, fun _ => writable_keyword h⟩
  · exact (writable_tok h).trans written_integer
  · exact (writable_tok h).trans written_string

theorem annotation_writable : Exactly IsAnnotation fun a =>
    GoodName a.name ∧ ∀ p ∈ a.parameters, GoodName p.1 ∧ GoodLiteral p.2 := by
  rintro x a ⟨a1, a2, a3, rfl, h1, h2, h3⟩
  rw [writable_append, writable_append, writable_identifier h2]
  have e1 : Writable a1 := writable_fixed (text := t!"@") h1 rfl
  rcases h3 with ⟨rfl, h3⟩ | ⟨b1, b2, b3, rfl, g1, g2, g3⟩
  · dsimp only
    rw [h3]
    exact ⟨fun h => ⟨h.1.2, fun _ hp => (nomatch hp)⟩, fun h => ⟨⟨e1, h.1⟩, writable_nil⟩⟩
  · rw [writable_append, writable_append,
      many_writable (good := fun p => GoodName p.1 ∧ GoodLiteral p.2) ?_ g2]
    · have e2 : Writable b1 := writable_fixed (text := t!"(") g1 rfl
      have e3 : Writable b3 := writable_fixed (text := t!")") g3 rfl
      exact ⟨fun h => ⟨h.1.2, h.2.1.2⟩, fun h => ⟨⟨e1, h.1⟩, ⟨⟨e2, h.2⟩, e3⟩⟩⟩
    · rintro p a ⟨c1, c2, c3, rfl, k1, k2, k3⟩
      rw [writable_append, writable_append, writable_identifier k1, literal_writable _ _ k3]
      have e : Writable c2 := writable_fixed (text := t!"=") k2 rfl
      exact ⟨fun h => ⟨h.1.1, h.2⟩, fun h => ⟨⟨h.1, e⟩, h.2⟩⟩

theorem annotations_writable {as : List AnnotationTree} {a : List Lexeme}
    (ha : Many IsAnnotation as a) : Writable a ↔ GoodAnnotations as :=
  many_writable annotation_writable ha

theorem typeReference_writable : Exactly IsTypeReference GoodRef := by
  intro x a h
  cases x with
  | plain name => exact writable_identifier h
  | list element =>
    obtain ⟨a1, a2, a3, rfl, h1, h2, h3⟩ := h
    rw [writable_append, writable_append, writable_identifier h3]
    exact ⟨fun h => h.2, fun h => ⟨⟨writable_fixed (text := t!"[") h1 rfl,
      writable_fixed (text := t!"]") h2 rfl⟩, h⟩⟩
  | map index element =>
    obtain ⟨a1, a2, a3, a4, rfl, h1, h2, h3, h4⟩ := h
    rw [writable_append, writable_append, writable_append, writable_identifier h2,
      writable_identifier h4]
    exact ⟨fun h => ⟨h.1.1.2, h.2⟩, fun h => ⟨⟨⟨writable_fixed (text := t!"[") h1 rfl, h.1⟩,
      writable_fixed (text := t!"]") h3 rfl⟩, h.2⟩⟩

theorem enumMember_writable : Exactly IsEnumMember fun x =>
    GoodAnnotations x.annotations ∧ GoodName x.name := by
  rintro x a ⟨-, a1, a2, a3, rfl, h1, h2, h3⟩
  rw [writable_append, writable_append, annotations_writable h1, writable_identifier h3]
  exact ⟨fun h => ⟨h.1.1, h.2⟩, fun h => ⟨⟨h.1, writable_optTok h2⟩, h.2⟩⟩

theorem structMember_writable : Exactly IsStructMember GoodMember := by
  rintro x a ⟨-, a1, a2, a3, a4, rfl, h1, h2, h3, h4⟩
  rw [writable_append, writable_append, writable_append, annotations_writable h1,
    writable_identifier h3, typeReference_writable _ _ h4]
  have e : Writable a2 := by
    rcases h2 with ⟨-, h2⟩ | ⟨-, rfl | h2⟩
    · exact writable_keyword h2
    · exact writable_nil
    · exact writable_keyword h2
  exact ⟨fun h => ⟨h.1.1.1, h.1.2, h.2⟩, fun h => ⟨⟨⟨h.1, e⟩, h.2.1⟩, h.2.2⟩⟩

theorem methodParameter_writable : Exactly IsMethodParameter GoodParameter := by
  rintro x a ⟨-, a1, a2, a3, a4, a5, a6, rfl, h1, h2, h3, h4, h5, h6⟩
  rw [writable_append, writable_append, writable_append, writable_append, writable_append,
    annotations_writable h1, writable_identifier h4, typeReference_writable _ _ h5,
    many_writable (good := fun _ => True) ?_ h3]
  · have e : Writable a6 ↔ ∀ value, x.dflt = some value → GoodLiteral value := by
      generalize x.dflt = d at h6
      cases d with
      | none =>
        change a6 = [] at h6
        subst h6
        exact ⟨fun _ _ h => (nomatch h), fun _ => writable_nil⟩
      | some v =>
        obtain ⟨b1, b2, rfl, g1, g2⟩ := h6
        rw [writable_append, literal_writable _ _ g2]
        refine ⟨fun h v' hv => ?_, fun h => ⟨writable_fixed (text := t!"=") g1 rfl, h v rfl⟩⟩
        cases hv
        exact h.2
    rw [e]
    exact ⟨fun h => ⟨h.1.1.1.1.1, h.1.1.2, h.1.2, h.2⟩,
      fun h => ⟨⟨⟨⟨⟨h.1, writable_optTok h2⟩, fun _ _ => trivial⟩, h.2.1⟩, h.2.2.1⟩, h.2.2.2⟩⟩
  · intro d a h
    refine ⟨fun _ => trivial, fun _ => ?_⟩
    cases d <;> exact writable_keyword h

theorem locatorMember_writable : Exactly IsLocatorMember GoodLocatorMember := by
  intro x a h
  cases x <;>
  · obtain ⟨a1, a2, rfl, h1, h2⟩ := h
    rw [writable_append, writable_identifier h2]
    exact ⟨fun h => h.2, fun h => ⟨writable_keyword h1, h⟩⟩

theorem errorMember_writable : Exactly IsErrorMember GoodInteger := by
  rintro x a ⟨a1, a2, rfl, h1, h2⟩
  rw [writable_append, writable_tok h2, written_integer]
  exact ⟨fun h => h.2, fun h => ⟨writable_keyword h1, h⟩⟩

theorem block_writable {α : Type} {R : α → List Lexeme → Prop} {good : α → Prop}
    (hr : Exactly R good) {name : Text} {xs : List α} {a : List Lexeme} (ha : IsBlock' R name xs a) :
    Writable a ↔ GoodName name ∧ ∀ x ∈ xs, good x := by
  obtain ⟨a1, a2, a3, a4, rfl, h1, h2, h3, h4⟩ := ha
  rw [writable_append, writable_append, writable_append, writable_identifier h1,
    many_writable hr h3]
  exact ⟨fun h => ⟨h.1.1.1, h.1.2⟩, fun h => ⟨⟨⟨h.1, writable_fixed (text := t!"{") h2 rfl⟩, h.2⟩,
    writable_fixed (text := t!"}") h4 rfl⟩⟩

theorem resourceMember_writable : Exactly IsResourceMember GoodResourceMember := by
  intro x a h
  cases x with
  | method line annotations name parameters =>
    obtain ⟨-, a1, a2, a3, rfl, h1, h2, h3⟩ := h
    rw [writable_append, writable_append, annotations_writable h1,
      block_writable methodParameter_writable h3]
    exact ⟨fun h => ⟨h.1.1, h.2⟩, fun h => ⟨⟨h.1, writable_optTok h2⟩, h.2⟩⟩
  | locator line annotations name members =>
    obtain ⟨-, a1, a2, a3, rfl, h1, h2, h3⟩ := h
    rw [writable_append, writable_append, annotations_writable h1,
      block_writable locatorMember_writable h3]
    exact ⟨fun h => ⟨h.1.1, h.2⟩, fun h => ⟨⟨h.1, writable_keyword h2⟩, h.2⟩⟩

theorem body_writable {name : Text} {x : BodyTree} {a : List Lexeme} (ha : IsBody name x a) :
    Writable a ↔ GoodName name ∧ GoodBody x := by
  cases x <;> obtain ⟨a1, a2, rfl, h1, h2⟩ := ha <;> rw [writable_append]
  · rw [block_writable enumMember_writable h2]
    exact ⟨fun h => h.2, fun h => ⟨writable_keyword h1, h⟩⟩
  · rw [block_writable structMember_writable h2]
    exact ⟨fun h => h.2, fun h => ⟨writable_keyword h1, h⟩⟩
  · rw [block_writable structMember_writable h2]
    exact ⟨fun h => h.2, fun h => ⟨writable_keyword h1, h⟩⟩
  · rw [block_writable errorMember_writable h2]
    exact ⟨fun h => h.2, fun h => ⟨writable_keyword h1, h⟩⟩
  · rw [block_writable resourceMember_writable h2]
    exact ⟨fun h => h.2, fun h => ⟨writable_keyword h1, h⟩⟩

theorem declaration_writable : Exactly IsDeclaration GoodDecl := by
  rintro x a ⟨-, a1, a2, rfl, h1, h2⟩
  rw [writable_append, annotations_writable h1, body_writable h2]
  exact Iff.rfl

theorem file_writable {xs : List DeclTree} {a : List Lexeme} (ha : IsFile xs a) :
    Writable a ↔ ∀ x ∈ xs, GoodDecl x := many_writable declaration_writable ha

/-! ## Every tree has tokens -/

theorem tok_exists (t : Token) : ∃ a, Tok t a := ⟨_, 0, rfl⟩

theorem many_exists {α : Type} {R : α → List Lexeme → Prop} (h : ∀ x, ∃ a, R x a) (xs : List α) :
    ∃ a, Many R xs a := by
  induction xs with
  | nil => exact ⟨[], .nil⟩
  | cons x xs ih =>
    obtain ⟨a, ha⟩ := h x
    obtain ⟨b, hb⟩ := ih
    exact ⟨a ++ b, .cons x xs a b ha hb⟩

theorem literal_exists (x : LiteralTree) : ∃ a, IsLiteral x a := by
  cases x with
  | bool b => cases b <;> exact tok_exists _
  | integer t => exact tok_exists (.integer t)
  | string t => exact tok_exists (.string t)

theorem annotation_exists (x : AnnotationTree) : ∃ a, IsAnnotation x a := by
  obtain ⟨a1, h1⟩ := tok_exists .atSign
  obtain ⟨a2, h2⟩ := tok_exists (.identifier x.name)
  obtain ⟨b1, g1⟩ := tok_exists .leftParen
  obtain ⟨b3, g3⟩ := tok_exists .rightParen
  obtain ⟨b2, g2⟩ := many_exists (R := IsAnnotationParameter) (fun p => by
    obtain ⟨c1, k1⟩ := tok_exists (.identifier p.1)
    obtain ⟨c2, k2⟩ := tok_exists .equalsSign
    obtain ⟨c3, k3⟩ := literal_exists p.2
    exact ⟨_, c1, c2, c3, rfl, k1, k2, k3⟩) x.parameters
  exact ⟨_, a1, a2, _, rfl, h1, h2, .inr ⟨b1, b2, b3, rfl, g1, g2, g3⟩⟩

theorem typeReference_exists (x : TypeExpr) : ∃ a, IsTypeReference x a := by
  obtain ⟨a1, h1⟩ := tok_exists .leftSquare
  obtain ⟨a2, h2⟩ := tok_exists .rightSquare
  cases x with
  | plain name => exact tok_exists (.identifier name)
  | list element =>
    obtain ⟨a3, h3⟩ := tok_exists (.identifier element)
    exact ⟨_, a1, a2, a3, rfl, h1, h2, h3⟩
  | map index element =>
    obtain ⟨a3, h3⟩ := tok_exists (.identifier index)
    obtain ⟨a4, h4⟩ := tok_exists (.identifier element)
    exact ⟨_, a1, a3, a2, a4, rfl, h1, h3, h2, h4⟩

theorem tok_ne_nil {t : Token} {a : List Lexeme} (h : Tok t a) : a ≠ [] := by
  obtain ⟨n, rfl⟩ := h
  exact List.cons_ne_nil _ _

theorem firstLine_exists (a : List Lexeme) (h : a ≠ []) : ∃ line, FirstLine line a := by
  cases a with
  | nil => exact absurd rfl h
  | cons l rest => exact ⟨l.line, l.token, rest, rfl⟩

/-- There are tokens for a node that only differs in the lines. -/
def Exists {α : Type} (e : α → α) (R : α → List Lexeme → Prop) : Prop :=
  ∀ x, ∃ y a, R y a ∧ e y = e x

theorem many_exists_up {α : Type} {e : α → α} {R : α → List Lexeme → Prop} (h : Exists e R)
    (xs : List α) : ∃ ys a, Many R ys a ∧ ys.map e = xs.map e := by
  induction xs with
  | nil => exact ⟨[], [], .nil, rfl⟩
  | cons x xs ih =>
    obtain ⟨y, a, ha, he⟩ := h x
    obtain ⟨ys, b, hb, hes⟩ := ih
    exact ⟨y :: ys, a ++ b, .cons y ys a b ha hb, by rw [List.map_cons, List.map_cons, he, hes]⟩

theorem block_exists {α : Type} {e : α → α} {R : α → List Lexeme → Prop} (h : Exists e R)
    (name : Text) (xs : List α) : ∃ ys a, IsBlock' R name ys a ∧ ys.map e = xs.map e := by
  obtain ⟨a1, h1⟩ := tok_exists (.identifier name)
  obtain ⟨a2, h2⟩ := tok_exists .leftCurly
  obtain ⟨a4, h4⟩ := tok_exists .rightCurly
  obtain ⟨ys, a3, h3, he⟩ := many_exists_up h xs
  exact ⟨ys, _, ⟨a1, a2, a3, a4, rfl, h1, h2, h3, h4⟩, he⟩

theorem enumMember_exists : Exists (fun x => { x with line := 0 }) IsEnumMember := by
  intro x
  obtain ⟨a1, h1⟩ := many_exists annotation_exists x.annotations
  obtain ⟨a3, h3⟩ := tok_exists (.identifier x.name)
  obtain ⟨line, hl⟩ := firstLine_exists (a1 ++ [] ++ a3) (by simp [tok_ne_nil h3])
  exact ⟨{ x with line := line }, _, ⟨hl, a1, [], a3, rfl, h1, .inl rfl, h3⟩, rfl⟩

theorem structMember_exists : Exists (fun x => { x with line := 0 }) IsStructMember := by
  intro x
  obtain ⟨a1, h1⟩ := many_exists annotation_exists x.annotations
  obtain ⟨a2, h2⟩ : ∃ a, IsAttributeKind x.link a := by
    cases x.link with
    | true =>
      obtain ⟨a, h⟩ := tok_exists (.keyword kwLink)
      exact ⟨a, .inl ⟨rfl, h⟩⟩
    | false => exact ⟨[], .inr ⟨rfl, .inl rfl⟩⟩
  obtain ⟨a3, h3⟩ := tok_exists (.identifier x.name)
  obtain ⟨a4, h4⟩ := typeReference_exists x.ref
  obtain ⟨line, hl⟩ := firstLine_exists (a1 ++ a2 ++ a3 ++ a4) (by simp [tok_ne_nil h3])
  exact ⟨{ x with line := line }, _, ⟨hl, a1, a2, a3, a4, rfl, h1, h2, h3, h4⟩, rfl⟩

theorem methodParameter_exists : Exists (fun x => { x with line := 0 }) IsMethodParameter := by
  intro x
  obtain ⟨a1, h1⟩ := many_exists annotation_exists x.annotations
  obtain ⟨a3, h3⟩ := many_exists (R := IsDirection) (fun d => by
    cases d <;> exact tok_exists _) x.directions
  obtain ⟨a4, h4⟩ := tok_exists (.identifier x.name)
  obtain ⟨a5, h5⟩ := typeReference_exists x.ref
  obtain ⟨a6, h6⟩ : ∃ a, IsDefault x.dflt a := by
    cases x.dflt with
    | none => exact ⟨[], rfl⟩
    | some v =>
      obtain ⟨b1, g1⟩ := tok_exists .equalsSign
      obtain ⟨b2, g2⟩ := literal_exists v
      exact ⟨_, b1, b2, rfl, g1, g2⟩
  obtain ⟨line, hl⟩ := firstLine_exists (a1 ++ [] ++ a3 ++ a4 ++ a5 ++ a6) (by simp [tok_ne_nil h4])
  exact ⟨{ x with line := line }, _,
    ⟨hl, a1, [], a3, a4, a5, a6, rfl, h1, .inl rfl, h3, h4, h5, h6⟩, rfl⟩

theorem exists_id {α : Type} {R : α → List Lexeme → Prop} (h : ∀ x, ∃ a, R x a) : Exists id R :=
  fun x => by
    obtain ⟨a, ha⟩ := h x
    exact ⟨x, a, ha, rfl⟩

theorem locatorMember_exists : Exists id IsLocatorMember := by
  refine exists_id fun x => ?_
  cases x with
  | target name =>
    obtain ⟨a1, h1⟩ := tok_exists (.keyword kwTarget)
    obtain ⟨a2, h2⟩ := tok_exists (.identifier name)
    exact ⟨_, a1, a2, rfl, h1, h2⟩
  | variableName name =>
    obtain ⟨a1, h1⟩ := tok_exists (.keyword kwVariable)
    obtain ⟨a2, h2⟩ := tok_exists (.identifier name)
    exact ⟨_, a1, a2, rfl, h1, h2⟩

theorem errorMember_exists : Exists id IsErrorMember := by
  refine exists_id fun x => ?_
  obtain ⟨a1, h1⟩ := tok_exists (.keyword kwCode)
  obtain ⟨a2, h2⟩ := tok_exists (.integer x)
  exact ⟨_, a1, a2, rfl, h1, h2⟩

theorem block_ne_nil {α : Type} {R : α → List Lexeme → Prop} {name : Text} {xs : List α}
    {a : List Lexeme} (h : IsBlock' R name xs a) : a ≠ [] := by
  obtain ⟨a1, a2, a3, a4, rfl, h1, -⟩ := h
  simp [tok_ne_nil h1]

theorem resourceMember_exists : Exists ResourceMemberTree.unplaced IsResourceMember := by
  intro x
  cases x with
  | method line annotations name parameters =>
    obtain ⟨a1, h1⟩ := many_exists annotation_exists annotations
    obtain ⟨ys, a3, h3, he⟩ := block_exists methodParameter_exists name parameters
    obtain ⟨line, hl⟩ := firstLine_exists (a1 ++ [] ++ a3) (by simp [block_ne_nil h3])
    refine ⟨.method line annotations name ys, _, ⟨hl, a1, [], a3, rfl, h1, .inl rfl, h3⟩, ?_⟩
    rw [ResourceMemberTree.unplaced, ResourceMemberTree.unplaced, he]
  | locator line annotations name members =>
    obtain ⟨a1, h1⟩ := many_exists annotation_exists annotations
    obtain ⟨a2, h2⟩ := tok_exists (.keyword kwLocator)
    obtain ⟨ys, a3, h3, he⟩ := block_exists locatorMember_exists name members
    obtain ⟨line, hl⟩ := firstLine_exists (a1 ++ a2 ++ a3) (by simp [block_ne_nil h3])
    rw [List.map_id, List.map_id] at he
    subst he
    exact ⟨.locator line annotations name ys, _, ⟨hl, a1, a2, a3, rfl, h1, h2, h3⟩, rfl⟩

theorem body_exists (name : Text) (x : BodyTree) :
    ∃ y a, IsBody name y a ∧ y.unplaced = x.unplaced := by
  cases x with
  | enum xs =>
    obtain ⟨a1, h1⟩ := tok_exists (.keyword kwEnum)
    obtain ⟨ys, a2, h2, he⟩ := block_exists enumMember_exists name xs
    exact ⟨.enum ys, _, ⟨a1, a2, rfl, h1, h2⟩, by rw [BodyTree.unplaced, BodyTree.unplaced, he]⟩
  | «class» xs =>
    obtain ⟨a1, h1⟩ := tok_exists (.keyword kwClass)
    obtain ⟨ys, a2, h2, he⟩ := block_exists structMember_exists name xs
    exact ⟨.class ys, _, ⟨a1, a2, rfl, h1, h2⟩, by rw [BodyTree.unplaced, BodyTree.unplaced, he]⟩
  | struct xs =>
    obtain ⟨a1, h1⟩ := tok_exists (.keyword kwStruct)
    obtain ⟨ys, a2, h2, he⟩ := block_exists structMember_exists name xs
    exact ⟨.struct ys, _, ⟨a1, a2, rfl, h1, h2⟩, by rw [BodyTree.unplaced, BodyTree.unplaced, he]⟩
  | error xs =>
    obtain ⟨a1, h1⟩ := tok_exists (.keyword kwError)
    obtain ⟨ys, a2, h2, he⟩ := block_exists errorMember_exists name xs
    rw [List.map_id, List.map_id] at he
    exact ⟨.error ys, _, ⟨a1, a2, rfl, h1, h2⟩, by rw [he]⟩
  | resource xs =>
    obtain ⟨a1, h1⟩ := tok_exists (.keyword kwResource)
    obtain ⟨ys, a2, h2, he⟩ := block_exists resourceMember_exists name xs
    exact ⟨.resource ys, _, ⟨a1, a2, rfl, h1, h2⟩,
      by rw [BodyTree.unplaced, BodyTree.unplaced, he]⟩

theorem declaration_exists : Exists DeclTree.unplaced IsDeclaration := by
  intro x
  obtain ⟨a1, h1⟩ := many_exists annotation_exists x.annotations
  obtain ⟨y, a2, h2, he⟩ := body_exists x.name x.body
  have hn : a2 ≠ [] := by
    obtain ⟨_, _, _, rfl, _⟩ := body_first _ _ _ h2
    exact List.cons_ne_nil _ _
  obtain ⟨line, hl⟩ := firstLine_exists (a1 ++ a2) (by simp [hn])
  refine ⟨{ line := line, annotations := x.annotations, name := x.name, body := y }, _,
    ⟨hl, a1, a2, rfl, h1, h2⟩, ?_⟩
  unfold DeclTree.unplaced
  dsimp only
  rw [he]

theorem file_exists (xs : List DeclTree) :
    ∃ ys a, IsFile ys a ∧ ys.map DeclTree.unplaced = xs.map DeclTree.unplaced :=
  many_exists_up declaration_exists xs

/-! ## The validity doesn't depend on the lines -/

theorem goodBody_unplaced (x : BodyTree) : GoodBody x.unplaced ↔ GoodBody x := by
  cases x with
  | enum xs => simp [BodyTree.unplaced, GoodBody]
  | «class» xs => simp [BodyTree.unplaced, GoodBody, GoodMember]
  | struct xs => simp [BodyTree.unplaced, GoodBody, GoodMember]
  | error xs => exact Iff.rfl
  | resource xs =>
    have h : ∀ m : ResourceMemberTree, GoodResourceMember m.unplaced ↔ GoodResourceMember m := by
      intro m
      cases m <;> simp [ResourceMemberTree.unplaced, GoodResourceMember, GoodParameter]
    simp [BodyTree.unplaced, GoodBody, h]

theorem goodDecl_unplaced (x : DeclTree) : GoodDecl x.unplaced ↔ GoodDecl x := by
  unfold GoodDecl DeclTree.unplaced
  dsimp only
  rw [goodBody_unplaced]

theorem goodDecls_of_unplaced {xs ys : List DeclTree}
    (h : ys.map DeclTree.unplaced = xs.map DeclTree.unplaced) (hx : ∀ x ∈ xs, GoodDecl x) :
    ∀ y ∈ ys, GoodDecl y := by
  intro y hy
  have : y.unplaced ∈ xs.map DeclTree.unplaced := h ▸ List.mem_map_of_mem hy
  obtain ⟨x, hm, he⟩ := List.mem_map.mp this
  rw [← goodDecl_unplaced, ← he, goodDecl_unplaced]
  exact hx x hm

/-! ## Writing the tokens -/

theorem not_continues_white (t : Token) (c : Char) (h : White c) : ¬ Continues t c := by
  intro hc
  unfold Continues at hc
  rcases h with rfl | rfl | rfl | rfl <;> revert hc <;>
    (split <;> first | exact id | (unfold NameChar NameStart Digit; decide) | (unfold Digit; decide))

theorem writable_written (ls : List Lexeme) (h : Writable ls) : ∀ line,
    ∃ ls' text, SameTokens ls ls' ∧ Written line ls' (' ' :: text) := by
  induction ls with
  | nil => exact fun line => ⟨[], [], rfl, .done line t!" " (layout_white _ (by
      intro c hc
      have hc : c ∈ [' ', '\n'] := hc
      simp only [List.mem_cons, List.not_mem_nil, or_false] at hc
      rcases hc with rfl | rfl
      · exact .inl rfl
      · exact .inr (.inr (.inr rfl))))⟩
  | cons l ls ih =>
    intro line
    obtain ⟨text, ht⟩ := h l (List.mem_cons_self ..)
    obtain ⟨ls', rest, hs, hw⟩ :=
      ih (fun x hx => h x (List.mem_cons_of_mem _ hx)) (line + breaks t!" " + breaks text)
    refine ⟨⟨l.token, line + breaks t!" "⟩ :: ls', text ++ ' ' :: rest, ?_, ?_⟩
    · unfold SameTokens at hs ⊢
      rw [List.map_cons, List.map_cons, hs]
    · refine .token line t!" " text (' ' :: rest) l.token ls' (.white ' ' [] (.inl rfl) .nil) ht ?_ hw
      intro c cs hc
      cases hc
      exact not_continues_white _ _ (.inl rfl)

/-! ## Tokens of a text -/

theorem scan_eq (text : Text) : scan text = scanAt 1 text := rfl

theorem written_scan (ts : List Lexeme) (text : Text) :
    Written 1 ts text ↔ (scan text).tokens = ts ∧ (scan text).complete = true := by
  rw [written_iff, scan_eq]
  unfold tokensAt
  simp only [Prod.mk.injEq]

theorem scanAt_writable (n : Nat) : ∀ (line : Nat) (text : Text), text.length < n →
    Writable (scanAt line text).tokens := by
  induction n with
  | zero => exact fun _ _ h => absurd h (Nat.not_lt_zero _)
  | succ n ih =>
    intro line text hl
    cases hn : next text with
    | none =>
      cases text with
      | nil => exact writable_nil
      | cons c cs =>
        rw [scanAt, scanFrom_stuck _ line _ (List.cons_ne_nil _ _) hn]
        exact writable_nil
    | some r =>
      obtain ⟨a, taken, rest⟩ := r
      have hs := (next_shorter _ _ _ _ hn).2
      have hr := ih (line + breaks taken) rest (by omega)
      rw [scanAt_step line text a taken rest hn]
      cases a with
      | comment => exact hr
      | skip => exact hr
      | token t =>
        intro l hm
        rcases List.mem_cons.mp hm with rfl | hm
        · obtain ⟨rule, h1, h2⟩ := (next_iff text (.token t) taken rest).mp hn
          exact ⟨taken, (isNext_token text rule taken rest t h1 h2.symm).1⟩
        · exact hr l hm

theorem scan_writable (text : Text) : Writable (scan text).tokens :=
  scanAt_writable (text.length + 1) 1 text (Nat.lt_succ_self _)

/-- A line break and more text after a text. -/
theorem tokensAt_more (line : Nat) (ts : List Lexeme) (text : Text) (h : Written line ts text)
    (more : Text) :
    tokensAt line (text ++ '\n' :: more) =
      (ts ++ (tokensAt (line + breaks text + 1) more).1, (tokensAt (line + breaks text + 1) more).2) := by
  induction h with
  | done line layout h =>
    have e : layout ++ '\n' :: more = (layout ++ t!"\n") ++ more := by simp
    rw [e, tokensAt_layout _ h, breaks_append, ← Nat.add_assoc]
    rfl
  | token line layout text rest t ts h1 h2 h3 _ ih =>
    have e : layout ++ text ++ rest ++ '\n' :: more = layout ++ (text ++ (rest ++ '\n' :: more)) := by
      simp
    rw [e, tokensAt_layout layout h1, tokensAt_step _ _ _ _ _ (next_token t text _ h2 ?_), ih,
      breaks_append, breaks_append]
    · simp only [recordToken, List.cons_append, Nat.add_assoc]
    · intro c cs hc
      cases rest with
      | nil =>
        cases hc
        exact not_continues_white _ _ (.inr (.inr (.inr rfl)))
      | cons d ds => exact h3 c _ (by rw [(List.cons.inj hc).1])

end Verif.Language
