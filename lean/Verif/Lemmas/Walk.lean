import Verif.Spec.Walk
import Verif.Props.Literals
import Verif.Props.Comments

namespace Verif.Language

/-! ## Literals and annotations -/

/-- The literal can be written and has a value. -/
def Valued (l : LiteralTree) : Prop := GoodLiteral l ∧ ∃ v, LiteralIs l v

theorem valued_value {l : LiteralTree} (h : Valued l) :
    (literalValue l).2 = 0 ∧ ∀ v, LiteralIs l v ↔ v = (literalValue l).1 := by
  obtain ⟨hg, v0, hv0⟩ := h
  have e := (c74_literal_iff l hg v0).mpr hv0
  refine ⟨by rw [e], fun v => ?_⟩
  rw [← c74_literal_iff l hg v, e]
  simp [eq_comm]

theorem annotations_are (as : List AnnotationTree) (h : ∀ l ∈ annotationLiterals as, Valued l) :
    AnnotationsAre as (annotationValues as).1 ∧ (annotationValues as).2 = 0 := by
  induction as with
  | nil => exact ⟨.nil, rfl⟩
  | cons a as ih =>
    have ha : ∀ p ∈ a.parameters, Valued p.2 := by
      intro p hp
      exact h p.2 (List.mem_flatMap.mpr ⟨a, List.mem_cons_self .., List.mem_map_of_mem hp⟩)
    obtain ⟨h1, h2⟩ := ih fun l hl => by
      obtain ⟨b, hb, hl⟩ := List.mem_flatMap.mp hl
      exact h l (List.mem_flatMap.mpr ⟨b, List.mem_cons_of_mem _ hb, hl⟩)
    constructor
    · refine .cons a _ as _ ⟨rfl, fun name v => ?_⟩ h1
      rw [(c74_annotation a name v).2]
      constructor
      · rintro ⟨b, p, c, e, h1, h2, h3⟩
        refine ⟨b, p, c, e, h1, h2, ((valued_value (ha p ?_)).2 v).mpr h3⟩
        rw [e]
        simp
      · rintro ⟨b, p, c, e, h1, h2, h3⟩
        refine ⟨b, p, c, e, h1, h2, ((valued_value (ha p ?_)).2 v).mp h3⟩
        rw [e]
        simp
    · unfold annotationValues at h2 ⊢
      dsimp only at h2 ⊢
      rw [List.map_cons, List.sum_cons, h2, Nat.add_zero]
      unfold annotationValue
      dsimp only
      have : ∀ ps : List (Text × LiteralTree), (∀ p ∈ ps, Valued p.2) →
          (ps.map fun p => (literalValue p.2).2).sum = 0 := by
        intro ps
        induction ps with
        | nil => exact fun _ => rfl
        | cons p ps ih =>
          intro hp
          rw [List.map_cons, List.sum_cons, (valued_value (hp p (List.mem_cons_self ..))).1,
            ih fun q hq => hp q (List.mem_cons_of_mem _ hq)]
      exact this _ ha

theorem default_is (x : Option LiteralTree) (h : ∀ l ∈ x.toList, Valued l) :
    DefaultIs x (defaultValue x).1 ∧ (defaultValue x).2 = 0 := by
  cases x with
  | none => exact ⟨rfl, rfl⟩
  | some l =>
    have := valued_value (h l (by simp))
    exact ⟨⟨_, rfl, (this.2 _).mpr rfl⟩, this.1⟩

/-! ## Walk -/

/-- The walk of some nodes, whose lines are given, succeeds without errors after that of other
nodes. -/
def Reads (m : CommentMap) (doc : Nat → Text) {β : Type} (w : Walk β) (lines : List Nat)
    (R : β → Prop) : Prop :=
  ∀ before : List Nat, (before ++ lines).Nodup → (∀ l ∈ before ++ lines, m.find l = none) →
    (∀ l ∈ lines, ∃ block, IsBlock m.find l block ∧ Documents block (doc l)) →
    ∃ b, w ⟨afterCalls m before, 0⟩ = .done (b, ⟨afterCalls m (before ++ lines), 0⟩) ∧ R b

theorem afterCalls_snoc (m : CommentMap) (before : List Nat) (line : Nat) :
    afterCalls m (before ++ [line]) = (getDoc (afterCalls m before) line).1 := by
  unfold afterCalls
  rw [List.foldl_append]
  rfl

theorem walkNode_reads (m : CommentMap) (doc : Nat → Text) (line : Nat) :
    Reads m doc (walkNode line 0) [line] fun d => d = doc line := by
  intro before hn hf hd
  obtain ⟨block, hb, hdoc⟩ := hd line (List.mem_cons_self ..)
  have hnot : line ∉ before := by
    intro h
    have := (List.nodup_append.mp hn).2.2 line h line (List.mem_cons_self ..)
    exact this rfl
  have hb' := c22_own_block m before line block (fun l hl => hf l (by
    rcases List.mem_cons.mp hl with rfl | hl
    · simp
    · simp [hl])) hnot hb
  have ht := (c22_text_iff (afterCalls m before) line (doc line)).mpr ⟨block, hb', hdoc⟩
  refine ⟨doc line, ?_, rfl⟩
  unfold walkNode takeDoc
  rw [afterCalls_snoc]
  dsimp only
  have hp : getDoc (afterCalls m before) line =
      ((getDoc (afterCalls m before) line).1, .done (.text (doc line))) := by rw [← ht]
  rw [hp]

/-- The walk of a node after that of its members. -/
theorem reads_bind {m : CommentMap} {doc : Nat → Text} {α β : Type} {w : Walk α}
    {lines lines' : List Nat} {R : α → Prop} {f : α → Walk β} {Q : β → Prop}
    (h : Reads m doc w lines R) (hf : ∀ a, R a → Reads m doc (f a) lines' Q) :
    Reads m doc (fun s => (w s).bind fun r => f r.1 r.2) (lines ++ lines') Q := by
  intro before hn hc hd
  rw [← List.append_assoc] at hn hc
  obtain ⟨a, ha, hra⟩ := h before (List.nodup_append.mp hn).1
    (fun l hl => hc l (List.mem_append_left _ hl)) (fun l hl => hd l (List.mem_append_left _ hl))
  obtain ⟨b, hb, hqb⟩ := hf a hra (before ++ lines) hn hc
    (fun l hl => hd l (List.mem_append_right _ hl))
  refine ⟨b, ?_, hqb⟩
  rw [List.append_assoc] at hb
  dsimp only
  rw [ha]
  exact hb

theorem reads_done {m : CommentMap} {doc : Nat → Text} {β : Type} (b : β) {Q : β → Prop} (h : Q b) :
    Reads m doc (fun s => .done (b, s)) [] Q := by
  intro before _ _ _
  exact ⟨b, by rw [List.append_nil], h⟩

theorem walkAll_reads {m : CommentMap} {doc : Nat → Text} {α β : Type} {f : α → Walk β}
    {lines : α → List Nat} {R : α → β → Prop} (xs : List α)
    (h : ∀ x ∈ xs, Reads m doc (f x) (lines x) (R x)) :
    Reads m doc (walkAll f xs) (xs.flatMap lines) fun ys => Pairs R xs ys := by
  induction xs with
  | nil => exact reads_done [] .nil
  | cons x xs ih =>
    have h1 := h x (List.mem_cons_self ..)
    have h2 := ih fun y hy => h y (List.mem_cons_of_mem _ hy)
    have := reads_bind (Q := fun ys => Pairs R (x :: xs) ys) h1 (f := fun b s =>
      (walkAll f xs s).bind fun rs => .done (b :: rs.1, rs.2)) (lines' := xs.flatMap lines) (by
        intro b hb
        have := reads_bind (Q := fun ys => Pairs R (x :: xs) ys) h2 (f := fun bs s =>
          .done (b :: bs, s)) (lines' := []) fun bs hbs => reads_done _ (.cons x b xs bs hb hbs)
        rw [List.append_nil] at this
        exact this)
    exact this

theorem flatMap_single {α : Type} (f : α → Nat) (xs : List α) :
    (xs.flatMap fun x => [f x]) = xs.map f := by
  induction xs with
  | nil => rfl
  | cons x xs ih => rw [List.flatMap_cons, List.map_cons, ih]; rfl

theorem node_then {m : CommentMap} {doc : Nat → Text} {β : Type} (line errors : Nat)
    (he : errors = 0) (g : Text → β) {Q : β → Prop} (h : Q (g (doc line))) :
    Reads m doc (fun s => (walkNode line errors s).bind fun r => .done (g r.1, r.2)) [line] Q := by
  subst he
  have := reads_bind (Q := Q) (walkNode_reads m doc line) (f := fun d s => .done (g d, s))
    (lines' := []) fun d hd => reads_done _ (by rw [hd]; exact h)
  exact this

theorem walkValue_reads (m : CommentMap) (doc : Nat → Text) (x : ValueTree)
    (h : ∀ l ∈ annotationLiterals x.annotations, Valued l) :
    Reads m doc (walkValue x) [x.line] (ValueIs doc x) := by
  obtain ⟨h1, h2⟩ := annotations_are x.annotations h
  exact node_then x.line _ h2 (fun d => ValueDecl.mk x.name d (annotationValues x.annotations).1)
    ⟨rfl, rfl, h1⟩

theorem walkMember_reads (m : CommentMap) (doc : Nat → Text) (x : MemberTree)
    (h : ∀ l ∈ annotationLiterals x.annotations, Valued l) :
    Reads m doc (walkMember x) [x.line] (MemberIs doc x) := by
  obtain ⟨h1, h2⟩ := annotations_are x.annotations h
  exact node_then x.line _ h2 (fun d => MemberDecl.mk x.name x.ref x.link d (annotationValues x.annotations).1) ⟨rfl, rfl, rfl, rfl, h1⟩

theorem walkParameter_reads (m : CommentMap) (doc : Nat → Text) (x : ParameterTree)
    (h : ∀ l ∈ parameterLiterals x, Valued l) :
    Reads m doc (walkParameter x) [x.line] (ParameterIs doc x) := by
  obtain ⟨h1, h2⟩ := annotations_are x.annotations fun l hl => h l (List.mem_append_left _ hl)
  obtain ⟨h3, h4⟩ := default_is x.dflt fun l hl => h l (List.mem_append_right _ hl)
  exact node_then x.line _ (by rw [h2, h4]) (fun d => ParameterDecl.mk x.name x.ref x.directions (defaultValue x.dflt).1 d
    (annotationValues x.annotations).1)
    ⟨rfl, rfl, rfl, h3, rfl, h1⟩

theorem walkResourceMember_reads (m : CommentMap) (doc : Nat → Text) (x : ResourceMemberTree)
    (h : ∀ l ∈ resourceMemberLiterals x, Valued l) :
    Reads m doc (walkResourceMember x) (resourceMemberLines x) (ResourceMemberIs doc x) := by
  cases x with
  | method line annotations name parameters =>
    obtain ⟨h1, h2⟩ := annotations_are annotations fun l hl => h l (List.mem_append_right _ hl)
    have hp := walkAll_reads (m := m) (doc := doc) (f := walkParameter) parameters fun x hx =>
      walkParameter_reads m doc x fun l hl =>
        h l (List.mem_append_left _ (List.mem_flatMap.mpr ⟨x, hx, hl⟩))
    rw [flatMap_single] at hp
    exact reads_bind hp (f := fun ps s => (walkNode line _ s).bind fun r =>
        .done (ResourceMember.method ⟨name, ps, r.1, (annotationValues annotations).1⟩, r.2)) fun ps hps =>
      node_then line _ h2 (fun d => ResourceMember.method
        ⟨name, ps, d, (annotationValues annotations).1⟩) ⟨_, rfl, rfl, rfl, h1, hps⟩
  | locator line annotations name members =>
    obtain ⟨h1, h2⟩ := annotations_are annotations h
    exact node_then line _ h2 (fun d => ResourceMember.locator
      ⟨name, members, d, (annotationValues annotations).1⟩) ⟨_, rfl, rfl, rfl, h1, rfl⟩

theorem walkDecl_reads (m : CommentMap) (doc : Nat → Text) (x : DeclTree)
    (h : ∀ l ∈ declLiterals x, Valued l) :
    Reads m doc (walkDecl x) (declLines x) (DeclIs doc x) := by
  obtain ⟨line, annotations, name, body⟩ := x
  obtain ⟨h1, h2⟩ := annotations_are annotations fun l hl => h l (List.mem_append_right _ hl)
  have hb : ∀ l ∈ bodyLiterals body, Valued l := fun l hl => h l (List.mem_append_left _ hl)
  unfold walkDecl declLines
  dsimp only
  cases body with
  | enum values =>
    have hp := walkAll_reads (m := m) (doc := doc) (f := walkValue) values fun x hx =>
      walkValue_reads m doc x fun l hl => hb l (List.mem_flatMap.mpr ⟨x, hx, hl⟩)
    rw [flatMap_single] at hp
    exact reads_bind hp (f := fun ys s => (walkNode line _ s).bind fun r =>
      .done (Decl.enum name r.1 (annotationValues annotations).1 ys, r.2)) fun ys hys =>
        node_then line _ h2 (fun d => Decl.enum name d (annotationValues annotations).1 ys)
          ⟨_, h1, ys, rfl, hys⟩
  | «class» members =>
    have hp := walkAll_reads (m := m) (doc := doc) (f := walkMember) members fun x hx =>
      walkMember_reads m doc x fun l hl => hb l (List.mem_flatMap.mpr ⟨x, hx, hl⟩)
    rw [flatMap_single] at hp
    exact reads_bind hp (f := fun ys s => (walkNode line _ s).bind fun r =>
      .done (Decl.class name r.1 (annotationValues annotations).1 ys, r.2)) fun ys hys =>
        node_then line _ h2 (fun d => Decl.class name d (annotationValues annotations).1 ys)
          ⟨_, h1, ys, rfl, hys⟩
  | struct members =>
    have hp := walkAll_reads (m := m) (doc := doc) (f := walkMember) members fun x hx =>
      walkMember_reads m doc x fun l hl => hb l (List.mem_flatMap.mpr ⟨x, hx, hl⟩)
    rw [flatMap_single] at hp
    exact reads_bind hp (f := fun ys s => (walkNode line _ s).bind fun r =>
      .done (Decl.struct name r.1 (annotationValues annotations).1 ys, r.2)) fun ys hys =>
        node_then line _ h2 (fun d => Decl.struct name d (annotationValues annotations).1 ys)
          ⟨_, h1, ys, rfl, hys⟩
  | error codes =>
    exact node_then line _ h2 (fun d => Decl.error name d (annotationValues annotations).1 codes)
      ⟨_, h1, rfl⟩
  | resource members =>
    have hp := walkAll_reads (m := m) (doc := doc) (f := walkResourceMember) members fun x hx =>
      walkResourceMember_reads m doc x fun l hl => hb l (List.mem_flatMap.mpr ⟨x, hx, hl⟩)
    exact reads_bind hp (f := fun ys s => (walkNode line _ s).bind fun r =>
      .done (Decl.resource name r.1 (annotationValues annotations).1 ys, r.2)) fun ys hys =>
        node_then line _ h2 (fun d => Decl.resource name d (annotationValues annotations).1 ys)
          ⟨_, h1, ys, rfl, hys⟩

/-! ## Literals of a good tree -/

theorem good_annotationLiterals {as : List AnnotationTree} (h : GoodAnnotations as) :
    ∀ l ∈ annotationLiterals as, GoodLiteral l := by
  intro l hl
  obtain ⟨a, ha, hl⟩ := List.mem_flatMap.mp hl
  obtain ⟨p, hp, rfl⟩ := List.mem_map.mp hl
  exact ((h a ha).2 p hp).2

theorem good_declLiterals {x : DeclTree} (h : GoodDecl x) : ∀ l ∈ declLiterals x, GoodLiteral l := by
  obtain ⟨h1, -, h2⟩ := h
  intro l hl
  rcases List.mem_append.mp hl with hl | hl
  · generalize x.body = body at h2 hl
    cases body with
    | enum xs =>
      obtain ⟨y, hy, hl⟩ := List.mem_flatMap.mp hl
      exact good_annotationLiterals (h2 y hy).1 l hl
    | «class» xs =>
      obtain ⟨y, hy, hl⟩ := List.mem_flatMap.mp hl
      exact good_annotationLiterals (h2 y hy).1 l hl
    | struct xs =>
      obtain ⟨y, hy, hl⟩ := List.mem_flatMap.mp hl
      exact good_annotationLiterals (h2 y hy).1 l hl
    | error xs => cases hl
    | resource xs =>
      obtain ⟨y, hy, hl⟩ := List.mem_flatMap.mp hl
      have hg := h2 y hy
      cases y with
      | method line annotations name parameters =>
        rcases List.mem_append.mp hl with hl | hl
        · obtain ⟨p, hp, hl⟩ := List.mem_flatMap.mp hl
          have hgp := hg.2.2 p hp
          rcases List.mem_append.mp hl with hl | hl
          · exact good_annotationLiterals hgp.1 l hl
          · exact hgp.2.2.2 l (Option.mem_toList.mp hl)
        · exact good_annotationLiterals hg.1 l hl
      | locator line annotations name members => exact good_annotationLiterals hg.1 l hl
  · exact good_annotationLiterals h1 l hl

/-! ## Errors -/

/-- If there are no errors at the end then there were none at the start, and the condition holds. -/
def Checks {β : Type} (w : Walk β) (P : Prop) : Prop :=
  ∀ s b s', w s = .done (b, s') → s'.errors = 0 → s.errors = 0 ∧ P

theorem checks_mono {β : Type} {w : Walk β} {P Q : Prop} (h : Checks w P) (hpq : P → Q) :
    Checks w Q := fun s b s' hw he => ⟨(h s b s' hw he).1, hpq (h s b s' hw he).2⟩

theorem walkNode_checks (line errors : Nat) : Checks (walkNode line errors) (errors = 0) := by
  intro s b s' hw he
  unfold walkNode takeDoc at hw
  split at hw
  · cases hw
    dsimp only at he
    omega
  · cases hw
    dsimp only at he
    omega
  · cases hw
  · cases hw

theorem bind_done_inv {α β : Type} {w : Run α} {f : α → Run β} {b : β} (h : w.bind f = .done b) :
    ∃ a, w = .done a ∧ f a = .done b := by
  cases w with
  | done a => exact ⟨a, rfl, h⟩
  | panic => cases h
  | outOfFuel => cases h

theorem checks_bind {α β : Type} {w : Walk α} {f : α → Walk β} {P Q : Prop} (h : Checks w P)
    (hf : ∀ a, Checks (f a) Q) : Checks (fun s => (w s).bind fun r => f r.1 r.2) (P ∧ Q) := by
  intro s b s' hw he
  obtain ⟨r, h1, h2⟩ := bind_done_inv hw
  obtain ⟨h3, h4⟩ := hf r.1 r.2 b s' h2 he
  obtain ⟨h5, h6⟩ := h s r.1 r.2 h1 h3
  exact ⟨h5, h6, h4⟩

theorem checks_done {β : Type} (b : β) : Checks (fun s => .done (b, s)) True := by
  intro s b' s' hw he
  cases hw
  exact ⟨he, trivial⟩

theorem node_checks {β : Type} (line errors : Nat) (g : Text → β) :
    Checks (fun s => (walkNode line errors s).bind fun r => .done (g r.1, r.2)) (errors = 0) :=
  checks_mono (checks_bind (walkNode_checks line errors) (f := fun d s => .done (g d, s))
    fun d => checks_done (g d)) fun h => h.1

theorem walkAll_checks {α β : Type} {f : α → Walk β} {P : α → Prop} (xs : List α)
    (h : ∀ x, Checks (f x) (P x)) : Checks (walkAll f xs) (∀ x ∈ xs, P x) := by
  induction xs with
  | nil => exact checks_mono (checks_done []) fun _ _ h => nomatch h
  | cons x xs ih =>
    refine checks_mono (checks_bind (h x) (f := fun b s =>
      (walkAll f xs s).bind fun rs => .done (b :: rs.1, rs.2)) (Q := ∀ x ∈ xs, P x) ?_) ?_
    · intro b
      exact checks_mono (checks_bind ih (f := fun bs s => .done (b :: bs, s))
        fun bs => checks_done (b :: bs)) fun h => h.1
    · rintro ⟨h1, h2⟩ y hy
      rcases List.mem_cons.mp hy with rfl | hy
      · exact h1
      · exact h2 y hy

theorem sum_zero (l : List Nat) : l.sum = 0 ↔ ∀ n ∈ l, n = 0 := by
  induction l with
  | nil => simp
  | cons x xs ih => rw [List.sum_cons, Nat.add_eq_zero_iff, ih]; simp

/-- The literals don't have errors. -/
def NoErrors (ls : List LiteralTree) : Prop := ∀ l ∈ ls, (literalValue l).2 = 0

theorem annotationValues_errors (as : List AnnotationTree) (h : (annotationValues as).2 = 0) :
    NoErrors (annotationLiterals as) := by
  intro l hl
  obtain ⟨a, ha, hl⟩ := List.mem_flatMap.mp hl
  obtain ⟨p, hp, rfl⟩ := List.mem_map.mp hl
  unfold annotationValues annotationValue at h
  dsimp only at h
  rw [sum_zero] at h
  have := h _ (List.mem_map_of_mem ha)
  rw [sum_zero] at this
  exact this _ (List.mem_map_of_mem hp)

theorem walkParameter_checks (x : ParameterTree) :
    Checks (walkParameter x) (NoErrors (parameterLiterals x)) := by
  refine checks_mono (node_checks x.line _ fun d => ParameterDecl.mk x.name x.ref x.directions (defaultValue x.dflt).1 d
    (annotationValues x.annotations).1) ?_
  intro h
  obtain ⟨h1, h2⟩ := Nat.add_eq_zero_iff.mp h
  intro l hl
  rcases List.mem_append.mp hl with hl | hl
  · exact annotationValues_errors _ h1 l hl
  · have := Option.mem_toList.mp hl
    rw [this] at h2
    exact h2

theorem walkResourceMember_checks (x : ResourceMemberTree) :
    Checks (walkResourceMember x) (NoErrors (resourceMemberLiterals x)) := by
  cases x with
  | method line annotations name parameters =>
    refine checks_mono (checks_bind (walkAll_checks parameters walkParameter_checks)
      (f := fun ps s => (walkNode line _ s).bind fun r =>
        .done (ResourceMember.method ⟨name, ps, r.1, (annotationValues annotations).1⟩, r.2))
      fun ps => node_checks line _ (fun d => ResourceMember.method
        ⟨name, ps, d, (annotationValues annotations).1⟩)) ?_
    rintro ⟨h1, h2⟩ l hl
    rcases List.mem_append.mp hl with hl | hl
    · obtain ⟨p, hp, hl⟩ := List.mem_flatMap.mp hl
      exact h1 p hp l hl
    · exact annotationValues_errors _ h2 l hl
  | locator line annotations name members =>
    exact checks_mono (node_checks line _ fun d => ResourceMember.locator
      ⟨name, members, d, (annotationValues annotations).1⟩)
      (annotationValues_errors annotations)

theorem walkDecl_checks (x : DeclTree) : Checks (walkDecl x) (NoErrors (declLiterals x)) := by
  obtain ⟨line, annotations, name, body⟩ := x
  have join : ∀ {bl : List LiteralTree}, (NoErrors bl ∧ (annotationValues annotations).2 = 0) →
      NoErrors (bl ++ annotationLiterals annotations) := by
    rintro bl ⟨h1, h2⟩ l hl
    rcases List.mem_append.mp hl with hl | hl
    · exact h1 l hl
    · exact annotationValues_errors _ h2 l hl
  unfold walkDecl declLiterals
  dsimp only
  cases body with
  | enum values =>
    refine checks_mono (checks_bind (walkAll_checks (P := fun x =>
      NoErrors (annotationLiterals x.annotations)) values fun x => checks_mono
        (node_checks x.line _ fun d => ValueDecl.mk x.name d (annotationValues x.annotations).1)
        (annotationValues_errors x.annotations)) (f := fun ys s => (walkNode line _ s).bind fun r =>
      .done (Decl.enum name r.1 (annotationValues annotations).1 ys, r.2)) fun ys =>
        node_checks line _ fun d => Decl.enum name d (annotationValues annotations).1 ys) ?_
    rintro ⟨h1, h2⟩
    refine join ⟨?_, h2⟩
    intro l hl
    obtain ⟨x, hx, hl⟩ := List.mem_flatMap.mp hl
    exact h1 x hx l hl
  | «class» members =>
    refine checks_mono (checks_bind (walkAll_checks (P := fun x =>
      NoErrors (annotationLiterals x.annotations)) members fun x => checks_mono
        (node_checks x.line _ fun d => MemberDecl.mk x.name x.ref x.link d (annotationValues x.annotations).1)
        (annotationValues_errors x.annotations)) (f := fun ys s => (walkNode line _ s).bind fun r =>
      .done (Decl.class name r.1 (annotationValues annotations).1 ys, r.2)) fun ys =>
        node_checks line _ fun d => Decl.class name d (annotationValues annotations).1 ys) ?_
    rintro ⟨h1, h2⟩
    refine join ⟨?_, h2⟩
    intro l hl
    obtain ⟨x, hx, hl⟩ := List.mem_flatMap.mp hl
    exact h1 x hx l hl
  | struct members =>
    refine checks_mono (checks_bind (walkAll_checks (P := fun x =>
      NoErrors (annotationLiterals x.annotations)) members fun x => checks_mono
        (node_checks x.line _ fun d => MemberDecl.mk x.name x.ref x.link d (annotationValues x.annotations).1)
        (annotationValues_errors x.annotations)) (f := fun ys s => (walkNode line _ s).bind fun r =>
      .done (Decl.struct name r.1 (annotationValues annotations).1 ys, r.2)) fun ys =>
        node_checks line _ fun d => Decl.struct name d (annotationValues annotations).1 ys) ?_
    rintro ⟨h1, h2⟩
    refine join ⟨?_, h2⟩
    intro l hl
    obtain ⟨x, hx, hl⟩ := List.mem_flatMap.mp hl
    exact h1 x hx l hl
  | error codes =>
    exact checks_mono (node_checks line _ fun d =>
      Decl.error name d (annotationValues annotations).1 codes) fun h =>
      join ⟨fun _ h => (nomatch h), h⟩
  | resource members =>
    refine checks_mono (checks_bind (walkAll_checks members walkResourceMember_checks)
      (f := fun ys s => (walkNode line _ s).bind fun r =>
      .done (Decl.resource name r.1 (annotationValues annotations).1 ys, r.2)) fun ys =>
        node_checks line _ fun d => Decl.resource name d (annotationValues annotations).1 ys) ?_
    rintro ⟨h1, h2⟩
    refine join ⟨?_, h2⟩
    intro l hl
    obtain ⟨x, hx, hl⟩ := List.mem_flatMap.mp hl
    exact h1 x hx l hl

/-! ## Comments that are used -/

/-- If there are no errors at the end then the comments of the given lines have been used, in that
order, and all of them give documentation. -/
def Uses {β : Type} (w : Walk β) (lines : List Nat) : Prop :=
  ∀ s b s', w s = .done (b, s') → s'.errors = 0 →
    s.errors = 0 ∧ s'.comments = afterCalls s.comments lines ∧
    ∀ before line after, lines = before ++ line :: after →
      ∃ doc, (getDoc (afterCalls s.comments before) line).2 = .done (.text doc)

theorem formatDoc_errors (ls : List Text) (n : Nat) (h : formatDoc ls = .done (.errors n)) :
    0 < n := by
  unfold formatDoc at h
  split at h
  · cases h; decide
  · cases h
  · split at h
    · cases h
    · split at h
      · cases h; decide
      · cases h

theorem getDoc_errors (m m' : CommentMap) (line n : Nat)
    (h : getDoc m line = (m', .done (.errors n))) : 0 < n := by
  unfold getDoc at h
  exact formatDoc_errors _ n (Prod.mk.inj h).2

theorem walkNode_uses (line errors : Nat) : Uses (walkNode line errors) [line] := by
  intro s b s' hw he
  unfold walkNode takeDoc at hw
  dsimp only at hw
  have hone : ∀ before l after, [line] = before ++ l :: after → before = [] ∧ l = line := by
    intro before l after h
    cases before with
    | nil => exact ⟨rfl, (List.cons.inj h).1.symm⟩
    | cons x xs => exact absurd (List.cons.inj h).2.symm (by simp)
  split at hw
  · rename_i m doc hg
    cases hw
    dsimp only at he ⊢
    refine ⟨by omega, ?_, ?_⟩
    · unfold afterCalls
      rw [List.foldl_cons, List.foldl_nil, hg]
    · intro before l after h
      obtain ⟨rfl, rfl⟩ := hone _ _ _ h
      exact ⟨b, by unfold afterCalls; rw [List.foldl_nil, hg]⟩
  · rename_i m n hg
    cases hw
    dsimp only at he
    have := getDoc_errors _ _ _ _ hg
    omega
  · cases hw
  · cases hw

theorem uses_bind {α β : Type} {w : Walk α} {f : α → Walk β} {l l' : List Nat} (h : Uses w l)
    (hf : ∀ a, Uses (f a) l') : Uses (fun s => (w s).bind fun r => f r.1 r.2) (l ++ l') := by
  intro s b s' hw he
  obtain ⟨r, h1, h2⟩ := bind_done_inv hw
  obtain ⟨h3, h4, h5⟩ := hf r.1 r.2 b s' h2 he
  obtain ⟨h6, h7, h8⟩ := h s r.1 r.2 h1 h3
  refine ⟨h6, ?_, ?_⟩
  · rw [h4, h7]
    unfold afterCalls
    rw [List.foldl_append]
  · intro before line after e
    rcases List.append_eq_append_iff.mp e with ⟨as, rfl, e2⟩ | ⟨cs, e1, e2⟩
    · have := h5 as line after e2
      rw [h7] at this
      unfold afterCalls at this ⊢
      rw [List.foldl_append]
      exact this
    · cases cs with
      | nil =>
        rw [List.append_nil] at e1
        have := h5 [] line after (by simpa using e2.symm)
        rw [h7, e1] at this
        exact this
      | cons c cs =>
        obtain ⟨rfl, -⟩ := List.cons.inj e2
        exact h8 before line cs e1

theorem uses_done {β : Type} (b : β) : Uses (fun s => .done (b, s)) [] := by
  intro s b' s' hw he
  cases hw
  refine ⟨he, rfl, ?_⟩
  intro before line after h
  exact absurd h.symm (by simp)

theorem node_uses {β : Type} (line errors : Nat) (g : Text → β) :
    Uses (fun s => (walkNode line errors s).bind fun r => .done (g r.1, r.2)) [line] :=
  uses_bind (walkNode_uses line errors) (f := fun d s => .done (g d, s)) (l' := [])
    fun d => uses_done (g d)

theorem walkAll_uses {α β : Type} {f : α → Walk β} {lines : α → List Nat} (xs : List α)
    (h : ∀ x, Uses (f x) (lines x)) : Uses (walkAll f xs) (xs.flatMap lines) := by
  induction xs with
  | nil => exact uses_done []
  | cons x xs ih =>
    refine uses_bind (h x) (f := fun b s =>
      (walkAll f xs s).bind fun rs => .done (b :: rs.1, rs.2)) (l' := xs.flatMap lines) ?_
    intro b
    have := uses_bind ih (f := fun bs s => .done (b :: bs, s)) (l' := []) fun bs => uses_done (b :: bs)
    rw [List.append_nil] at this
    exact this

theorem walkResourceMember_uses (x : ResourceMemberTree) :
    Uses (walkResourceMember x) (resourceMemberLines x) := by
  cases x with
  | method line annotations name parameters =>
    have hp := walkAll_uses (f := walkParameter) (lines := fun x => [x.line]) parameters fun x =>
      node_uses x.line _ fun d => ParameterDecl.mk x.name x.ref x.directions (defaultValue x.dflt).1 d
        (annotationValues x.annotations).1
    rw [flatMap_single] at hp
    exact uses_bind hp (f := fun ps s => (walkNode line _ s).bind fun r =>
        .done (ResourceMember.method ⟨name, ps, r.1, (annotationValues annotations).1⟩, r.2))
      fun ps => node_uses line _ (fun d => ResourceMember.method
        ⟨name, ps, d, (annotationValues annotations).1⟩)
  | locator line annotations name members =>
    exact node_uses line _ fun d => ResourceMember.locator
      ⟨name, members, d, (annotationValues annotations).1⟩

theorem walkDecl_uses (x : DeclTree) : Uses (walkDecl x) (declLines x) := by
  obtain ⟨line, annotations, name, body⟩ := x
  unfold walkDecl declLines
  dsimp only
  cases body with
  | enum values =>
    have hp := walkAll_uses (f := walkValue) (lines := fun x => [x.line]) values fun x =>
      node_uses x.line _ fun d => ValueDecl.mk x.name d (annotationValues x.annotations).1
    rw [flatMap_single] at hp
    exact uses_bind hp (f := fun ys s => (walkNode line _ s).bind fun r =>
      .done (Decl.enum name r.1 (annotationValues annotations).1 ys, r.2)) fun ys =>
        node_uses line _ fun d => Decl.enum name d (annotationValues annotations).1 ys
  | «class» members =>
    have hp := walkAll_uses (f := walkMember) (lines := fun x => [x.line]) members fun x =>
      node_uses x.line _ fun d =>
        MemberDecl.mk x.name x.ref x.link d (annotationValues x.annotations).1
    rw [flatMap_single] at hp
    exact uses_bind hp (f := fun ys s => (walkNode line _ s).bind fun r =>
      .done (Decl.class name r.1 (annotationValues annotations).1 ys, r.2)) fun ys =>
        node_uses line _ fun d => Decl.class name d (annotationValues annotations).1 ys
  | struct members =>
    have hp := walkAll_uses (f := walkMember) (lines := fun x => [x.line]) members fun x =>
      node_uses x.line _ fun d =>
        MemberDecl.mk x.name x.ref x.link d (annotationValues x.annotations).1
    rw [flatMap_single] at hp
    exact uses_bind hp (f := fun ys s => (walkNode line _ s).bind fun r =>
      .done (Decl.struct name r.1 (annotationValues annotations).1 ys, r.2)) fun ys =>
        node_uses line _ fun d => Decl.struct name d (annotationValues annotations).1 ys
  | error codes =>
    exact node_uses line _ fun d => Decl.error name d (annotationValues annotations).1 codes
  | resource members =>
    have hp := walkAll_uses members walkResourceMember_uses
    exact uses_bind hp (f := fun ys s => (walkNode line _ s).bind fun r =>
      .done (Decl.resource name r.1 (annotationValues annotations).1 ys, r.2)) fun ys =>
        node_uses line _ fun d => Decl.resource name d (annotationValues annotations).1 ys

/-! ## Comments -/

theorem commentsOf_iff (cs : List (Nat × Text)) (line : Nat) (comment : Text) :
    (cs.foldl (fun m c => CommentMap.add m c.1 c.2) []).find line = some comment ↔
      CommentAt cs line comment := by
  have key : ∀ (cs : List (Nat × Text)) (m : CommentMap),
      (cs.foldl (fun m c => CommentMap.add m c.1 c.2) m).find line = some comment ↔
        CommentAt cs line comment ∨ ((∀ c ∈ cs, c.1 ≠ line) ∧ m.find line = some comment) := by
    intro cs
    induction cs with
    | nil =>
      intro m
      constructor
      · exact fun h => .inr ⟨fun _ h => (nomatch h), h⟩
      · rintro (⟨b, a, h, _⟩ | ⟨_, h⟩)
        · exact absurd h.symm (by simp)
        · exact h
    | cons c cs ih =>
      intro m
      rw [List.foldl_cons, ih, c22_lexer]
      constructor
      · rintro (⟨b, a, rfl, h⟩ | ⟨h1, h2⟩)
        · exact .inl ⟨c :: b, a, rfl, h⟩
        · split at h2
          · rename_i hc
            refine .inl ⟨[], cs, ?_, h1⟩
            rw [← hc, ← Option.some.inj h2]
            rfl
          · rename_i hc
            refine .inr ⟨?_, h2⟩
            intro x hx
            rcases List.mem_cons.mp hx with rfl | hx
            · exact hc
            · exact h1 x hx
      · rintro (⟨b, a, h, h1⟩ | ⟨h1, h2⟩)
        · cases b with
          | nil =>
            have e1 := (List.cons.inj h).1
            have e2 := (List.cons.inj h).2
            subst e1
            subst e2
            exact .inr ⟨h1, by rw [if_pos rfl]⟩
          | cons x b => exact .inl ⟨b, a, (List.cons.inj h).2, h1⟩
        · refine .inr ⟨fun x hx => h1 x (List.mem_cons_of_mem _ hx), ?_⟩
          rw [if_neg (h1 c (List.mem_cons_self ..)), h2]
  rw [key]
  constructor
  · rintro (h | ⟨_, h⟩)
    · exact h
    · cases h
  · exact .inl

end Verif.Language
