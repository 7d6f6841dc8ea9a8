import Verif.Spec.Source
import Verif.Props.Walk
import Verif.Props.Content

/-!
# Lemmas about reading a model from the texts of its files
-/

namespace Verif.Language

/-! ## Lists of pairs -/

theorem Pairs.mono {α β : Type} {R S : α → β → Prop} {xs : List α} {ys : List β}
    (h : Pairs R xs ys) (hi : ∀ x ∈ xs, ∀ y, R x y → S x y) : Pairs S xs ys := by
  induction h with
  | nil => exact .nil
  | cons x y xs ys h _ ih =>
    exact .cons _ _ _ _ (hi x (List.mem_cons_self ..) y h)
      (ih fun z hz => hi z (List.mem_cons_of_mem _ hz))

theorem Pairs.append {α β : Type} {R : α → β → Prop} {xs xs' : List α} {ys ys' : List β}
    (h : Pairs R xs ys) (h' : Pairs R xs' ys') : Pairs R (xs ++ xs') (ys ++ ys') := by
  induction h with
  | nil => exact h'
  | cons x y xs ys h _ ih => exact .cons _ _ _ _ h ih

theorem Pairs.flatMap {α β γ δ : Type} {R : α → β → Prop} {S : γ → δ → Prop} {f : α → List γ}
    {g : β → List δ} {xs : List α} {ys : List β} (h : Pairs R xs ys)
    (hi : ∀ x ∈ xs, ∀ y, R x y → Pairs S (f x) (g y)) : Pairs S (xs.flatMap f) (ys.flatMap g) := by
  induction h with
  | nil => exact .nil
  | cons x y xs ys h _ ih =>
    rw [List.flatMap_cons, List.flatMap_cons]
    exact (hi x (List.mem_cons_self ..) y h).append (ih fun z hz => hi z (List.mem_cons_of_mem _ hz))

theorem Pairs.map {α β γ δ : Type} {R : α → β → Prop} {S : γ → δ → Prop} {f : α → γ} {g : β → δ}
    {xs : List α} {ys : List β} (h : Pairs R xs ys) (hi : ∀ x ∈ xs, ∀ y, R x y → S (f x) (g y)) :
    Pairs S (xs.map f) (ys.map g) := by
  induction h with
  | nil => exact .nil
  | cons x y xs ys h _ ih =>
    exact .cons _ _ _ _ (hi x (List.mem_cons_self ..) y h)
      (ih fun z hz => hi z (List.mem_cons_of_mem _ hz))

theorem Pairs.filter {α β : Type} {R : α → β → Prop} {p : α → Bool} {q : β → Bool} {xs : List α}
    {ys : List β} (h : Pairs R xs ys) (hi : ∀ x ∈ xs, ∀ y, R x y → q y = p x) :
    Pairs R (xs.filter p) (ys.filter q) := by
  induction h with
  | nil => exact .nil
  | cons x y xs ys h _ ih =>
    have e := hi x (List.mem_cons_self ..) y h
    have ih := ih fun z hz => hi z (List.mem_cons_of_mem _ hz)
    rw [List.filter_cons, List.filter_cons, e]
    split
    · exact .cons _ _ _ _ h ih
    · exact ih

theorem Pairs.left {α β : Type} {R : α → β → Prop} {xs : List α} {ys : List β} (h : Pairs R xs ys) :
    ∀ x ∈ xs, ∃ y ∈ ys, R x y := by
  induction h with
  | nil => intro x hx; cases hx
  | cons x y xs ys h _ ih =>
    intro z hz
    rcases List.mem_cons.mp hz with rfl | hz
    · exact ⟨y, List.mem_cons_self .., h⟩
    · obtain ⟨w, hw, hr⟩ := ih z hz
      exact ⟨w, List.mem_cons_of_mem _ hw, hr⟩

theorem Pairs.right {α β : Type} {R : α → β → Prop} {xs : List α} {ys : List β} (h : Pairs R xs ys) :
    ∀ y ∈ ys, ∃ x ∈ xs, R x y := by
  induction h with
  | nil => intro x hx; cases hx
  | cons x y xs ys h _ ih =>
    intro z hz
    rcases List.mem_cons.mp hz with rfl | hz
    · exact ⟨x, List.mem_cons_self .., h⟩
    · obtain ⟨w, hw, hr⟩ := ih z hz
      exact ⟨w, List.mem_cons_of_mem _ hw, hr⟩

/-- The pairs around an element of the second list. -/
theorem Pairs.around {α β : Type} {R : α → β → Prop} {xs : List α} {before after : List β} {y : β}
    (h : Pairs R xs (before ++ y :: after)) :
    ∃ before' x after', xs = before' ++ x :: after' ∧ Pairs R before' before ∧ R x y ∧
      Pairs R after' after := by
  induction before generalizing xs with
  | nil =>
    cases h with
    | cons x _ xs _ h h' => exact ⟨[], x, xs, rfl, .nil, h, h'⟩
  | cons b bs ih =>
    cases h with
    | cons x _ xs _ h h' =>
      obtain ⟨b', z, a', rfl, h1, h2, h3⟩ := ih h'
      exact ⟨x :: b', z, a', rfl, .cons _ _ _ _ h h1, h2, h3⟩

theorem Pairs.maps_eq {α β γ : Type} {R : α → β → Prop} {f : α → γ} {g : β → γ} {xs : List α}
    {ys : List β} (h : Pairs R xs ys) (hi : ∀ x y, R x y → f x = g y) : xs.map f = ys.map g := by
  induction h with
  | nil => rfl
  | cons x y xs ys h _ ih => rw [List.map_cons, List.map_cons, hi x y h, ih]

/-! ## The results for all the elements -/

theorem readAll_of {α β : Type} {f : α → Run β} {R : α → β → Prop} (xs : List α)
    (h : ∀ x ∈ xs, ∃ y, f x = .done y ∧ R x y) : ∃ ys, readAll f xs = .done ys ∧ Pairs R xs ys := by
  induction xs with
  | nil => exact ⟨[], rfl, .nil⟩
  | cons x xs ih =>
    obtain ⟨y, h1, h2⟩ := h x (List.mem_cons_self ..)
    obtain ⟨ys, h3, h4⟩ := ih fun z hz => h z (List.mem_cons_of_mem _ hz)
    refine ⟨y :: ys, ?_, .cons _ _ _ _ h2 h4⟩
    unfold readAll
    rw [h1]
    dsimp only [Run.bind]
    rw [h3]

theorem readAll_done {α β : Type} {f : α → Run β} (xs : List α) (ys : List β)
    (h : readAll f xs = .done ys) : Pairs (fun x y => f x = .done y) xs ys := by
  induction xs generalizing ys with
  | nil => cases h; exact .nil
  | cons x xs ih =>
    unfold readAll at h
    obtain ⟨y, h1, h⟩ := bind_done_inv h
    obtain ⟨zs, h2, h⟩ := bind_done_inv h
    cases h
    exact .cons _ _ _ _ h1 (ih zs h2)

/-! ## Documentation, annotations and default values don't matter -/

/-- Two declarations that declare and mention the same. -/
structure SameNames (d e : Decl) : Prop where
  refs : d.typeRefs = e.typeRefs
  type : d.declaredType = e.declaredType
  resource : d.declaredResource = e.declaredResource
  error : d.declaredError = e.declaredError
  targets : d.targets = e.targets
  locators : d.locators.map LocatorDecl.targets = e.locators.map LocatorDecl.targets
  codes : d.codes = e.codes

theorem sameNames_lists {ds es : List Decl} (h : Pairs SameNames ds es) :
    refsOf ds = refsOf es ∧ declaredTypes ds = declaredTypes es ∧
    declaredResources ds = declaredResources es ∧ declaredErrors ds = declaredErrors es ∧
    mentionedResources ds = mentionedResources es := by
  induction h with
  | nil => exact ⟨rfl, rfl, rfl, rfl, rfl⟩
  | cons x y xs ys h _ ih =>
    obtain ⟨h1, h2, h3, h4, h5⟩ := ih
    unfold refsOf declaredTypes declaredResources declaredErrors mentionedResources at *
    simp only [List.flatMap_cons, List.filterMap_cons, h.refs, h.type, h.resource, h.error,
      h.targets, h1, h2, h3, h4, h5, and_true]

theorem sameNames_good {ds es : List Decl} (h : Pairs SameNames ds es)
    (hn : NoNameClash ds) (ha : Acceptable ds) : NoNameClash es ∧ Acceptable es := by
  obtain ⟨h1, h2, h3, h4, h5⟩ := sameNames_lists h
  have h6 : derivedTypes ds = derivedTypes es := by unfold derivedTypes; rw [h1]
  have h7 : mentionedTypes ds = mentionedTypes es := by unfold mentionedTypes; rw [h1]
  obtain ⟨a1, a2, a3⟩ := hn
  obtain ⟨b1, b2, b3, b4, b5, b6, b7, b8⟩ := ha
  rw [h6, h2] at a1
  rw [h6, h7] at a2
  rw [h1] at a3
  rw [h2] at b1 b2
  rw [h7, h2] at b3
  rw [h3] at b4
  rw [h5, h3] at b5
  rw [h4] at b6
  refine ⟨⟨a1, a2, a3⟩, ⟨b1, b2, b3, b4, b5, b6, ?_, ?_⟩⟩
  · intro e he l hl
    obtain ⟨d, hd, hs⟩ := h.right e he
    have hm : l.targets ∈ e.locators.map LocatorDecl.targets := List.mem_map.mpr ⟨l, hl, rfl⟩
    rw [← hs.locators] at hm
    obtain ⟨l', hl', he'⟩ := List.mem_map.mp hm
    rw [← he']
    exact b7 d hd l' hl'
  · intro e he c hc
    obtain ⟨d, hd, hs⟩ := h.right e he
    exact b8 d hd c (by rw [hs.codes]; exact hc)

theorem members_refs {doc : Nat → Text} {xs : List MemberTree} {ys : List MemberDecl}
    (h : Pairs (MemberIs doc) xs ys) :
    (xs.map fun y => ({ name := y.name, ref := y.ref, link := y.link } : MemberDecl)).map (·.ref) =
      ys.map (·.ref) := by
  rw [List.map_map]
  exact h.maps_eq fun x y hxy => hxy.2.1.symm

theorem parameters_refs {doc : Nat → Text} {xs : List ParameterTree} {ys : List ParameterDecl}
    (h : Pairs (ParameterIs doc) xs ys) :
    (xs.map fun p => ({ name := p.name, ref := p.ref, directions := p.directions }
      : ParameterDecl)).map (·.ref) = ys.map (·.ref) := by
  rw [List.map_map]
  exact h.maps_eq fun x y hxy => hxy.2.1.symm

theorem resource_same {doc : Nat → Text} {xs : List ResourceMemberTree} {ys : List ResourceMember}
    (h : Pairs (ResourceMemberIs doc) xs ys) (name d1 : Text) (a1 : List Annotation) :
    SameNames (.resource name [] [] (xs.map ResourceMemberTree.bare)) (.resource name d1 a1 ys) := by
  have hsplit : (xs.map ResourceMemberTree.bare).flatMap ResourceMember.typeRefs =
        ys.flatMap ResourceMember.typeRefs ∧
      (Decl.resource name [] [] (xs.map ResourceMemberTree.bare)).targets =
        (Decl.resource name d1 a1 ys).targets ∧
      (Decl.resource name [] [] (xs.map ResourceMemberTree.bare)).locators.map LocatorDecl.targets =
        (Decl.resource name d1 a1 ys).locators.map LocatorDecl.targets := by
    induction h with
    | nil => exact ⟨rfl, rfl, rfl⟩
    | cons x y xs ys h _ ih =>
      obtain ⟨i1, i2, i3⟩ := ih
      cases x with
      | method line annotations mname parameters =>
        obtain ⟨m, rfl, -, -, -, hp⟩ := h
        refine ⟨?_, i2, i3⟩
        rw [List.map_cons, List.flatMap_cons, List.flatMap_cons, i1]
        congr 1
        exact parameters_refs hp
      | locator line annotations lname members =>
        obtain ⟨l, rfl, -, -, -, hl⟩ := h
        have ht : LocatorDecl.targets { name := lname, members := members } = l.targets := by
          unfold LocatorDecl.targets
          rw [hl]
        refine ⟨i1, ?_, ?_⟩
        · change LocatorDecl.targets { name := lname, members := members } ++ _ = l.targets ++ _
          rw [ht]
          exact congrArg _ i2
        · change LocatorDecl.targets { name := lname, members := members } :: _ = l.targets :: _
          rw [ht]
          exact congrArg _ i3
  exact ⟨hsplit.1, rfl, rfl, rfl, hsplit.2.1, hsplit.2.2, rfl⟩

theorem bare_same {doc : Nat → Text} {x : DeclTree} {y : Decl} (h : DeclIs doc x y) :
    SameNames x.bare y := by
  obtain ⟨as, -, h⟩ := h
  unfold DeclTree.bare
  cases hb : x.body with
  | enum values =>
    rw [hb] at h
    obtain ⟨ys, rfl, -⟩ := h
    exact ⟨rfl, rfl, rfl, rfl, rfl, rfl, rfl⟩
  | «class» members =>
    rw [hb] at h
    obtain ⟨ys, rfl, h⟩ := h
    exact ⟨members_refs h, rfl, rfl, rfl, rfl, rfl, rfl⟩
  | struct members =>
    rw [hb] at h
    obtain ⟨ys, rfl, h⟩ := h
    exact ⟨members_refs h, rfl, rfl, rfl, rfl, rfl, rfl⟩
  | error codes =>
    rw [hb] at h
    cases h
    exact ⟨rfl, rfl, rfl, rfl, rfl, rfl, rfl⟩
  | resource members =>
    rw [hb] at h
    obtain ⟨ys, rfl, h⟩ := h
    exact resource_same h _ _ _

theorem bareDecls_same {texts : List Text} {ds : List Decl} (h : TextsAre texts ds) :
    Pairs SameNames (bareDecls texts) ds := by
  obtain ⟨dss, h, rfl⟩ := h
  have : dss.flatten = dss.flatMap id := by simp
  rw [this]
  refine h.flatMap fun text _ ds hf => ?_
  obtain ⟨xs, doc, hm, hp⟩ := hf
  rw [hm.trees, Option.getD_some]
  have := hp.map (S := SameNames) (f := DeclTree.bare) (g := id) fun x _ y h => bare_same h
  rwa [List.map_id] at this

/-! ## Names -/

theorem goodName_ne {name : Text} (h : GoodName name) : name ≠ [] := by
  obtain ⟨⟨c, cs, rfl, -⟩, -⟩ := h
  exact List.cons_ne_nil _ _

theorem goodRef_ne {e : TypeExpr} (h : GoodRef e) : ∀ n ∈ e.names, n ≠ [] := by
  intro n hn
  cases e with
  | plain name =>
    cases List.mem_singleton.mp hn
    exact goodName_ne h
  | list element =>
    cases List.mem_singleton.mp hn
    exact goodName_ne h
  | map index element =>
    rcases List.mem_cons.mp hn with rfl | hn
    · exact goodName_ne h.1
    · cases List.mem_singleton.mp hn
      exact goodName_ne h.2

/-- The references and the names of the types of the trees aren't empty. -/
theorem bare_named {x : DeclTree} (h : GoodDecl x) :
    (∀ e ∈ x.bare.typeRefs, ∀ n ∈ e.names, n ≠ []) ∧
    ∀ k kind, x.bare.declaredType = some (k, kind) → k ≠ [] := by
  obtain ⟨-, hn, hb⟩ := h
  have hk := keyOf_ne_nil _ (goodName_ne hn)
  unfold DeclTree.bare
  cases hx : x.body with
  | enum values =>
    refine ⟨fun e he => (by cases he), fun k kind h => ?_⟩
    cases h
    exact hk
  | «class» members =>
    rw [hx] at hb
    refine ⟨?_, fun k kind h => ?_⟩
    · intro e he
      change e ∈ List.map (fun x : MemberDecl => x.ref) _ at he
      rw [List.map_map] at he
      obtain ⟨y, hy, rfl⟩ := List.mem_map.mp he
      exact goodRef_ne (hb y hy).2.2
    · cases h
      exact hk
  | struct members =>
    rw [hx] at hb
    refine ⟨?_, fun k kind h => ?_⟩
    · intro e he
      change e ∈ List.map (fun x : MemberDecl => x.ref) _ at he
      rw [List.map_map] at he
      obtain ⟨y, hy, rfl⟩ := List.mem_map.mp he
      exact goodRef_ne (hb y hy).2.2
    · cases h
      exact hk
  | error codes => exact ⟨fun e he => (by cases he), fun k kind h => (by cases h)⟩
  | resource members =>
    rw [hx] at hb
    refine ⟨?_, fun k kind h => (by cases h)⟩
    intro e he
    obtain ⟨m, hm, he⟩ := List.mem_flatMap.mp he
    obtain ⟨y, hy, rfl⟩ := List.mem_map.mp hm
    have := hb y hy
    cases y with
    | method line annotations name parameters =>
      change e ∈ List.map (fun x : ParameterDecl => x.ref) _ at he
      rw [List.map_map] at he
      obtain ⟨p, hp, rfl⟩ := List.mem_map.mp he
      exact goodRef_ne (this.2.2 p hp).2.2.1
    | locator line annotations name ms => cases he

theorem texts_named {texts : List Text} {ds : List Decl} (h : TextsAre texts ds) :
    WellNamed ds ∧ DeclaredNamed ds := by
  have hs := bareDecls_same h
  obtain ⟨h1, h2, -⟩ := sameNames_lists hs
  have hb : ∀ d ∈ bareDecls texts, (∀ e ∈ d.typeRefs, ∀ n ∈ e.names, n ≠ []) ∧
      ∀ k kind, d.declaredType = some (k, kind) → k ≠ [] := by
    intro d hd
    obtain ⟨text, -, hd⟩ := List.mem_flatMap.mp hd
    obtain ⟨x, hx, rfl⟩ := List.mem_map.mp hd
    cases hp : parseText text with
    | none => rw [hp] at hx; cases hx
    | some xs =>
      rw [hp] at hx
      exact bare_named (c73_names text xs hp x hx)
  constructor
  · unfold WellNamed
    rw [← h1]
    intro e he
    obtain ⟨d, hd, he⟩ := List.mem_flatMap.mp he
    exact (hb d hd).1 e he
  · unfold DeclaredNamed
    rw [← h2]
    intro k hk
    obtain ⟨d, hd, hk⟩ := List.mem_filterMap.mp hk
    obtain ⟨⟨k', kind⟩, hk', rfl⟩ := Option.map_eq_some_iff.mp hk
    exact (hb d hd).2 _ _ hk'

theorem texts_good {texts : List Text} {ds : List Decl} (h : TextsAre texts ds)
    (hn : NoNameClash (bareDecls texts)) (ha : Acceptable (bareDecls texts)) : GoodDecls ds := by
  obtain ⟨h1, h2⟩ := texts_named h
  obtain ⟨h3, h4⟩ := sameNames_good (bareDecls_same h) hn ha
  exact ⟨h1, h2, h3, h4⟩

theorem textsAre_append {a b : List Text} {ds es : List Decl} (h : TextsAre a ds)
    (h' : TextsAre b es) : TextsAre (a ++ b) (ds ++ es) := by
  obtain ⟨dss, h, rfl⟩ := h
  obtain ⟨ess, h', rfl⟩ := h'
  exact ⟨dss ++ ess, h.append h', by rw [List.flatten_append]⟩

/-! ## Directories -/

/-- The directory of a version, with texts and with declarations. -/
def DirIs (x : Text × Text × List Text) (y : Text × Text × List Decl) : Prop :=
  y.1 = x.1 ∧ y.2.1 = x.2.1 ∧ TextsAre x.2.2 y.2.2

theorem versionTexts_are {dirs : List (Text × Text × List Text)}
    {dirs' : List (Text × Text × List Decl)} (h : Pairs DirIs dirs dirs') (a b : Text) :
    TextsAre (versionTexts dirs a b) (versionDecls dirs' a b) := by
  induction h with
  | nil => exact ⟨[], .nil, rfl⟩
  | cons x y xs ys h _ ih =>
    obtain ⟨x1, x2, x3⟩ := x
    obtain ⟨y1, y2, y3⟩ := y
    obtain ⟨rfl, rfl, h⟩ := h
    unfold versionTexts versionDecls at *
    rw [List.filter_cons, List.filter_cons]
    dsimp only
    split
    · rw [List.flatMap_cons, List.flatMap_cons]
      exact textsAre_append h ih
    · exact ih

def FileRel (f : TextFile) (g : SourceFile) : Prop :=
  g.regular = f.regular ∧ (f.regular = true → g.readable = true ∧ g.syntaxErrors = 0 ∧
    FileIs f.text g.decls)

theorem file_source (f : TextFile) (hr : f.regular = true → f.readable = true)
    (hm : f.regular = true → ∃ xs doc, FileMeans f.text xs doc) :
    ∃ g, f.source = .done g ∧ FileRel f g := by
  unfold TextFile.source
  cases h : f.regular with
  | false => exact ⟨_, rfl, h.symm, fun h' => by rw [h] at h'; cases h'⟩
  | true =>
    obtain ⟨xs, doc, hm⟩ := hm h
    obtain ⟨comment, h1, h2, h3⟩ := hm.docs
    obtain ⟨ds, hd, hp⟩ := c75_read f.text xs hm.trees comment h1 doc h3 hm.lines h2 hm.literals
    rw [hr h, hd]
    exact ⟨_, rfl, h.symm, fun _ => ⟨rfl, rfl, xs, doc, hm, hp⟩⟩

def VersionRel (v : TextVersion) (w : SourceVersion) : Prop :=
  w.name = v.name ∧ w.isDir = v.isDir ∧ w.Readable ∧
    (v.isDir = true → TextsAre ((v.files.filter (·.regular)).map (·.text)) w.decls)

theorem version_source (v : TextVersion) (hr : v.Readable)
    (hm : v.isDir = true → ∀ f ∈ v.files, f.regular = true → ∃ xs doc, FileMeans f.text xs doc) :
    ∃ w, v.source = .done w ∧ VersionRel v w := by
  unfold TextVersion.source
  cases h : v.isDir with
  | false => exact ⟨_, rfl, rfl, h.symm, fun h' => (by cases h'), fun h' => (by rw [h] at h'; cases h')⟩
  | true =>
    obtain ⟨hs, hf⟩ := hr h
    obtain ⟨files, h1, h2⟩ := readAll_of (R := FileRel) v.files fun f hm' =>
      file_source f (hf f hm') (hm h f hm')
    rw [hs, h1]
    refine ⟨_, rfl, rfl, h.symm, ?_, ?_⟩
    · intro _
      refine ⟨rfl, fun g hg hreg => ?_⟩
      obtain ⟨f, -, e, hf⟩ := h2.right g hg
      rw [hreg] at e
      exact ⟨(hf e.symm).1, (hf e.symm).2.1⟩
    · intro _
      refine ⟨(files.filter (·.regular)).map (·.decls), ?_, ?_⟩
      · refine (h2.filter (p := (·.regular)) (q := (·.regular)) fun f _ g h => h.1).map
          fun f hf g h => ?_
        exact (h.2 (List.mem_filter.mp hf).2).2.2
      · unfold SourceVersion.decls
        rw [List.flatMap_def]

def ServiceRel (s : TextService) (t : SourceService) : Prop :=
  t.name = s.name ∧ t.isDir = s.isDir ∧ t.Readable ∧
    (s.isDir = true → Pairs VersionRel s.versions t.versions)

theorem service_source (s : TextService) (hr : s.Readable)
    (hm : s.isDir = true → ∀ v ∈ s.versions, v.isDir = true → ∀ f ∈ v.files, f.regular = true →
      ∃ xs doc, FileMeans f.text xs doc) :
    ∃ t, s.source = .done t ∧ ServiceRel s t := by
  unfold TextService.source
  cases h : s.isDir with
  | false => exact ⟨_, rfl, rfl, h.symm, fun h' => (by cases h'), fun h' => (by rw [h] at h'; cases h')⟩
  | true =>
    obtain ⟨hs, hf⟩ := hr h
    obtain ⟨versions, h1, h2⟩ := readAll_of (R := VersionRel) s.versions fun v hm' =>
      version_source v (hf v hm') (hm h v hm')
    rw [hs, h1]
    refine ⟨_, rfl, rfl, h.symm, ?_, fun _ => h2⟩
    intro _
    refine ⟨rfl, fun w hw => ?_⟩
    obtain ⟨v, -, hv⟩ := h2.right w hw
    exact hv.2.2.1

def ModelRel (m : TextModel) (n : SourceModel) : Prop :=
  n.Readable ∧ Pairs ServiceRel m.services n.services

theorem model_source (m : TextModel) (hr : m.Readable)
    (hm : ∀ s ∈ m.services, s.isDir = true → ∀ v ∈ s.versions, v.isDir = true → ∀ f ∈ v.files,
      f.regular = true → ∃ xs doc, FileMeans f.text xs doc) :
    ∃ n, m.source = .done n ∧ ModelRel m n := by
  unfold TextModel.source
  obtain ⟨hs, hf⟩ := hr
  obtain ⟨services, h1, h2⟩ := readAll_of (R := ServiceRel) m.services fun s hm' =>
    service_source s (hf s hm') (hm s hm')
  rw [if_pos hs, h1]
  refine ⟨_, rfl, ⟨hs, fun t ht => ?_⟩, h2⟩
  obtain ⟨s, -, hv⟩ := h2.right t ht
  exact hv.2.2.1

theorem dirs_are {inputs : List TextModel} {sources : List SourceModel}
    (h : Pairs ModelRel inputs sources) : Pairs DirIs (textDirs inputs) (versionDirs sources) := by
  unfold textDirs versionDirs
  refine h.flatMap fun m _ n hmn => ?_
  refine (hmn.2.filter (p := (·.isDir)) (q := (·.isDir)) fun s _ t h => h.2.1).flatMap
    fun s hs t hst => ?_
  refine ((hst.2.2.2 (List.mem_filter.mp hs).2).filter (p := (·.isDir)) (q := (·.isDir))
    fun v _ w h => h.2.1).map fun v hv w hvw => ?_
  exact ⟨by rw [hst.1], by rw [hvw.1], hvw.2.2.2 (List.mem_filter.mp hv).2⟩

theorem mem_textDirs {inputs : List TextModel} {m : TextModel} (hm : m ∈ inputs) {s : TextService}
    (hs : s ∈ m.services) (hsd : s.isDir = true) {v : TextVersion} (hv : v ∈ s.versions)
    (hvd : v.isDir = true) {f : TextFile} (hf : f ∈ v.files) (hfr : f.regular = true) :
    ∃ d ∈ textDirs inputs, f.text ∈ d.2.2 :=
  ⟨(dirKey s.name, dirKey v.name, (v.files.filter (·.regular)).map (·.text)),
    List.mem_flatMap.mpr ⟨m, hm, List.mem_flatMap.mpr ⟨s, List.mem_filter.mpr ⟨hs, hsd⟩,
      List.mem_map.mpr ⟨v, List.mem_filter.mpr ⟨hv, hvd⟩, rfl⟩⟩⟩,
    List.mem_map.mpr ⟨f, List.mem_filter.mpr ⟨hf, hfr⟩, rfl⟩⟩

theorem sources_are (inputs : List TextModel) (hr : ∀ m ∈ inputs, m.Readable)
    (hm : ∀ d ∈ textDirs inputs, ∀ text ∈ d.2.2, ∃ xs doc, FileMeans text xs doc) :
    ∃ sources, readAll TextModel.source inputs = .done sources ∧
      (∀ n ∈ sources, n.Readable) ∧ Pairs DirIs (textDirs inputs) (versionDirs sources) := by
  obtain ⟨sources, h1, h2⟩ := readAll_of (R := ModelRel) inputs fun m hm' =>
    model_source m (hr m hm') fun s hs hsd v hv hvd f hf hfr => by
      obtain ⟨d, hd, ht⟩ := mem_textDirs hm' hs hsd hv hvd hf hfr
      exact hm d hd _ ht
  refine ⟨sources, h1, fun n hn => ?_, dirs_are h2⟩
  obtain ⟨m, -, h⟩ := h2.right n hn
  exact h.1

end Verif.Language
