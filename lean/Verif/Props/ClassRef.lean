import Verif.Lemmas.ClassRefUnlink
import Verif.Lemmas.ClassRefNested
import Verif.Lemmas.SessionTypes
import Verif.Spec.Binding

/-!
# Property C65: classes that refer to classes of other services

`importType fuel t root` is `recursivelyAddTypeToVersion` for a version with the types `t`, and
`handleClassRef` is the function that loads the referenced service.
-/

namespace Verif

namespace ClassRef

open View (typeKey)

/-! ## Adding the referenced types -/

theorem importType_cases (fuel : Nat) (t : TypeTable) (root : TypeId) :
    (events fuel t.heap root = none ∧ importType fuel t root = .outOfFuel) ∨
    ∃ es, events fuel t.heap root = some es ∧ importType fuel t root = .done (es.foldl perform t) := by
  rw [importType_events fuel t.heap t root (SameTypes.refl _)]
  cases h : events fuel t.heap root with
  | none => exact .inl ⟨rfl, rfl⟩
  | some es => exact .inr ⟨es, rfl, rfl⟩

theorem importType_done {fuel : Nat} {t t' : TypeTable} {root : TypeId}
    (h : importType fuel t root = .done t') :
    ∃ es, events fuel t.heap root = some es ∧ t' = es.foldl perform t := by
  rcases importType_cases fuel t root with ⟨-, h'⟩ | ⟨es, h1, h2⟩
  · rw [h'] at h; cases h
  · rw [h2] at h; cases h; exact ⟨es, h1, rfl⟩

/-- Adding a type ends exactly when none of the types that are needed needs itself; then the result is
the same for all the bounds larger than the number of types, and it never panics. -/
theorem c65_ends (t : TypeTable) (root : TypeId) :
    ((∃ fuel t', importType fuel t root = .done t') ↔
      ∀ x, Reaches t.heap root x → ¬ Circular t.heap x) ∧
    (∀ fuel t', importType fuel t root = .done t' → ∀ fuel', t.heap.length < fuel' →
      importType fuel' t root = .done t') ∧
    ∀ fuel, importType fuel t root ≠ .panic := by
  have key : (∀ x, Reaches t.heap root x → ¬ Circular t.heap x) →
      ∃ es, events (t.heap.length + 1) t.heap root = some es := fun hn =>
    events_total t.heap root hn _ root [] (.refl _) List.nodup_nil (fun _ h => nomatch h)
      (fun _ h => nomatch h) (by simp)
  have acyclic : ∀ {fuel t'}, importType fuel t root = .done t' →
      ∀ x, Reaches t.heap root x → ¬ Circular t.heap x := by
    intro fuel t' h x hr
    obtain ⟨es, h1, -⟩ := importType_done h
    obtain ⟨fuel', fs, h2, -⟩ := events_reaches hr h1
    exact events_not_circular fuel' h2
  refine ⟨⟨fun ⟨fuel, t', h⟩ => acyclic h, fun hn => ?_⟩, fun fuel t' h fuel' hl => ?_, fun fuel h => ?_⟩
  · obtain ⟨es, he⟩ := key hn
    refine ⟨t.heap.length + 1, es.foldl perform t, ?_⟩
    rw [importType_events _ t.heap t root (SameTypes.refl _), he]
    rfl
  · obtain ⟨es, he⟩ := key (acyclic h)
    obtain ⟨es', h1, rfl⟩ := importType_done h
    have h2 := events_mono _ he hl
    have h3 := events_mono _ h1 (Nat.le_add_right fuel fuel')
    have h4 := events_mono _ h2 (Nat.le_add_left fuel' fuel)
    rw [h3] at h4
    cases h4
    rw [importType_events _ t.heap t root (SameTypes.refl _), h2]
    rfl
  · rcases importType_cases fuel t root with ⟨-, h'⟩ | ⟨es, -, h'⟩
    · rw [h'] at h; cases h
    · rw [h'] at h; cases h

/-- The version has all the types that it needs, as types of its own: each of them, or another one of
them with the same name, is found by its name; types are otherwise the same, and other names mean what
they did. -/
theorem c65_types (fuel : Nat) (t t' : TypeTable) (root : TypeId)
    (h : importType fuel t root = .done t') :
    t'.version = t.version ∧ SameTypes t.heap t'.heap ∧
    (∀ x, Added t.heap root x → OwnedBy t'.heap x t.version ∧
      ∃ y, Added t.heap root y ∧ typeKey t.heap y = typeKey t.heap x ∧
        t'.types.find (typeKey t.heap x) = some y) ∧
    ∀ key, (∀ x, Added t.heap root x → typeKey t.heap x ≠ key) →
      t'.types.find key = t.types.find key := by
  obtain ⟨es, he, rfl⟩ := importType_done h
  have hs := events_sound fuel t.heap root es he
  have g := (Grown.refl t root).steps es hs
  refine ⟨g.version, g.same, fun x ha => ?_, fun key hk => ?_⟩
  · have := added_present hs (fun e o => events_complete he o) ha
    exact ⟨this.2, this.1⟩
  · rcases g.types key with h | ⟨y, h1, h2, -⟩
    · exact h
    · exact absurd h2 (hk y h1)

/-- If the types that are needed have different names then each of them is found by its name. -/
theorem c65_types_distinct (fuel : Nat) (t t' : TypeTable) (root : TypeId)
    (h : importType fuel t root = .done t')
    (hd : ∀ x y, Added t.heap root x → Added t.heap root y → typeKey t.heap x = typeKey t.heap y → x = y)
    (x : TypeId) (ha : Added t.heap root x) : t'.types.find (typeKey t.heap x) = some x := by
  obtain ⟨-, y, h1, h2, h3⟩ := (c65_types fuel t t' root h).2.2.1 x ha
  rw [hd y x h1 ha h2] at h3
  exact h3

/-- The referenced type is always found by its name, unless it is scalar or an interface, in which case
nothing changes. -/
theorem c65_root (fuel : Nat) (t t' : TypeTable) (root : TypeId)
    (h : importType fuel t root = .done t') :
    (Composite t.heap root → t'.types.find (typeKey t.heap root) = some root) ∧
    (root < t.heap.length → ¬ Composite t.heap root → t' = t) := by
  obtain ⟨es, he, rfl⟩ := importType_done h
  constructor
  · intro hc
    rw [composite_iff] at hc
    cases fuel with
    | zero => cases he
    | succ fuel =>
      unfold events at he
      rw [hc.1] at he
      cases h1 : attributesEvents (events fuel t.heap) t.heap root 0 (attributesOf t.heap root) with
      | none => rw [h1] at he; cases he
      | some fs =>
        rw [h1] at he
        simp only [Bool.false_eq_true, if_false, Option.map_some, Option.some.injEq] at he
        subst he
        rw [List.foldl_append]
        have hs := performs_same fs t
        have hl : root < (fs.foldl perform t).heap.length := by
          rw [same_length hs]; exact hc.2
        show (importSelf (fs.foldl perform t) root).types.find _ = _
        rw [(importSelf_types hl).1, same_key hs, GoMap.find_insert, if_pos rfl]
  · intro hl hc
    have hb : isBasicType t.heap root = true := by
      cases hb : isBasicType t.heap root with
      | true => rfl
      | false => exact absurd ((composite_iff t.heap root).mpr ⟨hb, hl⟩) hc
    cases fuel with
    | zero => cases he
    | succ fuel =>
      unfold events at he
      rw [if_pos hb] at he
      cases he
      rfl

/-- Types that are not needed, and are not the target of a link of a type that is needed, don't
change at all. -/
theorem c65_untouched (fuel : Nat) (t t' : TypeTable) (root : TypeId)
    (h : importType fuel t root = .done t') (x : TypeId) (hx : ¬ Added t.heap root x)
    (hl : ∀ y position a, Reaches t.heap root y → Composite t.heap y →
      HasAttribute t.heap y position a → a.link = true → x ≠ a.typ ∧ ¬ Collection t.heap a.typ x) :
    t'.heap[x]? = t.heap[x]? := by
  obtain ⟨es, he, rfl⟩ := importType_done h
  have hs := events_sound fuel t.heap root es he
  have hself : ∀ {y}, Reaches t.heap root y → isBasicType t.heap y = false → y < t.heap.length →
      y ≠ x := fun hr hb hlt e => hx (e ▸ .composite hr ((composite_iff _ _).mpr ⟨hb, hlt⟩))
  have upd : ∀ (h : Heap) (z : TypeId) (f : TypeCell → TypeCell), z ≠ x → (h.update z f)[x]? = h[x]? := by
    intro h z f hz
    rw [update_getElem?, if_neg hz]
  have out : ∀ (h : Heap) (z : TypeId) (f : TypeCell → TypeCell), ¬ z < h.length →
      (h.update z f)[x]? = h[x]? := by
    intro h z f hz
    rw [update_getElem?]
    split
    · rename_i e
      subst e
      rw [List.getElem?_eq_none (Nat.le_of_not_lt hz)]
      rfl
    · rfl
  have addT : ∀ (s : TypeTable) (z : TypeId), z ≠ x ∨ ¬ z < s.heap.length →
      (s.addType z).heap[x]? = s.heap[x]? := by
    intro s z hz
    by_cases hlt : z < s.heap.length
    · rw [addType_some hlt]
      exact upd _ _ _ (hz.resolve_right (fun h => h hlt))
    · rw [addType_none hlt]
  have main : SameTypes t.heap (es.foldl perform t).heap ∧
      (es.foldl perform t).heap[x]? = t.heap[x]? := by
    refine foldl_invariant perform (Occurs t.heap root)
      (fun s => SameTypes t.heap s.heap ∧ s.heap[x]? = t.heap[x]?) ?_ es ⟨SameTypes.refl _, rfl⟩ hs
    rintro s e ⟨hsame, hget⟩ o
    refine ⟨hsame.trans (perform_same s e), ?_⟩
    have hlen := same_length hsame
    cases o with
    | @link y p a hr hb ha hlink =>
      have hat := (hasAttribute_iff t.heap y p a).mpr ha
      have hylt := hasAttribute_lt hat
      obtain ⟨h1, h2⟩ := hl y p a hr ((composite_iff _ _).mpr ⟨hb, hylt⟩) hat hlink
      have hy := hself hr hb hylt
      show (importLink s y p { name := [], typ := a.typ }).heap[x]? = _
      unfold importLink
      dsimp only
      split
      · exact (upd _ _ _ (Ne.symm h1)).trans hget
      · split
        · rename_i e he
          split
          · refine (upd _ _ _ ?_).trans ((upd _ _ _ (Ne.symm h1)).trans hget)
            rintro rfl
            rw [same_element hsame, elementOf_iff] at he
            exact h2 he
          · exact (upd _ _ _ hy).trans hget
        · exact (upd _ _ _ hy).trans hget
    | @add y p a e hr hb ha hlink he =>
      rw [elementOf_iff] at he
      have hat := (hasAttribute_iff t.heap y p a).mpr ha
      have hylt := hasAttribute_lt hat
      refine (addT s a.typ (.inl ?_)).trans hget
      rintro rfl
      exact hx (.collection hr ((composite_iff _ _).mpr ⟨hb, hylt⟩) hat hlink he)
    | @self y hr hb =>
      by_cases hlt : y < t.heap.length
      · have hy := hself hr hb hlt
        show (importSelf s y).heap[x]? = _
        unfold importSelf
        rw [addT _ _ (.inl hy)]
        split
        · exact (upd _ _ _ hy).trans hget
        · exact hget
      · show (importSelf s y).heap[x]? = _
        rw [importSelf_none (by rw [hlen]; exact hlt)]
        exact hget
  exact main.2

/-- The flag of the types declared with references, in the usual situation: the types that the version
needs have it afterwards if the version had a type with that flag and the same name. -/
theorem c65_flags_partial (fuel : Nat) (t t' : TypeTable) (root : TypeId)
    (h : importType fuel t root = .done t') (u : Usual t root) (x : TypeId) :
    Explicit t'.heap x ↔ Explicit t.heap x ∨
      (Reaches t.heap root x ∧ Composite t.heap x ∧ ExplicitIn t (typeKey t.heap x)) := by
  obtain ⟨es, he, rfl⟩ := importType_done h
  have hs := events_sound fuel t.heap root es he
  have l := Linked.steps u es (Linked.refl t root) hs
  simp only [explicit_iff]
  constructor
  · exact l.flags x
  · rintro (h1 | ⟨h1, h2, h3⟩)
    · refine foldl_invariant perform (fun _ => True) (fun s => flagAt s.heap x = true) ?_ es h1
        (fun _ _ => trivial)
      intro s e h _
      cases e with
      | link y p z =>
        show flagAt (importLink s y p { name := [], typ := z }).heap x = true
        unfold importLink
        dsimp only
        split
        · rw [flag_setOwner]; exact h
        · split
          · split
            · rw [flag_setOwner, flag_setOwner]; exact h
            · rw [flag_setLink]; exact h
          · rw [flag_setLink]; exact h
      | add z => show flagAt (s.addType z).heap x = true; rw [flag_addType]; exact h
      | self z =>
        show flagAt (importSelf s z).heap x = true
        unfold importSelf
        rw [flag_addType]
        split
        · rw [flagAt_set, h, Bool.true_or]
        · exact h
    · exact flags_done u hs (fun e o => events_complete he o) h1 h2 h3

/-- Links of the types that are needed, in the usual situation (the part for other situations is missing). If the version declares, with a
reference, the type of the link, or the type of its elements, then these belong to the version.
Otherwise the link remembers the original owner of its type. The owner isn't known exactly only if the
type is also needed by other attributes, because the owner that the link remembers depends on the
order. -/
theorem c65_links_partial (fuel : Nat) (t t' : TypeTable) (root : TypeId)
    (h : importType fuel t root = .done t') (u : Usual t root) (y : TypeId) (position : Nat)
    (a : Attribute) (hr : Reaches t.heap root y) (hc : Composite t.heap y)
    (ha : HasAttribute t.heap y position a) (hl : a.link = true) :
    ∃ b, HasAttribute t'.heap y position b ∧ attributeCore b = attributeCore a ∧
      (ExplicitIn t (typeKey t.heap a.typ) →
        b.linkOwner = a.linkOwner ∧ OwnedBy t'.heap a.typ t.version) ∧
      (¬ ExplicitIn t (typeKey t.heap a.typ) → ∀ e, Collection t.heap a.typ e →
        ExplicitIn t (typeKey t.heap e) →
        b.linkOwner = a.linkOwner ∧ OwnedBy t'.heap a.typ t.version ∧ OwnedBy t'.heap e t.version) ∧
      (¬ LinkDeclared t a → ¬ Added t.heap root a.typ → b.linkOwner = ownerAt t.heap a.typ) ∧
      (¬ LinkDeclared t a → Added t.heap root a.typ →
        b.linkOwner = ownerAt t.heap a.typ ∨ b.linkOwner = some t.version) := by
  obtain ⟨es, he, rfl⟩ := importType_done h
  have hs := events_sound fuel t.heap root es he
  have l := Linked.steps u es (Linked.refl t root) hs
  have d := links_done u hs (fun e o => events_complete he o) hr hc ha hl
  obtain ⟨b, hb⟩ : ∃ b, HasAttribute (es.foldl perform t).heap y position b := by
    have := same_attributes l.same y
    rw [hasAttribute_iff] at ha
    have hlt : position < (attributesOf (es.foldl perform t).heap y).length := by
      have h1 := congrArg List.length this
      rw [List.length_map, List.length_map] at h1
      rw [h1]
      exact (List.getElem?_eq_some_iff.mp ha).1
    exact ⟨_, (hasAttribute_iff _ _ _ _).mpr (List.getElem?_eq_getElem hlt)⟩
  obtain ⟨a0, ha0, hcore, hval⟩ := l.links y position b hb
  have : a0 = a := by
    rw [hasAttribute_iff] at ha ha0
    rw [ha] at ha0
    exact (Option.some.inj ha0).symm
  subst this
  have kept : LinkDeclared t a0 → b.linkOwner = a0.linkOwner := by
    intro hd
    rcases hval with h | ⟨-, -, -, h, -⟩
    · exact h
    · exact absurd hd h
  refine ⟨b, hb, hcore, fun h1 => ⟨kept (.inl h1), d.1 h1⟩, fun h1 e h2 h3 =>
    ⟨kept (.inr ⟨e, h2, h3⟩), d.2.1 h1 e h2 h3⟩, fun h1 h2 => ?_, fun h1 h2 => ?_⟩
  · rcases d.2.2 h1 b hb with h | ⟨h, -⟩
    · exact h
    · exact absurd h h2
  · rcases d.2.2 h1 b hb with h | ⟨-, h⟩
    · exact .inl h
    · exact .inr h

/-- Only the types that are needed, and those that the links of these claim, change owner; other
attributes keep the owner of the link. -/
theorem c65_owners_partial (fuel : Nat) (t t' : TypeTable) (root : TypeId)
    (h : importType fuel t root = .done t') (u : Usual t root) :
    (∀ x, ownerAt t'.heap x = ownerAt t.heap x ∨
      (ownerAt t'.heap x = some t.version ∧ (Added t.heap root x ∨ Claimed t root x))) ∧
    ∀ y position b, HasAttribute t'.heap y position b → ∃ a, HasAttribute t.heap y position a ∧
      attributeCore b = attributeCore a ∧ (b.linkOwner = a.linkOwner ∨
        (a.link = true ∧ Reaches t.heap root y ∧ Composite t.heap y ∧ ¬ LinkDeclared t a)) := by
  obtain ⟨es, he, rfl⟩ := importType_done h
  have hs := events_sound fuel t.heap root es he
  have l := Linked.steps u es (Linked.refl t root) hs
  refine ⟨l.owners, fun y p b hb => ?_⟩
  obtain ⟨a, h1, h2, h3⟩ := l.links y p b hb
  refine ⟨a, h1, h2, ?_⟩
  rcases h3 with h3 | ⟨h3, h4, h5, h6, -⟩
  · exact .inl h3
  · exact .inr ⟨h3, h4, h5, h6⟩

/-! ## The class with the reference -/

/-- Before loading the reference, the attributes of the version that are of the class, or of lists or
maps of it, stop being links to other version, and the types that they use get the flag of types
declared with references; lists and maps of another type with the name of the class get its owner. Nothing
else changes. -/
theorem c65_unlink (typ : TypeId) (t : TypeTable) :
    (unlinkAttributes typ t).version = t.version ∧ (unlinkAttributes typ t).types = t.types ∧
    SameTypes t.heap (unlinkAttributes typ t).heap ∧
    (∀ y position a, HasAttribute t.heap y position a →
      ∃ b, HasAttribute (unlinkAttributes typ t).heap y position b ∧
        attributeCore b = attributeCore a ∧
        (y ∈ t.types.values ∧ Matches t.heap typ a → b.linkOwner = none) ∧
        (¬ (y ∈ t.types.values ∧ Matches t.heap typ a) → b.linkOwner = a.linkOwner)) ∧
    (∀ x, x < t.heap.length → (Explicit (unlinkAttributes typ t).heap x ↔
      Explicit t.heap x ∨ Marked t typ x)) ∧
    ∀ x, x < t.heap.length →
      (NamedElement t typ x → ownerAt (unlinkAttributes typ t).heap x = ownerAt t.heap typ) ∧
      (¬ NamedElement t typ x → ownerAt (unlinkAttributes typ t).heap x = ownerAt t.heap x) := by
  have u := unlinking_all t typ
  refine ⟨u.version, u.types, u.same, fun y p a ha => ?_, fun x hx => ?_, fun x hx => ⟨fun hn =>
    unlinking_owner t typ hx hn, fun hn => ?_⟩⟩
  · obtain ⟨b, hb⟩ : ∃ b, HasAttribute (unlinkAttributes typ t).heap y p b := by
      have := same_attributes u.same y
      rw [hasAttribute_iff] at ha
      have hlt : p < (attributesOf (unlinkAttributes typ t).heap y).length := by
        have h1 := congrArg List.length this
        rw [List.length_map, List.length_map] at h1
        rw [h1]
        exact (List.getElem?_eq_some_iff.mp ha).1
      exact ⟨_, (hasAttribute_iff _ _ _ _).mpr (List.getElem?_eq_getElem hlt)⟩
    obtain ⟨a0, ha0, hcore, hval⟩ := u.links y p b hb
    have : a0 = a := by
      rw [hasAttribute_iff] at ha ha0
      rw [ha] at ha0
      exact (Option.some.inj ha0).symm
    subst this
    refine ⟨b, hb, hcore, fun ⟨h1, h2⟩ => unlinking_clears t typ ⟨h1, ha⟩ h2 b hb, fun hn => ?_⟩
    rcases hval with h | ⟨-, h1, h2⟩
    · exact h
    · exact absurd ⟨h1, h2⟩ hn
  · simp only [explicit_iff]
    refine ⟨u.flags x, fun h => ?_⟩
    rcases h with h | h
    · rw [unlink_eq]
      exact foldl_invariant (unlinkSpot typ) (fun _ => True) (fun s => flagAt s.heap x = true)
        (fun s e h _ => unlink_flag e h) _ h (fun _ _ => trivial)
    · exact unlinking_marks t typ hx h
  · rcases u.owners x with h | ⟨-, h⟩
    · exact h
    · exact absurd h hn

/-- What the declaration of a class does: the same as always and, if the class is declared for the first
time and has a reference, the class gets the flag of types declared with references, the attributes of
the version that use it are no longer links to other version, and then the reference is loaded. -/
theorem c65_class (h : Handler) (s : RefReader) (name doc : Text) (annotations : List Annotation)
    (members : List MemberDecl) :
    ∃ declared : Option TypeId,
      (declared = none → classDecl h s name doc annotations members =
        .done { s with reader := s.reader.decl (.class name doc annotations members) }) ∧
      ∀ id, declared = some id → ∃ r : Reader,
        r = s.reader.decl (.class name doc annotations members) ∧
        ∀ c, r.table.heap[id]? = some c →
          (referencePath c.annotations = [] →
            classDecl h s name doc annotations members = .done { s with reader := r }) ∧
          (referencePath c.annotations ≠ [] → classDecl h s name doc annotations members =
            h (withTable s r (unlinkAttributes id (flagged r.table id))) id
              (referencePath c.annotations)) := by
  unfold classDecl Reader.decl
  dsimp only
  unfold Reader.structDecl
  generalize Reader.forChildren Reader.structMember s.reader members = p
  obtain ⟨r, attributes⟩ := p
  dsimp only
  generalize r.declareType .class (Reader.identifier name) = q
  obtain ⟨r1, o⟩ := q
  refine ⟨o, ?_, ?_⟩
  · rintro rfl; rfl
  · rintro id rfl
    refine ⟨_, rfl, fun c hc => ?_⟩
    dsimp only at hc ⊢
    rw [hc]
    dsimp only
    exact ⟨fun he => by rw [if_pos he], fun he => by rw [if_neg he]; rfl⟩

/-! ## The reference -/

theorem apart_needs {h0 h : Heap} (ap : Apart h0 h) {x y : TypeId} (hx : h0.length ≤ x)
    (hn : Needs h x y) : h0.length ≤ y := by
  obtain ⟨-, p, a, ⟨c, hc, ha⟩, -, hcase⟩ := hn
  have hat := (ap.new x c hx hc).2.2.1 a (List.mem_of_getElem? ha)
  rcases hcase with ⟨c', hc', -, he⟩ | ⟨-, rfl⟩
  · exact (ap.new _ c' hat hc').2.2.2 y he
  · exact hat

theorem apart_reaches {h0 h : Heap} (ap : Apart h0 h) {x y : TypeId} (hx : h0.length ≤ x)
    (hr : Reaches h x y) : h0.length ≤ y := by
  induction hr with
  | refl => exact hx
  | step hn _ ih => exact ih (apart_needs ap hx hn)

theorem apart_added {h0 h : Heap} (ap : Apart h0 h) {root x : TypeId} (hx : h0.length ≤ root)
    (ha : Added h root x) : h0.length ≤ x ∧ ∀ c, h[x]? = some c → c.explicitDeclared = false := by
  have hle : h0.length ≤ x := by
    cases ha with
    | composite hr _ => exact apart_reaches ap hx hr
    | collection hr _ hat _ _ =>
      obtain ⟨c, hc, ha⟩ := hat
      exact (ap.new _ c (apart_reaches ap hx hr) hc).2.2.1 _ (List.mem_of_getElem? ha)
  exact ⟨hle, fun c hc => (ap.new x c hle hc).2.1⟩

theorem nested_apart (s : RefReader) : SessionApart s.reader.table.heap (nested s) :=
  ⟨Apart.refl _, fun k l n v hl _ => by cases hl⟩

theorem nested_good (s : RefReader) : ModelGood (nested s) :=
  ⟨List.nodup_nil, fun _ _ h => (nomatch h), fun _ _ _ _ _ _ h => (nomatch h)⟩

theorem serviceDirectory_found {input : SourceModel} {d : SourceService} (hm : d ∈ input.services)
    (hu : ∀ d' ∈ input.services, d'.name = d.name → d' = d) (hd : d.isDir = true) :
    serviceDirectory input d.name = d := by
  unfold serviceDirectory
  cases hf : input.services.find? fun s => s.name == d.name with
  | none =>
    have := List.find?_eq_none.mp hf d hm
    simp at this
  | some d' =>
    have h1 := List.find?_some hf
    have h2 := hu d' (List.mem_of_find?_eq_some hf) (by simpa using h1)
    subst h2
    dsimp only
    rw [if_pos hd]

theorem path_split {service version typ : Text} {rest : List Text} {path : Text}
    (hne : service ≠ []) (hs : ∀ w ∈ service :: version :: typ :: rest, '/' ∉ w)
    (hp : path = joinText ['/'] (service :: version :: typ :: rest) ∨
      path = '/' :: joinText ['/'] (service :: version :: typ :: rest)) :
    splitOn '/' (trimSlash path) = service :: version :: typ :: rest := by
  have hj := splitOn_joinText '/' (service :: version :: typ :: rest) (by simp) hs
  rcases hp with rfl | rfl
  · have : trimSlash (joinText ['/'] (service :: version :: typ :: rest)) =
        joinText ['/'] (service :: version :: typ :: rest) := by
      cases service with
      | nil => exact absurd rfl hne
      | cons c cs =>
        rw [joinText_cons _ _ _ (by simp)]
        show trimSlash (c :: _) = c :: _
        unfold trimSlash
        split
        · rename_i heq
          cases heq
          exact absurd (List.mem_cons_self ..) (hs _ (List.mem_cons_self ..))
        · rfl
    rw [this, hj]
  · exact hj

/-- A reference to a type of a service without references: the service is loaded into its own model, in
memory that is apart from what was loaded so far. If the service has no such version then it
panics; if the version has no such type then the reference is ignored; otherwise the type is added
to the version of the class. -/
theorem c65_reference (input : SourceModel) (fuel : Nat) (s : RefReader) (id : TypeId)
    (d : SourceService) (version typ : Text) (rest : List Text) (path : Text)
    (hm : d ∈ input.services) (hu : ∀ d' ∈ input.services, d'.name = d.name → d' = d)
    (hd : d.isDir = true) (hplain : ServicePlain d)
    (hne : d.name ≠ []) (hs : ∀ w ∈ d.name :: version :: typ :: rest, '/' ∉ w)
    (hp : path = joinText ['/'] (d.name :: version :: typ :: rest) ∨
      path = '/' :: joinText ['/'] (d.name :: version :: typ :: rest)) :
    ∃ n : Session,
      n = Session.loadService
        { created := s.created
          heap := s.reader.table.heap
          graph := s.reader.graph
          problems := s.reader.problems } d ∧
      Apart s.reader.table.heap n.heap ∧
      (¬ (d.status = .good ∧ ∃ v ∈ d.versions, Creates v (parseUsingSeparator version '_').toText) →
        handleClassRef [input] fuel s id path = .panic) ∧
      (d.status = .good ∧ (∃ v ∈ d.versions, Creates v (parseUsingSeparator version '_').toText) →
        ∃ v, n.version (parseUsingSeparator d.name '_').toText (parseUsingSeparator version '_').toText =
            some v ∧
          (v.types.find (parseUsingSeparator typ '_').toText = none →
            handleClassRef [input] fuel s id path = .done
              (after s n { s.reader.table with heap := n.heap })) ∧
          ∀ root, v.types.find (parseUsingSeparator typ '_').toText = some root →
            s.reader.table.heap.length ≤ root ∧
            typeKey n.heap root = (parseUsingSeparator typ '_').toText ∧
            handleClassRef [input] fuel s id path =
              (importType fuel { s.reader.table with heap := n.heap } root).bind fun table =>
                .done (after s n table)) := by
  obtain ⟨h1, h2⟩ := loadService_plain nestedHandler (nested s) d (nested_apart s) hplain
  have h3 := loadService_holds (s := nested s) rfl d hd
  have h4 := loadService_modelGood (nested_good s) d
  have hrun : handleClassRef [input] fuel s id path =
      importNamed fuel s (Session.loadService (nested s) d) d.name version typ := by
    unfold handleClassRef
    dsimp only
    rw [path_split hne hs hp]
    dsimp only
    rw [serviceDirectory_found hm hu hd, h1]
    rfl
  refine ⟨Session.loadService (nested s) d, rfl, h2.heap, fun hn => ?_, fun ⟨hg, hv⟩ => ?_⟩
  · rw [hrun]
    generalize Session.loadService (nested s) d = n at *
    have hnone : n.version (parseUsingSeparator d.name '_').toText
        (parseUsingSeparator version '_').toText = none := by
      by_cases hg : d.status = .good
      · cases hc : n.version (parseUsingSeparator d.name '_').toText
          (parseUsingSeparator version '_').toText with
        | none => rfl
        | some v => exact absurd ⟨hg, ((h3.1 hg).versions _).mp ⟨v, hc⟩⟩ hn
      · exact h3.2 hg _ _
    unfold importNamed
    rw [version_eq] at hnone
    cases hc : n.services.find (parseUsingSeparator d.name '_').toText with
    | none => rfl
    | some l =>
      rw [hc] at hnone
      dsimp only
      rw [show l.versions.find (parseUsingSeparator version '_').toText = none from hnone]
  · rw [hrun]
    generalize Session.loadService (nested s) d = n at *
    obtain ⟨v, hv⟩ := ((h3.1 hg).versions _).mpr hv
    refine ⟨v, hv, ?_⟩
    unfold importNamed
    rw [version_eq] at hv
    cases hc : n.services.find (parseUsingSeparator d.name '_').toText with
    | none => rw [hc] at hv; cases hv
    | some l =>
      rw [hc] at hv
      replace hv : l.versions.find (parseUsingSeparator version '_').toText = some v := hv
      dsimp only
      rw [hv]
      dsimp only
      refine ⟨fun hf => by rw [hf]; rfl, fun root hf => ?_⟩
      rw [hf]
      refine ⟨h2.types _ l _ v hc hv _ _ hf, ?_, rfl⟩
      obtain ⟨c, hcell, hname, -⟩ :=
        ((h4.named _ l hc).2.named _ v hv).2.2.named _ root hf
      unfold typeKey
      rw [hcell]
      exact hname

/-- After a reference has been loaded, the version of the class finds the referenced type by its name,
unless it is scalar, and all the types that it needs; all of them are types of the version. Nothing
of what was loaded before the reference changes, and other names of the version mean what they
did. -/
theorem c65_found (input : SourceModel) (fuel : Nat) (s s' : RefReader) (id : TypeId)
    (d : SourceService) (version typ : Text) (rest : List Text) (path : Text)
    (hm : d ∈ input.services) (hu : ∀ d' ∈ input.services, d'.name = d.name → d' = d)
    (hd : d.isDir = true) (hplain : ServicePlain d)
    (hne : d.name ≠ []) (hs : ∀ w ∈ d.name :: version :: typ :: rest, '/' ∉ w)
    (hp : path = joinText ['/'] (d.name :: version :: typ :: rest) ∨
      path = '/' :: joinText ['/'] (d.name :: version :: typ :: rest))
    (h : handleClassRef [input] fuel s id path = .done s') :
    ∃ n v, n = Session.loadService
        { created := s.created
          heap := s.reader.table.heap
          graph := s.reader.graph
          problems := s.reader.problems } d ∧
      n.version (parseUsingSeparator d.name '_').toText (parseUsingSeparator version '_').toText =
        some v ∧
      s'.reader.table.version = s.reader.table.version ∧
      SameTypes n.heap s'.reader.table.heap ∧
      (∀ i : Nat, i < s.reader.table.heap.length →
        s'.reader.table.heap[i]? = s.reader.table.heap[i]?) ∧
      (v.types.find (parseUsingSeparator typ '_').toText = none →
        s'.reader.table.types = s.reader.table.types) ∧
      ∀ root, v.types.find (parseUsingSeparator typ '_').toText = some root →
        (Composite n.heap root →
          s'.reader.table.types.find (parseUsingSeparator typ '_').toText = some root) ∧
        (∀ x, Added n.heap root x → s.reader.table.heap.length ≤ x ∧
          OwnedBy s'.reader.table.heap x s.reader.table.version ∧
          ∃ y, Added n.heap root y ∧ typeKey n.heap y = typeKey n.heap x ∧
            s'.reader.table.types.find (typeKey n.heap x) = some y) ∧
        ∀ key, (∀ x, Added n.heap root x → typeKey n.heap x ≠ key) →
          s'.reader.table.types.find key = s.reader.table.types.find key := by
  obtain ⟨n, hn, ap, hpanic, hdone⟩ :=
    c65_reference input fuel s id d version typ rest path hm hu hd hplain hne hs hp
  by_cases hv : d.status = .good ∧ ∃ v ∈ d.versions, Creates v (parseUsingSeparator version '_').toText
  · obtain ⟨v, hv, hnone, hsome⟩ := hdone hv
    refine ⟨n, v, hn, hv, ?_⟩
    cases hf : v.types.find (parseUsingSeparator typ '_').toText with
    | none =>
      rw [hnone hf] at h
      cases h
      exact ⟨rfl, SameTypes.refl _, fun i hi => ap.old i hi, fun _ => rfl, fun _ h => (nomatch h)⟩
    | some root =>
      obtain ⟨hle, hkey, hrun⟩ := hsome root hf
      rw [hrun] at h
      obtain ⟨table, ht, h⟩ := Run.bind_done h
      cases h
      obtain ⟨h1, h2, h3, h4⟩ := c65_types _ _ _ _ ht
      have h5 := (c65_root _ _ _ _ ht).1
      refine ⟨h1, h2, fun i hi => ?_, fun h => (nomatch h), ?_⟩
      · show table.heap[i]? = _
        rw [c65_untouched _ _ _ _ ht i ?_ ?_]
        · exact ap.old i hi
        · intro ha
          exact absurd (apart_added ap hle ha).1 (Nat.not_le_of_lt hi)
        · intro y p a hr hc hat hl
          obtain ⟨c, hcell, ha⟩ := hat
          have hya := (ap.new y c (apart_reaches ap hle hr) hcell).2.2.1 a (List.mem_of_getElem? ha)
          constructor
          · rintro rfl
            exact absurd hya (Nat.not_le_of_lt hi)
          · rintro ⟨c', hc', -, he⟩
            exact absurd ((ap.new _ c' hya hc').2.2.2 i he) (Nat.not_le_of_lt hi)
      · intro root' hr'
        cases hr'
        refine ⟨fun hc => ?_, fun x ha => ⟨(apart_added ap hle ha).1, h3 x ha⟩, h4⟩
        rw [← hkey]
        exact h5 hc
  · rw [hpanic hv] at h
    cases h

/-! ## Models without references -/

/-- Reading a model without references is the same as if references didn't exist. -/
theorem c65_plain (inputs : List SourceModel) (fuel : Nat) (prior : Option Nat)
    (hp : ∀ d ∈ inputs, ModelPlain d) :
    load inputs fuel = .done (Session.load inputs) ∧
    read prior inputs fuel = Session.read prior inputs fuel := by
  have h1 : load inputs fuel = .done (Session.load inputs) := by
    unfold load
    rw [loadModels_plain _ [] inputs {} ⟨Apart.refl _, fun _ _ _ _ h _ => (nomatch h)⟩ hp]
    rfl
  refine ⟨h1, ?_⟩
  unfold read Session.read
  cases prior with
  | none => rfl
  | some prior => dsimp only; rw [h1]; rfl

/-! ## Examples -/

/-- A reference. -/
private def refTo (path : Text) : List Annotation :=
  [{ name := t!"ref", parameters := [(t!"path", .str path)] }]

/-- A service with a class that has an attribute of a structure and a link. -/
private def accounts : SourceService :=
  { name := t!"acc"
    versions := [{ name := t!"v1", files := [{ decls :=
      [ .class t!"Account" [] []
          [ { name := t!"org", ref := .plain t!"Org" },
            { name := t!"role", ref := .plain t!"Role", link := true } ],
        .struct t!"Org" [] [] [{ name := t!"labels", ref := .list t!"Label" }],
        .struct t!"Label" [] [] [{ name := t!"key", ref := .plain t!"String" }],
        .class t!"Role" [] [] [],
        .resource t!"Root" [] [] [] ] }] }] }

/-- A service with a class that is a reference to a class of other service. -/
private def clusters (path : Text) : SourceService :=
  { name := t!"clu"
    versions := [{ name := t!"v1", files := [{ decls :=
      [ .class t!"Cluster" [] [] [{ name := t!"creator", ref := .plain t!"Account", link := true }],
        .class t!"Account" [] (refTo path) [],
        .resource t!"Root" [] [] [] ] }] }] }

/-- What is known of a type of a version: the names of its attributes, if it belongs to the version and
if it is declared with a reference. -/
private def typeFacts (s : Session) (v : LoadedVersion) (key : Text) :
    Option (List Text × Bool × Bool) :=
  ((v.types.find key).bind fun id => s.heap[id]?).map fun c =>
    (c.attributes.map (·.name.toText), c.owner == some v.id, c.explicitDeclared)

/-- A version that declares a class with a reference, when the type is about to be added. -/
private def pending : TypeTable :=
  { version := 0
    heap :=
      [ { name := plainName [t!"account"], kind := .class, owner := some 0, explicitDeclared := true },
        { name := plainName [t!"account"], kind := .class, owner := some 1
          attributes :=
            [ { name := plainName [t!"orgs"], typ := 3 },
              { name := plainName [t!"role"], typ := 4, link := true },
              { name := plainName [t!"creator"], typ := 1, link := true } ] },
        { name := plainName [t!"org"], kind := .struct, owner := some 1 },
        { name := plainName [t!"org", t!"list"], kind := .list, owner := some 1, element := some 2 },
        { name := plainName [t!"role"], kind := .class, owner := some 1 } ]
    types := [(t!"account", 0)] }

private theorem pending_apart : Apart (pending.heap.take 1) pending.heap where
  length := by decide
  old := fun i hi => by
    match i, hi with
    | 0, _ => rfl
    | i + 1, hi => exact absurd hi (by simp [pending])
  new := fun i c hi hc => by
    match i, hi, hc with
    | 1, _, hc => cases hc; simp [pending]
    | 2, _, hc => cases hc; simp [pending]
    | 3, _, hc => cases hc; simp [pending]
    | 4, _, hc => cases hc; simp [pending]
    | i + 5, _, hc => cases hc

/-- That is an usual situation. -/
private theorem pending_usual : Usual pending 1 where
  unflagged := fun _ c ha hc => (apart_added pending_apart (by decide) ha).2 c hc
  keyed := fun key x hf => by
    simp only [pending, GoMap.find] at hf
    split at hf
    · rename_i he
      cases hf
      subst he
      rfl
    · cases hf
  collections := fun x e _ hc he => by
    obtain ⟨c, hx, hk, -⟩ := hc
    match x, hx with
    | 0, hx => cases hx; simp at hk
    | 1, hx => cases hx; simp at hk
    | 2, hx => cases hx; simp at hk
    | 3, hx =>
      obtain ⟨y, c', hf, -⟩ := he
      exact absurd hf (by rw [show pending.types.find (typeKey pending.heap 3) = none from rfl]; nofun)
    | 4, hx => cases hx; simp at hk
    | i + 5, hx => cases hx

/-- Adding the type ends. The link to the class that is declared with a reference isn't a link to other
version; the other one is. -/
example : Usual pending 1 ∧ ∃ t', importType 9 pending 1 = .done t' ∧
    t'.types.find t!"account" = some 1 ∧ t'.types.find t!"org_list" = some 3 ∧
    t'.types.find t!"org" = some 2 ∧ t'.types.find t!"role" = none ∧
    (attributesOf t'.heap 1).map (·.linkOwner) = [none, some 1, none] ∧
    (t'.heap.map (·.owner)) = [some 0, some 0, some 0, some 0, some 1] ∧
    (t'.heap.map (·.explicitDeclared)) = [true, true, false, false, false] :=
  ⟨pending_usual, _, rfl, rfl, rfl, rfl, rfl, rfl, rfl, rfl⟩

set_option maxRecDepth 20000 in
/-- The class with the reference has the attributes of the class of the other service, and the types
that it needs, except those of links, are in the version. -/
example : ∃ s v, read (some 0) [{ services := [accounts, clusters t!"/acc/v1/account"] }] 9 =
      .done { result := .model s, errors := 0 } ∧
    s.version t!"clu" t!"v1" = some v ∧
    typeFacts s v t!"account" = some ([t!"org", t!"role"], true, true) ∧
    typeFacts s v t!"org" = some ([t!"labels"], true, false) ∧
    typeFacts s v t!"label" = some ([t!"key"], true, false) ∧
    typeFacts s v t!"label_list" = some ([], true, false) ∧
    typeFacts s v t!"role" = none :=
  ⟨_, _, rfl, rfl, rfl, rfl, rfl, rfl, rfl⟩

set_option maxRecDepth 20000 in
/-- A type that isn't in the other service is ignored: there is no error, and the class has no
attributes. -/
theorem c65_unknown_type : ∃ s v,
    read (some 0) [{ services := [accounts, clusters t!"/acc/v1/other"] }] 9 =
      .done { result := .model s, errors := 0 } ∧
    s.version t!"clu" t!"v1" = some v ∧ typeFacts s v t!"account" = some ([], true, true) :=
  ⟨_, _, rfl, rfl, rfl⟩

set_option maxRecDepth 20000 in
/-- References that aren't right make the reader panic, instead of reporting errors: services and
versions that don't exist, paths with less than three components, and references found in the service
that is being loaded because of a reference. Even right references make it panic if there are several
inputs. -/
theorem c65_no_panic_refuted :
    read (some 0) [{ services := [accounts, clusters t!"/other/v1/account"] }] 9 = .panic ∧
    read (some 0) [{ services := [accounts, clusters t!"/acc/v2/account"] }] 9 = .panic ∧
    read (some 0) [{ services := [accounts, clusters t!"/acc/v1"] }] 9 = .panic ∧
    read (some 0) [{ services := [clusters t!"/clu/v1/cluster"] }] 9 = .panic ∧
    read (some 0) [{ services := [accounts, clusters t!"/acc/v1/account"] }, {}] 9 = .panic :=
  ⟨rfl, rfl, rfl, rfl, rfl⟩

/-- A service with the given declarations. -/
private def service (decls : List Decl) : SourceService :=
  { name := t!"clu", versions := [{ name := t!"v1", files := [{ decls := decls }] }] }

set_option maxRecDepth 20000 in
/-- The result depends on the order of the declarations: a type of the version with the name of a type
that is added because of a reference is replaced, without errors, if it is declared before the
reference, and it is an error if it is declared after it. -/
theorem c65_order_refuted :
    (∃ s v, read (some 0) [{ services := [accounts, service
        [ .struct t!"Org" [] [] [{ name := t!"name", ref := .plain t!"String" }],
          .class t!"Account" [] (refTo t!"/acc/v1/account") [],
          .resource t!"Root" [] [] [] ]] }] 9 = .done { result := .model s, errors := 0 } ∧
      s.version t!"clu" t!"v1" = some v ∧ typeFacts s v t!"org" = some ([t!"labels"], true, false)) ∧
    ∃ text, read (some 0) [{ services := [accounts, service
        [ .class t!"Account" [] (refTo t!"/acc/v1/account") [],
          .struct t!"Org" [] [] [{ name := t!"name", ref := .plain t!"String" }],
          .resource t!"Root" [] [] [] ]] }] 9 = .done { result := .error text, errors := 1 } :=
  ⟨⟨_, _, rfl, rfl, rfl⟩, _, rfl⟩

set_option maxRecDepth 20000 in
/-- If the class doesn't have the name of the referenced one then it doesn't get its attributes: the
version has both. -/
theorem c65_other_name_refuted : ∃ s v, read (some 0) [{ services := [accounts, service
        [ .class t!"User" [] (refTo t!"/acc/v1/account") [],
          .resource t!"Root" [] [] [] ]] }] 9 = .done { result := .model s, errors := 0 } ∧
    s.version t!"clu" t!"v1" = some v ∧ typeFacts s v t!"user" = some ([], true, true) ∧
    typeFacts s v t!"account" = some ([t!"org", t!"role"], true, false) :=
  ⟨_, _, rfl, rfl, rfl, rfl⟩

set_option maxRecDepth 20000 in
/-- A type that the version has because of a reference can be used after the reference, but not before
it. -/
theorem c65_use_refuted :
    (∃ text, read (some 0) [{ services := [accounts, service
        [ .class t!"Cluster" [] [] [{ name := t!"org", ref := .plain t!"Org" }],
          .class t!"Account" [] (refTo t!"/acc/v1/account") [],
          .resource t!"Root" [] [] [] ]] }] 9 = .done { result := .error text, errors := 1 }) ∧
    ∃ s, read (some 0) [{ services := [accounts, service
        [ .class t!"Account" [] (refTo t!"/acc/v1/account") [],
          .class t!"Cluster" [] [] [{ name := t!"org", ref := .plain t!"Org" }],
          .resource t!"Root" [] [] [] ]] }] 9 = .done { result := .model s, errors := 0 } :=
  ⟨⟨_, rfl⟩, _, rfl⟩

/-- A class that has an attribute of its own type, that isn't a link. -/
private def trees : SourceService :=
  { name := t!"acc"
    versions := [{ name := t!"v1", files := [{ decls :=
      [ .class t!"Account" [] [] [{ name := t!"parent", ref := .plain t!"Account" }],
        .resource t!"Root" [] [] [] ] }] }] }

/-- If the types of the referenced class need themselves then the reader never ends. -/
theorem c65_never_ends (input : SourceModel) (s : RefReader) (id : TypeId)
    (d : SourceService) (version typ : Text) (rest : List Text) (path : Text)
    (hm : d ∈ input.services) (hu : ∀ d' ∈ input.services, d'.name = d.name → d' = d)
    (hd : d.isDir = true) (hplain : ServicePlain d)
    (hne : d.name ≠ []) (hs : ∀ w ∈ d.name :: version :: typ :: rest, '/' ∉ w)
    (hp : path = joinText ['/'] (d.name :: version :: typ :: rest) ∨
      path = '/' :: joinText ['/'] (d.name :: version :: typ :: rest))
    (n : Session) (v : LoadedVersion) (root x : TypeId)
    (hn : n = Session.loadService
        { created := s.created
          heap := s.reader.table.heap
          graph := s.reader.graph
          problems := s.reader.problems } d)
    (hver : n.version (parseUsingSeparator d.name '_').toText
      (parseUsingSeparator version '_').toText = some v)
    (hroot : v.types.find (parseUsingSeparator typ '_').toText = some root)
    (hr : Reaches n.heap root x) (hc : Circular n.heap x) :
    ∀ fuel, handleClassRef [input] fuel s id path = .outOfFuel := by
  intro fuel
  obtain ⟨n', hn', -, -, hdone⟩ :=
    c65_reference input fuel s id d version typ rest path hm hu hd hplain hne hs hp
  rw [← hn] at hn'
  subst hn'
  have h3 := loadService_holds (s := nested s) rfl d hd
  rw [show Session.loadService (nested s) d = n' from hn.symm] at h3
  have hgood : d.status = .good := by
    by_cases hg : d.status = .good
    · exact hg
    · rw [h3.2 hg] at hver; cases hver
  obtain ⟨v', hver', -, hsome⟩ := hdone ⟨hgood, ((h3.1 hgood).versions _).mp ⟨v, hver⟩⟩
  rw [hver] at hver'
  cases hver'
  obtain ⟨-, -, hrun⟩ := hsome root hroot
  rw [hrun]
  have he := c65_ends { s.reader.table with heap := n'.heap } root
  cases hi : importType fuel { s.reader.table with heap := n'.heap } root with
  | panic => exact absurd hi (he.2.2 fuel)
  | outOfFuel => rfl
  | done t => exact absurd hc (he.1.mp ⟨fuel, t, hi⟩ x hr)

set_option maxRecDepth 20000 in
/-- That happens. -/
example : ∀ fuel, handleClassRef [{ services := [trees] }] fuel { reader := Reader.fresh, created := 1 } 0
    t!"/acc/v1/account" = .outOfFuel := by
  refine c65_never_ends { services := [trees] } { reader := Reader.fresh, created := 1 } 0 trees t!"v1"
    t!"account" [] t!"/acc/v1/account" (List.mem_singleton.mpr rfl)
    (fun d' h _ => List.mem_singleton.mp h) rfl ?_ (by decide) (by decide) (.inr rfl)
    (Session.loadService { created := 1, heap := Reader.fresh.table.heap } trees) _ 28 28 rfl rfl rfl
    (.refl _) ⟨28, ⟨⟨_, rfl, nofun, nofun⟩, 0, _, ⟨_, rfl, rfl⟩, rfl, .inr ⟨?_, rfl⟩⟩, .refl _⟩
  · simp [ServicePlain, VersionPlain, DeclPlain, trees, Decl.typeAnnotations]
  · rintro e ⟨c, hc, h, -⟩
    rw [show _ = some _ from rfl] at hc
    cases hc
    simp at h

end ClassRef

end Verif
