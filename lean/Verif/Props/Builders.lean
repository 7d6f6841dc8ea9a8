import Verif.Lemmas.BuilderSound
import Verif.Props.GoTypes

/-! Properties of the generated builders. -/

namespace Verif

namespace GoBuilder

open GoJson

/-! ## An example -/

/-- A schema with a class with a name, labels, a parent, a list of children, and a list of links to
other objects. -/
def exSchema : Schema
  | 0 => .struct true t!"Cluster"
      [ { tag := t!"name", typ := 1, bit := 3 },
        { tag := t!"labels", typ := 2, bit := 4 },
        { tag := t!"parent", typ := 0, bit := 5 },
        { tag := t!"nodes", typ := 3, bit := 6 },
        { tag := t!"others", typ := 3, link := true, bit := 7 } ]
  | 1 => .string
  | 2 => .map 1
  | 3 => .list t!"ClusterList" 0
  | _ => .other

theorem exSchema_proper : Proper exSchema := by
  intro ty c n as h
  match ty with
  | 0 =>
    simp only [exSchema] at h
    cases h
    exact ⟨by decide, by decide, by decide, by decide, by decide⟩
  | 1 => simp [exSchema] at h
  | 2 => simp [exSchema] at h
  | 3 => simp [exSchema] at h
  | n + 4 => simp [exSchema] at h

theorem exSchema_simple : SimpleElements exSchema := by
  intro ty e h
  match ty with
  | 0 => simp [exSchema] at h
  | 1 => simp [exSchema] at h
  | 2 =>
    simp [exSchema] at h
    subst h
    exact .inl rfl
  | 3 =>
    simp [exSchema] at h
    subst h
    exact .inr ⟨_, _, _, rfl⟩
  | n + 4 => simp [exSchema] at h

/-! ## C41: getters return what the builder was given -/

/-- The state of a builder after a sequence of calls. -/
theorem after_new (S : Schema) (hp : Proper S) (ty : TypeId) (isClass : Bool) (n : Text)
    (as : List AttrShape) (hS : S ty = .struct isClass n as) (m0 m1 mem : Mem) (after : List Call)
    (h1 : exec S m0 (.new ty) = some m1) (h2 : execAll S m1 after = some mem)
    (hc : NoCopy m0.length after) :
    ∃ bm i h fs, mem[m0.length]? = some (.builder ty bm i h fs) ∧
      After S m0.length after as isClass 0 [] [] (as.map (zeroField S)) bm i h fs := by
  have hr : m1[m0.length]? = some (.builder ty 0 [] [] (as.map (zeroField S))) := by
    simp only [exec, hS] at h1
    cases h1
    simp [newBuilder]
  exact execAll_after S after m1 mem m0.length ty 0 [] [] _ isClass n as hS (hp ty _ _ _ hS) h2 hr hc

theorem zeroField_gives (S : Schema) (b : Ref → Run Val) (mem : Mem) (a : AttrShape) :
    buildField b S mem a.typ a.link (zeroField S a) = .done (zero (S a.typ)) := by
  unfold buildField zeroField
  cases S a.typ <;> rfl

/-- C41: whatever has been done before and after creating a builder, the getters of an attribute of
the object that it builds give what the last call to the setter of that attribute was given, with the
builders that it used replaced by what they build, and they say that the attribute is present. If the
setter hasn't been called, or the last call was given nil for an object or a map, the attribute isn't
present and the getter gives the zero value. So setters affect no other attribute. -/
theorem c41_get (S : Schema) (hp : Proper S) (hE : SimpleElements S) (ty : TypeId) (isClass : Bool)
    (n : Text) (as : List AttrShape) (hS : S ty = .struct isClass n as)
    (before after : List Call) (m0 m1 mem : Mem) (_h0 : execAll S [] before = some m0)
    (h1 : exec S m0 (.new ty) = some m1) (h2 : execAll S m1 after = some mem)
    (hc : NoCopy m0.length after) (fuel : Nat) (object : Val)
    (hb : build S mem (fuel + 1) m0.length = .done object) (i : Nat) (a : AttrShape)
    (ha : as[i]? = some a) :
    (lastSet m0.length i after = none →
      GoTypes.getOk S i a object = (zero (S a.typ), false)) ∧
    (∀ x, lastSet m0.length i after = some x → Removes S a x →
      GoTypes.getOk S i a object = (zero (S a.typ), false)) ∧
    (∀ x, lastSet m0.length i after = some x → ¬ Removes S a x →
      ∃ v, Gives S mem fuel a x v ∧ GoTypes.getOk S i a object = (v, true)) ∧
    GoTypes.get S i a object = (GoTypes.getOk S i a object).1 := by
  obtain ⟨bm, id, href, fs, hr, af⟩ := after_new S hp ty isClass n as hS m0 m1 mem after h1 h2 hc
  simp only [build, hr, hS, bind_eq_done] at hb
  obtain ⟨vs, hvs, e⟩ := hb
  cases e
  have hi : i < (as.map (zeroField S)).length := by
    rw [List.length_map]
    exact (List.getElem?_eq_some_iff.mp ha).1
  have hif : i < fs.length := by rw [af.length]; exact hi
  obtain ⟨v, hv, hbv⟩ := buildFields_done _ S mem as fs vs hvs i a fs[i] ha
    (List.getElem?_eq_getElem hif)
  obtain ⟨g1, g2⟩ := GoTypes.c41_getters S i a bm (if isClass = true then id else [])
    (if isClass = true then href else []) vs v hv
  refine ⟨?_, ?_, ?_, g2⟩
  · intro hn
    obtain ⟨u1, u2⟩ := af.unset i a ha hn
    rw [g1, u2]
    simp
  · intro x hx hrem
    obtain ⟨s1, s2, s3⟩ := af.set i a ha x hx
    have : bm.testBit a.bit = false := by
      cases hbit : bm.testBit a.bit
      · rfl
      · exact absurd hrem (s3.mp hbit)
    rw [g1, this]
    simp
  · intro x hx hrem
    obtain ⟨s1, s2, s3⟩ := af.set i a ha x hx
    refine ⟨v, ?_, ?_⟩
    · have hst : fs[i] = stored S a x := by
        have := s2 hi
        rw [List.getElem?_eq_getElem hif, Option.some.injEq] at this
        exact this
      rw [hst] at hbv
      exact buildField_gives S hE mem fuel a x v s1 hrem hbv
    · rw [g1, s3.mpr hrem]
      simp

/-- C41: the same for the identifier and the address of the objects of classes. -/
theorem c41_header (S : Schema) (hp : Proper S) (ty : TypeId) (n : Text) (as : List AttrShape)
    (hS : S ty = .struct true n as) (before after : List Call) (m0 m1 mem : Mem)
    (_h0 : execAll S [] before = some m0) (h1 : exec S m0 (.new ty) = some m1)
    (h2 : execAll S m1 after = some mem) (hc : NoCopy m0.length after) (fuel : Nat) (object : Val)
    (hb : build S mem fuel m0.length = .done object) :
    (GoTypes.getID object = match lastID m0.length after with
      | some value => (value, true)
      | none => ([], false)) ∧
    (GoTypes.getHREF object = match lastHREF m0.length after with
      | some value => (value, true)
      | none => ([], false)) := by
  obtain ⟨bm, id, href, fs, hr, af⟩ := after_new S hp ty true n as hS m0 m1 mem after h1 h2 hc
  cases fuel with
  | zero => simp [build] at hb
  | succ fuel =>
    simp only [build, hr, hS, bind_eq_done, if_true] at hb
    obtain ⟨vs, hvs, e⟩ := hb
    cases e
    constructor
    · cases hl : lastID m0.length after with
      | some v =>
        obtain ⟨e1, e2⟩ := af.ident.1 v hl
        simp [GoTypes.getID, e1, e2]
      | none =>
        obtain ⟨e1, e2⟩ := af.ident.2 hl
        have := e2 rfl
        simp only [Nat.zero_testBit] at this
        simp [GoTypes.getID, this]
    · cases hl : lastHREF m0.length after with
      | some v =>
        obtain ⟨e1, e2⟩ := af.address.1 v hl
        simp [GoTypes.getHREF, e1, e2]
      | none =>
        obtain ⟨e1, e2⟩ := af.address.2 hl
        have := e2 rfl
        simp only [Nat.zero_testBit] at this
        simp [GoTypes.getHREF, this]

/-- A builder with a name that is set twice, labels, and a parent that is given a name later. -/
def exCalls : List Call :=
  [ .set 0 0 (.scalar (.str t!"a")), .new 0, .set 0 2 (.ref 1), .newMap 1, .set 0 1 (.ref 2),
    .put 2 t!"k" (.scalar (.str t!"v")), .set 1 0 (.scalar (.str t!"p")), .id 0 t!"123",
    .set 0 0 (.scalar (.str t!"b")), .set 0 3 .nil ]

/-- The object that it builds. -/
def exBuilt : Val :=
  .obj 122 t!"123" []
    [.str t!"b", .map [(t!"k", .str t!"v")], .obj 8 [] [] [.str t!"p", .nil, .nil, .nil, .nil],
      .list [], .nil]

example : ∃ m1 mem, exec exSchema [] (.new 0) = some m1 ∧
    execAll exSchema m1 exCalls = some mem ∧ NoCopy 0 exCalls ∧
    build exSchema mem 2 0 = .done exBuilt ∧
    lastSet 0 0 exCalls = some (.scalar (.str t!"b")) ∧
    GoTypes.getOk exSchema 0 { tag := t!"name", typ := 1, bit := 3 } exBuilt = (.str t!"b", true) ∧
    GoTypes.getOk exSchema 4 { tag := t!"others", typ := 3, link := true, bit := 7 } exBuilt =
      (.nil, false) := by
  refine ⟨_, _, rfl, rfl, ?_, rfl, rfl, rfl, rfl⟩
  intro o h
  simp [exCalls] at h

/-- C41: building succeeds exactly if all the builders used, directly or not, by the builder aren't
nil and following them always ends. -/
theorem c41_builds_iff (S : Schema) (calls : List Call) (mem : Mem)
    (h : execAll S [] calls = some mem) (r : Ref) :
    (∃ fuel object, build S mem fuel r = .done object) ↔ Sound mem r := by
  have hm := execAll_types S calls [] mem h (MemOk.nil S)
  constructor
  · rintro ⟨fuel, v, hv⟩
    exact sound_of_build hm fuel r v hv
  · intro hs
    obtain ⟨n, hn⟩ := build_of_sound hm r hs
    obtain ⟨v, hv⟩ := hn n (Nat.le_refl _)
    exact ⟨n, v, hv⟩

/-- C41: and there is only one result. -/
theorem c41_build_unique (S : Schema) (mem : Mem) (r : Ref) (n m : Nat) (v w : Val)
    (hv : build S mem n r = .done v) (hw : build S mem m r = .done w) : v = w :=
  build_unique S mem n m r v w hv hw

example : ∃ m1 mem, exec exSchema [] (.new 0) = some m1 ∧ execAll exSchema m1 exCalls = some mem ∧
    Sound mem 0 := by
  refine ⟨_, _, rfl, rfl, ?_⟩
  refine (c41_builds_iff exSchema (.new 0 :: exCalls) _ rfl 0).mp ⟨2, exBuilt, rfl⟩

/-- C41 is false for all the calls: a nil element makes building panic, and a builder given to
itself makes building never end. -/
theorem c41_success_refuted :
    (∃ mem, execAll exSchema [] [.new 0, .set 0 3 (.list [.nil])] = some mem ∧
      ∀ fuel, build exSchema mem (fuel + 1) 0 = .panic) ∧
    (∃ mem, execAll exSchema [] [.new 0, .set 0 2 (.ref 0)] = some mem ∧
      ∀ fuel, build exSchema mem fuel 0 = .outOfFuel) := by
  refine ⟨⟨_, rfl, fun fuel => rfl⟩,
    [.builder 0 32 [] [] [.scalar (.str []), .nil, .ref 0, .nil, .nil]], rfl, ?_⟩
  intro fuel
  induction fuel with
  | zero => rfl
  | succ fuel ih =>
    rw [build]
    simp [exSchema, buildFields, buildField, Shape.isScalar, BVal.isNil, buildRef, ih, Run.bind,
      scalarOf]

/-! ## C43: the link flag -/

/-- C43: an object is a link exactly if `Link` has been called, with any value. -/
theorem c43_link_partial (S : Schema) (hp : Proper S) (ty : TypeId) (n : Text) (as : List AttrShape)
    (hS : S ty = .struct true n as) (before after : List Call) (m0 m1 mem : Mem)
    (_h0 : execAll S [] before = some m0) (h1 : exec S m0 (.new ty) = some m1)
    (h2 : execAll S m1 after = some mem) (hc : NoCopy m0.length after) (fuel : Nat) (object : Val)
    (hb : build S mem fuel m0.length = .done object) :
    GoTypes.link object = true ↔ ∃ value, Call.link m0.length value ∈ after := by
  obtain ⟨bm, id, href, fs, hr, af⟩ := after_new S hp ty true n as hS m0 m1 mem after h1 h2 hc
  cases fuel with
  | zero => simp [build] at hb
  | succ fuel =>
    simp only [build, hr, hS, bind_eq_done, if_true] at hb
    obtain ⟨vs, hvs, e⟩ := hb
    cases e
    simp only [GoTypes.link, GoTypes.hasBit]
    rw [af.linked rfl]
    simp

/-- C43 is false: setting the flag to false makes the object a link. -/
theorem c43_false_refuted : ∃ mem object,
    execAll exSchema [] [.new 0, .link 0 false] = some mem ∧
    build exSchema mem 1 0 = .done object ∧ GoTypes.link object = true :=
  ⟨_, _, rfl, rfl, rfl⟩

/-! ## C44: empty builders -/

/-- C44: a builder is empty exactly if the attributes haven't been given a value, or their last one
was nil, and neither the identifier nor the address have been given; nil is empty. The object that it
builds is empty exactly if the builder is. -/
theorem c44_builder (S : Schema) (hp : Proper S) (ty : TypeId) (isClass : Bool) (n : Text)
    (as : List AttrShape) (hS : S ty = .struct isClass n as) (before after : List Call)
    (m0 m1 mem : Mem) (_h0 : execAll S [] before = some m0) (h1 : exec S m0 (.new ty) = some m1)
    (h2 : execAll S m1 after = some mem) (hc : NoCopy m0.length after) :
    (GoBuilder.empty isClass mem[m0.length]? = true ↔
      (∀ i a, as[i]? = some a → ∀ x, lastSet m0.length i after = some x → Removes S a x) ∧
      (isClass = true → lastID m0.length after = none ∧ lastHREF m0.length after = none)) ∧
    (∀ fuel object, build S mem fuel m0.length = .done object →
      GoTypes.empty isClass object = GoBuilder.empty isClass mem[m0.length]?) ∧
    GoBuilder.empty isClass none = true := by
  obtain ⟨bm, id, href, fs, hr, af⟩ := after_new S hp ty isClass n as hS m0 m1 mem after h1 h2 hc
  have hprop := hp ty _ _ _ hS
  have hmean : GoTypes.Meaningful isClass as bm := by
    intro b hb
    rcases af.bits b hb with h | h | h
    · simp at h
    · exact .inl h
    · exact .inr h
  have hset : ∀ i a, as[i]? = some a → (bm.testBit a.bit = true ↔
      ∃ x, lastSet m0.length i after = some x ∧ ¬ Removes S a x) := by
    intro i a ha
    cases hl : lastSet m0.length i after with
    | none =>
      rw [(af.unset i a ha hl).2]
      simp
    | some x =>
      rw [(af.set i a ha x hl).2.2]
      simp
  refine ⟨?_, ?_, rfl⟩
  · rw [hr]
    have hobj := (GoTypes.c44_empty isClass as bm id href [] hprop hmean).1
    have : GoBuilder.empty isClass (some (.builder ty bm id href fs)) =
        GoTypes.empty isClass (.obj bm id href []) := rfl
    rw [this, hobj]
    unfold GoTypes.HasValue
    constructor
    · intro hv
      refine ⟨?_, ?_⟩
      · intro i a ha x hx
        apply Classical.byContradiction
        intro hrem
        exact hv (.inl ⟨a, List.mem_of_getElem? ha, (hset i a ha).mpr ⟨x, hx, hrem⟩⟩)
      · intro hcl
        constructor
        · cases hl : lastID m0.length after with
          | none => rfl
          | some v => exact absurd (.inr ⟨hcl, .inl (af.ident.1 v hl).2⟩) hv
        · cases hl : lastHREF m0.length after with
          | none => rfl
          | some v => exact absurd (.inr ⟨hcl, .inr (af.address.1 v hl).2⟩) hv
    · rintro ⟨h3, h4⟩ (⟨a, ha, hb⟩ | ⟨hcl, hb | hb⟩)
      · obtain ⟨i, hi, rfl⟩ := List.mem_iff_getElem.mp ha
        obtain ⟨x, hx, hrem⟩ := (hset i _ (List.getElem?_eq_getElem hi)).mp hb
        exact hrem (h3 i _ (List.getElem?_eq_getElem hi) x hx)
      · rw [(af.ident.2 (h4 hcl).1).2 hcl] at hb
        simp at hb
      · rw [(af.address.2 (h4 hcl).2).2 hcl] at hb
        simp at hb
  · intro fuel object hb
    cases fuel with
    | zero => simp [build] at hb
    | succ fuel =>
      simp only [build, hr, hS, bind_eq_done] at hb
      obtain ⟨vs, hvs, e⟩ := hb
      cases e
      rw [hr]
      rfl

/-- A builder of a link without identifier is empty; it stops being empty with a name. -/
example : ∃ m m', execAll exSchema [] [.new 0, .link 0 true, .set 0 2 .nil] = some m ∧
    GoBuilder.empty true m[0]? = true ∧
    execAll exSchema [] [.new 0, .set 0 0 (.scalar (.str []))] = some m' ∧
    GoBuilder.empty true m'[0]? = false :=
  ⟨_, _, rfl, rfl, rfl, rfl⟩

/-! ## C45: builders of lists -/

theorem lastItems_cons (r : Ref) (c : Call) (cs : List Call) :
    lastItems r (c :: cs) =
      match lastItems r cs with
      | some v => some v
      | none => match c with
        | .items q v => if q = r then some v else none
        | _ => none := by
  unfold lastItems
  rw [List.filterMap_cons]
  cases c with
  | items q v =>
    by_cases h : q = r
    · simp only [if_pos h, getLast?_cons']
      generalize (List.filterMap _ cs).getLast? = o
      cases o <;> rfl
    · simp only [if_neg h]
      split <;> simp_all
  | _ => simp only []; split <;> simp_all

theorem listBuilder_after (S : Schema) (r : Ref) (ty : TypeId) (cs : List Call) (mem mem' : Mem)
    (x : BVal) (hr : mem[r]? = some (.listBuilder ty x)) (he : execAll S mem cs = some mem')
    (hc : NoCopyList r cs) :
    mem'[r]? = some (.listBuilder ty (match lastItems r cs with
      | some v => copySlice v
      | none => x)) := by
  induction cs generalizing mem x with
  | nil =>
    simp only [execAll] at he
    cases he
    exact hr
  | cons c cs ih =>
    simp only [execAll] at he
    split at he
    · cases he
    · rename_i mem1 he1
      have hc' : NoCopyList r cs := fun l hl => hc l (List.mem_cons_of_mem _ hl)
      rw [lastItems_cons]
      by_cases ht : c.target = some r
      · cases c with
        | items q v =>
          simp only [Call.target, Option.some.injEq] at ht
          subst ht
          simp only [exec, hr] at he1
          split at he1
          · cases he1
            rw [ih _ _ (getElem?_set_self' _ hr) he hc']
            cases lastItems q cs <;> simp
          · cases he1
        | copyList q o =>
          simp only [Call.target, Option.some.injEq] at ht
          subst ht
          exact absurd (by simp) (hc o)
        | put q k v =>
          simp only [Call.target, Option.some.injEq] at ht
          subst ht
          simp [exec, hr] at he1
        | new t => simp [Call.target] at ht
        | newList t => simp [Call.target] at ht
        | newMap t => simp [Call.target] at ht
        | _ =>
          simp only [Call.target, Option.some.injEq] at ht
          subst ht
          simp [exec, hr] at he1
      · rw [ih mem1 x (exec_other S mem mem1 c r _ he1 hr ht) he hc']
        have hni : ∀ v, c ≠ .items r v := by
          rintro v rfl
          exact ht rfl
        cases hl : lastItems r cs with
        | some v => rfl
        | none =>
          cases c with
          | items q v =>
            have : q ≠ r := by
              rintro rfl
              exact hni v rfl
            simp [this]
          | _ => rfl

/-- C45: a builder of lists builds the list of what the builders that it was given the last time build;
if it wasn't given any, or it was given none, it is empty and it builds a list without items. -/
theorem c45_builder (S : Schema) (ty : TypeId) (n : Text) (element : TypeId)
    (hS : S ty = .list n element) (before after : List Call) (m0 m1 mem : Mem)
    (_h0 : execAll S [] before = some m0) (h1 : exec S m0 (.newList ty) = some m1)
    (h2 : execAll S m1 after = some mem) (hc : NoCopyList m0.length after) :
    ∃ xs : List BVal, (match lastItems m0.length after with
        | some (.list given) => xs = given
        | _ => xs = []) ∧
      (emptyList mem[m0.length]? = true ↔ xs = []) ∧
      ∀ fuel list, buildList S mem fuel m0.length = .done list →
        ∃ vs, list = .linkList false [] (.list vs) ∧ xs.length = vs.length ∧
          ∀ (k : Nat) x v, xs[k]? = some x → vs[k]? = some v →
            ∃ b, x = .ref b ∧ build S mem fuel b = .done v := by
  have hr : m1[m0.length]? = some (.listBuilder ty .nil) := by
    simp only [exec, hS] at h1
    split at h1
    · cases h1
      simp [newListBuilder]
    · cases h1
  have hend := listBuilder_after S m0.length ty after m1 mem .nil hr h2 hc
  have hnone : ∀ y : BVal, (∀ xs, y ≠ .list xs) →
      ∀ fuel list, buildItems (build S mem fuel) y = .done list →
        ∃ vs, list = .linkList false [] (.list vs) ∧ ([] : List BVal).length = vs.length ∧
          ∀ (k : Nat) x v, ([] : List BVal)[k]? = some x → vs[k]? = some v →
            ∃ b, x = .ref b ∧ build S mem fuel b = .done v := by
    intro y hy fuel list hl
    cases y with
    | list xs => exact absurd rfl (hy xs)
    | _ =>
      simp only [buildItems] at hl
      cases hl
      exact ⟨[], rfl, rfl, by simp⟩
  have hsome : ∀ xs : List BVal, ∀ fuel list, buildItems (build S mem fuel) (.list xs) = .done list →
        ∃ vs, list = .linkList false [] (.list vs) ∧ xs.length = vs.length ∧
          ∀ (k : Nat) x v, xs[k]? = some x → vs[k]? = some v →
            ∃ b, x = .ref b ∧ build S mem fuel b = .done v := by
    intro xs fuel list hl
    simp only [buildItems, bind_eq_done] at hl
    obtain ⟨vs, hvs, e⟩ := hl
    cases e
    obtain ⟨l1, l2⟩ := mapRun_done _ _ _ hvs
    refine ⟨vs, rfl, l1, ?_⟩
    intro k x v hx hv
    have := l2 k x v hx hv
    cases x <;> simp [buildRef] at this
    exact ⟨_, rfl, this⟩
  unfold buildList
  cases hl : lastItems m0.length after with
  | none =>
    rw [hl] at hend
    refine ⟨[], rfl, by simp [hend, emptyList], ?_⟩
    rw [hend]
    exact hnone .nil (by simp)
  | some y =>
    rw [hl] at hend
    cases y with
    | list xs =>
      refine ⟨xs, rfl, by simp [hend, emptyList, copySlice], ?_⟩
      rw [hend]
      exact hsome xs
    | _ =>
      refine ⟨[], rfl, by simp [hend, emptyList, copySlice], ?_⟩
      rw [hend]
      exact hsome []

example : ∃ mem, execAll exSchema [] [.new 0, .newList 3, .items 1 (.list [.ref 0, .ref 0])] = some mem ∧
    emptyList mem[1]? = false ∧
    buildList exSchema mem 1 1 = .done (.linkList false [] (.list
      [.obj 0 [] [] [.str [], .nil, .nil, .nil, .nil],
        .obj 0 [] [] [.str [], .nil, .nil, .nil, .nil]])) :=
  ⟨_, rfl, rfl, rfl⟩

/-! ## C42: copies -/

/-- C42: after copying an object into a builder, whatever the builder had before, building gives the
object with these differences: empty maps are nil, nil elements of lists and maps are empty objects,
and lists that are links have no link flag and no address and always have items. It doesn't matter
what happens later to anything that existed before the copy. The copy doesn't change anything else. -/
theorem c42_copy (S : Schema) (hE : SimpleElements S) (calls : List Call) (mem mem' : Mem)
    (h : execAll S [] calls = some mem) (r : Ref) (ty : TypeId) (bm : Nat) (i hh : Text)
    (fs : List BVal) (hr : mem[r]? = some (.builder ty bm i hh fs)) (object : Val)
    (hn : object.isNil = false) (hcopy : exec S mem (.copy r object) = some mem') :
    (∀ m : Mem, m[r]? = mem'[r]? →
      (∀ q, mem.length ≤ q → q < mem'.length → m[q]? = mem'[q]?) →
      ∃ fuel, ∀ fuel', fuel ≤ fuel' → build S m fuel' r = .done (rebuilt S ty object)) ∧
    (∀ q, q < mem.length → q ≠ r → mem'[q]? = mem[q]?) := by
  have hm := execAll_types S calls [] mem h (MemOk.nil S)
  obtain ⟨c, n, as, hS, hfs⟩ := hm.get hr
  refine ⟨?_, ?_⟩
  · simp only [exec, hr] at hcopy
    split at hcopy
    · rename_i ht
      cases object with
      | obj bitmap id href fields =>
        simp only [copy, hr, hS] at hcopy
        cases hcopy
        simp only [typed, hS, Bool.and_eq_true, Bool.or_eq_true] at ht
        obtain ⟨⟨extra, hex⟩, hl, hb⟩ := copyFields_ok S hE as fs mem fields ht.2 hfs.length
        have hlt : r < mem.length := (List.getElem?_eq_some_iff.mp hr).1
        intro m hm1 hm2
        have hag : Agree mem (copyFields S mem as fs fields).1 m := by
          intro q h1 h2
          rw [hm2 q h1 (by simpa using h2), List.getElem?_set_ne (Nat.ne_of_lt (Nat.lt_of_lt_of_le hlt h1))]
        rw [getElem?_set_self' (c := .builder ty bm i hh fs) _
          (getElem?_of_extends ⟨extra, hex⟩ r _ hr)] at hm1
        have := (hb m hag).succ (Q := fun fuel => build S m fuel r =
          .done (rebuilt S ty (.obj bitmap id href fields))) ?_
        · exact this
        · intro fuel hf
          have hre : rebuilt S ty (.obj bitmap id href fields) =
              .obj bitmap id href (rebuiltFields S as fields) := by simp [rebuilt, hS]
          simp only [build, hm1, hS, hf, Run.bind, hre]
          rcases ht.1 with hcl | hcl
          · simp [hcl]
          · have e1 : id = [] := by simpa using hcl.1
            have e2 : href = [] := by simpa using hcl.2
            cases c <;> simp [e1, e2]
      | nil => simp [Val.isNil] at hn
      | linkList l h items =>
        exfalso
        cases items <;> simp [typed, hS] at ht
      | _ =>
        exfalso
        simp [typed, hS, scalarFits] at ht
    · cases hcopy
  · intro q hq hqr
    have hg : mem[q]? = some mem[q] := List.getElem?_eq_getElem hq
    rw [hg]
    exact exec_other S mem mem' _ q _ hcopy hg (by simp only [Call.target, ne_eq, Option.some.injEq]; exact fun e => hqr e.symm)

/-- C42: copying never fails, and copying nil does nothing. -/
theorem c42_total (S : Schema) (calls : List Call) (mem : Mem) (h : execAll S [] calls = some mem)
    (r : Ref) (ty : TypeId) (bm : Nat) (i hh : Text) (fs : List BVal)
    (hr : mem[r]? = some (.builder ty bm i hh fs)) :
    (∀ object, typed S ty false object = true → ∃ mem', exec S mem (.copy r object) = some mem') ∧
    exec S mem (.copy r .nil) = some mem := by
  have hm := execAll_types S calls [] mem h (MemOk.nil S)
  obtain ⟨c, n, as, hS, hfs⟩ := hm.get hr
  constructor
  · intro object ht
    cases object with
    | obj bitmap id href fields => exact ⟨_, by simp only [exec, hr, ht, copy, hS]; rfl⟩
    | _ => exact ⟨_, by simp only [exec, hr, ht, copy]; rfl⟩
  · simp [exec, hr, typed, hS, copy]

theorem typed_nil_scalar (S : Schema) (ty : TypeId) (h : (S ty).isScalar = true) :
    typed S ty false .nil = false := by
  unfold typed
  cases hs : S ty <;> simp_all [Shape.isScalar]

mutual
theorem rebuilt_eq_iff (S : Schema) (hE : SimpleElements S) (ty : TypeId) (link : Bool) (v : Val)
    (ht : typed S ty link v = true) : rebuilt S ty v = v ↔ Plain v := by
  cases v with
  | obj bitmap id href fields =>
    simp only [typed] at ht
    split at ht
    · rename_i c n as hS
      simp only [Bool.and_eq_true] at ht
      simp only [rebuilt, hS, Plain, Val.obj.injEq, true_and]
      exact rebuiltFields_eq_iff S hE as fields ht.2
    · cases ht
  | list items =>
    simp only [typed] at ht
    split at ht
    · rename_i n e hS
      simp only [Bool.and_eq_true] at ht
      simp only [rebuilt, hS, Plain, Val.list.injEq]
      exact rebuiltItems_eq_iff S hE e items (hE ty e (.inl ⟨n, hS⟩)) ht.2
    · cases ht
  | linkList l h items =>
    cases items with
    | list items =>
      simp only [typed] at ht
      split at ht
      · rename_i n e hS
        split at ht
        · simp only [Bool.and_eq_true] at ht
          simp only [rebuilt, hS, Plain, Val.linkList.injEq, Val.list.injEq]
          rw [rebuiltItems_eq_iff S hE e items (hE ty e (.inl ⟨n, hS⟩)) ht.2]
          constructor
          · rintro ⟨rfl, rfl, h⟩; exact ⟨rfl, rfl, h⟩
          · rintro ⟨rfl, rfl, h⟩; exact ⟨rfl, rfl, h⟩
        · cases ht
      · cases ht
    | _ => simp [rebuilt, Plain]
  | map entries =>
    cases entries with
    | nil => simp [rebuilt, Plain]
    | cons e es =>
      simp only [typed] at ht
      split at ht
      · rename_i el hS
        simp only [rebuilt, hS, Plain, Val.map.injEq]
        exact rebuiltEntries_eq_iff S hE el (e :: es) (hE ty el (.inr hS)) ht
      · cases ht
  | _ => simp [rebuilt, Plain]
theorem rebuiltFields_eq_iff (S : Schema) (hE : SimpleElements S) (as : List AttrShape)
    (vs : List Val) (ht : typedFields S as vs = true) :
    rebuiltFields S as vs = vs ↔ PlainFields vs := by
  match as, vs with
  | [], [] => simp [rebuiltFields, PlainFields]
  | a :: as, v :: vs =>
    simp only [typedFields, Bool.and_eq_true] at ht
    simp only [rebuiltFields, PlainFields, List.cons.injEq]
    rw [rebuilt_eq_iff S hE a.typ a.link v ht.1, rebuiltFields_eq_iff S hE as vs ht.2]
  | [], _ :: _ => simp [typedFields] at ht
  | _ :: _, [] => simp [typedFields] at ht
theorem rebuiltItems_eq_iff (S : Schema) (hE : SimpleElements S) (e : TypeId) (vs : List Val)
    (hs : (S e).isScalar = true ∨ ∃ c n as, S e = .struct c n as)
    (ht : typedItems S e vs = true) : rebuiltItems S e vs = vs ↔ PlainItems vs := by
  match vs with
  | [] => simp [rebuiltItems, PlainItems]
  | v :: vs =>
    simp only [typedItems, Bool.and_eq_true] at ht
    simp only [rebuiltItems, PlainItems, List.cons.injEq]
    rw [rebuiltItems_eq_iff S hE e vs hs ht.2]
    cases hn : v.isNil with
    | false =>
      simp only [Bool.false_eq_true, if_false, true_and]
      rw [rebuilt_eq_iff S hE e false v ht.1]
    | true =>
      have : v = .nil := by cases v <;> simp [Val.isNil] at hn; rfl
      subst this
      rcases hs with h | ⟨c, n, as, h⟩
      · have := typed_nil_scalar S e h
        rw [this] at ht
        simp at ht
      · simp [emptyObject, h]
theorem rebuiltEntries_eq_iff (S : Schema) (hE : SimpleElements S) (e : TypeId)
    (vs : List (Text × Val)) (hs : (S e).isScalar = true ∨ ∃ c n as, S e = .struct c n as)
    (ht : typedEntries S e vs = true) : rebuiltEntries S e vs = vs ↔ PlainEntries vs := by
  match vs with
  | [] => simp [rebuiltEntries, PlainEntries]
  | (k, v) :: vs =>
    simp only [typedEntries, Bool.and_eq_true] at ht
    simp only [rebuiltEntries, PlainEntries, List.cons.injEq, Prod.mk.injEq, true_and]
    rw [rebuiltEntries_eq_iff S hE e vs hs ht.2]
    cases hn : v.isNil with
    | false =>
      simp only [Bool.false_eq_true, if_false, true_and]
      rw [rebuilt_eq_iff S hE e false v ht.1]
    | true =>
      have : v = .nil := by cases v <;> simp [Val.isNil] at hn; rfl
      subst this
      rcases hs with h | ⟨c, n, as, h⟩
      · have := typed_nil_scalar S e h
        rw [this] at ht
        simp at ht
      · simp [emptyObject, h]
end

/-- C42: the result is the object that was copied exactly if it has nothing of that. -/
theorem c42_equal_partial (S : Schema) (hE : SimpleElements S) (calls : List Call) (mem mem' : Mem)
    (h : execAll S [] calls = some mem) (r : Ref) (ty : TypeId) (bm : Nat) (i hh : Text)
    (fs : List BVal) (hr : mem[r]? = some (.builder ty bm i hh fs)) (object : Val)
    (hn : object.isNil = false) (hcopy : exec S mem (.copy r object) = some mem') :
    (∃ fuel, build S mem' fuel r = .done object) ↔ Plain object := by
  obtain ⟨fuel, hf⟩ := (c42_copy S hE calls mem mem' h r ty bm i hh fs hr object hn hcopy).1 mem' rfl
    (fun _ _ _ => rfl)
  have ht : typed S ty false object = true := by
    simp only [exec, hr] at hcopy
    split at hcopy
    · assumption
    · cases hcopy
  rw [← rebuilt_eq_iff S hE ty false object ht]
  constructor
  · rintro ⟨n, hb⟩
    exact build_unique S mem' fuel n r _ _ (hf fuel (Nat.le_refl _)) hb
  · intro e
    rw [← e]
    exact ⟨fuel, hf fuel (Nat.le_refl _)⟩

theorem execAll_other (S : Schema) (cs : List Call) (mem mem' : Mem) (q : Ref) (cell : Cell)
    (h : execAll S mem cs = some mem') (hq : mem[q]? = some cell)
    (ht : ∀ c ∈ cs, c.target ≠ some q) : mem'[q]? = some cell := by
  induction cs generalizing mem with
  | nil =>
    simp only [execAll] at h
    cases h
    exact hq
  | cons c cs ih =>
    simp only [execAll] at h
    split at h
    · cases h
    · rename_i mem1 h1
      exact ih mem1 h (exec_other S mem mem1 c q cell h1 hq (ht c (by simp)))
        (fun c hc => ht c (List.mem_cons_of_mem _ hc))

theorem rebuiltFields_length (S : Schema) (as : List AttrShape) (vs : List Val)
    (ht : typedFields S as vs = true) : (rebuiltFields S as vs).length = as.length := by
  induction as generalizing vs with
  | nil => cases vs <;> simp [rebuiltFields]
  | cons a as ih =>
    cases vs with
    | nil => simp [typedFields] at ht
    | cons v vs =>
      simp only [typedFields, Bool.and_eq_true] at ht
      simp [rebuiltFields, ih vs ht.2]

/-- C42: calling setters after copying an object changes the attributes of these setters only: the
getters of the others give what they give for the copy. The builders that the copy creates are not
known by the user, so they aren't changed. -/
theorem c42_then_set (S : Schema) (hp : Proper S) (hE : SimpleElements S) (calls : List Call)
    (mem mem' : Mem) (h : execAll S [] calls = some mem) (r : Ref) (ty : TypeId) (isClass : Bool)
    (n : Text) (as : List AttrShape) (hS : S ty = .struct isClass n as) (bm : Nat) (i hh : Text)
    (fs : List BVal) (hr : mem[r]? = some (.builder ty bm i hh fs)) (object : Val)
    (hn : object.isNil = false) (hcopy : exec S mem (.copy r object) = some mem')
    (after : List Call) (mem2 : Mem) (h2 : execAll S mem' after = some mem2) (hc : NoCopy r after)
    (hprivate : ∀ c ∈ after, ∀ q, mem.length ≤ q → q < mem'.length → c.target ≠ some q)
    (fuel : Nat) (result : Val) (hb : build S mem2 fuel r = .done result) (k : Nat) (a : AttrShape)
    (ha : as[k]? = some a) :
    (lastSet r k after = none →
      GoTypes.getOk S k a result = GoTypes.getOk S k a (rebuilt S ty object)) ∧
    (isClass = true → lastID r after = none →
      GoTypes.getID result = GoTypes.getID (rebuilt S ty object)) ∧
    (isClass = true → lastHREF r after = none →
      GoTypes.getHREF result = GoTypes.getHREF (rebuilt S ty object)) := by
  have hm := execAll_types S calls [] mem h (MemOk.nil S)
  obtain ⟨c, n', as', hS', hfs⟩ := hm.get hr
  rw [hS] at hS'
  cases hS'
  simp only [exec, hr] at hcopy
  split at hcopy
  · rename_i ht
    cases object with
    | obj bitmap id href fields =>
      simp only [copy, hr, hS] at hcopy
      cases hcopy
      simp only [typed, hS, Bool.and_eq_true] at ht
      obtain ⟨⟨extra, hex⟩, hl, hbuild⟩ := copyFields_ok S hE as fs mem fields ht.2 hfs.length
      have hlt : r < mem.length := (List.getElem?_eq_some_iff.mp hr).1
      have hr' := getElem?_set_self' (c := .builder ty bm i hh fs)
        (.builder ty bitmap (if isClass = true then id else i) (if isClass = true then href else hh)
          (copyFields S mem as fs fields).2) (getElem?_of_extends ⟨extra, hex⟩ r _ hr)
      obtain ⟨bm', i', h', fs', hr2, af⟩ := execAll_after S after _ mem2 r ty _ _ _ _ isClass n as hS
        (hp ty _ _ _ hS) h2 hr' hc
      have hag : Agree mem (copyFields S mem as fs fields).1 mem2 := by
        intro q h1 h3
        have hg : ((copyFields S mem as fs fields).1.set r
            (.builder ty bitmap (if isClass = true then id else i)
              (if isClass = true then href else hh) (copyFields S mem as fs fields).2))[q]? =
            some ((copyFields S mem as fs fields).1[q]) := by
          rw [List.getElem?_set_ne (Nat.ne_of_lt (Nat.lt_of_lt_of_le hlt h1))]
          exact List.getElem?_eq_getElem h3
        rw [execAll_other S after _ mem2 q _ h2 hg (fun c hc => hprivate c hc q h1 (by simpa using h3))]
        exact (List.getElem?_eq_getElem h3).symm
      obtain ⟨m, hm2⟩ := hbuild mem2 hag
      have hre : rebuilt S ty (.obj bitmap id href fields) =
          .obj bitmap id href (rebuiltFields S as fields) := by simp [rebuilt, hS]
      cases fuel with
      | zero => simp [build] at hb
      | succ fuel =>
        have hb' := build_le S mem2 (fuel + 1) (fuel + m + 1) (by omega) r result hb
        have hf := hm2 (fuel + m) (by omega)
        simp only [build, hr2, hS, bind_eq_done] at hb'
        obtain ⟨vs, hvs, e⟩ := hb'
        cases e
        rw [hre]
        refine ⟨?_, ?_, ?_⟩
        · intro hlast
          obtain ⟨u1, u2⟩ := af.unset k a ha hlast
          have hk : k < (copyFields S mem as fs fields).2.length := by
            rw [hl]
            exact (List.getElem?_eq_some_iff.mp ha).1
          have hg := List.getElem?_eq_getElem hk
          obtain ⟨v, hv, hbv⟩ := buildFields_done _ S mem2 as _ _ hf k a _ ha hg
          rw [hg] at u1
          obtain ⟨w, hw, hbw⟩ := buildFields_done _ S mem2 as _ _ hvs k a _ ha u1
          rw [hbv] at hbw
          cases hbw
          rw [(GoTypes.c41_getters S k a _ _ _ vs v hw).1,
            (GoTypes.c41_getters S k a _ _ _ _ v hv).1, u2]
        · intro hcl hlast
          obtain ⟨u1, u2⟩ := af.ident.2 hlast
          simp only [hcl, if_true] at u1
          simp [GoTypes.getID, u1, u2 hcl, hcl]
        · intro hcl hlast
          obtain ⟨u1, u2⟩ := af.address.2 hlast
          simp only [hcl, if_true] at u1
          simp [GoTypes.getHREF, u1, u2 hcl, hcl]
    | nil => simp [Val.isNil] at hn
    | linkList l h items =>
      exfalso
      cases items <;> simp [typed, hS] at ht
    | _ =>
      exfalso
      simp [typed, hS, scalarFits] at ht
  · cases hcopy

/-- An object with a parent, labels and nodes. -/
def exObject : Val :=
  .obj 120 t!"123" []
    [.str t!"b", .map [(t!"k", .str t!"v")], .obj 8 [] [] [.str t!"p", .nil, .nil, .nil, .nil],
      .list [.obj 0 [] [] [.str [], .nil, .nil, .nil, .nil]], .linkList false [] (.list [])]

example : Plain exObject ∧ ∃ mem mem', execAll exSchema [] [.new 0, .new 0, .set 1 2 (.ref 0)] = some mem ∧
    exec exSchema mem (.copy 1 exObject) = some mem' ∧ build exSchema mem' 2 1 = .done exObject :=
  ⟨by simp [exObject, Plain, PlainFields, PlainEntries, PlainItems, Val.isNil], _, _, rfl, rfl, rfl⟩

/-- The name is changed after the copy, and a new parent is given to another builder. -/
example : ∃ mem mem' mem2, execAll exSchema [] [.new 0, .new 0] = some mem ∧
    exec exSchema mem (.copy 1 exObject) = some mem' ∧
    execAll exSchema mem' [.set 1 0 (.scalar (.str t!"new")), .set 0 2 (.ref 1)] = some mem2 ∧
    (∀ c ∈ ([.set 1 0 (.scalar (.str t!"new")), .set 0 2 (.ref 1)] : List Call), ∀ q, mem.length ≤ q →
      q < mem'.length → c.target ≠ some q) ∧
    ∃ object, build exSchema mem2 2 1 = .done object ∧
      GoTypes.getOk exSchema 0 { tag := t!"name", typ := 1, bit := 3 } object = (.str t!"new", true) ∧
      GoTypes.getOk exSchema 1 { tag := t!"labels", typ := 2, bit := 4 } object =
        (.map [(t!"k", .str t!"v")], true) := by
  refine ⟨_, _, _, rfl, rfl, rfl, ?_, _, rfl, rfl, rfl⟩
  intro c hc q h1 h2
  simp only [List.mem_cons, List.not_mem_nil, or_false] at hc
  have : 2 ≤ q := h1
  rcases hc with rfl | rfl
  · simp only [Call.target, ne_eq, Option.some.injEq]
    exact Nat.ne_of_lt h1
  · simp only [Call.target, ne_eq, Option.some.injEq]
    exact Nat.ne_of_lt (Nat.lt_of_lt_of_le Nat.zero_lt_two h1)

/-- C42 is false for all objects: empty maps, the nil elements of lists, and the flags and the
addresses of the lists that are links aren't copied. The first object is the result of building. -/
theorem c42_refuted :
    (∃ mem object mem' fuel fuel',
      execAll exSchema [] [.new 0, .newMap 1, .set 0 1 (.ref 1), .new 0] = some mem ∧
      build exSchema mem fuel 0 = .done object ∧ exec exSchema mem (.copy 2 object) = some mem' ∧
      ∃ object', build exSchema mem' fuel' 2 = .done object' ∧
        GoTypes.get exSchema 1 { tag := t!"labels", typ := 2, bit := 4 } object = .map [] ∧
        GoTypes.get exSchema 1 { tag := t!"labels", typ := 2, bit := 4 } object' = .nil) ∧
    (∃ mem mem' object, execAll exSchema [] [.new 0] = some mem ∧
      exec exSchema mem (.copy 0 (.obj 64 [] [] [.str [], .nil, .nil, .list [.nil], .nil])) = some mem' ∧
      build exSchema mem' 2 0 = .done object ∧
      GoTypes.get exSchema 3 { tag := t!"nodes", typ := 3, bit := 6 } object =
        .list [.obj 0 [] [] [.str [], .nil, .nil, .nil, .nil]]) ∧
    (∃ mem mem' object, execAll exSchema [] [.new 0] = some mem ∧
      exec exSchema mem (.copy 0 (.obj 128 [] [] [.str [], .nil, .nil, .nil,
        .linkList true t!"/nodes" (.list [])])) = some mem' ∧
      build exSchema mem' 2 0 = .done object ∧
      GoTypes.get exSchema 4 { tag := t!"others", typ := 3, link := true, bit := 7 } object =
        .linkList false [] (.list [])) :=
  ⟨⟨_, _, _, 1, 1, rfl, rfl, rfl, _, rfl, rfl, rfl⟩, ⟨_, _, _, rfl, rfl, rfl, rfl⟩,
    ⟨_, _, _, rfl, rfl, rfl, rfl⟩⟩

/-- C42: the same for builders of lists, for the lists of any types; nil is an empty list. -/
theorem c42_copyList (S : Schema) (hE : SimpleElements S) (calls : List Call) (mem mem' : Mem)
    (h : execAll S [] calls = some mem) (r : Ref) (ty : TypeId) (items : BVal)
    (hr : mem[r]? = some (.listBuilder ty items)) (list : Val)
    (hcopy : exec S mem (.copyList r list) = some mem') :
    (∀ m : Mem, m[r]? = mem'[r]? →
      (∀ q, mem.length ≤ q → q < mem'.length → m[q]? = mem'[q]?) →
      ∃ fuel, ∀ fuel', fuel ≤ fuel' → buildList S m fuel' r =
        .done (if list.isNil then .linkList false [] (.list []) else rebuilt S ty list)) ∧
    (∀ q, q < mem.length → q ≠ r → mem'[q]? = mem[q]?) := by
  have hm := execAll_types S calls [] mem h (MemOk.nil S)
  obtain ⟨⟨n, e, hS, c, n', as, hS'⟩, hfs⟩ := hm.get hr
  have hlt : r < mem.length := (List.getElem?_eq_some_iff.mp hr).1
  refine ⟨?_, ?_⟩
  · simp only [exec, hr] at hcopy
    split at hcopy
    · rename_i ht
      have hnone : (∀ xs l h, list ≠ .linkList l h (.list xs)) →
          mem' = mem.set r (.listBuilder ty .nil) := by
        intro hne
        simp only [copyList, hr, hS] at hcopy
        split at hcopy
        · rename_i l h xs
          exact absurd rfl (hne xs l h)
        · cases hcopy
          rfl
      have hdone : (∀ xs l h, list ≠ .linkList l h (.list xs)) → ∀ m : Mem, m[r]? = mem'[r]? →
          ∀ fuel, buildList S m fuel r = .done (.linkList false [] (.list [])) := by
        intro hne m hm1 fuel
        rw [hnone hne, getElem?_set_self' _ hr] at hm1
        simp only [buildList, hm1, buildItems]
      intro m hm1 hm2
      cases list with
      | nil => exact ⟨0, fun fuel _ => hdone (by simp) m hm1 fuel⟩
      | linkList l hh items =>
        cases items with
        | list items =>
          simp only [copyList, hr, hS] at hcopy
          cases hcopy
          simp only [typed, hS, hS', Bool.and_eq_true] at ht
          obtain ⟨⟨extra, hex⟩, hb⟩ := copyItems_ok S hE e mem c n' as hS' items ht.2
          rw [getElem?_set_self' (c := .listBuilder ty _) _
            (getElem?_of_extends ⟨extra, hex⟩ r _ hr)] at hm1
          have hag : Agree mem (copyItems S e mem items).1 m := by
            intro q h1 h2
            rw [hm2 q h1 (by simpa using h2),
              List.getElem?_set_ne (Nat.ne_of_lt (Nat.lt_of_lt_of_le hlt h1))]
          refine (hb m hag).mono ?_
          intro fuel hf
          simp [buildList, hm1, buildItems, hf, Run.bind, rebuilt, hS, Val.isNil]
        | nil =>
          exact ⟨0, fun fuel _ => (hdone (by simp) m hm1 fuel).trans (by simp [rebuilt, Val.isNil])⟩
        | _ => simp [typed] at ht
      | _ => simp [typed, hS, scalarFits] at ht
    · cases hcopy
  · intro q hq hqr
    have hg : mem[q]? = some mem[q] := List.getElem?_eq_getElem hq
    rw [hg]
    exact exec_other S mem mem' _ q _ hcopy hg
      (by simp only [Call.target, ne_eq, Option.some.injEq]; exact fun e => hqr e.symm)

/-! ## Sharing -/

/-- C41: builders keep the maps that they are given, not a copy: later changes of the map are changes
of what is built. That isn't so for the slices. -/
theorem c41_map_shared : ∃ mem object, execAll exSchema []
      [.new 0, .newMap 1, .set 0 1 (.ref 1), .put 1 t!"k" (.scalar (.str t!"v"))] = some mem ∧
    build exSchema mem 1 0 = .done object ∧
    GoTypes.get exSchema 1 { tag := t!"labels", typ := 2, bit := 4 } object =
      .map [(t!"k", .str t!"v")] :=
  ⟨_, _, rfl, rfl, rfl⟩

end GoBuilder

end Verif
