import Verif.Lemmas.FieldTypes

/-! Helper lemmas: the specification of the Go types determines the texts. -/

namespace Verif.Whole

open Reader Session Outcome

variable {ds : List Decl}

theorem basicText_once {k t t' : Text} (h : BasicText k t) (h' : BasicText k t') : t = t' := by
  cases h <;> cases h' <;> rfl

theorem basicText_builtin {k t : Text} (h : BasicText k t) :
    k ∈ builtinKeys ∧ k ∉ predefinedLists ∧ k ≠ t!"interface" ∧ k ++ t!"_list" ∈ predefinedLists ∧
      k ++ t!"_list" ≠ t!"interface_list" := by
  cases h <;> decide

theorem enumName_declared {n g : Text} (h : EnumName ds n g) :
    ∃ name doc as vs, Decl.enum name doc as vs ∈ ds ∧ keyOf n = keyOf name ∧ g = goName name as := by
  cases h with
  | enum h1 h2 => exact ⟨_, _, _, _, h1, h2, rfl⟩

theorem objectName_declared {n g : Text} (h : ObjectName ds n g) :
    ∃ d name as, d ∈ ds ∧ d.typeName = some (parseUsingCase name) ∧ keyOf n = keyOf name ∧
      d.typeAnnotations = as ∧ g = goName name as ∧ ∀ a b c e, d ≠ .enum a b c e := by
  cases h with
  | «class» h1 h2 => exact ⟨_, _, _, h1, rfl, h2, rfl, rfl, by simp⟩
  | struct h1 h2 => exact ⟨_, _, _, h1, rfl, h2, rfl, rfl, by simp⟩

theorem enumName_builtin (g : GoodDecls ds) {n t : Text} (h : EnumName ds n t) : keyOf n ∉ builtinKeys := by
  obtain ⟨name, doc, as, vs, h1, h2, -⟩ := enumName_declared h
  rw [h2]
  exact declared_not_date g h1 rfl

theorem objectName_builtin (g : GoodDecls ds) {n t : Text} (h : ObjectName ds n t) :
    keyOf n ∉ builtinKeys := by
  obtain ⟨d, name, as, h1, h2, h3, -⟩ := objectName_declared h
  rw [h3]
  exact declared_not_date g h1 h2

theorem enumName_once (g : GoodDecls ds) {n t t' : Text} (h : EnumName ds n t) (h' : EnumName ds n t') :
    t = t' := by
  obtain ⟨name, doc, as, vs, h1, h2, rfl⟩ := enumName_declared h
  obtain ⟨name', doc', as', vs', h1', h2', rfl⟩ := enumName_declared h'
  have := declared_once g h1 h1' rfl rfl (h2.symm.trans h2')
  cases this
  rfl

theorem objectName_once (g : GoodDecls ds) {n t t' : Text} (h : ObjectName ds n t) (h' : ObjectName ds n t') :
    t = t' := by
  obtain ⟨d, name, as, h1, h2, h3, h4, rfl, -⟩ := objectName_declared h
  obtain ⟨d', name', as', h1', h2', h3', h4', rfl, -⟩ := objectName_declared h'
  have := declared_once g h1 h1' h2 h2' (h3.symm.trans h3')
  subst this
  rw [h2] at h2'
  rw [h4] at h4'
  unfold goName
  rw [Option.some.inj h2', h4']

theorem enumName_not_object (g : GoodDecls ds) {n t t' : Text} (h : EnumName ds n t)
    (h' : ObjectName ds n t') : False := by
  obtain ⟨name, doc, as, vs, h1, h2, rfl⟩ := enumName_declared h
  obtain ⟨d', name', as', h1', h2', h3', h4', rfl, h5⟩ := objectName_declared h'
  exact h5 _ _ _ _ (declared_once g h1 h1' rfl h2' (h2.symm.trans h3')).symm

theorem interface_builtin : t!"interface" ∈ builtinKeys ∧ t!"interface" ∉ predefinedLists := by decide

theorem scalarText_once (g : GoodDecls ds) {n t t' : Text} (h : ScalarText ds n t) (h' : ScalarText ds n t') :
    t = t' := by
  cases h with
  | basic h =>
    cases h' with
    | basic h' => exact basicText_once h h'
    | interface h' => exact absurd h' (basicText_builtin h).2.2.1
    | enum h' => exact absurd (basicText_builtin h).1 (enumName_builtin g h')
  | interface h =>
    cases h' with
    | basic h' => exact absurd h (basicText_builtin h').2.2.1
    | interface h' => rfl
    | enum h' => exact absurd (by rw [h]; exact interface_builtin.1) (enumName_builtin g h')
  | enum h =>
    cases h' with
    | basic h' => exact absurd (basicText_builtin h').1 (enumName_builtin g h)
    | interface h' => exact absurd (by rw [h']; exact interface_builtin.1) (enumName_builtin g h)
    | enum h' => exact enumName_once g h h'

theorem scalarText_not_object (g : GoodDecls ds) {n t t' : Text} (h : ScalarText ds n t)
    (h' : ObjectName ds n t') : False := by
  cases h with
  | basic h => exact objectName_builtin g h' (basicText_builtin h).1
  | interface h => exact objectName_builtin g h' (by rw [h]; exact interface_builtin.1)
  | enum h => exact enumName_not_object g h h'

theorem scalarText_not_list (g : GoodDecls ds) {n t : Text} (h : ScalarText ds n t) :
    keyOf n ∉ predefinedLists := by
  cases h with
  | basic h => exact (basicText_builtin h).2.1
  | interface h => rw [h]; exact interface_builtin.2
  | enum h => exact fun hp => enumName_builtin g h (predefined_builtin hp)

theorem objectName_not_list (g : GoodDecls ds) {n t : Text} (h : ObjectName ds n t) :
    keyOf n ∉ predefinedLists := fun hp => objectName_builtin g h (predefined_builtin hp)

theorem valueText_not_list (g : GoodDecls ds) {n t : Text} (h : ValueText ds n t) :
    keyOf n ∉ predefinedLists := by
  cases h with
  | scalar h => exact scalarText_not_list g h
  | object h => exact objectName_not_list g h

theorem predefinedText_list {n t : Text} (h : PredefinedText n t) : keyOf n ∈ predefinedLists := by
  cases h with
  | basic h1 h2 => rw [h2]; exact (basicText_builtin h1).2.2.2.1
  | interface h => rw [h]; decide

theorem valueText_once (g : GoodDecls ds) {n t t' : Text} (h : ValueText ds n t) (h' : ValueText ds n t') :
    t = t' := by
  cases h with
  | scalar h =>
    cases h' with
    | scalar h' => exact scalarText_once g h h'
    | object h' => exact (scalarText_not_object g h h').elim
  | object h =>
    cases h' with
    | scalar h' => exact (scalarText_not_object g h' h).elim
    | object h' => rw [objectName_once g h h']

theorem predefinedText_once {n t t' : Text} (h : PredefinedText n t) (h' : PredefinedText n t') : t = t' := by
  cases h with
  | basic h1 h2 =>
    cases h' with
    | basic h1' h2' =>
      rw [h2] at h2'
      have := List.append_cancel_right h2'
      subst this
      exact basicText_once h1 h1'
    | interface h' => exact absurd (h2.symm.trans h') (basicText_builtin h1).2.2.2.2
  | interface h =>
    cases h' with
    | basic h1' h2' => exact absurd (h2'.symm.trans h) (basicText_builtin h1').2.2.2.2
    | interface h' => rfl

theorem plainText_once (g : GoodDecls ds) {r : TypeExpr} {t t' : Text} (h : PlainText ds r t)
    (h' : PlainText ds r t') : t = t' := by
  cases h with
  | plain h =>
    cases h' with
    | plain h' => exact valueText_once g h h'
    | predefined h' => exact absurd (predefinedText_list h') (valueText_not_list g h)
  | predefined h =>
    cases h' with
    | plain h' => exact absurd (predefinedText_list h) (valueText_not_list g h')
    | predefined h' => rw [predefinedText_once h h']
  | list h => cases h' with | list h' => rw [valueText_once g h h']
  | map h => cases h' with | map h' => rw [valueText_once g h h']


/-- A value has a type if the name is known and isn't that of a predefined list. -/
theorem valueText_exists {n : Text}
    (hk : keyOf n ∈ builtinKeys ∨ keyOf n ∈ declaredTypes ds) (hp : keyOf n ∉ predefinedLists) :
    ∃ t, ValueText ds n t := by
  rcases hk with hk | hk
  · have : ∀ k ∈ builtinKeys, k ∉ predefinedLists → (∃ t, BasicText k t) ∨ k = t!"interface" := by
      intro k hk hp
      simp only [builtinKeys, builtinScalars, List.map, List.cons_append, List.nil_append, List.mem_cons,
        List.not_mem_nil, or_false] at hk
      rcases hk with rfl | rfl | rfl | rfl | rfl | rfl | rfl | rfl | rfl | rfl | rfl | rfl | rfl | rfl
      · exact .inl ⟨_, .boolean⟩
      · exact .inl ⟨_, .integer⟩
      · exact .inl ⟨_, .long⟩
      · exact .inl ⟨_, .float⟩
      · exact .inl ⟨_, .string⟩
      · exact .inl ⟨_, .date⟩
      · exact .inr rfl
      all_goals exact absurd (by decide) hp
    rcases this _ hk hp with ⟨t, ht⟩ | h
    · exact ⟨t, .scalar (.basic ht)⟩
    · exact ⟨_, .scalar (.interface h)⟩
  · obtain ⟨d, hd, kind, hdk⟩ := mem_declaredTypes hk
    cases d with
    | enum name doc as vs =>
      have : keyOf name = keyOf n := congrArg Prod.fst (Option.some.inj hdk)
      exact ⟨_, .scalar (.enum (.enum hd this.symm))⟩
    | «class» name doc as ms =>
      have : keyOf name = keyOf n := congrArg Prod.fst (Option.some.inj hdk)
      exact ⟨_, .object (.class hd this.symm)⟩
    | struct name doc as ms =>
      have : keyOf name = keyOf n := congrArg Prod.fst (Option.some.inj hdk)
      exact ⟨_, .object (.struct hd this.symm)⟩
    | resource => cases hdk
    | error => cases hdk

theorem predefinedText_exists {n : Text} (hp : keyOf n ∈ predefinedLists) : ∃ t, PredefinedText n t := by
  simp only [predefinedLists, List.mem_cons, List.not_mem_nil, or_false] at hp
  rcases hp with h | h | h | h | h | h | h
  · exact ⟨_, .basic .boolean h⟩
  · exact ⟨_, .basic .integer h⟩
  · exact ⟨_, .basic .long h⟩
  · exact ⟨_, .basic .float h⟩
  · exact ⟨_, .basic .string h⟩
  · exact ⟨_, .basic .date h⟩
  · exact ⟨_, .interface h⟩

theorem plainText_iff (g : GoodDecls ds) {r : TypeExpr} (hr : r ∈ refsOf ds) :
    (∃ t, PlainText ds r t) ↔ OneLevel r := by
  have hknown : ∀ n ∈ r.names, keyOf n ∈ builtinKeys ∨ keyOf n ∈ declaredTypes ds := fun n hn =>
    g.acceptable.knownTypes _ (List.mem_flatMap.mpr ⟨r, hr, List.mem_map.mpr ⟨n, hn, rfl⟩⟩)
  constructor
  · rintro ⟨t, h⟩
    cases h with
    | plain h => trivial
    | predefined h => trivial
    | list h => exact valueText_not_list g h
    | map h => exact valueText_not_list g h
  · intro h
    cases r with
    | plain n =>
      by_cases hp : keyOf n ∈ predefinedLists
      · obtain ⟨t, ht⟩ := predefinedText_exists hp
        exact ⟨_, .predefined ht⟩
      · obtain ⟨t, ht⟩ := valueText_exists (hknown n (by simp [TypeExpr.names])) hp
        exact ⟨_, .plain ht⟩
    | list n =>
      obtain ⟨t, ht⟩ := valueText_exists (hknown n (by simp [TypeExpr.names])) h
      exact ⟨_, .list ht⟩
    | map i n =>
      obtain ⟨t, ht⟩ := valueText_exists (hknown n (by simp [TypeExpr.names])) h
      exact ⟨_, .map ht⟩

/-- A list with the same elements as a mapped list is a mapped list. -/
theorem perm_map {α β : Type} {f : α → β} {l : List β} {ms : List α} (h : l.Perm (ms.map f)) :
    ∃ ms' : List α, ms'.Perm ms ∧ l = ms'.map f := by
  induction l generalizing ms with
  | nil =>
    have := h.symm.eq_nil
    exact ⟨[], by rw [List.map_eq_nil_iff.mp this], rfl⟩
  | cons x l ih =>
    obtain ⟨m, hm, rfl⟩ := List.mem_map.mp (h.mem_iff.mp List.mem_cons_self)
    obtain ⟨p, q, rfl⟩ := List.append_of_mem hm
    have hp : (p ++ m :: q).Perm (m :: (p ++ q)) := List.perm_middle
    obtain ⟨ms', h1, rfl⟩ := ih ((h.trans (hp.map f)).cons_inv)
    exact ⟨m :: ms', (h1.cons m).trans hp.symm, rfl⟩

theorem all2_of_map {α β γ : Type} {f : α → γ} {g : β → γ} {R : α → β → Prop} {xs : List α} {ys : List β}
    (h : xs.map f = ys.map g) (hR : ∀ x ∈ xs, ∀ y ∈ ys, f x = g y → R x y) : All2 R xs ys := by
  induction xs generalizing ys with
  | nil =>
    cases ys with
    | nil => exact .nil
    | cons y ys => cases h
  | cons x xs ih =>
    cases ys with
    | nil => cases h
    | cons y ys =>
      injection h with h1 h2
      exact .cons (hR x List.mem_cons_self y List.mem_cons_self h1)
        (ih h2 fun x hx y hy => hR x (List.mem_cons_of_mem _ hx) y (List.mem_cons_of_mem _ hy))

theorem all2_split {α β : Type} {R : α → β → Prop} {xs : List α} {p q : List β} {y : β}
    (h : All2 R xs (p ++ y :: q)) : ∃ p' x q', xs = p' ++ x :: q' ∧ R x y ∧ All2 R (p' ++ q') (p ++ q) := by
  induction p generalizing xs with
  | nil => cases h with | cons h1 h2 => exact ⟨[], _, _, rfl, h1, h2⟩
  | cons z p ih =>
    cases h with
    | @cons w _ ws _ h1 h2 =>
      obtain ⟨p', x, q', rfl, h3, h4⟩ := ih h2
      exact ⟨w :: p', x, q', rfl, h3, .cons h1 h4⟩

theorem all2_perm {α β : Type} {R : α → β → Prop} {xs : List α} {l' l : List β} (hp : l'.Perm l)
    (h : All2 R xs l) : ∃ xs' : List α, xs'.Perm xs ∧ All2 R xs' l' := by
  induction l' generalizing xs l with
  | nil =>
    rw [hp.symm.eq_nil] at h
    exact ⟨xs, .refl _, h⟩
  | cons y l' ih =>
    obtain ⟨p, q, rfl⟩ := List.append_of_mem (hp.mem_iff.mp List.mem_cons_self)
    obtain ⟨p', x, q', rfl, h1, h2⟩ := all2_split h
    obtain ⟨xs', h3, h4⟩ := ih ((hp.trans List.perm_middle).cons_inv) h2
    exact ⟨x :: xs', (h3.cons x).trans List.perm_middle.symm, .cons h1 h4⟩

theorem all2_length {α β : Type} {R : α → β → Prop} {xs : List α} {ys : List β} (h : All2 R xs ys) :
    xs.length = ys.length := by
  induction h with
  | nil => rfl
  | cons _ _ ih => simp [ih]

theorem all2_map {α β γ : Type} {R : α → γ → Prop} {S : β → α → Prop} {f : β → γ} {xs : List α} {ys : List β}
    (h : All2 R xs (ys.map f)) (hS : ∀ x ∈ xs, ∀ y ∈ ys, R x (f y) → S y x) : All2 S ys xs := by
  induction ys generalizing xs with
  | nil => cases h with | nil => exact .nil
  | cons y ys ih =>
    cases h with
    | cons h1 h2 =>
      exact .cons (hS _ List.mem_cons_self _ List.mem_cons_self h1)
        (ih h2 fun x hx y hy => hS x (List.mem_cons_of_mem _ hx) y (List.mem_cons_of_mem _ hy))

/-! ## The version where the code is generated -/

theorem toLower_dot {c : Char} (h : c.toLower = '.') : c = '.' := by
  rw [char_eq_iff] at h ⊢
  rw [toNat_toLower] at h
  have : ('.' : Char).toNat = 46 := rfl
  rw [this] at h ⊢
  split at h
  · rename_i hu
    omega
  · exact h

theorem joinText_flatten (ts : List Text) : joinText [] ts = ts.flatten := by
  induction ts with
  | nil => rfl
  | cons t ts ih =>
    cases ts with
    | nil => simp [joinText]
    | cons u us => simp only [joinText, List.flatten_cons, List.append_nil] at ih ⊢; rw [ih]

theorem lowerJoined_eq (n : Name) : n.lowerJoined [] = Files.joined n := by
  unfold Name.lowerJoined Files.joined
  rw [joinText_flatten]
  rfl

theorem joined_dot {n : Name} (h : '.' ∉ n.toText) : '.' ∉ Files.joined n := by
  intro hc
  obtain ⟨t, ht, hc⟩ := List.mem_flatten.mp hc
  obtain ⟨w, hw, rfl⟩ := List.mem_map.mp ht
  obtain ⟨c, hc, he⟩ := List.mem_map.mp hc
  rw [toLower_dot he] at hc
  exact h (mem_joinText_of (List.mem_map.mpr ⟨w, hw, rfl⟩) hc)

/-- The names of the directories of a version can be used in Go. -/
theorem usableOwner {service version : Name} (hs : DirNameFine service.toText)
    (hv : DirNameFine version.toText) (hd : '.' ∉ version.toText) :
    GoRef.UsableOwner { service := service, version := version } := by
  have h1 := usableName hs
  have h2 := usableName hv
  constructor <;> dsimp only <;> rw [lowerJoined_eq]
  · exact h1.1
  · exact h2.1
  · exact h2.2
  · exact joined_dot hd

end Verif.Whole
