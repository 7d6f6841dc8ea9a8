import Verif.Lemmas.ReaderFinal

/-! Helper lemmas about the creation of list types, for property C21. -/

namespace Verif

open Reader

theorem listName_toText (n : Name) (h : n ≠ []) :
    (Name.cat [n, Nom.list]).toText = n.toText ++ t!"_list" := by
  have : Name.cat [n, Nom.list] = n ++ Nom.list := by simp [Name.cat]
  rw [this]
  unfold Name.toText
  rw [List.map_append, joinText_append _ _ _ (by simpa using h) (by decide), List.append_assoc]
  rfl

theorem joinText_two_ne_nil (w w' : Text) (ws : List Text) : joinText t!"_" (w :: w' :: ws) ≠ [] := by
  rw [joinText_cons _ _ _ (by simp)]
  simp

theorem keyOf_ne_nil (t : Text) (h : t ≠ []) : keyOf t ≠ [] := by
  unfold keyOf Name.toText
  rw [parseUsingCase_eq t h]
  have hf := splitCase_flatten [] t
  generalize splitCase [] t = cs at hf
  fun_cases parseChunks t cs
  · simp at hf; exact absurd hf (fun e => h (by simpa using e))
  · rename_i c
    simp only [List.map_cons, List.map_nil, joinText]
    exact parseWord_ne_nil c (by intro e; apply h; subst e; simpa using hf.symm)
  · rename_i c n rest hc
    cases hr : parseChunks t rest with
    | nil =>
      simp only [List.map_cons, List.map_nil, joinText, newWord]
      intro he
      have : toLower c = [] := (List.append_eq_nil_iff.mp he).1
      have h2 := toLower_length c
      rw [this] at h2
      simp at hc
      simp at h2
      omega
    | cons w ws => exact joinText_two_ne_nil _ _ _
  · rename_i c n rest hc1 hc2
    cases hr : parseChunks t rest with
    | nil => simp [joinText, newInitialism]
    | cons w ws => exact joinText_two_ne_nil _ _ _
  · exact joinText_two_ne_nil _ _ _
  · rename_i c n rest _ _ _
    cases hr : parseChunks t (n :: rest) with
    | nil => exact absurd hr (parseChunks_ne_nil t _ (by simp))
    | cons w ws => exact joinText_two_ne_nil _ _ _

/-- The state of the loop that creates list types. -/
structure ListInv (t cur : TypeTable) (seen : List TypeId) : Prop where
  version : cur.version = t.version
  heap : ∀ (id : Nat) c, t.heap[id]? = some c → cur.heap[id]? = some c
  keep : ∀ k id, t.types.find k = some id → cur.types.find k = some id
  consistent : TypesNamed cur
  source : ∀ k id, cur.types.find k = some id → t.types.find k = some id ∨
    (t.types.find k = none ∧ t.heap.length ≤ id ∧ ∃ id0 c0, id0 ∈ t.types.values ∧
      t.heap[id0]? = some c0 ∧ c0.kind ≠ .list ∧ k = (Name.cat [c0.name, Nom.list]).toText ∧
      cur.heap[id]? = some { name := Name.cat [c0.name, Nom.list], kind := .list,
                             element := some id0, owner := some t.version })
  done : ∀ id ∈ seen, ∀ c, t.heap[id]? = some c → c.kind ≠ .list →
    (cur.types.find (Name.cat [c.name, Nom.list]).toText).isSome = true

theorem ListInv.step {t cur : TypeTable} {seen : List TypeId} (i : ListInv t cur seen)
    (id : TypeId) (hm : id ∈ t.types.values) (hin : id < t.heap.length) :
    ListInv t (addListType cur id) (seen ++ [id]) := by
  have hc : t.heap[id]? = some t.heap[id] := List.getElem?_eq_getElem hin
  generalize t.heap[id] = c at hc
  have hc' := i.heap id c hc
  unfold addListType
  rw [hc']
  dsimp only
  split
  · rename_i hk
    refine ⟨i.version, i.heap, i.keep, i.consistent, i.source, ?_⟩
    intro x hx c2 h2 h3
    rcases List.mem_append.mp hx with hx | hx
    · exact i.done x hx c2 h2 h3
    · rw [List.mem_singleton] at hx
      subst hx
      rw [hc] at h2; cases h2; exact absurd hk h3
  · rename_i hk
    split
    · rename_i old hf
      refine ⟨i.version, i.heap, i.keep, i.consistent, i.source, ?_⟩
      intro x hx c2 h2 h3
      rcases List.mem_append.mp hx with hx | hx
      · exact i.done x hx c2 h2 h3
      · rw [List.mem_singleton] at hx
        subst hx
        rw [hc] at h2; cases h2
        unfold TypeTable.findType at hf
        rw [hf]; rfl
    · rename_i hf
      unfold TypeTable.findType at hf
      rw [TypeTable.newType_eq]
      dsimp only
      have happ : ∀ (j : Nat) x, cur.heap[j]? = some x → ∀ y,
          (cur.heap ++ [y])[j]? = some x := by
        intro j x hx y
        rw [List.getElem?_append_left (List.getElem?_eq_some_iff.mp hx).1]; exact hx
      refine ⟨i.version, ?_, ?_, ?_, ?_, ?_⟩
      · intro j x hx; exact happ j x (i.heap j x hx) _
      · intro k j hj
        have := i.keep k j hj
        dsimp only
        rw [GoMap.find_insert, if_neg]
        · exact this
        · intro he; rw [← he, hf] at this; cases this
      · intro k j hj
        dsimp only at hj ⊢
        rw [GoMap.find_insert] at hj
        split at hj
        · rename_i he
          cases hj
          refine ⟨_, by rw [List.getElem?_append_right (Nat.le_refl _)]; simp; rfl, he⟩
        · obtain ⟨x, hx, hx'⟩ := i.consistent k j hj
          exact ⟨x, happ j x hx _, hx'⟩
      · intro k j hj
        dsimp only at hj ⊢
        rw [GoMap.find_insert] at hj
        split at hj
        · rename_i he
          cases hj
          right
          refine ⟨?_, ?_, id, c, hm, hc, hk, he.symm, ?_⟩
          · cases hx : t.types.find k with
            | none => rfl
            | some y =>
              have := i.keep k y hx
              rw [← he, hf] at this; cases this
          · -- every cell of the initial heap is still there
            apply Nat.le_of_not_lt
            intro hlt
            have := i.heap cur.heap.length _ (List.getElem?_eq_getElem hlt)
            rw [List.getElem?_eq_none (Nat.le_refl _)] at this
            cases this
          · rw [List.getElem?_append_right (Nat.le_refl _), i.version]; simp
        · rcases i.source k j hj with h | ⟨h1, h2, id0, c0, h3, h4, h5, h6, h7⟩
          · exact .inl h
          · exact .inr ⟨h1, h2, id0, c0, h3, h4, h5, h6, happ _ _ h7 _⟩
      · intro x hx c2 h2 h3
        dsimp only
        rw [GoMap.find_insert]
        split
        · rfl
        · rename_i hne
          rcases List.mem_append.mp hx with hx | hx
          · exact i.done x hx c2 h2 h3
          · rw [List.mem_singleton] at hx
            subst hx
            rw [hc] at h2; cases h2
            exact absurd rfl hne

theorem ListInv.loop {t : TypeTable} (ids : List TypeId) :
    ∀ {cur : TypeTable} {seen : List TypeId}, ListInv t cur seen →
      (∀ id ∈ ids, id ∈ t.types.values ∧ id < t.heap.length) →
      ListInv t (ids.foldl addListType cur) (seen ++ ids) := by
  induction ids with
  | nil => intro cur seen i _; simpa using i
  | cons x xs ih =>
    intro cur seen i h
    have := ih (i.step x (h x (List.mem_cons_self ..)).1 (h x (List.mem_cons_self ..)).2)
      fun id hid => h id (List.mem_cons_of_mem _ hid)
    simpa using this

theorem addListTypes_inv (t : TypeTable) (hn : t.types.keys.Nodup) (hc : TypesNamed t) :
    ListInv t (addListTypes t) t.types.values := by
  have hp : (listing (typeName t.heap) t.types).Perm t.types.values :=
    (sortByName_spec (typeName t.heap) t.types.values).1
  have i0 : ListInv t t [] :=
    ⟨rfl, fun _ _ h => h, fun _ _ h => h, hc, fun _ _ h => .inl h, fun _ h => by cases h⟩
  have i := ListInv.loop (listing (typeName t.heap) t.types) i0 (by
    intro id hid
    have hv := hp.mem_iff.mp hid
    refine ⟨hv, ?_⟩
    obtain ⟨e, he, rfl⟩ := List.mem_map.mp hv
    obtain ⟨c, h1, -⟩ := hc e.1 e.2 (GoMap.find_of_mem hn he)
    exact (List.getElem?_eq_some_iff.mp h1).1)
  refine ⟨i.version, i.heap, i.keep, i.consistent, i.source, ?_⟩
  intro id hid
  exact i.done id (by rw [List.nil_append]; exact hp.mem_iff.mpr hid)

/-! ## The keys of the table are never repeated -/

theorem nodup_insert {α : Type} {m : GoMap α} (h : m.keys.Nodup) (k : Text) (v : α) :
    (m.insert k v).keys.Nodup := by
  rw [GoMap.keys_insert]
  split
  · exact h
  · rename_i hk
    rw [List.nodup_append]
    exact ⟨h, by simp, by intro a ha b hb; simp at hb; subst hb; exact fun e => hk (e ▸ ha)⟩

/-- The keys of the types aren't repeated. -/
def KeysNodup (r : Reader) : Prop := r.table.types.keys.Nodup

theorem nodup_newType {t : TypeTable} (h : t.types.keys.Nodup) (c : TypeCell) :
    (t.newType c).1.types.keys.Nodup := by
  rw [TypeTable.newType_eq]; exact nodup_insert h _ _

theorem nodup_findOrCreateType {r : Reader} (h : KeysNodup r) (n : Name) :
    KeysNodup (r.findOrCreateType n).1 := by
  unfold Reader.findOrCreateType
  split
  · exact h
  · exact nodup_newType h _

theorem nodup_findOrCreateWith {r : Reader} (h : KeysNodup r) (c : TypeCell) :
    KeysNodup (r.findOrCreateWith c).1 := by
  unfold Reader.findOrCreateWith
  split
  · exact h
  · exact nodup_newType h _

theorem nodup_typeRef {r : Reader} (h : KeysNodup r) (e : TypeExpr) :
    KeysNodup (r.typeRef e).1 := by
  cases e with
  | plain n => exact nodup_findOrCreateType h _
  | list n => exact nodup_findOrCreateWith (nodup_findOrCreateType h _) _
  | map i n =>
    exact nodup_findOrCreateWith (nodup_findOrCreateType (nodup_findOrCreateType h _) _) _

theorem nodup_forChildren {α β : Type} (f : Reader → α → Reader × β)
    (hf : ∀ r x, KeysNodup r → KeysNodup (f r x).1) (xs : List α) :
    ∀ {r : Reader}, KeysNodup r → KeysNodup (forChildren f r xs).1 := by
  induction xs with
  | nil => intro r h; exact h
  | cons x xs ih => intro r h; exact ih (hf r x h)

theorem nodup_declareType {r : Reader} (h : KeysNodup r) (kind : Kind) (n : Name) :
    KeysNodup (r.declareType kind n).1 := by
  unfold Reader.declareType
  split
  · exact nodup_newType h _
  · split
    · exact h
    · exact h

theorem nodup_enumDecl {r : Reader} (h : KeysNodup r) (n d : Text) (as : List Annotation)
    (vs : List ValueDecl) : KeysNodup (r.enumDecl n d as vs) := by
  unfold Reader.enumDecl
  have := nodup_declareType h .enum (identifier n)
  split
  · rename_i he; rw [he] at this; exact this
  · rename_i he; rw [he] at this; exact this

theorem nodup_structDecl {r : Reader} (h : KeysNodup r) (kind : Kind) (n d : Text)
    (as : List Annotation) (ms : List MemberDecl) : KeysNodup (r.structDecl kind n d as ms) := by
  unfold Reader.structDecl
  have h1 := nodup_forChildren structMember (fun r x h => nodup_typeRef h x.ref) ms h
  dsimp only
  generalize forChildren structMember r ms = p at h1 ⊢
  obtain ⟨r1, attrs⟩ := p
  dsimp only at h1 ⊢
  have := nodup_declareType h1 kind (identifier n)
  split
  · rename_i he; rw [he] at this; exact this
  · rename_i he; rw [he] at this; exact this

theorem nodup_resourceRef {r : Reader} (h : KeysNodup r) (n : Text) :
    KeysNodup (r.resourceRef n).1 := by
  unfold Reader.resourceRef
  split
  · exact h
  · exact h

theorem nodup_resourceMember {r : Reader} (h : KeysNodup r) (m : ResourceMember) :
    KeysNodup (r.resourceMember m).1 := by
  cases m with
  | method m =>
    exact nodup_forChildren methodParameter (fun r x h => nodup_typeRef h x.ref) _ h
  | locator l =>
    have := nodup_forChildren locatorMember (fun r x h => by
      cases x with
      | target n => exact nodup_resourceRef h n
      | variableName n => exact h) l.members h
    unfold Reader.resourceMember Reader.locatorDecl
    dsimp only
    split
    · exact this
    · exact this

theorem nodup_decl {r : Reader} (h : KeysNodup r) (d : Decl) : KeysNodup (r.decl d) := by
  cases d with
  | enum n d as vs => exact nodup_enumDecl h _ _ _ _
  | «class» n d as ms => exact nodup_structDecl h _ _ _ _ _
  | struct n d as ms => exact nodup_structDecl h _ _ _ _ _
  | resource n d as ms =>
    unfold Reader.decl Reader.resourceDecl
    have h1 := nodup_forChildren resourceMember (fun r x h => nodup_resourceMember h x) ms h
    dsimp only
    generalize forChildren resourceMember r ms = p at h1 ⊢
    obtain ⟨r1, attrs⟩ := p
    dsimp only at h1 ⊢
    have : KeysNodup (r1.declareResource (identifier n)).1 := by
      unfold Reader.declareResource
      split
      · exact h1
      · split
        · exact h1
        · exact h1
    split
    · rename_i he; rw [he] at this; exact this
    · rename_i he; rw [he] at this; exact this
  | error n d as cs =>
    unfold Reader.decl Reader.errorDecl
    have h1 := nodup_forChildren errorCode (fun r x h => by
      unfold Reader.errorCode
      split
      · exact h
      · exact h) cs h
    dsimp only
    generalize forChildren errorCode r cs = p at h1 ⊢
    obtain ⟨r1, attrs⟩ := p
    dsimp only at h1 ⊢
    split
    · exact h1
    · exact h1

theorem nodup_decls (ds : List Decl) : ∀ {r : Reader}, KeysNodup r → KeysNodup (r.decls ds) := by
  induction ds with
  | nil => intro r h; exact h
  | cons d ds ih => intro r h; exact ih (nodup_decl h d)

theorem nodup_after (ds : List Decl) : KeysNodup (after ds) :=
  nodup_decls ds (by unfold KeysNodup; decide)

end Verif
