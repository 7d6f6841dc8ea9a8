import Verif.Lemmas.Session

/-! Helper lemmas about the types of the versions of a model. -/

namespace Verif

open Reader Session

/-- Cells are never removed or renamed, and they don't change owner. -/
def KeepsNames (h h' : Heap) : Prop :=
  ∀ (id : Nat) c, h[id]? = some c → ∃ c', h'[id]? = some c' ∧ c'.name = c.name ∧ c'.owner = c.owner

theorem KeepsNames.refl (h : Heap) : KeepsNames h h := fun _ c hc => ⟨c, hc, rfl, rfl⟩

theorem KeepsNames.trans {a b c : Heap} (h : KeepsNames a b) (h' : KeepsNames b c) :
    KeepsNames a c := by
  intro id x hx
  obtain ⟨y, hy, h1, h2⟩ := h id x hx
  obtain ⟨z, hz, h3, h4⟩ := h' id y hy
  exact ⟨z, hz, h3.trans h1, h4.trans h2⟩

theorem keepsNames_append (h : Heap) (c : List TypeCell) : KeepsNames h (h ++ c) := by
  intro id x hx
  refine ⟨x, ?_, rfl, rfl⟩
  rw [List.getElem?_append_left (List.getElem?_eq_some_iff.mp hx).1]; exact hx

/-- The types of a version: keys aren't repeated, and each pointer is a type of the version with
that name. -/
structure TypesGood (heap : Heap) (version : VersionId) (types : GoMap TypeId) : Prop where
  nodup : types.keys.Nodup
  named : ∀ k id, types.find k = some id →
    ∃ c, heap[id]? = some c ∧ c.name.toText = k ∧ c.owner = some version

theorem TypesGood.mono {h h' : Heap} {v : VersionId} {m : GoMap TypeId} (g : TypesGood h v m)
    (k : KeepsNames h h') : TypesGood h' v m := by
  refine ⟨g.nodup, fun key id hf => ?_⟩
  obtain ⟨c, hc, h1, h2⟩ := g.named key id hf
  obtain ⟨c', hc', h3, h4⟩ := k id c hc
  exact ⟨c', hc', by rw [h3, h1], by rw [h4, h2]⟩

theorem typesGood_newType {t : TypeTable} (g : TypesGood t.heap t.version t.types) (c : TypeCell) :
    TypesGood (t.newType c).1.heap (t.newType c).1.version (t.newType c).1.types ∧
    KeepsNames t.heap (t.newType c).1.heap ∧ (t.newType c).1.version = t.version := by
  rw [TypeTable.newType_eq]
  refine ⟨⟨nodup_insert g.nodup _ _, ?_⟩, keepsNames_append _ _, rfl⟩
  intro k id hf
  dsimp only at hf ⊢
  rw [GoMap.find_insert] at hf
  split at hf
  · rename_i he
    cases hf
    exact ⟨{ c with owner := some t.version },
      by rw [List.getElem?_append_right (Nat.le_refl _)]; simp, he, rfl⟩
  · obtain ⟨x, hx, h1, h2⟩ := g.named k id hf
    refine ⟨x, ?_, h1, h2⟩
    rw [List.getElem?_append_left (List.getElem?_eq_some_iff.mp hx).1]; exact hx

/-- What the callbacks preserve for the version that is being loaded. -/
structure TableGood (h0 : Heap) (v : VersionId) (r : Reader) : Prop where
  version : r.table.version = v
  good : TypesGood r.table.heap v r.table.types
  keeps : KeepsNames h0 r.table.heap

theorem keepsNames_update (h : Heap) (id : TypeId) (f : TypeCell → TypeCell)
    (hf : ∀ c, (f c).name = c.name ∧ (f c).owner = c.owner) : KeepsNames h (h.update id f) := by
  intro j c hc
  unfold Heap.update
  rw [List.getElem?_modify, hc]
  by_cases e : id = j
  · exact ⟨f c, by simp [e], hf c⟩
  · exact ⟨c, by simp [e], rfl, rfl⟩

theorem tableGood_preserved (h0 : Heap) (v : VersionId) : Preserved (TableGood h0 v) where
  report := fun _ _ h => ⟨h.version, h.good, h.keeps⟩
  newType := by
    intro r c h _ _ _ _ _
    obtain ⟨h1, h2, h3⟩ := typesGood_newType (t := r.table) (by rw [h.version]; exact h.good) c
    rw [h3, h.version] at h1
    exact ⟨h3.trans h.version, h1, h.keeps.trans h2⟩
  undefinedTypes := fun _ _ h => ⟨h.version, h.good, h.keeps⟩
  undefinedResources := fun _ _ h => ⟨h.version, h.good, h.keeps⟩
  found := fun _ _ _ _ _ => trivial
  fresh := fun _ _ => trivial
  heap := fun r id f _ hf h =>
    have k := keepsNames_update r.table.heap id f fun c => ⟨hf.name c, hf.owner c⟩
    ⟨h.version, h.good.mono k, h.keeps.trans k⟩
  newResource := fun _ _ h _ => ⟨h.version, h.good, h.keeps⟩
  graph := fun _ _ _ _ h => ⟨h.version, h.good, h.keeps⟩
  errors := fun _ _ _ h _ => ⟨h.version, h.good, h.keeps⟩

/-! ## The whole model -/

/-- The versions of a service. -/
structure ServiceGood (heap : Heap) (created : Nat) (l : LoadedService) : Prop where
  nodup : l.versions.keys.Nodup
  named : ∀ k v, l.versions.find k = some v → v.name.toText = k ∧ v.id < created ∧
    TypesGood heap v.id v.types

/-- The services of a model. -/
structure ModelGood (s : Session) : Prop where
  nodup : s.services.keys.Nodup
  named : ∀ k l, s.services.find k = some l → l.name.toText = k ∧ ServiceGood s.heap s.created l
  distinct : ∀ k l v k' l' v', s.services.find k = some l → l.versions.find v.name.toText = some v →
    s.services.find k' = some l' → l'.versions.find v'.name.toText = some v' → v.id = v'.id →
    k = k' ∧ v.name.toText = v'.name.toText

theorem ServiceGood.mono {h h' : Heap} {n n' : Nat} {l : LoadedService} (g : ServiceGood h n l)
    (k : KeepsNames h h') (hn : n ≤ n') : ServiceGood h' n' l :=
  ⟨g.nodup, fun key v hv => by
    obtain ⟨h1, h2, h3⟩ := g.named key v hv
    exact ⟨h1, Nat.lt_of_lt_of_le h2 hn, h3.mono k⟩⟩

/-- The part of a session about types. -/
theorem ModelGood.congr {s s' : Session} (g : ModelGood s) (h1 : s'.services = s.services)
    (h2 : s'.created = s.created) (h3 : KeepsNames s.heap s'.heap) : ModelGood s' := by
  refine ⟨by rw [h1]; exact g.nodup, ?_, by rw [h1]; exact g.distinct⟩
  rw [h1, h2]
  intro k l hl
  obtain ⟨a, b⟩ := g.named k l hl
  exact ⟨a, b.mono h3 (Nat.le_refl _)⟩

/-- Changing a version that already is in the model, or adding a new one with a new identifier. -/
theorem ModelGood.store {s : Session} (g : ModelGood s) (k : Text) (v : LoadedVersion)
    (hid : v.id < s.created) (hv : TypesGood s.heap v.id v.types)
    (hnew : ∀ k' l' v', s.services.find k' = some l' → l'.versions.find v'.name.toText = some v' →
      v'.id = v.id → k' = k ∧ v'.name.toText = v.name.toText) :
    ModelGood (s.store k v) := by
  unfold Session.store
  split
  · exact g
  · rename_i l hl
    obtain ⟨hname, hs⟩ := g.named k l hl
    refine ⟨nodup_insert g.nodup _ _, ?_, ?_⟩
    · intro k' l' hf
      dsimp only at hf ⊢
      rw [GoMap.find_insert] at hf
      split at hf
      · rename_i he
        cases hf
        subst he
        refine ⟨hname, nodup_insert hs.nodup _ _, ?_⟩
        intro kv v' hv'
        dsimp only at hv'
        rw [GoMap.find_insert] at hv'
        split at hv'
        · rename_i he
          cases hv'
          exact ⟨he, hid, hv⟩
        · exact hs.named kv v' hv'
      · exact g.named k' l' hf
    · -- identifiers
      have key : ∀ k1 l1 v1, (s.services.insert k
          ({ l with versions := l.versions.insert v.name.toText v } : LoadedService)).find k1 = some l1 →
          l1.versions.find v1.name.toText = some v1 →
          (k1 = k ∧ v1 = v) ∨ (∃ l0, s.services.find k1 = some l0 ∧
            l0.versions.find v1.name.toText = some v1 ∧
            ¬ (k1 = k ∧ v1.name.toText = v.name.toText)) := by
        intro k1 l1 v1 h1 h2
        rw [GoMap.find_insert] at h1
        split at h1
        · rename_i he
          cases h1
          dsimp only at h2
          rw [GoMap.find_insert] at h2
          split at h2
          · cases h2; exact .inl ⟨he.symm, rfl⟩
          · rename_i hne
            right
            exact ⟨l, by rw [← he]; exact hl, h2, fun h => hne h.2.symm⟩
        · rename_i hne
          exact .inr ⟨l1, h1, h2, fun h => hne h.1.symm⟩
      intro k1 l1 v1 k2 l2 v2 h1 h2 h3 h4 he
      dsimp only at h1 h3
      rcases key k1 l1 v1 h1 h2 with ⟨a1, a2⟩ | ⟨l0, a1, a2, a3⟩
      · rcases key k2 l2 v2 h3 h4 with ⟨b1, b2⟩ | ⟨m0, b1, b2, b3⟩
        · rw [a1, b1, a2, b2]; exact ⟨rfl, rfl⟩
        · rw [a2] at he
          exact absurd (hnew k2 m0 v2 b1 b2 he.symm) b3
      · rcases key k2 l2 v2 h3 h4 with ⟨b1, b2⟩ | ⟨m0, b1, b2, b3⟩
        · rw [b2] at he
          exact absurd (hnew k1 l0 v1 a1 a2 he) a3
        · exact g.distinct k1 l0 v1 k2 m0 v2 a1 a2 b1 b2 he

theorem modelGood_empty : ModelGood {} :=
  ⟨List.nodup_nil, fun _ _ h => (nomatch h), fun _ _ _ _ _ _ h => (nomatch h)⟩

theorem newVersion_good (h : Heap) (v : VersionId) :
    TypesGood (TypeTable.newVersion h v).heap v (TypeTable.newVersion h v).types ∧
    KeepsNames h (TypeTable.newVersion h v).heap := by
  have step : ∀ (t : TypeTable) kind n, TypesGood t.heap t.version t.types →
      TypesGood (t.addBuiltin kind n).heap (t.addBuiltin kind n).version
        (t.addBuiltin kind n).types ∧ KeepsNames t.heap (t.addBuiltin kind n).heap ∧
      (t.addBuiltin kind n).version = t.version := by
    intro t kind n g
    unfold TypeTable.addBuiltin
    dsimp only
    obtain ⟨a1, a2, a3⟩ := typesGood_newType g { name := n, kind := kind }
    obtain ⟨b1, b2, b3⟩ := typesGood_newType a1
      { name := Name.cat [n, Nom.list], kind := .list
        element := some (t.newType { name := n, kind := kind }).2 }
    exact ⟨b1, a2.trans b2, b3.trans a3⟩
  have g0 : TypesGood h v ([] : GoMap TypeId) := ⟨List.nodup_nil, fun _ _ h => (nomatch h)⟩
  unfold TypeTable.newVersion
  dsimp only
  obtain ⟨a1, b1, c1⟩ := step { version := v, heap := h, types := [] } .scalar Nom.boolean g0
  obtain ⟨a2, b2, c2⟩ := step _ .scalar Nom.integer a1
  obtain ⟨a3, b3, c3⟩ := step _ .scalar Nom.long a2
  obtain ⟨a4, b4, c4⟩ := step _ .scalar Nom.float a3
  obtain ⟨a5, b5, c5⟩ := step _ .scalar Nom.string a4
  obtain ⟨a6, b6, c6⟩ := step _ .scalar Nom.date a5
  obtain ⟨a7, b7, c7⟩ := step _ .interface Nom.interface a6
  rw [c7, c6, c5, c4, c3, c2, c1] at a7
  exact ⟨a7, ((((((b1.trans b2).trans b3).trans b4).trans b5).trans b6).trans b7)⟩

/-- The result of looking for a version: it is in the model, if the service is. -/
theorem findOrCreateVersion_good {s : Session} (g : ModelGood s) (k : Text) (n : Name) :
    let p := s.findOrCreateVersion k n
    ModelGood p.1 ∧ KeepsNames s.heap p.1.heap ∧ s.created ≤ p.1.created ∧
    p.2.name.toText = n.toText ∧ p.2.id < p.1.created ∧ TypesGood p.1.heap p.2.id p.2.types ∧
    (∀ k' l' v', p.1.services.find k' = some l' → l'.versions.find v'.name.toText = some v' →
      v'.id = p.2.id → k' = k ∧ v'.name.toText = p.2.name.toText) ∧
    ((s.services.find k).isSome = true → p.1.version k n.toText = some p.2) := by
  intro p
  simp only [p]
  unfold Session.findOrCreateVersion
  split
  · rename_i v hv
    obtain ⟨l, hl, hv'⟩ := Option.bind_eq_some_iff.mp hv
    obtain ⟨h1, h2⟩ := g.named k l hl
    obtain ⟨h3, h4, h5⟩ := h2.named _ v hv'
    refine ⟨g, .refl _, Nat.le_refl _, h3, h4, h5, ?_, fun _ => hv⟩
    intro k' l' v' a1 a2 a3
    exact g.distinct k' l' v' k l v a1 a2 hl (by rw [h3]; exact hv') a3
  · rename_i hv
    have hnv := newVersion_good s.heap s.created
    generalize TypeTable.newVersion s.heap s.created = table at hnv ⊢
    obtain ⟨h1, h2⟩ := hnv
    dsimp only
    have hlt : ∀ k' l' v', s.services.find k' = some l' →
        l'.versions.find v'.name.toText = some v' → v'.id < s.created := by
      intro k' l' v' a1 a2
      exact ((g.named k' l' a1).2.named _ v' a2).2.1
    have g' : ModelGood { s with
        heap := table.heap, created := s.created + 1 } := by
      refine ⟨g.nodup, ?_, g.distinct⟩
      intro k' l' hl'
      obtain ⟨a, b⟩ := g.named k' l' hl'
      exact ⟨a, b.mono h2 (Nat.le_succ _)⟩
    refine ⟨?_, ?_, ?_, rfl, ?_, ?_, ?_, ?_⟩
    · apply g'.store
      · exact Nat.lt_succ_self _
      · exact h1
      · intro k' l' v' a1 a2 a3
        exact absurd a3 (Nat.ne_of_lt (hlt k' l' v' a1 a2))
    · rw [store_heap]; exact h2
    · rw [store_created]; exact Nat.le_succ _
    · rw [store_created]; exact Nat.lt_succ_self _
    · rw [store_heap]; exact h1
    · intro k' l' v' a1 a2 a3
      unfold Session.store at a1
      split at a1
      · exact absurd a3 (Nat.ne_of_lt (hlt k' l' v' a1 a2))
      · rename_i l hl
        dsimp only at a1 hl
        rw [GoMap.find_insert] at a1
        split at a1
        · rename_i he
          cases a1
          dsimp only at a2
          rw [GoMap.find_insert] at a2
          split at a2
          · cases a2; exact ⟨he.symm, rfl⟩
          · exact absurd a3 (Nat.ne_of_lt (hlt k' l v' (by rw [← he]; exact hl) a2))
        · exact absurd a3 (Nat.ne_of_lt (hlt k' l' v' a1 a2))
    · intro hs
      obtain ⟨l, hl⟩ := Option.isSome_iff_exists.mp hs
      unfold Session.store Session.version
      dsimp only
      rw [hl]
      dsimp only
      rw [GoMap.find_insert, if_pos rfl, Option.bind_some, GoMap.find_insert, if_pos rfl]

theorem loadVersion_modelGood {s : Session} (g : ModelGood s) (k : Text) (d : SourceVersion) :
    ModelGood (loadVersion k s d) := by
  unfold loadVersion
  split
  · exact g
  · obtain ⟨h1, h2, h3, h4, h5, h6, h7, -⟩ :=
      findOrCreateVersion_good g k (parseUsingSeparator d.name '_')
    split
    · exact g.congr rfl rfl (.refl _)
    · exact g.congr rfl rfl (.refl _)
    · exact g.congr rfl rfl (.refl _)
    · exact h1.congr rfl rfl (.refl _)
    · dsimp only
      generalize s.findOrCreateVersion k (parseUsingSeparator d.name '_') = p at *
      obtain ⟨s1, v⟩ := p
      dsimp only at *
      have t0 : TableGood s1.heap v.id (s1.enter v) := ⟨rfl, h6, .refl _⟩
      have t1 := (tableGood_preserved s1.heap v.id).loadFiles d.files
        (fun _ _ _ _ _ _ => trivial) t0
      unfold Session.leave
      dsimp only
      have g1 : ModelGood
          { s1 with
            heap := (d.files.foldl loadFile (s1.enter v)).table.heap
            graph := (d.files.foldl loadFile (s1.enter v)).graph
            undefinedTypes := (d.files.foldl loadFile (s1.enter v)).undefinedTypes
            undefinedResources := (d.files.foldl loadFile (s1.enter v)).undefinedResources
            problems := (d.files.foldl loadFile (s1.enter v)).problems } :=
        h1.congr rfl rfl t1.keeps
      exact g1.store k _ h5 t1.good h7

theorem findOrCreateService_modelGood {s : Session} (g : ModelGood s) (n : Name) :
    ModelGood (s.findOrCreateService n) := by
  unfold Session.findOrCreateService
  split
  · exact g
  · rename_i hf
    refine ⟨nodup_insert g.nodup _ _, ?_, ?_⟩
    · intro k l hl
      dsimp only at hl ⊢
      rw [GoMap.find_insert] at hl
      split at hl
      · rename_i he
        cases hl
        exact ⟨he, List.nodup_nil, fun _ _ h => (nomatch h)⟩
      · exact g.named k l hl
    · have key : ∀ k l (v : LoadedVersion), (s.services.insert n.toText { name := n }).find k = some l →
          l.versions.find v.name.toText = some v → s.services.find k = some l := by
        intro k l v h1 h2
        rw [GoMap.find_insert] at h1
        split at h1
        · cases h1; cases h2
        · exact h1
      intro k l v k' l' v' h1 h2 h3 h4 he
      exact g.distinct k l v k' l' v' (key k l v h1 h2) h2 (key k' l' v' h3 h4) h4 he

theorem foldl_modelGood {α : Type} (f : Session → α → Session)
    (hf : ∀ s x, ModelGood s → ModelGood (f s x)) (xs : List α) {s : Session} (g : ModelGood s) :
    ModelGood (xs.foldl f s) := by
  induction xs generalizing s with
  | nil => exact g
  | cons x xs ih => exact ih (hf s x g)

theorem loadService_modelGood {s : Session} (g : ModelGood s) (d : SourceService) :
    ModelGood (loadService s d) := by
  unfold loadService
  split
  · exact g
  · split
    · exact g.congr rfl rfl (.refl _)
    · exact g.congr rfl rfl (.refl _)
    · exact g.congr rfl rfl (.refl _)
    · exact (findOrCreateService_modelGood g _).congr rfl rfl (.refl _)
    · exact foldl_modelGood _ (fun s x g => loadVersion_modelGood g _ x) _
        (findOrCreateService_modelGood g _)

theorem loadModels_modelGood (ms : List SourceModel) : ModelGood (ms.foldl loadModel {}) := by
  apply foldl_modelGood _ _ _ modelGood_empty
  intro s d g
  unfold loadModel
  split
  · exact foldl_modelGood _ (fun s x g => loadService_modelGood g x) _ g
  · exact g.congr rfl rfl (.refl _)

/-! ## Completion -/

/-- The cells stay as they are. -/
def KeepsCells (h h' : Heap) : Prop := ∀ (id : Nat) c, h[id]? = some c → h'[id]? = some c

theorem KeepsCells.names {h h' : Heap} (k : KeepsCells h h') : KeepsNames h h' :=
  fun id c hc => ⟨c, k id c hc, rfl, rfl⟩

/-- Every type of the version that isn't a list has a list. -/
def HasLists (heap : Heap) (types : GoMap TypeId) : Prop :=
  ∀ k id c, k ≠ [] → types.find k = some id → heap[id]? = some c → c.kind ≠ .list →
    ∃ id', types.find (k ++ t!"_list") = some id'

theorem HasLists.mono {h h' : Heap} {v : VersionId} {m : GoMap TypeId} (l : HasLists h m)
    (g : TypesGood h v m) (k : KeepsCells h h') : HasLists h' m := by
  intro key id c hk hf hc hl
  obtain ⟨c', hc', -⟩ := g.named key id hf
  have := k id c' hc'
  rw [hc] at this; cases this
  exact l key id c hk hf hc' hl

/-- The types of a version that aren't in the first map are lists of types of the first map. -/
def ListsFrom (h h' : Heap) (v : VersionId) (types types' : GoMap TypeId) : Prop :=
  ∀ k id, types'.find k = some id → types.find k = some id ∨
    (types.find k = none ∧ ∃ k0 id0 c0, types.find k0 = some id0 ∧ h[id0]? = some c0 ∧
      c0.kind ≠ .list ∧ k = (Name.cat [c0.name, Nom.list]).toText ∧
      h'[id]? = some { name := Name.cat [c0.name, Nom.list], kind := .list,
                       element := some id0, owner := some v })

theorem ListsFrom.mono {h h' h'' : Heap} {v : VersionId} {m m' : GoMap TypeId}
    (l : ListsFrom h h' v m m') (k : KeepsCells h' h'') : ListsFrom h h'' v m m' := by
  intro key id hf
  rcases l key id hf with h1 | ⟨h1, k0, id0, c0, h2, h3, h4, h5, h6⟩
  · exact .inl h1
  · exact .inr ⟨h1, k0, id0, c0, h2, h3, h4, h5, k _ _ h6⟩

theorem ListsFrom.before {h0 h h' : Heap} {v : VersionId} {m m' : GoMap TypeId}
    (l : ListsFrom h h' v m m') (g : TypesGood h0 v m) (k : KeepsCells h0 h) :
    ListsFrom h0 h' v m m' := by
  intro key id hf
  rcases l key id hf with h1 | ⟨h1, k0, id0, c0, h2, h3, h4, h5, h6⟩
  · exact .inl h1
  · obtain ⟨c, hc, -⟩ := g.named k0 id0 h2
    have := k _ _ hc
    rw [h3] at this
    cases this
    exact .inr ⟨h1, k0, id0, c0, h2, hc, h4, h5, h6⟩

theorem addListTypes_good (t : TypeTable) (g : TypesGood t.heap t.version t.types) :
    TypesGood (addListTypes t).heap t.version (addListTypes t).types ∧
    KeepsCells t.heap (addListTypes t).heap ∧
    HasLists (addListTypes t).heap (addListTypes t).types ∧
    (∀ k id, t.types.find k = some id → (addListTypes t).types.find k = some id) ∧
    ListsFrom t.heap (addListTypes t).heap t.version t.types (addListTypes t).types := by
  have hn : TypesNamed t := fun k id hf => by
    obtain ⟨c, h1, h2, -⟩ := g.named k id hf
    exact ⟨c, h1, h2⟩
  have i := addListTypes_inv t g.nodup hn
  have hkeep : KeepsCells t.heap (addListTypes t).heap := i.heap
  refine ⟨⟨?_, ?_⟩, hkeep, ?_, i.keep, ?_⟩
  · unfold addListTypes
    generalize listing (typeName t.heap) t.types = ids
    have : ∀ (ids : List TypeId) (t : TypeTable), t.types.keys.Nodup →
        (ids.foldl addListType t).types.keys.Nodup := by
      intro ids
      induction ids with
      | nil => intro t h; exact h
      | cons x xs ih =>
        intro t h
        apply ih
        unfold addListType
        split
        · exact h
        · split
          · exact h
          · dsimp only
            split
            · exact h
            · exact nodup_newType h _
    exact this _ _ g.nodup
  · intro k id hf
    rcases i.source k id hf with h | ⟨-, -, id0, c0, h1, h2, h3, h4, h5⟩
    · exact (g.mono hkeep.names).named k id h
    · exact ⟨_, h5, h4.symm, rfl⟩
  · intro k id c hk hf hc hl
    obtain ⟨c', hc', hname⟩ := i.consistent k id hf
    rw [hc] at hc'; cases hc'
    have hnl : c.name ≠ [] := by
      intro he; rw [he] at hname; exact hk hname.symm
    rcases i.source k id hf with h | ⟨-, -, id0, c0, h1, h2, h3, h4, h5⟩
    · have hm : id ∈ t.types.values := List.mem_map.mpr ⟨_, GoMap.find_some_mem h, rfl⟩
      obtain ⟨c', h1, h2⟩ := hn k id h
      have h3 := i.heap id c' h1
      rw [hc] at h3; cases h3
      have := i.done id hm c h1 hl
      rw [listName_toText _ hnl, hname] at this
      exact Option.isSome_iff_exists.mp this
    · rw [hc] at h5; cases h5; exact absurd rfl hl
  · intro k id hf
    rcases i.source k id hf with h | ⟨h0, -, id0, c0, h1, h2, h3, h4, h5⟩
    · exact .inl h
    · obtain ⟨⟨k0, id0'⟩, hm, rfl⟩ := List.mem_map.mp h1
      exact .inr ⟨h0, k0, id0', c0, GoMap.find_of_mem g.nodup hm, h2, h3, h4, h5⟩

theorem version_store (s : Session) (k : Text) (v : LoadedVersion)
    (h : (s.services.find k).isSome = true) (k' n : Text) :
    (s.store k v).version k' n = if k = k' ∧ v.name.toText = n then some v else s.version k' n := by
  obtain ⟨l, hl⟩ := Option.isSome_iff_exists.mp h
  unfold Session.store Session.version
  rw [hl]
  dsimp only
  rw [GoMap.find_insert]
  by_cases e : k = k'
  · subst e
    simp only [if_true, Option.bind_some, true_and, hl, GoMap.find_insert]
  · simp only [e, if_false, false_and]

theorem completeVersion_step {s : Session} (g : ModelGood s) (k : Text) (v : LoadedVersion)
    (hv : s.version k v.name.toText = some v) :
    let s' := completeVersion k s v
    ModelGood s' ∧ KeepsCells s.heap s'.heap ∧
    (∀ k' n, ¬ (k = k' ∧ v.name.toText = n) → s'.version k' n = s.version k' n) ∧
    ∃ v', s'.version k v.name.toText = some v' ∧ v'.name = v.name ∧ v'.id = v.id ∧
      v'.resources = v.resources ∧ v'.errors = v.errors ∧
      HasLists s'.heap v'.types ∧ TypesGood s'.heap v'.id v'.types ∧
      (∀ key id, v.types.find key = some id → v'.types.find key = some id) ∧
      ListsFrom s.heap s'.heap v.id v.types v'.types := by
  intro s'
  obtain ⟨l, hl, hlv⟩ := Option.bind_eq_some_iff.mp hv
  obtain ⟨h1, h2⟩ := g.named k l hl
  obtain ⟨h3, h4, h5⟩ := h2.named _ v hlv
  obtain ⟨a1, a2, a3, a4, a5⟩ := addListTypes_good { version := v.id, heap := s.heap, types := v.types } h5
  have hs' : s' = ({ s with heap := (addListTypes
      { version := v.id, heap := s.heap, types := v.types }).heap } : Session).store k
      { v with types := (addListTypes { version := v.id, heap := s.heap, types := v.types }).types } :=
    rfl
  generalize addListTypes { version := v.id, heap := s.heap, types := v.types } = t at *
  dsimp only at a1 a2 a3 a4 a5
  have hsome : (({ s with heap := t.heap } : Session).services.find k).isSome = true := by
    dsimp only; rw [hl]; rfl
  have hheap : s'.heap = t.heap := by rw [hs', store_heap]
  refine ⟨?_, ?_, ?_, { v with types := t.types }, ?_, rfl, rfl, rfl, rfl, ?_, ?_, a4, ?_⟩
  · rw [hs']
    refine (g.congr (s' := { s with heap := t.heap }) rfl rfl a2.names).store k _ h4 a1 ?_
    intro k' l' v' b1 b2 b3
    exact g.distinct k' l' v' k l v b1 b2 hl hlv b3
  · rw [hheap]; exact a2
  · intro k' n hne
    rw [hs', version_store _ _ _ hsome, if_neg hne]
    rfl
  · rw [hs', version_store _ _ _ hsome, if_pos ⟨rfl, rfl⟩]
  · rw [hheap]; exact a3
  · rw [hheap]; exact a1
  · rw [hheap]; exact a5

/-- The relation between a version before and after the completion. -/
structure Completed (s s' : Session) (k n : Text) : Prop where
  exists_ : ∀ v, s.version k n = some v → ∃ v', s'.version k n = some v' ∧ v'.name = v.name ∧
    v'.id = v.id ∧ v'.resources = v.resources ∧ v'.errors = v.errors ∧
    HasLists s'.heap v'.types ∧
    (∀ key id, v.types.find key = some id → v'.types.find key = some id) ∧
    ListsFrom s.heap s'.heap v.id v.types v'.types

theorem completePairs (ps : List (Text × LoadedVersion)) :
    ∀ {s : Session}, ModelGood s → (ps.map fun p => (p.1, p.2.name.toText)).Nodup →
      (∀ p ∈ ps, s.version p.1 p.2.name.toText = some p.2) →
      let s' := ps.foldl (fun s p => completeVersion p.1 s p.2) s
      ModelGood s' ∧ KeepsCells s.heap s'.heap ∧
      (∀ k n, (k, n) ∉ ps.map (fun p => (p.1, p.2.name.toText)) → s'.version k n = s.version k n) ∧
      ∀ p ∈ ps, Completed s s' p.1 p.2.name.toText := by
  induction ps with
  | nil =>
    intro s g _ _
    exact ⟨g, fun _ _ h => h, fun _ _ _ => rfl, fun _ h => (nomatch h)⟩
  | cons p ps ih =>
    intro s g hnd hall
    rw [List.map_cons, List.nodup_cons] at hnd
    obtain ⟨h1, h2, h3, v', h4, h5, h6, h7, h8, h9, h10, h11, h12⟩ :=
      completeVersion_step g p.1 p.2 (hall p (List.mem_cons_self ..))
    have hne : ∀ q ∈ ps, ¬ (p.1 = q.1 ∧ p.2.name.toText = q.2.name.toText) := by
      intro q hq he
      exact hnd.1 (List.mem_map.mpr ⟨q, hq, by rw [he.1, he.2]⟩)
    obtain ⟨i1, i2, i3, i4⟩ := ih h1 hnd.2 (by
      intro q hq
      rw [h3 _ _ (hne q hq)]
      exact hall q (List.mem_cons_of_mem _ hq))
    dsimp only at i1 i2 i3 i4 ⊢
    rw [List.foldl_cons]
    refine ⟨i1, fun id c hc => i2 id c (h2 id c hc), ?_, ?_⟩
    · intro k n hkn
      rw [List.map_cons, List.mem_cons, not_or] at hkn
      rw [i3 k n hkn.2, h3 k n]
      rintro ⟨rfl, rfl⟩
      exact hkn.1 rfl
    · intro q hq
      rcases List.mem_cons.mp hq with rfl | hq
      · constructor
        intro v hv
        rw [hall q (List.mem_cons_self ..)] at hv
        cases hv
        refine ⟨v', ?_, h5, h6, h7, h8, ?_, h11, h12.mono i2⟩
        · rw [i3 _ _ hnd.1, h4]
        · exact h9.mono h10 i2
      · constructor
        intro v hv
        obtain ⟨v1, b1, b2, b3, b4, b5, b6, b7, b8⟩ :=
          (i4 q hq).exists_ v (by rw [h3 _ _ (hne q hq)]; exact hv)
        obtain ⟨l, hl, hlv⟩ := Option.bind_eq_some_iff.mp hv
        obtain ⟨-, -, hgood⟩ := (g.named _ l hl).2.named _ v hlv
        exact ⟨v1, b1, b2, b3, b4, b5, b6, b7, b8.before hgood h2⟩

theorem foldl_flatMap' {α β γ : Type} (f : γ → β → γ) (g : α → List β) (xs : List α) (s : γ) :
    (xs.flatMap g).foldl f s = xs.foldl (fun s x => (g x).foldl f s) s := by
  induction xs generalizing s with
  | nil => rfl
  | cons x xs ih => rw [List.flatMap_cons, List.foldl_append, List.foldl_cons, ih]

/-- The versions of a model with the keys of their services. -/
def pairsOf (s : Session) : List (Text × LoadedVersion) :=
  (listing LoadedService.name s.services).flatMap fun l =>
    (listing LoadedVersion.name l.versions).map fun v => (l.name.toText, v)

theorem complete_eq (s : Session) :
    s.complete = (pairsOf s).foldl (fun s p => completeVersion p.1 s p.2) s := by
  unfold complete pairsOf
  rw [foldl_flatMap']
  congr 1
  funext s l
  unfold completeService
  rw [List.foldl_map]

theorem pairsOf_mem {s : Session} (g : ModelGood s) (k : Text) (v : LoadedVersion) :
    (k, v) ∈ pairsOf s ↔ s.version k v.name.toText = some v := by
  unfold pairsOf Session.version
  rw [List.mem_flatMap, Option.bind_eq_some_iff]
  constructor
  · rintro ⟨l, hl, hv⟩
    obtain ⟨v', hv', he⟩ := List.mem_map.mp hv
    cases he
    have hl' := (sortByName_spec _ _).1.mem_iff.mp hl
    obtain ⟨e, he, rfl⟩ := List.mem_map.mp hl'
    have hf := GoMap.find_of_mem g.nodup he
    obtain ⟨h1, h2⟩ := g.named _ _ hf
    have hv'' := (sortByName_spec _ _).1.mem_iff.mp hv'
    obtain ⟨e2, he2, rfl⟩ := List.mem_map.mp hv''
    have hf2 := GoMap.find_of_mem h2.nodup he2
    obtain ⟨h3, -⟩ := h2.named _ _ hf2
    exact ⟨e.2, by rw [h1]; exact hf, by rw [h3]; exact hf2⟩
  · rintro ⟨l, hl, hv⟩
    refine ⟨l, (sortByName_spec _ _).1.mem_iff.mpr
      (List.mem_map.mpr ⟨_, GoMap.find_some_mem hl, rfl⟩), ?_⟩
    refine List.mem_map.mpr ⟨v, (sortByName_spec _ _).1.mem_iff.mpr
      (List.mem_map.mpr ⟨_, GoMap.find_some_mem hv, rfl⟩), ?_⟩
    rw [(g.named k l hl).1]

theorem pairwise_flatMap_pairs (ls : List LoadedService)
    (h1 : (ls.map fun l => l.name.toText).Nodup)
    (h2 : ∀ l ∈ ls, ((listing LoadedVersion.name l.versions).map fun v => v.name.toText).Nodup) :
    ((ls.flatMap fun l => (listing LoadedVersion.name l.versions).map fun v =>
      (l.name.toText, v)).map fun p => (p.1, p.2.name.toText)).Nodup := by
  induction ls with
  | nil => exact List.nodup_nil
  | cons l ls ih =>
    rw [List.map_cons, List.nodup_cons] at h1
    rw [List.flatMap_cons, List.map_append, List.nodup_append]
    refine ⟨?_, ih h1.2 fun l hl => h2 l (List.mem_cons_of_mem _ hl), ?_⟩
    · have := h2 l (List.mem_cons_self ..)
      rw [List.map_map]
      unfold List.Nodup at this ⊢
      rw [List.pairwise_map] at this ⊢
      exact this.imp fun hne he => hne (Prod.mk.inj he).2
    · intro a ha b hb he
      subst he
      obtain ⟨x, hx, rfl⟩ := List.mem_map.mp ha
      obtain ⟨x', hx', rfl⟩ := List.mem_map.mp hx
      obtain ⟨y, hy, he⟩ := List.mem_map.mp hb
      obtain ⟨l2, hl2, hy'⟩ := List.mem_flatMap.mp hy
      obtain ⟨y', hy'', rfl⟩ := List.mem_map.mp hy'
      exact h1.1 (List.mem_map.mpr ⟨l2, hl2, (Prod.mk.inj he).1⟩)

theorem listing_keys_nodup {α : Type} (nameOf : α → Name) (m : GoMap α) (hn : m.keys.Nodup)
    (hk : ∀ k v, m.find k = some v → (nameOf v).toText = k) :
    ((listing nameOf m).map fun v => (nameOf v).toText).Nodup := by
  have hp : (listing nameOf m).Perm m.values := (sortByName_spec _ _).1
  have hp' := hp.map fun v => (nameOf v).toText
  rw [hp'.nodup_iff]
  have : (m.values.map fun v => (nameOf v).toText) = m.keys := by
    unfold GoMap.values GoMap.keys
    rw [List.map_map]
    apply List.map_congr_left
    intro e he
    exact hk e.1 e.2 (GoMap.find_of_mem hn he)
  rw [this]; exact hn

theorem pairsOf_nodup {s : Session} (g : ModelGood s) :
    ((pairsOf s).map fun p => (p.1, p.2.name.toText)).Nodup := by
  unfold pairsOf
  apply pairwise_flatMap_pairs
  · exact listing_keys_nodup _ _ g.nodup fun k l hl => (g.named k l hl).1
  · intro l hl
    have hl' := (sortByName_spec _ _).1.mem_iff.mp hl
    obtain ⟨e, he, rfl⟩ := List.mem_map.mp hl'
    have hf := GoMap.find_of_mem g.nodup he
    obtain ⟨h1, h2⟩ := g.named _ _ hf
    exact listing_keys_nodup _ _ h2.nodup fun k v hv => (h2.named k v hv).1

/-- The model after the completion. -/
theorem complete_good {s : Session} (g : ModelGood s) :
    ModelGood s.complete ∧ KeepsCells s.heap s.complete.heap ∧
    (∀ k n, s.version k n = none → s.complete.version k n = none) ∧
    ∀ k n, Completed s s.complete k n := by
  obtain ⟨h1, h2, h3, h4⟩ := completePairs (pairsOf s) g (pairsOf_nodup g)
    fun p hp => (pairsOf_mem g p.1 p.2).mp hp
  rw [complete_eq]
  refine ⟨h1, h2, ?_, ?_⟩
  · intro k n hn
    rw [h3 k n, hn]
    intro hm
    obtain ⟨p, hp, he⟩ := List.mem_map.mp hm
    have := (pairsOf_mem g p.1 p.2).mp hp
    rw [(Prod.mk.inj he).1, (Prod.mk.inj he).2, hn] at this
    cases this
  · intro k n
    constructor
    intro v hv
    have hname : v.name.toText = n := by
      obtain ⟨l, hl, hlv⟩ := Option.bind_eq_some_iff.mp hv
      exact ((g.named k l hl).2.named n v hlv).1
    have hp := (pairsOf_mem g k v).mpr (by rw [hname]; exact hv)
    have := (h4 _ hp).exists_ v (by rw [hname]; exact hv)
    dsimp only at this
    rw [hname] at this
    exact this

end Verif
