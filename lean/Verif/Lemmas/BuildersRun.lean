import Verif.Spec.BuildersRun
import Verif.Lemmas.TypesRun
import Verif.Lemmas.BuilderTypes

/-!
# Lemmas about running the generated builders: memory
-/

namespace Verif.BuildersRun

open GoJson (Val Schema Shape AttrShape)
open GoBuilder (BVal Cell Mem)
open GoProgram
open TypesCode (dot)
open TypesRun (Legal value)

variable {σ : Type} {S : Schema} {U : TypeId → Code}

/-! ## Fields -/

theorem update_ok (f : Text) (v : Value Val) : ∀ (fs : List (Text × Value Val)) (old : Value Val),
    fs.lookup f = some old → ∃ fs', update f v fs = some fs' ∧ fs'.map Prod.fst = fs.map Prod.fst ∧
      ∀ g, fs'.lookup g = if g = f then some v else fs.lookup g
  | [], _, h => by cases h
  | (y, w) :: rest, old, h => by
    by_cases hy : y = f
    · subst hy
      refine ⟨(y, v) :: rest, by simp [update], rfl, fun g => ?_⟩
      by_cases hg : g = y
      · subst hg
        simp
      · have : (g == y) = false := beq_eq_false_iff_ne.mpr hg
        simp [List.lookup, this, hg]
    · have hn : (f == y) = false := beq_eq_false_iff_ne.mpr (Ne.symm hy)
      rw [List.lookup, hn] at h
      obtain ⟨fs', h1, h2, h3⟩ := update_ok f v rest old h
      refine ⟨(y, w) :: fs', by simp [update, hy, h1], by simp [h2], fun g => ?_⟩
      by_cases hg : g = y
      · subst hg
        simp [hy]
      · have : (g == y) = false := beq_eq_false_iff_ne.mpr hg
        simp [List.lookup, this, h3 g]

theorem update_same {α : Type} (x : Text) (v : α) : ∀ (l : List (Text × α)), l.lookup x = some v →
    update x v l = some l
  | [], h => by cases h
  | (y, w) :: rest, h => by
    by_cases hy : y = x
    · subst hy
      simp at h
      simp [update, h]
    · have hn : (x == y) = false := beq_eq_false_iff_ne.mpr (Ne.symm hy)
      rw [List.lookup, hn] at h
      simp [update, hy, update_same x v rest h]

theorem lookup_mem {α : Type} (f : Text) : ∀ (fs : List (Text × α)), f ∈ fs.map Prod.fst →
    ∃ v, fs.lookup f = some v
  | [], h => by cases h
  | (y, w) :: rest, h => by
    by_cases hy : f = y
    · subst hy
      exact ⟨w, by simp⟩
    · have hn : (f == y) = false := beq_eq_false_iff_ne.mpr hy
      obtain ⟨v, hv⟩ := lookup_mem f rest (by simpa [hy] using h)
      exact ⟨v, by rw [List.lookup, hn]; exact hv⟩

theorem lookup_of_mem {α : Type} (f : Text) (v : α) : ∀ (fs : List (Text × α)), (fs.map Prod.fst).Nodup →
    (f, v) ∈ fs → fs.lookup f = some v
  | [], _, h => by cases h
  | (y, w) :: rest, hn, h => by
    simp only [List.map_cons, List.nodup_cons] at hn
    rcases List.mem_cons.mp h with h1 | h1
    · cases h1
      simp
    · have : f ≠ y := by
        rintro rfl
        exact hn.1 (List.mem_map.mpr ⟨(_, v), h1, rfl⟩)
      have hb : (f == y) = false := beq_eq_false_iff_ne.mpr this
      rw [List.lookup, hb]
      exact lookup_of_mem f v rest hn.2 h1

/-! ## Frames -/

theorem Frame.refl (D : Value Val → Prop) (s : State Val σ) : Frame D s s :=
  ⟨fun _ _ _ h => h, fun _ _ _ h => h, fun _ _ _ h => h, fun _ h => h, rfl, rfl⟩

theorem Frame.trans {D : Value Val → Prop} {s t u : State Val σ} (h : Frame D s t) (k : Frame D t u) :
    Frame D s u :=
  ⟨fun a fs hd hs => k.structs a fs hd (h.structs a fs hd hs),
    fun a fs hd hs => k.arrays a fs hd (h.arrays a fs hd hs),
    fun a fs hd hs => k.maps a fs hd (h.maps a fs hd hs),
    fun l hl => k.valid l (h.valid l hl), k.vars.trans h.vars, k.user.trans h.user⟩

theorem Frame.mono {D D' : Value Val → Prop} {s t : State Val σ} (h : Frame D s t)
    (hd : ∀ l, Valid s l → D' l → D l) : Frame D' s t :=
  ⟨fun a fs hl hs => h.structs a fs (hd _ (List.getElem?_eq_some_iff.mp hs).1 hl) hs,
    fun a fs hl hs => h.arrays a fs (hd _ (List.getElem?_eq_some_iff.mp hs).1 hl) hs,
    fun a fs hl hs => h.maps a fs (hd _ (List.getElem?_eq_some_iff.mp hs).1 hl) hs,
    h.valid, h.vars, h.user⟩

/-- Everything in a set of positions is still there, and those positions are in other set. -/
structure Move (D D' : Value Val → Prop) (s t : State Val σ) : Prop where
  sub : ∀ l, D l → Valid s l → D' l
  structs : ∀ a fs, D (.pointer a) → s.structs[a]? = some fs → t.structs[a]? = some fs
  arrays : ∀ a xs, D (.slice a) → s.arrays[a]? = some xs → t.arrays[a]? = some xs
  maps : ∀ a m, D (.map a) → s.maps[a]? = some m → t.maps[a]? = some m

theorem Frame.move {D : Value Val → Prop} {s t : State Val σ} (h : Frame D s t) : Move D D s t :=
  ⟨fun _ h _ => h, h.structs, h.arrays, h.maps⟩

theorem Move.change {D D' : Value Val → Prop} {s : State Val σ} (h : ∀ l, D l → Valid s l → D' l) :
    Move D D' s s :=
  ⟨h, fun _ _ _ h => h, fun _ _ _ h => h, fun _ _ _ h => h⟩

mutual
theorem Holds.move {D D' : Value Val → Prop} {s t : State Val σ} (hm : Move D D' s t) (ty : TypeId) :
    ∀ (v : Val) (x : Value Val), Holds S U D s ty v x → Holds S U D' t ty v x
  | .obj bitmap id href fields, x, h => by
    rw [Holds] at h ⊢
    obtain ⟨a, fs, rfl, hd, hs, hk, hb, hc, hf⟩ := h
    exact ⟨a, fs, rfl, hm.sub _ hd (List.getElem?_eq_some_iff.mp hs).1, hm.structs a fs hd hs, hk, hb, hc,
      HoldsFields.move hm fs _ fields hf⟩
  | .list items, x, h => by
    rw [Holds] at h ⊢
    obtain ⟨a, xs, rfl, hd, hs, hi⟩ := h
    exact ⟨a, xs, rfl, hm.sub _ hd (List.getElem?_eq_some_iff.mp hs).1, hm.arrays a xs hd hs,
      HoldsItems.move hm _ items xs hi⟩
  | .linkList link href items, x, h => by
    rw [Holds] at h ⊢
    obtain ⟨a, y, rfl, hd, hs, hi⟩ := h
    exact ⟨a, y, rfl, hm.sub _ hd (List.getElem?_eq_some_iff.mp hs).1, hm.structs a _ hd hs,
      Holds.move hm ty items y hi⟩
  | .map entries, x, h => by
    rw [Holds] at h ⊢
    obtain ⟨a, m, rfl, hd, hs, hn, he⟩ := h
    exact ⟨a, m, rfl, hm.sub _ hd (List.getElem?_eq_some_iff.mp hs).1, hm.maps a m hd hs, hn,
      HoldsEntries.move hm _ entries m he⟩
  | .nil, x, h => by simpa only [Holds] using h
  | .bool b, x, h => by simpa only [Holds] using h
  | .int i, x, h => by simpa only [Holds] using h
  | .float t, x, h => by simpa only [Holds] using h
  | .str t, x, h => by simpa only [Holds] using h
  | .date d, x, h => by simpa only [Holds] using h
  | .iface j, x, h => by simpa only [Holds] using h
theorem HoldsFields.move {D D' : Value Val → Prop} {s t : State Val σ} (hm : Move D D' s t)
    (fs : List (Text × Value Val)) : ∀ (as : List (AttrShape × Text)) (vs : List Val),
    HoldsFields S U D s fs as vs → HoldsFields S U D' t fs as vs
  | [], [], _ => by simp [HoldsFields]
  | (a, f) :: as, v :: vs, h => by
    rw [HoldsFields] at h ⊢
    obtain ⟨⟨x, hx, hv⟩, hr⟩ := h
    exact ⟨⟨x, hx, Holds.move hm a.typ v x hv⟩, HoldsFields.move hm fs as vs hr⟩
  | [], _ :: _, h => by simp [HoldsFields] at h
  | _ :: _, [], h => by simp [HoldsFields] at h
theorem HoldsItems.move {D D' : Value Val → Prop} {s t : State Val σ} (hm : Move D D' s t) (ty : TypeId) :
    ∀ (vs : List Val) (xs : List (Value Val)), HoldsItems S U D s ty vs xs → HoldsItems S U D' t ty vs xs
  | [], [], _ => by simp [HoldsItems]
  | v :: vs, x :: xs, h => by
    rw [HoldsItems] at h ⊢
    exact ⟨Holds.move hm ty v x h.1, HoldsItems.move hm ty vs xs h.2⟩
  | [], _ :: _, h => by simp [HoldsItems] at h
  | _ :: _, [], h => by simp [HoldsItems] at h
theorem HoldsEntries.move {D D' : Value Val → Prop} {s t : State Val σ} (hm : Move D D' s t) (ty : TypeId) :
    ∀ (es : List (Text × Val)) (m : GoMap (Value Val)), HoldsEntries S U D s ty es m →
      HoldsEntries S U D' t ty es m
  | [], [], _ => by simp [HoldsEntries]
  | (k, v) :: es, (l, x) :: m, h => by
    rw [HoldsEntries] at h ⊢
    exact ⟨h.1, Holds.move hm ty v x h.2.1, HoldsEntries.move hm ty es m h.2.2⟩
  | [], _ :: _, h => by simp [HoldsEntries] at h
  | _ :: _, [], h => by simp [HoldsEntries] at h
end

/-- The arrays in a set of positions are still there, and those positions are in other set. -/
def Keep (D D' : Value Val → Prop) (s t : State Val σ) : Prop :=
  ∀ a xs, D (.slice a) → s.arrays[a]? = some xs → D' (.slice a) ∧ t.arrays[a]? = some xs

theorem Move.keep {D D' : Value Val → Prop} {s t : State Val σ} (h : Move D D' s t) : Keep D D' s t :=
  fun a xs hd hs => ⟨h.sub _ hd (List.getElem?_eq_some_iff.mp hs).1, h.arrays a xs hd hs⟩

theorem Frame.keep {D : Value Val → Prop} {s t : State Val σ} (h : Frame D s t) : Keep D D s t := h.move.keep

theorem prefix_get {ρ ρ' : List (Value Val)} (h : ρ <+: ρ') {r : Nat} {x : Value Val}
    (hr : ρ[r]? = some x) : ρ'[r]? = some x := by
  obtain ⟨extra, rfl⟩ := h
  rw [List.getElem?_append_left (List.getElem?_eq_some_iff.mp hr).1]
  exact hr

mutual
theorem Stores.move {ρ ρ' : List (Value Val)} {D D' : Value Val → Prop} {s t : State Val σ}
    (hm : Keep D D' s t) (hr : ρ <+: ρ') :
    ∀ (v : BVal) (x : Value Val), Stores ρ D s v x → Stores ρ' D' t v x
  | .nil, x, h => by simpa only [Stores] using h
  | .scalar v, x, h => by simpa only [Stores] using h
  | .ref r, x, h => by
    rw [Stores] at h ⊢
    exact prefix_get hr h
  | .list items, x, h => by
    rw [Stores] at h ⊢
    obtain ⟨a, xs, rfl, hd, hs, hi⟩ := h
    exact ⟨a, xs, rfl, (hm a xs hd hs).1, (hm a xs hd hs).2, StoresItems.move hm hr items xs hi⟩
theorem StoresItems.move {ρ ρ' : List (Value Val)} {D D' : Value Val → Prop} {s t : State Val σ}
    (hm : Keep D D' s t) (hr : ρ <+: ρ') :
    ∀ (vs : List BVal) (xs : List (Value Val)), StoresItems ρ D s vs xs → StoresItems ρ' D' t vs xs
  | [], [], _ => by simp [StoresItems]
  | v :: vs, x :: xs, h => by
    rw [StoresItems] at h ⊢
    exact ⟨Stores.move hm hr v x h.1, StoresItems.move hm hr vs xs h.2⟩
  | [], _ :: _, h => by simp [StoresItems] at h
  | _ :: _, [], h => by simp [StoresItems] at h
end

theorem StoresEntries.move {ρ ρ' : List (Value Val)} {D D' : Value Val → Prop} {s t : State Val σ}
    (hm : Keep D D' s t) (hr : ρ <+: ρ') :
    ∀ (es : GoMap BVal) (m : GoMap (Value Val)), StoresEntries ρ D s es m → StoresEntries ρ' D' t es m
  | [], [], _ => trivial
  | (k, v) :: es, (l, x) :: m, h =>
    ⟨h.1, Stores.move hm hr v x h.2.1, StoresEntries.move hm hr es m h.2.2⟩
  | [], _ :: _, h => h.elim
  | _ :: _, [], h => h.elim

theorem StoresFields.move {ρ ρ' : List (Value Val)} {D D' : Value Val → Prop} {s t : State Val σ}
    (hm : Keep D D' s t) (hr : ρ <+: ρ') {fs fs' : List (Text × Value Val)} :
    ∀ (names : List Text) (vs : List BVal), (∀ f ∈ names, fs'.lookup f = fs.lookup f) →
      StoresFields ρ D s fs names vs → StoresFields ρ' D' t fs' names vs
  | [], [], _, _ => trivial
  | f :: names, v :: vs, hf, h => by
    obtain ⟨⟨x, hx, hv⟩, hrest⟩ := h
    exact ⟨⟨x, (hf f (by simp)).trans hx, Stores.move hm hr v x hv⟩,
      StoresFields.move hm hr names vs (fun g hg => hf g (List.mem_cons_of_mem _ hg)) hrest⟩
  | [], _ :: _, _, h => h.elim
  | _ :: _, [], _, h => h.elim

theorem StoresCell.move {ρ ρ' : List (Value Val)} {D D' : Value Val → Prop} {s t : State Val σ}
    (hm : Keep D D' s t) (hr : ρ <+: ρ') (cell : Cell) (x : Value Val)
    (hst : ∀ a fs, x = .pointer a → s.structs[a]? = some fs → t.structs[a]? = some fs)
    (hmt : ∀ a m, x = .map a → s.maps[a]? = some m → t.maps[a]? = some m)
    (h : StoresCell U ρ D s cell x) : StoresCell U ρ' D' t cell x := by
  cases cell with
  | builder ty bitmap id href fields =>
    obtain ⟨a, fs, rfl, hs, hk, hb, hc, hf⟩ := h
    exact ⟨a, fs, rfl, hst a fs rfl hs, hk, hb, hc, hf.move hm hr _ _ (fun _ _ => rfl)⟩
  | listBuilder ty items =>
    obtain ⟨a, y, rfl, hs, hi⟩ := h
    exact ⟨a, y, rfl, hst a _ rfl hs, Stores.move hm hr _ _ hi⟩
  | map e entries =>
    obtain ⟨a, m, rfl, hs, hn, he⟩ := h
    exact ⟨a, m, rfl, hmt a m rfl hs, hn, StoresEntries.move hm hr _ _ he⟩

theorem Memory.move {ρ : List (Value Val)} {D D' : Value Val → Prop} {s t : State Val σ} {mem : Mem}
    (h : Memory U ρ D s mem) (hm : Keep D D' s t) (hv : ∀ l, Valid s l → Valid t l)
    (hst : ∀ a fs, D' (.pointer a) → s.structs[a]? = some fs → t.structs[a]? = some fs)
    (hmt : ∀ a m, D' (.map a) → s.maps[a]? = some m → t.maps[a]? = some m)
    (hd : ∀ x ∈ ρ, D' x → D x) : Memory U ρ D' t mem :=
  ⟨h.length, h.nodup, fun x hx => hv x (h.valid x hx), fun r cell x hc hx hx' =>
    (h.cells r cell x hc hx (hd x (List.mem_of_getElem? hx) hx')).move hm (List.prefix_refl _) cell x
      (fun a fs e => hst a fs (e ▸ hx')) (fun a m e => hmt a m (e ▸ hx'))⟩

theorem Memory.frame {ρ : List (Value Val)} {D : Value Val → Prop} {s t : State Val σ} {mem : Mem}
    (h : Memory U ρ D s mem) (hf : Frame D s t) : Memory U ρ D t mem :=
  h.move hf.keep hf.valid hf.structs hf.maps fun _ _ h => h

theorem Memory.change {ρ : List (Value Val)} {D D' : Value Val → Prop} {s : State Val σ} {mem : Mem}
    (h : Memory U ρ D s mem) (hk : ∀ a, D (.slice a) → Valid s (.slice a) → D' (.slice a))
    (hd : ∀ x ∈ ρ, D' x → D x) : Memory U ρ D' s mem :=
  h.move (fun a _ hd hs => ⟨hk a hd (List.getElem?_eq_some_iff.mp hs).1, hs⟩) (fun _ h => h)
    (fun _ _ _ h => h) (fun _ _ _ h => h) hd

/-- A new builder or map. -/
theorem Memory.push {ρ : List (Value Val)} {D : Value Val → Prop} {s : State Val σ} {mem : Mem}
    (h : Memory U ρ D s mem) (x : Value Val) (cell : Cell) (hv : Valid s x) (hn : x ∉ ρ)
    (hc : StoresCell U (ρ ++ [x]) D s cell x) : Memory U (ρ ++ [x]) D s (mem ++ [cell]) := by
  refine ⟨by simp [h.length], ?_, ?_, ?_⟩
  · rw [List.nodup_append]
    refine ⟨h.nodup, by simp, ?_⟩
    intro a ha b hb
    simp at hb
    subst hb
    rintro rfl
    exact hn ha
  · intro y hy
    rcases List.mem_append.mp hy with hy | hy
    · exact h.valid y hy
    · simp at hy
      subst hy
      exact hv
  · intro r c y hr hy hd
    by_cases hlt : r < mem.length
    · rw [List.getElem?_append_left hlt] at hr
      rw [List.getElem?_append_left (by rw [h.length]; exact hlt)] at hy
      exact (h.cells r c y hr hy hd).move (fun a xs h hs => ⟨h, hs⟩) (List.prefix_append _ _) c y
        (fun _ _ _ h => h) (fun _ _ _ h => h)
    · have hlt' : r = mem.length := by
        have := (List.getElem?_eq_some_iff.mp hr).1
        simp at this
        omega
      subst hlt'
      simp at hr
      rw [← h.length] at hy
      simp at hy
      subst hr
      subst hy
      exact hc

/-- A change in a builder or map. -/
theorem Memory.replace {ρ : List (Value Val)} {D : Value Val → Prop} {s : State Val σ} {mem : Mem}
    {r : Nat} {x : Value Val} (hr : ρ[r]? = some x)
    (h : Memory U ρ (fun l => D l ∧ l ≠ x) s mem) (cell : Cell)
    (hc : StoresCell U ρ D s cell x) : Memory U ρ D s (mem.set r cell) := by
  refine ⟨by simp [h.length], h.nodup, h.valid, ?_⟩
  intro q c y hq hy hd
  by_cases he : q = r
  · subst he
    have hlt : q < mem.length := by
      have := (List.getElem?_eq_some_iff.mp hr).1
      rw [h.length] at this
      exact this
    rw [List.getElem?_set_self hlt] at hq
    rw [hr] at hy
    cases hq
    cases hy
    exact hc
  · rw [List.getElem?_set_ne (fun h => he h.symm)] at hq
    have hne : y ≠ x := by
      rintro rfl
      exact he ((List.getElem?_inj (List.getElem?_eq_some_iff.mp hy).1 h.nodup).mp (hy.trans hr.symm))
    exact (h.cells q c y hq hy ⟨hd, hne⟩).move (fun a xs h hs => ⟨h.1, hs⟩) (List.prefix_refl _) c y
      (fun _ _ _ h => h) (fun _ _ _ h => h)

/-! ## Names -/

theorem resolve_simple (pkg t : Text) (h : '.' ∉ t) : resolve pkg t = (pkg, t) := by
  have : t.dropWhile (· ≠ '.') = [] := by
    have : ∀ l : Text, '.' ∉ l → l.dropWhile (· ≠ '.') = [] := by
      intro l
      induction l with
      | nil => intro _; rfl
      | cons c l ih =>
        intro hl
        simp only [List.mem_cons, not_or] at hl
        rw [List.dropWhile_cons_of_pos (by simpa using fun h => hl.1 h.symm)]
        exact ih hl.2
    exact this t h
  rw [resolve, this]

theorem fieldsOf_eq : ∀ (p : List Declaration) (gap : Nat) (x : Text) (fields : List (Text × Nat × Text)),
    Legal p → .struct gap x fields ∈ p → fieldsOf p x = some (fields.map fun f => (f.1, f.2.2))
  | [], _, _, _, _, h => by cases h
  | d :: p, gap, x, fields, hl, h => by
    have hl' : Legal p := by
      unfold Legal at hl
      rw [List.flatMap_cons, List.nodup_append] at hl
      exact hl.2.1
    have hd : ∀ x ∈ TypesRun.introduced d, (x.1, x.2) ∉ p.flatMap TypesRun.introduced := by
      intro x hx hx'
      unfold Legal at hl
      rw [List.flatMap_cons, List.nodup_append] at hl
      exact hl.2.2 x hx x hx' rfl
    rw [fieldsOf, List.findSome?_cons]
    rcases List.mem_cons.mp h with rfl | h'
    · simp
    · have hm : (([] : Text), x) ∈ p.flatMap TypesRun.introduced :=
        List.mem_flatMap.mpr ⟨_, h', by simp [TypesRun.introduced]⟩
      have ih := fieldsOf_eq p gap x fields hl' h'
      rw [fieldsOf] at ih
      cases d with
      | struct g y fs =>
        have : ¬ y = x := by
          rintro rfl
          exact hd ([], y) (by simp [TypesRun.introduced]) hm
        simp only [this, if_false]
        exact ih
      | _ => exact ih

theorem nodup_fields (p : List Declaration) (gap : Nat) (x : Text) (fields : List (Text × Nat × Text))
    (hl : Legal p) (hm : .struct gap x fields ∈ p) : (fields.map Prod.fst).Nodup := by
  obtain ⟨l, r, rfl⟩ := List.append_of_mem hm
  unfold Legal at hl
  rw [List.flatMap_append, List.flatMap_cons, List.nodup_append] at hl
  have := (List.nodup_append.mp hl.2.1).1
  simp only [TypesRun.introduced, List.nodup_cons] at this
  have h2 := this.2
  rw [show (fields.map fun f => (x, f.1)) = (fields.map Prod.fst).map (fun f => (x, f)) by simp] at h2
  exact List.Pairwise.of_map (fun f => (x, f)) (fun a b h e => h (by rw [e])) h2

theorem methods_eq (P : Program) (zero : Text → Text → Value Val) (fuel : Nat) (pkg t q x : Text) (f : Func)
    (r : Value Val) (args : List (Value Val)) (s : State Val σ) (hr : resolve pkg t = (q, x))
    (hl : Legal (P q)) (hf : .func f ∈ P q) (hx : f.typ = x) :
    (world P zero (fuel + 1) pkg).methods t f.name r args s = f.call (world P zero fuel q) r args s := by
  subst hx
  simp only [world, hr, TypesRun.method_eq (P q) f hl hf]

theorem constructors_eq (P : Program) (zero : Text → Text → Value Val) (fuel : Nat) (pkg t q : Text) (f : Func)
    (s : State Val σ) (hr : resolve pkg t = (q, f.name))
    (hl : Legal (P q)) (hf : .func f ∈ P q) (hx : f.typ = []) :
    (world P zero (fuel + 1) pkg).constructors t s = f.call (world P zero fuel q) .nil [] s := by
  have := TypesRun.method_eq (P q) f hl hf
  rw [hx] at this
  simp only [world, hr, this]

theorem world_zero (P : Program) (zero : Text → Text → Value Val) (fuel : Nat) (pkg : Text) :
    (world P zero fuel pkg : World Val σ).zero = zero pkg := by
  cases fuel <;> rfl

theorem alloc_eq (P : Program) (zero : Text → Text → Value Val) (fuel : Nat) (pkg : Text) (gap : Nat) (x : Text)
    (fields : List (Text × Nat × Text)) (hl : Legal (P pkg)) (hm : .struct gap x fields ∈ P pkg)
    (hx : '.' ∉ x) (s : State Val σ) :
    alloc (world P zero fuel pkg) x s = .ok (.pointer s.structs.length,
      { s with structs := s.structs ++ [fields.map fun f => (f.1, zero pkg f.2.2)] }) := by
  have h : (world P zero fuel pkg : World Val σ).structs x =
      some (fields.map fun f => (f.1, zero pkg f.2.2)) := by
    cases fuel <;> simp [world, resolve_simple pkg x hx, fieldsOf_eq (P pkg) gap x fields hl hm]
  rw [alloc, h]

/-! ## Expressions -/

theorem eval_var {w : World Val σ} {s : State Val σ} {x : Text} {v : Value Val}
    (hx : s.vars.lookup x = some v) : (Expr.var x).eval w s = .ok (v, s) := by
  rw [Expr.eval, hx]

theorem eval_dot {w : World Val σ} {s : State Val σ} {x f : Text} {a : Nat} {fs : List (Text × Value Val)}
    {v : Value Val} (hx : s.vars.lookup x = some (.pointer a)) (hs : s.structs[a]? = some fs)
    (hf : fs.lookup f = some v) : (dot x f).eval w s = .ok (v, s) := by
  simp only [dot, Expr.eval, hx, Res.bind, State.field, hs, Option.bind_some, hf]

theorem eval_dot_nil {w : World Val σ} {s : State Val σ} {x f : Text}
    (hx : s.vars.lookup x = some .nil) : (dot x f).eval w s = .panic := by
  simp only [dot, Expr.eval, hx, Res.bind, State.field]

theorem assign_dot {w : World Val σ} {s : State Val σ} {x f : Text} {a : Nat} {fs fs' : List (Text × Value Val)}
    {v : Value Val} (hx : s.vars.lookup x = some (.pointer a)) (hs : s.structs[a]? = some fs)
    (hu : update f v fs = some fs') :
    assign w v (dot x f) s = .ok { s with structs := s.structs.set a fs' } := by
  simp only [dot, assign, Expr.eval, hx, Res.bind, hs, Option.bind_some, hu, Res.ofOption]

end Verif.BuildersRun
