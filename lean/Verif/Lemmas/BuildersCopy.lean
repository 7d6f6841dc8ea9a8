import Verif.Lemmas.BuildersBuilt

/-!
# Lemmas about running the generated builders: copying objects
-/

namespace Verif.BuildersRun

open GoJson (Val Schema Shape AttrShape)
open GoBuilder (BVal Cell Mem)
open GoProgram
open TypesCode (dot)
open TypesRun (Legal value)
open BuildersCode (copyOf copyIf fieldNotNil)

variable {σ : Type} {S : Schema} {U : TypeId → Code} {P : Program} {zero : Text → Text → Value Val}

/-! ## Memory -/

/-- A set of positions contains all those that aren't used. -/
def Fresh (D : Value Val → Prop) (t : State Val σ) : Prop := ∀ l, ¬ Valid t l → D l

theorem Fresh.frame {D E : Value Val → Prop} {s t : State Val σ} (h : Fresh D s) (hf : Frame E s t) : Fresh D t :=
  fun l hl => h l fun hv => hl (hf.valid l hv)

/-- Changes in a position that isn't one of the builders. -/
theorem Memory.past {ρ : List (Value Val)} {D : Value Val → Prop} {s t : State Val σ} {mem : Mem} {o : Nat}
    (h : Memory U ρ D s mem) (hf : Frame (fun l => Valid s l ∧ l ≠ .pointer o) s t)
    (ho : ∀ x ∈ ρ, D x → x ≠ .pointer o) : Memory U ρ D t mem := by
  have h1 : Memory U ρ (fun l => D l ∧ l ≠ .pointer o) t mem :=
    h.move (fun a xs hd hs => ⟨⟨hd, by simp⟩, hf.arrays a xs ⟨(List.getElem?_eq_some_iff.mp hs).1, by simp⟩ hs⟩) hf.valid
      (fun a fs hd hs => hf.structs a fs ⟨(List.getElem?_eq_some_iff.mp hs).1, hd.2⟩ hs)
      (fun a fs hd hs => hf.maps a fs ⟨(List.getElem?_eq_some_iff.mp hs).1, by simp⟩ hs) (fun _ _ h => h.1)
  exact h1.change (fun a hd _ => hd.1) (fun x hx hd => ⟨hd, ho x hx hd⟩)

theorem Memory.valid_frame {ρ : List (Value Val)} {D : Value Val → Prop} {s t : State Val σ} {mem : Mem}
    (h : Memory U ρ D s mem) (hf : Frame (Valid s) s t) : Memory U ρ D t mem :=
  h.move (fun a xs hd hs => ⟨hd, hf.arrays a xs (List.getElem?_eq_some_iff.mp hs).1 hs⟩) hf.valid
    (fun a fs _ hs => hf.structs a fs (List.getElem?_eq_some_iff.mp hs).1 hs)
    (fun a fs _ hs => hf.maps a fs (List.getElem?_eq_some_iff.mp hs).1 hs) (fun _ _ h => h)

theorem keep_past {D : Value Val → Prop} {s t : State Val σ} {o : Nat}
    (hf : Frame (fun l => Valid s l ∧ l ≠ .pointer o) s t) : Keep D D s t :=
  fun a xs hd hs => ⟨hd, hf.arrays a xs ⟨(List.getElem?_eq_some_iff.mp hs).1, by simp⟩ hs⟩

theorem keep_valid {D : Value Val → Prop} {s t : State Val σ} (hf : Frame (Valid s) s t) : Keep D D s t :=
  fun a xs hd hs => ⟨hd, hf.arrays a xs (List.getElem?_eq_some_iff.mp hs).1 hs⟩

theorem keep_same {D D' : Value Val → Prop} {s : State Val σ} (h : ∀ l, D l → D' l) : Keep D D' s s :=
  fun _ _ hd hs => ⟨h _ hd, hs⟩

/-- What evaluating an expression that copies something does, given what the model says: it returns the value,
the memory contains the builders of the model, and nothing that was in the memory changes. -/
def Gives (U : TypeId → Code) (ρ : List (Value Val)) (D : Value Val → Prop) (t : State Val σ)
    (res : Res (Value Val × State Val σ)) (r : Mem × BVal) : Prop :=
  ∃ x t' δ, res = .ok (x, t') ∧ Frame (Valid t) t t' ∧ (∀ z ∈ δ, ¬ Valid t z) ∧
    Memory U (ρ ++ δ) D t' r.1 ∧ Stores (ρ ++ δ) D t' r.2 x

/-- What copying an attribute does. -/
def MemberCopied (U : TypeId → Code) (ρ : List (Value Val)) (D : Value Val → Prop) (a : Nat) (f : Text)
    (fb : List (Text × Value Val)) (t : State Val σ) (res : Res (Flow Val × State Val σ)) (r : Mem × BVal) : Prop :=
  ∃ fb' z t' δ, res = .ok (.next, t') ∧ Frame (fun l => Valid t l ∧ l ≠ .pointer a) t t' ∧
    t'.structs[a]? = some fb' ∧ Put f z fb fb' ∧ (∀ z ∈ δ, ¬ Valid t z) ∧
    Memory U (ρ ++ δ) D t' r.1 ∧ Stores (ρ ++ δ) D t' r.2 z

theorem apart_append {ρ δ : List (Value Val)} {D : Value Val → Prop} {t : State Val σ} {x : Value Val}
    (h : ∀ z ∈ ρ, D z → z ≠ x) (hδ : ∀ z ∈ δ, ¬ Valid t z) (hx : Valid t x) : ∀ z ∈ ρ ++ δ, D z → z ≠ x := by
  intro z hz hd
  rcases List.mem_append.mp hz with hz | hz
  · exact h z hz hd
  · rintro rfl
    exact hδ _ hz hx

theorem gives_same {ρ : List (Value Val)} {D : Value Val → Prop} {t : State Val σ} {mem : Mem} {bv : BVal}
    {x : Value Val} (hm : Memory U ρ D t mem) (hs : Stores ρ D t bv x) : Gives U ρ D t (.ok (x, t)) (mem, bv) :=
  ⟨x, t, [], rfl, Frame.refl _ _, by simp, by simpa using hm, by simpa using hs⟩

theorem member_assign {w : World Val σ} {names : List Text} {f : Text} {e : Expr} {t : State Val σ} {a : Nat}
    {fb : List (Text × Value Val)} {old : Value Val} {ρ : List (Value Val)} {D : Value Val → Prop} {r : Mem × BVal}
    (hx : t.vars.lookup t!"b" = some (.pointer a)) (hs : t.structs[a]? = some fb) (hf : fb.lookup f = some old)
    (ha : ∀ z ∈ ρ, D z → z ≠ .pointer a) (hg : Gives U ρ D t (e.eval w t) r) :
    MemberCopied U ρ D a f fb t (execBlock w names [.assign (dot t!"b" f) e] t) r := by
  obtain ⟨x, t1, δ, he, hfr, hδ, hm, hst⟩ := hg
  have hva : Valid t (.pointer a) := (List.getElem?_eq_some_iff.mp hs).1
  have hs1 := hfr.structs a fb hva hs
  obtain ⟨fb', hp, hset⟩ := assign_field w (s := t1) x (by rw [hfr.vars]; exact hx) hs1 hf
  have hw : Frame (fun l => Valid t1 l ∧ l ≠ .pointer a) t1 (write t1 a fb') := frame_write t1 a fb' fun h => h.2 rfl
  refine ⟨fb', x, write t1 a fb', δ, ?_, hfr.all.ext_trans hw, write_get fb' hs1, hp, hδ,
    hm.past hw (apart_append ha hδ hva), Stores.move (keep_past hw) (List.prefix_refl _) _ _ hst⟩
  rw [execBlock_next (exec_assign he hset)]
  rfl

theorem member_keep {w : World Val σ} {names : List Text} {f : Text} {t : State Val σ} {a : Nat}
    {fb : List (Text × Value Val)} {old : Value Val} {bv : BVal} {ρ : List (Value Val)} {D : Value Val → Prop}
    {mem : Mem} (hs : t.structs[a]? = some fb) (hf : fb.lookup f = some old) (hm : Memory U ρ D t mem)
    (hst : Stores ρ D t bv old) : MemberCopied U ρ D a f fb t (execBlock w names [] t) (mem, bv) :=
  ⟨fb, old, t, [], rfl, Frame.refl _ _, hs, put_same hf, by simp, by simpa using hm, by simpa using hst⟩

theorem copyIf_yes {w : World Val σ} {names : List Text} {f : Text} {condition : Expr} {body : List Stmt}
    {t : State Val σ} {a : Nat} {fb : List (Text × Value Val)} {ρ : List (Value Val)} {D : Value Val → Prop}
    {r : Mem × BVal} (hc : condition.eval w t = .ok (.bool true, t))
    (hb : MemberCopied U ρ D a f fb t (execBlock w names body t) r) :
    MemberCopied U ρ D a f fb t (execBlock w names (copyIf f condition body) t) r := by
  obtain ⟨fb', z, t', δ, he, hfr, hr⟩ := hb
  refine ⟨fb', z, t', δ, ?_, hfr, hr⟩
  have h : (Stmt.branch condition body [.assign (dot t!"b" f) .nil]).exec w names t = .ok (.next, t') := by
    simp only [Stmt.exec, hc, Res.bind, he]
    rw [leave_same _ _ _ hfr.vars]
  rw [copyIf, execBlock_next h]
  rfl

theorem copyIf_no {w : World Val σ} {names : List Text} {f : Text} {condition : Expr} {body : List Stmt}
    {t : State Val σ} {a : Nat} {fb : List (Text × Value Val)} {old : Value Val} {ρ : List (Value Val)}
    {D : Value Val → Prop} {mem : Mem} (hc : condition.eval w t = .ok (.bool false, t))
    (hx : t.vars.lookup t!"b" = some (.pointer a)) (hs : t.structs[a]? = some fb) (hf : fb.lookup f = some old)
    (ha : ∀ z ∈ ρ, D z → z ≠ .pointer a) (hm : Memory U ρ D t mem) :
    MemberCopied U ρ D a f fb t (execBlock w names (copyIf f condition body) t) (mem, .nil) := by
  have hb : MemberCopied U ρ D a f fb t (execBlock w names [.assign (dot t!"b" f) .nil] t) (mem, .nil) :=
    member_assign hx hs hf ha (gives_same hm (by simp [Stores]))
  obtain ⟨fb', z, t', δ, he, hfr, hr⟩ := hb
  refine ⟨fb', z, t', δ, ?_, hfr, hr⟩
  have h : (Stmt.branch condition body [.assign (dot t!"b" f) .nil]).exec w names t = .ok (.next, t') := by
    simp only [Stmt.exec, hc, Res.bind, he]
    rw [leave_same _ _ _ hfr.vars]
  rw [copyIf, execBlock_next h]
  rfl

/-! ## Loops -/

/-- The items of a list, one after the other. -/
def copyAll (R : Mem → Val → Mem × BVal) (mem : Mem) : List Val → Mem × List BVal
  | [] => (mem, [])
  | v :: vs => ((copyAll R (R mem v).1 vs).1, (R mem v).2 :: (copyAll R (R mem v).1 vs).2)

theorem copyItems_eq (S : Schema) (e : TypeId) : ∀ (vs : List Val) (mem : Mem),
    GoBuilder.copyItems S e mem vs = copyAll (GoBuilder.copyNew S e) mem vs
  | [], mem => by simp [GoBuilder.copyItems, copyAll]
  | v :: vs, mem => by
    simp [GoBuilder.copyItems, copyAll, copyItems_eq S e vs]

/-- The entries of a map, one after the other. -/
def copyAllEntries (R : Mem → Val → Mem × BVal) (mem : Mem) : List (Text × Val) → Mem × GoMap BVal
  | [] => (mem, [])
  | (k, v) :: es => ((copyAllEntries R (R mem v).1 es).1, (k, (R mem v).2) :: (copyAllEntries R (R mem v).1 es).2)

theorem copyEntries_eq (S : Schema) (e : TypeId) : ∀ (es : List (Text × Val)) (mem : Mem),
    GoBuilder.copyEntries S e mem es = copyAllEntries (GoBuilder.copyNew S e) mem es
  | [], mem => by simp [GoBuilder.copyEntries, copyAllEntries]
  | (k, v) :: es, mem => by
    simp [GoBuilder.copyEntries, copyAllEntries, copyEntries_eq S e es]

theorem copyScalars_eq : ∀ (es : List (Text × Val)) (mem : Mem),
    copyAllEntries (fun mem v => (mem, .scalar v)) mem es = (mem, es.map fun e => (e.1, .scalar e.2))
  | [], mem => rfl
  | (k, v) :: es, mem => by simp [copyAllEntries, copyScalars_eq es]

/-- Positions other than one. -/
def Besides (D : Value Val → Prop) (x : Value Val) : Value Val → Prop := fun l => D l ∧ l ≠ x

theorem fresh_append {δ δ' : List (Value Val)} {E : Value Val → Prop} {t t1 : State Val σ}
    (h1 : ∀ z ∈ δ, ¬ Valid t z) (hf : Frame E t t1) (h2 : ∀ z ∈ δ', ¬ Valid t1 z) :
    ∀ z ∈ δ ++ δ', ¬ Valid t z := by
  intro z hz
  rcases List.mem_append.mp hz with hz | hz
  · exact h1 z hz
  · exact fun hv => h2 z hz (hf.valid z hv)

theorem keep_besides {D : Value Val → Prop} {s t : State Val σ} {x : Value Val}
    (hf : Frame (fun l => Valid s l ∧ l ≠ x) s t) : Keep (Besides D x) (Besides D x) s t :=
  fun a xs hd hs => ⟨hd, hf.arrays a xs ⟨(List.getElem?_eq_some_iff.mp hs).1, hd.2⟩ hs⟩

theorem Memory.besides {ρ : List (Value Val)} {D : Value Val → Prop} {s t : State Val σ} {mem : Mem} {x : Value Val}
    (h : Memory U ρ (Besides D x) s mem) (hf : Frame (fun l => Valid s l ∧ l ≠ x) s t) :
    Memory U ρ (Besides D x) t mem :=
  h.move (keep_besides hf) hf.valid
    (fun a fs hd hs => hf.structs a fs ⟨(List.getElem?_eq_some_iff.mp hs).1, hd.2⟩ hs)
    (fun a fs hd hs => hf.maps a fs ⟨(List.getElem?_eq_some_iff.mp hs).1, hd.2⟩ hs) (fun _ _ h => h)

/-- One step of a loop over a slice. -/
def ArrayCopied (U : TypeId → Code) (ρ : List (Value Val)) (D : Value Val → Prop) (b k : Nat) (xs : List (Value Val))
    (t : State Val σ) (res : Res (Flow Val × State Val σ)) (r : Mem × BVal) : Prop :=
  ∃ p t1 δ, res = .ok (.next, { t1 with arrays := t1.arrays.set b (xs.set k p) }) ∧ Frame (Valid t) t t1 ∧
    (∀ z ∈ δ, ¬ Valid t z) ∧ Memory U (ρ ++ δ) D t1 r.1 ∧ Stores (ρ ++ δ) D t1 r.2 p

theorem loop_arrayCopy {E D : Value Val → Prop} (R : Mem → Val → Mem × BVal) (ty : TypeId) (ok : Val → Prop) (b : Nat)
    (F : Nat → Value Val → State Val σ → Res (Flow Val × State Val σ)) (C : State Val σ → Prop)
    (hE : ¬ E (.slice b))
    (hC : ∀ t t', C t → Frame (fun l => Valid t l ∧ l ≠ .slice b) t t' → C t')
    (hF : ∀ k v y t xs ρ mem, ok v → Holds S U E t ty v y → Memory U ρ (Besides D (.slice b)) t mem →
      Fresh (Besides D (.slice b)) t → C t → t.arrays[b]? = some xs → k < xs.length →
      ArrayCopied U ρ (Besides D (.slice b)) b k xs t (F k y t) (R mem v)) :
    ∀ (items : List Val) (ys : List (Value Val)) (t : State Val σ) (pre : List (Value Val)) (ρ : List (Value Val))
      (mem : Mem), (∀ v ∈ items, ok v) → HoldsItems S U E t ty items ys →
      Memory U ρ (Besides D (.slice b)) t mem → Fresh (Besides D (.slice b)) t →
      C t → t.arrays[b]? = some (pre ++ List.replicate items.length .nil) →
      ∃ post t' δ, loop F pre.length ys t = .ok (.next, t') ∧ Frame (fun l => Valid t l ∧ l ≠ .slice b) t t' ∧
        t'.arrays[b]? = some (pre ++ post) ∧ (∀ z ∈ δ, ¬ Valid t z) ∧
        Memory U (ρ ++ δ) (Besides D (.slice b)) t' (copyAll R mem items).1 ∧
        StoresItems (ρ ++ δ) (Besides D (.slice b)) t' (copyAll R mem items).2 post
  | [], [], t, pre, ρ, mem, _, _, hm, _, _, hb =>
    ⟨[], t, [], rfl, Frame.refl _ _, by simpa using hb, by simp, by simpa [copyAll] using hm, by simp [StoresItems, copyAll]⟩
  | v :: items, y :: ys, t, pre, ρ, mem, hok, hh, hm, hfresh, hc, hb => by
    rw [HoldsItems] at hh
    obtain ⟨p, t1, δ, he, hf1, hδ, hm1, hs1⟩ :=
      hF pre.length v y t _ ρ mem (hok v (by simp)) hh.1 hm hfresh hc hb (by simp)
    have hvb : Valid t (.slice b) := (List.getElem?_eq_some_iff.mp hb).1
    have hb1 : t1.arrays[b]? = some (pre ++ List.replicate (v :: items).length .nil) := hf1.arrays b _ hvb hb
    have hset : (pre ++ List.replicate (v :: items).length (.nil : Value Val)).set pre.length p =
        (pre ++ [p]) ++ List.replicate items.length .nil := by
      simp [List.replicate_succ]
    rw [hset] at he
    have hfa := frame_array t1 b ((pre ++ [p]) ++ List.replicate items.length .nil)
    have hf2 := hf1.all.ext_trans hfa
    generalize ht2 : ({ t1 with arrays := t1.arrays.set b ((pre ++ [p]) ++ List.replicate items.length .nil) } :
      State Val σ) = t2 at he hf2 hfa
    have hb2 : t2.arrays[b]? = some ((pre ++ [p]) ++ List.replicate items.length .nil) := by
      rw [← ht2]
      simp only
      rw [List.getElem?_set_self (List.getElem?_eq_some_iff.mp hb1).1]
    obtain ⟨post, t', δ', he', hf', hb', hδ', hm', hst'⟩ := loop_arrayCopy R ty ok b F C hE hC hF items ys t2 (pre ++ [p])
      (ρ ++ δ) (R mem v).1 (fun x hx => hok x (by simp [hx]))
      (HoldsItems.move (hf2.moves fun l hl _ e => hE (e ▸ hl)) _ _ _ hh.2) (hm1.besides hfa)
      (hfresh.frame hf2) (hC t t2 hc hf2) hb2
    refine ⟨p :: post, t', δ ++ δ', ?_, hf2.ext_trans hf', by simpa using hb', fresh_append hδ hf2 hδ', ?_, ?_⟩
    · rw [loop]
      simp only [he, Res.bind]
      rw [← he']
      simp
    · rw [copyAll, ← List.append_assoc]
      exact hm'
    · rw [copyAll, StoresItems, ← List.append_assoc]
      refine ⟨?_, hst'⟩
      exact Stores.move (keep_besides hf') (List.prefix_append _ _) _ _
        (Stores.move (keep_besides hfa) (List.prefix_refl _) _ _ hs1)
  | [], _ :: _, t, pre, ρ, mem, _, h, _, _, _, _ => by simp [HoldsItems] at h
  | _ :: _, [], t, pre, ρ, mem, _, h, _, _, _, _ => by simp [HoldsItems] at h

/-- One step of a loop over a map. -/
def MapCopied (U : TypeId → Code) (ρ : List (Value Val)) (D : Value Val → Prop) (b : Nat) (k : Text)
    (m : GoMap (Value Val)) (t : State Val σ) (res : Res (Flow Val × State Val σ)) (r : Mem × BVal) : Prop :=
  ∃ p t1 δ, res = .ok (.next, { t1 with maps := t1.maps.set b (m.insert k p) }) ∧ Frame (Valid t) t t1 ∧
    (∀ z ∈ δ, ¬ Valid t z) ∧ Memory U (ρ ++ δ) D t1 r.1 ∧ Stores (ρ ++ δ) D t1 r.2 p

theorem loop_mapCopy {E D : Value Val → Prop} (R : Mem → Val → Mem × BVal) (ty : TypeId) (ok : Val → Prop) (b : Nat)
    (F : Text → Value Val → State Val σ → Res (Flow Val × State Val σ)) (C : State Val σ → Prop)
    (hE : ¬ E (.map b))
    (hC : ∀ t t', C t → Frame (fun l => Valid t l ∧ l ≠ .map b) t t' → C t')
    (hF : ∀ k v y t m ρ mem, ok v → Holds S U E t ty v y → Memory U ρ (Besides D (.map b)) t mem →
      Fresh (Besides D (.map b)) t → C t → t.maps[b]? = some m →
      MapCopied U ρ (Besides D (.map b)) b k m t (F k y t) (R mem v)) :
    ∀ (items : List (Text × Val)) (ys : GoMap (Value Val)) (t : State Val σ) (pre : GoMap (Value Val))
      (ρ : List (Value Val)) (mem : Mem), (∀ v ∈ items, ok v.2) → HoldsEntries S U E t ty items ys →
      Memory U ρ (Besides D (.map b)) t mem → Fresh (Besides D (.map b)) t →
      C t → t.maps[b]? = some pre → ((pre ++ ys).map Prod.fst).Nodup →
      ∃ (post : GoMap (Value Val)) (t' : State Val σ) (δ : List (Value Val)),
        loopMap F ys t = .ok (.next, t') ∧ Frame (fun l => Valid t l ∧ l ≠ .map b) t t' ∧
        t'.maps[b]? = some (pre ++ post) ∧ post.map Prod.fst = ys.map Prod.fst ∧ (∀ z ∈ δ, ¬ Valid t z) ∧
        Memory U (ρ ++ δ) (Besides D (.map b)) t' (copyAllEntries R mem items).1 ∧
        StoresEntries (ρ ++ δ) (Besides D (.map b)) t' (copyAllEntries R mem items).2 post
  | [], [], t, pre, ρ, mem, _, _, hm, _, _, hb, _ =>
    ⟨[], t, [], rfl, Frame.refl _ _, by simpa using hb, rfl, by simp, by simpa [copyAllEntries] using hm,
      by simp [StoresEntries, copyAllEntries]⟩
  | (k', v) :: items, (k, y) :: ys, t, pre, ρ, mem, hok, hh, hm, hfresh, hc, hb, hnd => by
    rw [HoldsEntries] at hh
    obtain ⟨rfl, hh1, hhr⟩ := hh
    obtain ⟨p, t1, δ, he, hf1, hδ, hm1, hs1⟩ :=
      hF k' v y t _ ρ mem (hok (k', v) (by simp)) hh1 hm hfresh hc hb
    have hvb : Valid t (.map b) := (List.getElem?_eq_some_iff.mp hb).1
    have hb1 : t1.maps[b]? = some pre := hf1.maps b _ hvb hb
    have hk : k' ∉ GoMap.keys pre := by
      intro hk
      simp only [List.map_append, List.map_cons, List.nodup_append] at hnd
      exact hnd.2.2 k' hk k' (by simp) rfl
    rw [GoMap.insert_of_not_mem hk] at he
    have hfa := frame_map t1 b (pre ++ [(k', p)])
    have hf2 := hf1.all.ext_trans hfa
    generalize ht2 : ({ t1 with maps := t1.maps.set b (pre ++ [(k', p)]) } : State Val σ) = t2 at he hf2 hfa
    have hb2 : t2.maps[b]? = some (pre ++ [(k', p)]) := by
      rw [← ht2]
      simp only
      rw [List.getElem?_set_self (List.getElem?_eq_some_iff.mp hb1).1]
    obtain ⟨post, t', δ', he', hf', hb', hk', hδ', hm', hst'⟩ := loop_mapCopy R ty ok b F C hE hC hF items ys t2
      (pre ++ [(k', p)]) (ρ ++ δ) (R mem v).1 (fun x hx => hok x (by simp [hx]))
      (HoldsEntries.move (hf2.moves fun l hl _ e => hE (e ▸ hl)) _ _ _ hhr) (hm1.besides hfa)
      (hfresh.frame hf2) (hC t t2 hc hf2) hb2 (by simpa using hnd)
    refine ⟨(k', p) :: post, t', δ ++ δ', ?_, hf2.ext_trans hf', by simpa using hb', by simp [hk'],
      fresh_append hδ hf2 hδ', ?_, ?_⟩
    · rw [loopMap]
      simp only [he, Res.bind]
      exact he'
    · rw [copyAllEntries, ← List.append_assoc]
      exact hm'
    · rw [copyAllEntries, ← List.append_assoc]
      refine ⟨rfl, ?_, hst'⟩
      exact Stores.move (keep_besides hf') (List.prefix_append _ _) _ _
        (Stores.move (keep_besides hfa) (List.prefix_refl _) _ _ hs1)
  | [], _ :: _, t, pre, ρ, mem, _, h, _, _, _, _, _ => by simp [HoldsEntries] at h
  | _ :: _, [], t, pre, ρ, mem, _, h, _, _, _, _, _ => by simp [HoldsEntries] at h

end Verif.BuildersRun
