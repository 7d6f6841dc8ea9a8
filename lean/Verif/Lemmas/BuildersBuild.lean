import Verif.Lemmas.BuildersCalls

/-!
# Lemmas about running the generated builders: building objects
-/

namespace Verif.BuildersRun

open GoJson (Val Schema Shape AttrShape)
open GoBuilder (BVal Cell Mem)
open GoProgram
open TypesCode (dot)
open TypesRun (Legal value)
open BuildersCode (buildInto)

variable {σ : Type} {S : Schema} {U : TypeId → Code} {P : Program} {zero : Text → Text → Value Val}

/-! ## Extensions -/

theorem Frame.ext_trans {D : Value Val → Prop} {s t u : State Val σ} (h : Frame (fun l => Valid s l ∧ D l) s t)
    (k : Frame (fun l => Valid t l ∧ D l) t u) : Frame (fun l => Valid s l ∧ D l) s u :=
  h.trans (k.mono fun l _ hl => ⟨h.valid l hl.1, hl.2⟩)

theorem Frame.weaken {D D' : Value Val → Prop} {s t : State Val σ} (h : Frame (fun l => Valid s l ∧ D l) s t)
    (hd : ∀ l, D' l → D l) : Frame (fun l => Valid s l ∧ D' l) s t :=
  h.mono fun l _ hl => ⟨hl.1, hd l hl.2⟩

theorem Frame.all {D : Value Val → Prop} {s t : State Val σ} (h : Frame (Valid s) s t) :
    Frame (fun l => Valid s l ∧ D l) s t := h.mono fun _ _ hl => hl.1

/-- What is in the memory is still there if only a position that isn't used has changed. -/
theorem Frame.moves {D E : Value Val → Prop} {s t : State Val σ} (h : Frame (fun l => Valid s l ∧ E l) s t)
    (hd : ∀ l, D l → Valid s l → E l) : Move D D s t := by
  refine ⟨fun _ h _ => h, fun a fs hl hs => ?_, fun a fs hl hs => ?_, fun a fs hl hs => ?_⟩
  · have hv : Valid s (.pointer a) := (List.getElem?_eq_some_iff.mp hs).1
    exact h.structs a fs ⟨hv, hd _ hl hv⟩ hs
  · have hv : Valid s (.slice a) := (List.getElem?_eq_some_iff.mp hs).1
    exact h.arrays a fs ⟨hv, hd _ hl hv⟩ hs
  · have hv : Valid s (.map a) := (List.getElem?_eq_some_iff.mp hs).1
    exact h.maps a fs ⟨hv, hd _ hl hv⟩ hs

/-- Builders are still there if only a position that isn't used by them has changed. -/
theorem Memory.extend {ρ : List (Value Val)} {E : Value Val → Prop} {s t : State Val σ} {mem : Mem}
    (h : Memory U ρ E s mem) (hf : Frame (fun l => Valid s l ∧ E l) s t) : Memory U ρ E t mem :=
  h.move (fun a xs hd hs => ⟨hd, hf.arrays a xs ⟨(List.getElem?_eq_some_iff.mp hs).1, hd⟩ hs⟩) hf.valid
    (fun a fs hd hs => hf.structs a fs ⟨(List.getElem?_eq_some_iff.mp hs).1, hd⟩ hs)
    (fun a fs hd hs => hf.maps a fs ⟨(List.getElem?_eq_some_iff.mp hs).1, hd⟩ hs) (fun _ _ h => h)

theorem Frame.setVars {D : Value Val → Prop} {s t : State Val σ} {V : List (Text × Value Val)}
    (h : Frame D { s with vars := V } t) : Frame D s { t with vars := s.vars } :=
  ⟨h.structs, h.arrays, h.maps, fun l hl => by
    have := h.valid l (by cases l <;> exact hl)
    cases l <;> exact this, rfl, h.user⟩

theorem valid_vars {s : State Val σ} {V : List (Text × Value Val)} {l : Value Val} :
    Valid { s with vars := V } l ↔ Valid s l := by
  cases l <;> exact Iff.rfl

theorem move_vars {D D' : Value Val → Prop} {s : State Val σ} {V : List (Text × Value Val)}
    (h : ∀ l, D l → D' l) : Move D D' s { s with vars := V } :=
  ⟨fun l hl _ => h l hl, fun _ _ _ h => h, fun _ _ _ h => h, fun _ _ _ h => h⟩

theorem Memory.setVars {ρ : List (Value Val)} {D : Value Val → Prop} {s : State Val σ} {mem : Mem}
    (h : Memory U ρ D s mem) (V : List (Text × Value Val)) : Memory U ρ D { s with vars := V } mem :=
  h.move (fun _ _ hd hs => ⟨hd, hs⟩) (fun _ hl => valid_vars.mpr hl) (fun _ _ _ h => h) (fun _ _ _ h => h)
    (fun _ _ h => h)

theorem keep_vars {D : Value Val → Prop} (s : State Val σ) (V : List (Text × Value Val)) :
    Keep D (fun _ => True) s { s with vars := V } := fun _ _ _ hs => ⟨trivial, hs⟩

/-! ## Building -/

theorem done_bind {α β : Type} (a : α) (f : α → Run β) : (Run.done a).bind f = f a := rfl

theorem assign_same {w : World Val σ} {t : State Val σ} {x : Text} {v : Value Val}
    (hv : t.vars.lookup x = some v) : assign w v (.var x) t = .ok t := by
  simp only [assign, update_same x v t.vars hv, Res.ofOption, Res.bind]

theorem exec_into {w : World Val σ} {names : List Text} {target e : Expr} {builder : Text} {t t1 t2 : State Val σ}
    {y p : Value Val} (he : e.eval w t = .ok (y, t)) (hb : w.methods builder t!"Build" y [] t = .ok ([p, .nil], t1))
    (ha : assign w p target t1 = .ok t2) (hv : t2.vars.lookup t!"err" = some .nil) :
    execBlock w names (buildInto target builder e) t = .ok (.next, t2) := by
  have h1 : (Stmt.assignBoth target (.var t!"err") builder e t!"Build").exec w names t = .ok (.next, t2) := by
    simp only [Stmt.exec, he, Res.bind, hb, ha, assign_same hv]
  rw [buildInto, execBlock_next h1]
  have h2 : (Stmt.branch (.ne (.var t!"err") .nil) [.ret []] []).exec w names t2 = .ok (.next, t2) := by
    simp only [Stmt.exec, Expr.eval, hv, Res.bind, equal, Res.ofOption, Bool.not_true, execBlock]
    rw [leave_same _ _ _ rfl]
  rw [execBlock_next h2]
  rfl

theorem exec_into_panic {w : World Val σ} {names : List Text} {target e : Expr} {builder : Text} {t : State Val σ}
    {y : Value Val} (he : e.eval w t = .ok (y, t)) (hb : w.methods builder t!"Build" y [] t = .panic) :
    execBlock w names (buildInto target builder e) t = .panic := by
  rw [buildInto]
  apply execBlock_panic
  simp only [Stmt.exec, he, Res.bind, hb]

/-! ### Loops -/

/-- What one step of a loop over a slice does. -/
def ArrayStep (S : Schema) (U : TypeId → Code) (b k : Nat) (xs : List (Value Val)) (ty : TypeId) (t : State Val σ)
    (res : Res (Flow Val × State Val σ)) : Run Val → Prop
  | .done v => ∃ p t1, res = .ok (.next, { t1 with arrays := t1.arrays.set b (xs.set k p) }) ∧
      Frame (Valid t) t t1 ∧ Holds S U (fun l => ¬ Valid t l) t1 ty v p
  | .panic => res = .panic
  | .outOfFuel => True

/-- What a loop over a slice does. -/
def ArrayLoop (S : Schema) (U : TypeId → Code) (b : Nat) (pre : List (Value Val)) (ty : TypeId) (t : State Val σ)
    (res : Res (Flow Val × State Val σ)) : Run (List Val) → Prop
  | .done vs => ∃ post t', res = .ok (.next, t') ∧ Frame (fun l => Valid t l ∧ l ≠ .slice b) t t' ∧
      t'.arrays[b]? = some (pre ++ post) ∧ HoldsItems S U (fun l => ¬ Valid t l) t' ty vs post
  | .panic => res = .panic
  | .outOfFuel => True

theorem frame_array (t : State Val σ) (b : Nat) (xs : List (Value Val)) :
    Frame (fun l => Valid t l ∧ l ≠ .slice b) t { t with arrays := t.arrays.set b xs } := by
  refine ⟨fun _ _ _ h => h, fun a ys hd h => ?_, fun _ _ _ h => h, fun l hl => ?_, rfl, rfl⟩
  · have : b ≠ a := fun e => hd.2 (by rw [e])
    simp [List.getElem?_set_ne this, h]
  · cases l <;> simpa [Valid] using hl

theorem frame_map (t : State Val σ) (b : Nat) (m : GoMap (Value Val)) :
    Frame (fun l => Valid t l ∧ l ≠ .map b) t { t with maps := t.maps.set b m } := by
  refine ⟨fun _ _ _ h => h, fun _ _ _ h => h, fun a ys hd h => ?_, fun l hl => ?_, rfl, rfl⟩
  · have : b ≠ a := fun e => hd.2 (by rw [e])
    simp [List.getElem?_set_ne this, h]
  · cases l <;> simpa [Valid] using hl

theorem loop_array {ρ : List (Value Val)} {mem : Mem} (R : BVal → Run Val) (ty : TypeId) (ok : BVal → Prop) (b : Nat)
    (F : Nat → Value Val → State Val σ → Res (Flow Val × State Val σ)) (C : State Val σ → Prop)
    (hC : ∀ t t', C t → Frame (fun l => Valid t l ∧ l ≠ .slice b) t t' → C t')
    (hF : ∀ k bv y t xs, ok bv → Stores ρ (· ≠ .slice b) t bv y → Memory U ρ (· ≠ .slice b) t mem → C t →
      t.arrays[b]? = some xs → k < xs.length → ArrayStep S U b k xs ty t (F k y t) (R bv)) :
    ∀ (items : List BVal) (ys : List (Value Val)) (t : State Val σ) (pre : List (Value Val)),
      (∀ bv ∈ items, ok bv) → StoresItems ρ (· ≠ .slice b) t items ys → Memory U ρ (· ≠ .slice b) t mem →
      C t → t.arrays[b]? = some (pre ++ List.replicate items.length .nil) →
      ArrayLoop S U b pre ty t (loop F pre.length ys t) (GoBuilder.mapRun R items)
  | [], [], t, pre, _, _, _, _, hb => by
    refine ⟨[], t, rfl, Frame.refl _ _, by simpa using hb, by simp [HoldsItems]⟩
  | bv :: items, y :: ys, t, pre, hok, hst, hm, hc, hb => by
    rw [StoresItems] at hst
    have hstep := hF pre.length bv y t _ (hok bv (by simp)) hst.1 hm hc hb (by simp)
    rw [GoBuilder.mapRun, loop]
    cases hR : R bv with
    | outOfFuel => trivial
    | panic =>
      rw [hR] at hstep
      simp only [ArrayStep] at hstep
      rw [hstep]
      rfl
    | done v =>
      rw [hR] at hstep
      obtain ⟨p, t1, he, hf1, hh1⟩ := hstep
      have hb1 : t1.arrays[b]? = some (pre ++ List.replicate (bv :: items).length .nil) :=
        hf1.arrays b _ (List.getElem?_eq_some_iff.mp hb).1 hb
      have hset : (pre ++ List.replicate (bv :: items).length (.nil : Value Val)).set pre.length p =
          (pre ++ [p]) ++ List.replicate items.length .nil := by
        simp [List.replicate_succ]
      rw [hset] at he
      have hf2 := hf1.all.ext_trans (frame_array t1 b ((pre ++ [p]) ++ List.replicate items.length .nil))
      generalize ht2 : ({ t1 with arrays := t1.arrays.set b ((pre ++ [p]) ++ List.replicate items.length .nil) } :
        State Val σ) = t2 at he hf2
      have hb2 : t2.arrays[b]? = some ((pre ++ [p]) ++ List.replicate items.length .nil) := by
        rw [← ht2]
        simp only
        rw [List.getElem?_set_self (List.getElem?_eq_some_iff.mp hb1).1]
      have hm2 := hm.extend hf2
      have hst2 : StoresItems ρ (· ≠ .slice b) t2 items ys :=
        StoresItems.move (fun a xs hd hs => ⟨hd, hf2.arrays a xs ⟨(List.getElem?_eq_some_iff.mp hs).1, hd⟩ hs⟩)
          (List.prefix_refl ρ) _ _ hst.2
      have ih := loop_array R ty ok b F C hC hF items ys t2 (pre ++ [p]) (fun x hx => hok x (by simp [hx])) hst2 hm2
        (hC t t2 hc hf2) hb2
      have hlen : (pre ++ [p]).length = pre.length + 1 := by simp
      rw [hlen] at ih
      simp only [he, Res.bind, done_bind]
      have hvb : Valid t (.slice b) := (List.getElem?_eq_some_iff.mp hb).1
      cases hI : GoBuilder.mapRun R items with
      | outOfFuel => trivial
      | panic =>
        rw [hI] at ih
        exact ih
      | done vs =>
        rw [hI] at ih
        obtain ⟨post, t', he', hf', hb', hh'⟩ := ih
        refine ⟨p :: post, t', he', hf2.ext_trans hf', by simpa using hb', ?_⟩
        rw [HoldsItems]
        refine ⟨?_, ?_⟩
        · have mv1 : Move (fun l => ¬ Valid t l) (fun l => ¬ Valid t l) t1 t2 := by
            rw [← ht2]
            exact (frame_array t1 b _).moves fun l hl _ e => hl (e ▸ hvb)
          have mv2 : Move (fun l => ¬ Valid t l) (fun l => ¬ Valid t l) t2 t' :=
            hf'.moves fun l hl _ e => hl (e ▸ hvb)
          exact Holds.move mv2 _ _ _ (Holds.move mv1 _ _ _ hh1)
        · exact HoldsItems.move (Move.change fun l hl _ hv => hl (hf2.valid l hv)) _ _ _ hh'
  | [], _ :: _, t, pre, _, h, _, _, _ => by simp [StoresItems] at h
  | _ :: _, [], t, pre, _, h, _, _, _ => by simp [StoresItems] at h

/-- What one step of a loop over a map does. -/
def MapStep (S : Schema) (U : TypeId → Code) (b : Nat) (k : Text) (m : GoMap (Value Val)) (ty : TypeId)
    (t : State Val σ) (res : Res (Flow Val × State Val σ)) : Run Val → Prop
  | .done v => ∃ p t1, res = .ok (.next, { t1 with maps := t1.maps.set b (m.insert k p) }) ∧
      Frame (Valid t) t t1 ∧ Holds S U (fun l => ¬ Valid t l) t1 ty v p
  | .panic => res = .panic
  | .outOfFuel => True

/-- What a loop over a map does. -/
def MapLoop (S : Schema) (U : TypeId → Code) (b : Nat) (pre : GoMap (Value Val)) (ty : TypeId) (t : State Val σ)
    (res : Res (Flow Val × State Val σ)) (keys : List Text) : Run (List (Text × Val)) → Prop
  | .done vs => ∃ (post : GoMap (Value Val)) (t' : State Val σ), res = .ok (.next, t') ∧
      Frame (fun l => Valid t l ∧ l ≠ .map b) t t' ∧ t'.maps[b]? = some (pre ++ post) ∧
      post.map Prod.fst = keys ∧ HoldsEntries S U (fun l => ¬ Valid t l) t' ty vs post
  | .panic => res = .panic
  | .outOfFuel => True

theorem loop_map {ρ : List (Value Val)} {mem : Mem} (R : BVal → Run Val) (ty : TypeId) (ok : BVal → Prop) (b : Nat)
    (F : Text → Value Val → State Val σ → Res (Flow Val × State Val σ)) (C : State Val σ → Prop)
    (hC : ∀ t t', C t → Frame (fun l => Valid t l ∧ l ≠ .map b) t t' → C t')
    (hF : ∀ k bv y t m, ok bv → Stores ρ (· ≠ .map b) t bv y → Memory U ρ (· ≠ .map b) t mem → C t →
      t.maps[b]? = some m → MapStep S U b k m ty t (F k y t) (R bv)) :
    ∀ (items : GoMap BVal) (ys : GoMap (Value Val)) (t : State Val σ) (pre : GoMap (Value Val)),
      (∀ bv ∈ items, ok bv.2) → StoresEntries ρ (· ≠ .map b) t items ys → Memory U ρ (· ≠ .map b) t mem →
      C t → t.maps[b]? = some pre → ((pre ++ ys).map Prod.fst).Nodup →
      MapLoop S U b pre ty t (loopMap F ys t) (ys.map Prod.fst)
        (GoBuilder.mapRun (fun e => (R e.2).bind fun v => .done (e.1, v)) items)
  | [], [], t, pre, _, _, _, _, hb, _ => by
    refine ⟨[], t, rfl, Frame.refl _ _, by simpa using hb, rfl, by simp [HoldsEntries]⟩
  | (k', bv) :: items, (k, y) :: ys, t, pre, hok, hst, hm, hc, hb, hnd => by
    obtain ⟨rfl, hst1, hstr⟩ := hst
    have hstep := hF k' bv y t _ (hok (k', bv) (by simp)) hst1 hm hc hb
    rw [GoBuilder.mapRun, loopMap]
    cases hR : R bv with
    | outOfFuel => trivial
    | panic =>
      rw [hR] at hstep
      simp only [MapStep] at hstep
      rw [hstep]
      rfl
    | done v =>
      rw [hR] at hstep
      obtain ⟨p, t1, he, hf1, hh1⟩ := hstep
      have hb1 : t1.maps[b]? = some pre := hf1.maps b _ (List.getElem?_eq_some_iff.mp hb).1 hb
      have hk : k' ∉ GoMap.keys pre := by
        intro hk
        simp only [List.map_append, List.map_cons, List.nodup_append] at hnd
        exact hnd.2.2 k' hk k' (by simp) rfl
      rw [GoMap.insert_of_not_mem hk] at he
      have hf2 := hf1.all.ext_trans (frame_map t1 b (pre ++ [(k', p)]))
      generalize ht2 : ({ t1 with maps := t1.maps.set b (pre ++ [(k', p)]) } : State Val σ) = t2 at he hf2
      have hb2 : t2.maps[b]? = some (pre ++ [(k', p)]) := by
        rw [← ht2]
        simp only
        rw [List.getElem?_set_self (List.getElem?_eq_some_iff.mp hb1).1]
      have hm2 := hm.extend hf2
      have hst2 : StoresEntries ρ (· ≠ .map b) t2 items ys :=
        StoresEntries.move (fun a xs hd hs => ⟨hd, hf2.arrays a xs ⟨(List.getElem?_eq_some_iff.mp hs).1, hd⟩ hs⟩)
          (List.prefix_refl ρ) _ _ hstr
      have ih := loop_map R ty ok b F C hC hF items ys t2 (pre ++ [(k', p)]) (fun x hx => hok x (by simp [hx])) hst2 hm2
        (hC t t2 hc hf2) hb2 (by simpa using hnd)
      simp only [he, Res.bind, done_bind]
      have hvb : Valid t (.map b) := (List.getElem?_eq_some_iff.mp hb).1
      cases hI : GoBuilder.mapRun (fun e => (R e.2).bind fun v => .done (e.1, v)) items with
      | outOfFuel => trivial
      | panic =>
        rw [hI] at ih
        exact ih
      | done vs =>
        rw [hI] at ih
        obtain ⟨post, t', he', hf', hb', hk', hh'⟩ := ih
        refine ⟨(k', p) :: post, t', he', hf2.ext_trans hf', by simpa using hb', by simp [hk'], ?_⟩
        rw [HoldsEntries]
        refine ⟨rfl, ?_, ?_⟩
        · have mv1 : Move (fun l => ¬ Valid t l) (fun l => ¬ Valid t l) t1 t2 := by
            rw [← ht2]
            exact (frame_map t1 b _).moves fun l hl _ e => hl (e ▸ hvb)
          have mv2 : Move (fun l => ¬ Valid t l) (fun l => ¬ Valid t l) t2 t' :=
            hf'.moves fun l hl _ e => hl (e ▸ hvb)
          exact Holds.move mv2 _ _ _ (Holds.move mv1 _ _ _ hh1)
        · exact HoldsEntries.move (Move.change fun l hl _ hv => hl (hf2.valid l hv)) _ _ _ hh'
  | [], _ :: _, t, pre, _, h, _, _, _, _ => h.elim
  | _ :: _, [], t, pre, _, h, _, _, _, _ => h.elim

/-! ### Steps of the loops -/

/-- The state inside of a loop. -/
def inner (t : State Val σ) (vname : Text) (y : Value Val) (iname : Text) (i : Value Val) : State Val σ :=
  { t with vars := (vname, y) :: (iname, i) :: t.vars }

theorem leave_inner (t u : State Val σ) (vname : Text) (y : Value Val) (iname : Text) (i : Value Val)
    (hu : u.vars = (inner t vname y iname i).vars) (flow : Flow Val) :
    leave t (flow, u) = (flow, { u with vars := t.vars }) := by
  simp only [leave, hu, inner]
  congr 2
  have : (((vname, y) :: (iname, i) :: t.vars).length - t.vars.length) = 2 := by
    simp only [List.length_cons]
    omega
  rw [this]
  rfl

theorem eval_target_index {w : World Val σ} {target : Expr} {iname : Text} {t : State Val σ} {b k : Nat}
    {xs : List (Value Val)} {p : Value Val}
    (ht : target.eval w t = .ok (.slice b, t)) (hi : t.vars.lookup iname = some (.int k))
    (hxs : t.arrays[b]? = some xs) (hk : k < xs.length) :
    assign w p (.index target (.var iname)) t = .ok { t with arrays := t.arrays.set b (xs.set k p) } := by
  simp only [assign, ht, Res.bind, Expr.eval, hi]
  change put t p (.slice b) (.int (.ofNat k)) = _
  simp only [put, hxs, Res.ofOption, Res.bind, hk, if_true]

theorem eval_target_key {w : World Val σ} {target : Expr} {kname : Text} {t : State Val σ} {b : Nat} {k : Text}
    {m : GoMap (Value Val)} {p : Value Val}
    (ht : target.eval w t = .ok (.map b, t)) (hi : t.vars.lookup kname = some (.str k))
    (hm : t.maps[b]? = some m) :
    assign w p (.index target (.var kname)) t = .ok { t with maps := t.maps.set b (m.insert k p) } := by
  simp only [assign, ht, Res.bind, Expr.eval, hi, put, hm, Res.ofOption]

theorem array_step {w : World Val σ} {names : List Text} {target : Expr} {builder iname vname : Text} {b k : Nat}
    {xs : List (Value Val)} {ty : TypeId} {t : State Val σ} {y : Value Val} {R : Run Val}
    (hv : (inner t vname y iname (.int k)).vars.lookup vname = some y)
    (hi : (inner t vname y iname (.int k)).vars.lookup iname = some (.int k))
    (herr : (inner t vname y iname (.int k)).vars.lookup t!"err" = some .nil)
    (hb : BuildsTo S U (w.methods builder t!"Build" y [] (inner t vname y iname (.int k)))
      (inner t vname y iname (.int k)) ty R)
    (ht : ∀ t1, Frame (Valid (inner t vname y iname (.int k))) (inner t vname y iname (.int k)) t1 →
      target.eval w t1 = .ok (.slice b, t1))
    (hxs : t.arrays[b]? = some xs) (hk : k < xs.length) :
    ArrayStep S U b k xs ty t
      ((execBlock w names (buildInto (.index target (.var iname)) builder (.var vname))
        (inner t vname y iname (.int k))).bind fun r => .ok (leave t r)) R := by
  cases R with
  | outOfFuel => trivial
  | panic =>
    simp only [BuildsTo] at hb
    simp only [ArrayStep, exec_into_panic (eval_var hv) hb, Res.bind]
  | done v =>
    obtain ⟨p, t1, he, hf, hh⟩ := hb
    have hxs1 : t1.arrays[b]? = some xs := hf.arrays b xs (List.getElem?_eq_some_iff.mp hxs).1 hxs
    have ha := eval_target_index (p := p) (ht t1 hf) (by rw [hf.vars]; exact hi) hxs1 hk
    have hex := exec_into (names := names) (eval_var hv) he ha (by simp only; rw [hf.vars]; exact herr)
    refine ⟨p, { t1 with vars := t.vars }, ?_, hf.setVars.mono (fun l _ hl => valid_vars.mpr hl), ?_⟩
    · rw [hex]
      simp only [Res.bind]
      exact congrArg Res.ok (leave_inner t _ vname y iname (.int k) (by exact hf.vars) _)
    · exact Holds.move (move_vars fun l hl hv => hl (valid_vars.mpr hv)) _ _ _ hh

theorem map_step {w : World Val σ} {names : List Text} {target : Expr} {builder kname vname : Text} {b : Nat}
    {k : Text} {m : GoMap (Value Val)} {ty : TypeId} {t : State Val σ} {y : Value Val} {R : Run Val}
    (hv : (inner t vname y kname (.str k)).vars.lookup vname = some y)
    (hi : (inner t vname y kname (.str k)).vars.lookup kname = some (.str k))
    (herr : (inner t vname y kname (.str k)).vars.lookup t!"err" = some .nil)
    (hb : BuildsTo S U (w.methods builder t!"Build" y [] (inner t vname y kname (.str k)))
      (inner t vname y kname (.str k)) ty R)
    (ht : ∀ t1, Frame (Valid (inner t vname y kname (.str k))) (inner t vname y kname (.str k)) t1 →
      target.eval w t1 = .ok (.map b, t1))
    (hm : t.maps[b]? = some m) :
    MapStep S U b k m ty t
      ((execBlock w names (buildInto (.index target (.var kname)) builder (.var vname))
        (inner t vname y kname (.str k))).bind fun r => .ok (leave t r)) R := by
  cases R with
  | outOfFuel => trivial
  | panic =>
    simp only [BuildsTo] at hb
    simp only [MapStep, exec_into_panic (eval_var hv) hb, Res.bind]
  | done v =>
    obtain ⟨p, t1, he, hf, hh⟩ := hb
    have hm1 : t1.maps[b]? = some m := hf.maps b m (List.getElem?_eq_some_iff.mp hm).1 hm
    have ha := eval_target_key (p := p) (ht t1 hf) (by rw [hf.vars]; exact hi) hm1
    have hex := exec_into (names := names) (eval_var hv) he ha (by simp only; rw [hf.vars]; exact herr)
    refine ⟨p, { t1 with vars := t.vars }, ?_, hf.setVars.mono (fun l _ hl => valid_vars.mpr hl), ?_⟩
    · rw [hex]
      simp only [Res.bind]
      exact congrArg Res.ok (leave_inner t _ vname y kname (.str k) (by exact hf.vars) _)
    · exact Holds.move (move_vars fun l hl hv => hl (valid_vars.mpr hv)) _ _ _ hh

/-! ### Attributes -/

theorem Memory.full {ρ : List (Value Val)} {s : State Val σ} {mem : Mem} {x : Value Val}
    (h : Memory U ρ (· ≠ x) s mem) (hx : x ∉ ρ) : Memory U ρ (fun _ => True) s mem :=
  h.change (fun _ _ _ => trivial) (fun y hy _ e => hx (e ▸ hy))

theorem Memory.except {ρ : List (Value Val)} {s : State Val σ} {mem : Mem} {x : Value Val}
    (h : Memory U ρ (fun _ => True) s mem) (hx : ∀ a, Valid s (.slice a) → .slice a ≠ x) :
    Memory U ρ (· ≠ x) s mem :=
  h.change (fun a _ hv => hx a hv) (fun _ _ _ => trivial)

theorem holds_scalar {D : Value Val → Prop} {t : State Val σ} {sh : Shape} {v : Val}
    (h : GoBuilder.scalarFits sh v = true) (ty : TypeId) : Holds S U D t ty v (value v) := by
  cases sh <;> cases v <;> simp [GoBuilder.scalarFits] at h <;> simp [Holds]

/-- What building an attribute does. -/
def MemberBuilt (S : Schema) (U : TypeId → Code) (o : Nat) (f : Text) (fo : List (Text × Value Val)) (ty : TypeId)
    (t : State Val σ) (res : Res (Flow Val × State Val σ)) : Run Val → Prop
  | .done v => ∃ fo' z t', res = .ok (.next, t') ∧ Frame (fun l => Valid t l ∧ l ≠ .pointer o) t t' ∧
      t'.structs[o]? = some fo' ∧ Put f z fo fo' ∧ Holds S U (fun l => ¬ Valid t l) t' ty v z
  | .panic => res = .panic
  | .outOfFuel => True

theorem put_same {f : Text} {v : Value Val} {fs : List (Text × Value Val)} (h : fs.lookup f = some v) :
    Put f v fs fs :=
  ⟨rfl, h, fun _ _ => rfl⟩

theorem stores_notNil {ρ : List (Value Val)} {D : Value Val → Prop} {t : State Val σ} {mem : Mem}
    (hm : Memory U ρ D t mem) {bv : BVal} {y : Value Val} (hst : Stores ρ D t bv y)
    (hc : (∃ q, bv = .ref q) ∨ ∃ l, bv = .list l) : equal y .nil = some false := by
  rcases hc with ⟨q, rfl⟩ | ⟨l, rfl⟩
  · rw [Stores] at hst
    exact equal_ref hm hst
  · rw [Stores] at hst
    obtain ⟨a, xs, rfl, -⟩ := hst
    rfl

/-- Nothing is done for nil. -/
theorem exec_absent {w : World Val σ} {names : List Text} {f : Text} {body : List Stmt} {t : State Val σ} {a : Nat}
    {fb : List (Text × Value Val)} (hx : t.vars.lookup t!"b" = some (.pointer a)) (hs : t.structs[a]? = some fb)
    (hf : fb.lookup f = some .nil) :
    execBlock w names [.branch (BuildersCode.fieldNotNil t!"b" f) body []] t = .ok (.next, t) := by
  have h : (Stmt.branch (BuildersCode.fieldNotNil t!"b" f) body []).exec w names t = .ok (.next, t) := by
    simp only [BuildersCode.fieldNotNil, Stmt.exec, Expr.eval, eval_dot hx hs hf, Res.bind, equal, Res.ofOption,
      Bool.not_true, execBlock]
    rw [leave_same _ _ _ rfl]
  rw [execBlock_next h]
  rfl

theorem exec_presentWith {w : World Val σ} {names : List Text} {f : Text} {body : List Stmt} {t : State Val σ} {a : Nat}
    {fb : List (Text × Value Val)} {y : Value Val} (hx : t.vars.lookup t!"b" = some (.pointer a))
    (hs : t.structs[a]? = some fb) (hf : fb.lookup f = some y) (hy : equal y .nil = some false) :
    (execBlock w names body t = .panic →
      execBlock w names [.branch (BuildersCode.fieldNotNil t!"b" f) body []] t = .panic) ∧
    ∀ t', execBlock w names body t = .ok (.next, t') → t'.vars = t.vars →
      execBlock w names [.branch (BuildersCode.fieldNotNil t!"b" f) body []] t = .ok (.next, t') := by
  refine ⟨fun hb => ?_, fun t' hb hv => ?_⟩
  · apply execBlock_panic
    simp only [BuildersCode.fieldNotNil, Stmt.exec, Expr.eval, eval_dot hx hs hf, Res.bind, hy, Res.ofOption,
      Bool.not_false, hb]
  · have h : (Stmt.branch (BuildersCode.fieldNotNil t!"b" f) body []).exec w names t = .ok (.next, t') := by
      simp only [BuildersCode.fieldNotNil, Stmt.exec, Expr.eval, eval_dot hx hs hf, Res.bind, hy, Res.ofOption,
        Bool.not_false, hb]
      rw [leave_same _ _ _ hv]
    rw [execBlock_next h]
    rfl

theorem MemberBuilt.present {w : World Val σ} {names : List Text} {f : Text} {body : List Stmt} {t : State Val σ}
    {a : Nat} {fb : List (Text × Value Val)} {y : Value Val} (hx : t.vars.lookup t!"b" = some (.pointer a))
    (hs : t.structs[a]? = some fb) (hf : fb.lookup f = some y) (hy : equal y .nil = some false) {o : Nat}
    {fo : List (Text × Value Val)} {ty : TypeId} {R : Run Val}
    (h : MemberBuilt S U o f fo ty t (execBlock w names body t) R) :
    MemberBuilt S U o f fo ty t
      (execBlock w names [.branch (BuildersCode.fieldNotNil t!"b" f) body []] t) R := by
  obtain ⟨h1, h2⟩ := exec_presentWith (w := w) (names := names) (body := body) hx hs hf hy
  cases R with
  | outOfFuel => trivial
  | panic => exact h1 h
  | done v =>
    obtain ⟨fo', z, t', he, hfr, hr⟩ := h
    exact ⟨fo', z, t', h2 t' he hfr.vars, hfr, hr⟩

/-- Building something in an attribute. -/
theorem member_into {w : World Val σ} {names : List Text} {f : Text} {builder : Text} {t : State Val σ}
    {a o : Nat} {fb fo : List (Text × Value Val)} {y old : Value Val} (hx : t.vars.lookup t!"b" = some (.pointer a))
    (hs : t.structs[a]? = some fb) (hf : fb.lookup f = some y)
    (hxo : t.vars.lookup t!"object" = some (.pointer o)) (hso : t.structs[o]? = some fo)
    (hfo : fo.lookup f = some old) (herr : t.vars.lookup t!"err" = some .nil) {ty : TypeId} {R : Run Val}
    (hb : BuildsTo S U (w.methods builder t!"Build" y [] t) t ty R) :
    MemberBuilt S U o f fo ty t
      (execBlock w names (buildInto (dot t!"object" f) builder (dot t!"b" f)) t) R := by
  cases R with
  | outOfFuel => trivial
  | panic => exact exec_into_panic (eval_dot hx hs hf) hb
  | done v =>
    obtain ⟨p, t1, he, hfr, hh⟩ := hb
    have hvo : Valid t (.pointer o) := (List.getElem?_eq_some_iff.mp hso).1
    have hso1 : t1.structs[o]? = some fo := hfr.structs o fo hvo hso
    obtain ⟨fo', hp, ha⟩ := assign_field w (s := t1) p (by rw [hfr.vars]; exact hxo) hso1 hfo
    have hex := exec_into (names := names) (eval_dot hx hs hf) he ha
      (show t1.vars.lookup t!"err" = some .nil by rw [hfr.vars]; exact herr)
    have hw := frame_write (D := (· ≠ .pointer o)) t1 o fo' (by simp)
    refine ⟨fo', p, _, hex, ?_, write_get fo' hso1, hp, ?_⟩
    · exact hfr.all.ext_trans (hw.mono fun l _ hl => hl.2)
    · refine Holds.move ⟨fun _ h _ => h, fun b gs hd h => hw.structs b gs ?_ h,
        fun b gs _ h => hw.arrays b gs (by simp) h, fun b gs _ h => hw.maps b gs (by simp) h⟩ _ _ _ hh
      exact fun e => hd (by rw [e]; exact hvo)

theorem exec_range {w : World Val σ} {names : List Text} {i v : Text} {e : Expr} {body : List Stmt} {t : State Val σ}
    {y : Value Val} {xs : List (Value Val)} (he : e.eval w t = .ok (y, t)) (hxs : t.elements y = some xs) :
    (Stmt.range i v e body).exec w names t =
      loop (fun k x s => (execBlock w names body { s with vars := (v, x) :: (i, .int k) :: s.vars }).bind
        fun r => .ok (leave s r)) 0 xs t := by
  rw [Stmt.exec, he]
  change (Res.ofOption (t.elements y)).bind _ = _
  rw [hxs]
  rfl

theorem exec_rangeMap {w : World Val σ} {names : List Text} {i v : Text} {e : Expr} {body : List Stmt}
    {t : State Val σ} {y : Value Val} {xs : GoMap (Value Val)} (he : e.eval w t = .ok (y, t))
    (hxs : t.entries y = some xs) :
    (Stmt.rangeMap i v e body).exec w names t =
      loopMap (fun k x s => (execBlock w names body { s with vars := (v, x) :: (i, .str k) :: s.vars }).bind
        fun r => .ok (leave s r)) xs t := by
  rw [Stmt.exec, he]
  change (Res.ofOption (t.entries y)).bind _ = _
  rw [hxs]
  rfl

/-! ### Lists and maps -/

theorem Memory.shift {ρ : List (Value Val)} {s t : State Val σ} {mem : Mem} {o : Nat}
    (h : Memory U ρ (fun _ => True) s mem) (hf : Frame (fun l => Valid s l ∧ l ≠ .pointer o) s t)
    (ho : .pointer o ∉ ρ) (y : Value Val) (hy : ¬ Valid s y) : Memory U ρ (· ≠ y) t mem := by
  have h1 : Memory U ρ (fun l => l ≠ .pointer o ∧ l ≠ y) t mem :=
    h.move (fun a xs _ hs => ⟨⟨by simp, fun e => hy (e ▸ (List.getElem?_eq_some_iff.mp hs).1)⟩,
        hf.arrays a xs ⟨(List.getElem?_eq_some_iff.mp hs).1, by simp⟩ hs⟩) hf.valid
      (fun a fs hd hs => hf.structs a fs ⟨(List.getElem?_eq_some_iff.mp hs).1, hd.1⟩ hs)
      (fun a fs hd hs => hf.maps a fs ⟨(List.getElem?_eq_some_iff.mp hs).1, hd.1⟩ hs) (fun _ _ _ => trivial)
  exact h1.change (fun a hd _ => hd.2) (fun x hx hd => ⟨fun e => ho (e ▸ hx), hd⟩)

theorem keep_shift {s t : State Val σ} {o : Nat} (hf : Frame (fun l => Valid s l ∧ l ≠ .pointer o) s t)
    (y : Value Val) (hy : ¬ Valid s y) : Keep (fun _ => True) (· ≠ y) s t :=
  fun a xs _ hs => ⟨fun e => hy (e ▸ (List.getElem?_eq_some_iff.mp hs).1),
    hf.arrays a xs ⟨(List.getElem?_eq_some_iff.mp hs).1, by simp⟩ hs⟩

theorem frame_newArray (t : State Val σ) (o : Nat) (fs : List (Text × Value Val)) (extra : List (List (Value Val))) :
    Frame (fun l => Valid t l ∧ l ≠ .pointer o) t (writeNew t o fs extra) :=
  (frame_writeNew t o fs extra).mono fun _ _ hl => hl.2

/-- A new map, and a change in a structure. -/
def writeMap (s : State Val σ) (a : Nat) (fs : List (Text × Value Val)) (m : GoMap (Value Val)) : State Val σ :=
  { s with structs := s.structs.set a fs, maps := s.maps ++ [m] }

theorem frame_newMap (t : State Val σ) (o : Nat) (fs : List (Text × Value Val)) (m : GoMap (Value Val)) :
    Frame (fun l => Valid t l ∧ l ≠ .pointer o) t (writeMap t o fs m) := by
  refine ⟨fun b gs hb h => ?_, fun _ _ _ h => h, fun b xs _ h => ?_, fun l hl => ?_, rfl, rfl⟩
  · have : o ≠ b := by
      rintro rfl
      exact hb.2 rfl
    simp [writeMap, List.getElem?_set_ne this, h]
  · simp only [writeMap]
    rw [List.getElem?_append_left (List.getElem?_eq_some_iff.mp h).1]
    exact h
  · cases l <;> simp [Valid, writeMap] at hl ⊢ <;> omega

theorem exec_makeArray {w : World Val σ} {names : List Text} {x f typ : Text} {e : Expr} {t : State Val σ} {o : Nat}
    {fo : List (Text × Value Val)} {old y : Value Val} {xs : List (Value Val)}
    (hxo : t.vars.lookup x = some (.pointer o)) (hso : t.structs[o]? = some fo) (hfo : fo.lookup f = some old)
    (he : e.eval w t = .ok (y, t)) (hxs : t.elements y = some xs) :
    ∃ fo', Put f (.slice t.arrays.length) fo fo' ∧
      (Stmt.assign (dot x f) (.make typ (.len e))).exec w names t =
        .ok (.next, writeNew t o fo' [List.replicate xs.length .nil]) := by
  let s1 : State Val σ := { t with arrays := t.arrays ++ [List.replicate xs.length .nil] }
  obtain ⟨fs1, h1, e1⟩ := assign_field w (s := s1) (.slice t.arrays.length) hxo hso hfo
  refine ⟨fs1, h1, ?_⟩
  have hmake : (Expr.make typ (.len e)).eval w t = .ok (.slice t.arrays.length, s1) := by
    simp only [Expr.eval, he, Res.bind, hxs, Res.ofOption]
    rfl
  rw [exec_assign hmake e1]
  rfl

theorem items_scalar {e : TypeId} {ρ : List (Value Val)} {D D' : Value Val → Prop} {t t' : State Val σ} {mem : Mem}
    (hsc : (S e).isScalar = true) : ∀ (items : List BVal) (xs : List (Value Val)) (vs : List Val),
    (∀ bv ∈ items, GoBuilder.elementFits S mem e bv = true) → StoresItems ρ D t items xs →
    GoBuilder.mapRun GoBuilder.scalarOf items = .done vs → HoldsItems S U D' t' e vs xs
  | [], [], vs, _, _, hr => by
    simp only [GoBuilder.mapRun, Run.done.injEq] at hr
    subst hr
    simp [HoldsItems]
  | bv :: items, x :: xs, vs, hok, hst, hr => by
    rw [StoresItems] at hst
    rw [GoBuilder.mapRun] at hr
    simp only [GoBuilder.bind_eq_done, Run.done.injEq] at hr
    obtain ⟨v, hv, vs', hvs', rfl⟩ := hr
    rcases bv with _ | w | _ | _ <;> try (simp [GoBuilder.scalarOf] at hv; done)
    simp only [GoBuilder.scalarOf, Run.done.injEq] at hv
    subst hv
    have h1 := hok _ (List.mem_cons_self)
    have hx := hst.1
    rw [Stores] at hx
    subst hx
    rw [HoldsItems]
    refine ⟨?_, items_scalar hsc items xs vs' (fun b hb => hok b (List.mem_cons_of_mem _ hb)) hst.2 hvs'⟩
    have : GoBuilder.scalarFits (S e) w = true := by
      unfold GoBuilder.elementFits at h1
      cases hS : S e <;> simp only [hS, Shape.isScalar] at h1 hsc ⊢ <;> first | exact h1 | cases hsc
    exact holds_scalar this e
  | [], _ :: _, _, _, h, _ => by simp [StoresItems] at h
  | _ :: _, [], _, _, h, _ => by simp [StoresItems] at h

section

variable {w : World Val σ} {names : List Text} {f : Text} {t : State Val σ} {a o : Nat}
  {fb fo : List (Text × Value Val)} {y old : Value Val} (hx : t.vars.lookup t!"b" = some (.pointer a))
  (hs : t.structs[a]? = some fb) (hf : fb.lookup f = some y)
  (hxo : t.vars.lookup t!"object" = some (.pointer o)) (hso : t.structs[o]? = some fo)
  (hfo : fo.lookup f = some old) (hao : a ≠ o)

include hx hs hf hxo hso hfo hao

theorem member_scalars {ρ : List (Value Val)} {mem : Mem} {ty e : TypeId} {name : Text} (hS : S ty = .list name e)
    (hsc : (S e).isScalar = true) {items : List BVal}
    (hok : ∀ bv ∈ items, GoBuilder.elementFits S mem e bv = true) (typ : Text)
    (hst : Stores ρ (fun _ => True) t (.list items) y) :
    MemberBuilt S U o f fo ty t
      (execBlock w names [.assign (dot t!"object" f) (.make typ (.len (dot t!"b" f))),
        .copy (dot t!"object" f) (dot t!"b" f)] t)
      ((GoBuilder.mapRun GoBuilder.scalarOf items).bind fun items => .done (.list items)) := by
  rw [Stores] at hst
  obtain ⟨c, xs, rfl, -, hxs, hit⟩ := hst
  obtain ⟨fo', hp, he⟩ := exec_makeArray (w := w) (names := names) (typ := typ) hxo hso hfo
    (eval_dot hx hs hf) (xs := xs) hxs
  have hs2 : (writeNew t o fo' [List.replicate xs.length .nil]).structs[a]? = some fb := by
    simp [writeNew, List.getElem?_set_ne (Ne.symm hao), hs]
  have hso2 : (writeNew t o fo' [List.replicate xs.length .nil]).structs[o]? = some fo' :=
    write_get (s := t) fo' hso
  have hcopy : (Stmt.copy (dot t!"object" f) (dot t!"b" f)).exec w names
      (writeNew t o fo' [List.replicate xs.length .nil]) = .ok (.next, writeNew t o fo' [xs]) := by
    have h1 := eval_dot (w := w) (s := writeNew t o fo' [List.replicate xs.length .nil]) hxo hso2 hp.same
    have h2 := eval_dot (w := w) (s := writeNew t o fo' [List.replicate xs.length .nil]) hx hs2 hf
    have h3 : (writeNew t o fo' [List.replicate xs.length .nil]).arrays[c]? = some xs := by
      simp only [writeNew]
      rw [List.getElem?_append_left (List.getElem?_eq_some_iff.mp hxs).1]
      exact hxs
    have h4 : (writeNew t o fo' [List.replicate xs.length .nil]).arrays[t.arrays.length]? =
        some (List.replicate xs.length .nil) := by
      simp [writeNew]
    simp only [Stmt.exec, h1, Res.bind, h2, State.elements, h3, Res.ofOption, h4]
    simp [writeNew]
  rw [execBlock_next he, execBlock_next hcopy]
  have hsd : ∃ vs, GoBuilder.mapRun GoBuilder.scalarOf items = .done vs :=
    GoBuilder.scalars_done fun x hx => by
      rcases GoBuilder.elementFits_cases (hok x hx) with ⟨-, h⟩ | ⟨⟨c, n, as, h⟩, -⟩
      · exact h
      · simp [h, Shape.isScalar] at hsc
  obtain ⟨vs, hvs⟩ := hsd
  rw [hvs]
  refine ⟨fo', .slice t.arrays.length, _, rfl, frame_newArray t o fo' [xs], write_get (s := t) fo' hso, hp, ?_⟩
  rw [Holds]
  refine ⟨_, xs, rfl, by simp [Valid], by simp [writeNew], ?_⟩
  rw [show elementOf S ty = e by simp [elementOf, hS]]
  exact items_scalar hsc items xs vs hok hit hvs

theorem member_objects {ρ : List (Value Val)} {mem : Mem} {ty e : TypeId} {name : Text} (hS : S ty = .list name e)
    (hm : Memory U ρ (fun _ => True) t mem) (ho : .pointer o ∉ ρ) (herr : t.vars.lookup t!"err" = some .nil)
    {B : GoBuilder.Ref → Run Val} {builder : Text}
    (hB : ∀ bv y t, GoBuilder.elementFits S mem e bv = true → Stores ρ (fun _ => True) t bv y →
      Memory U ρ (fun _ => True) t mem →
      BuildsTo S U (w.methods builder t!"Build" y [] t) t e (GoBuilder.buildRef B bv)) {items : List BVal}
    (hok : ∀ bv ∈ items, GoBuilder.elementFits S mem e bv = true) (typ : Text)
    (hst : Stores ρ (fun _ => True) t (.list items) y) :
    MemberBuilt S U o f fo ty t
      (execBlock w names [.assign (dot t!"object" f) (.make typ (.len (dot t!"b" f))),
        .range t!"i" t!"v" (dot t!"b" f)
          (buildInto (.index (dot t!"object" f) (.var t!"i")) builder (.var t!"v"))] t)
      ((GoBuilder.mapRun (GoBuilder.buildRef B) items).bind fun items => .done (.list items)) := by
  rw [Stores] at hst
  obtain ⟨c, xs, rfl, -, hxs, hit⟩ := hst
  obtain ⟨fo', hp, he⟩ := exec_makeArray (w := w) (names := names) (typ := typ) hxo hso hfo
    (eval_dot hx hs hf) (xs := xs) hxs
  rw [execBlock_next he]
  have hf2 := frame_newArray t o fo' [List.replicate xs.length .nil]
  have hs2 : (writeNew t o fo' [List.replicate xs.length .nil]).structs[a]? = some fb := by
    simp [writeNew, List.getElem?_set_ne (Ne.symm hao), hs]
  have hso2 : (writeNew t o fo' [List.replicate xs.length .nil]).structs[o]? = some fo' :=
    write_get (s := t) fo' hso
  have h3 : (writeNew t o fo' [List.replicate xs.length .nil]).arrays[c]? = some xs := by
    simp only [writeNew]
    rw [List.getElem?_append_left (List.getElem?_eq_some_iff.mp hxs).1]
    exact hxs
  have h4 : (writeNew t o fo' [List.replicate xs.length .nil]).arrays[t.arrays.length]? =
      some (List.replicate xs.length .nil) := by
    simp [writeNew]
  generalize writeNew t o fo' [List.replicate xs.length .nil] = t2 at hf2 hs2 hso2 h3 h4
  have hinv : ¬ Valid t (.slice t.arrays.length) := by simp [Valid]
  have hnot : .slice t.arrays.length ∉ ρ := fresh_not_mem hm hinv
  have hv2 := hf2.vars
  have hloop := loop_array (S := S) (U := U) (ρ := ρ) (mem := mem) (GoBuilder.buildRef B) e
    (fun bv => GoBuilder.elementFits S mem e bv = true) t.arrays.length
    (fun k v s => (execBlock w names (buildInto (.index (dot t!"object" f) (.var t!"i")) builder (.var t!"v"))
      { s with vars := (t!"v", v) :: (t!"i", .int k) :: s.vars }).bind fun r => .ok (leave s r))
    (fun u => u.vars = t.vars ∧ u.structs[o]? = some fo')
    (fun u u' hu hfr => ⟨hfr.vars.trans hu.1,
      hfr.structs o fo' ⟨(List.getElem?_eq_some_iff.mp hu.2).1, by simp⟩ hu.2⟩)
    (by
      intro k bv y u ys hbv hbs hbm hu hys hk
      have hlook : ∀ z, z ≠ t!"v" → z ≠ t!"i" →
          (inner u t!"v" y t!"i" (.int k)).vars.lookup z = t.vars.lookup z := by
        intro z h1 h2
        simp only [inner, hu.1]
        rw [List.lookup, beq_eq_false_iff_ne.mpr h1, List.lookup, beq_eq_false_iff_ne.mpr h2]
      refine array_step rfl rfl ?_ (hB bv y _ hbv ?_ ?_) ?_ hys hk
      · rw [hlook _ (by decide) (by decide)]
        exact herr
      · exact Stores.move (keep_vars u _) (List.prefix_refl ρ) _ _ hbs
      · exact (hbm.full hnot).setVars _
      · intro t1 hfr
        have hvo : t1.vars.lookup t!"object" = some (.pointer o) := by
          rw [hfr.vars, hlook _ (by decide) (by decide)]
          exact hxo
        exact eval_dot hvo (hfr.structs o fo' (List.getElem?_eq_some_iff.mp hu.2).1 hu.2) hp.same)
    items xs t2 [] hok
    (StoresItems.move (keep_shift hf2 _ hinv) (List.prefix_refl ρ) _ _ hit) (hm.shift hf2 ho _ hinv) ⟨hv2, hso2⟩
    (by rw [h4, hit.length]; rfl)
  have hrange := exec_range (w := w) (names := names) (i := t!"i") (v := t!"v")
    (body := buildInto (.index (dot t!"object" f) (.var t!"i")) builder (.var t!"v"))
    (eval_dot (w := w) (s := t2) (by rw [hv2]; exact hx) hs2 hf) (xs := xs) h3
  simp only [List.length_nil] at hloop
  cases hR : GoBuilder.mapRun (GoBuilder.buildRef B) items with
  | outOfFuel => trivial
  | panic =>
    rw [hR] at hloop
    exact execBlock_panic (hrange.trans hloop)
  | done vs =>
    rw [hR] at hloop
    obtain ⟨post, t', he', hfr, hb', hh⟩ := hloop
    refine ⟨fo', .slice t.arrays.length, t', execBlock_next (hrange.trans he'), ?_,
      hfr.structs o fo' ⟨(List.getElem?_eq_some_iff.mp hso2).1, by simp⟩ hso2, hp, ?_⟩
    · exact hf2.trans (hfr.mono fun l hl hd => ⟨hl, fun e => hinv (e ▸ hd.1)⟩)
    · rw [Holds]
      refine ⟨_, post, rfl, hinv, by simpa using hb', ?_⟩
      rw [show elementOf S ty = e by simp [elementOf, hS]]
      exact HoldsItems.move (Move.change fun l hl _ hv => hl (hf2.valid l hv)) _ _ _ hh

omit hx hs hf hao in
theorem exec_makeMap {typ : Text} (st : Stmt)
    (hst : st = .assign (dot t!"object" f) (.makeMap typ) ∨ st = .assignWide (dot t!"object" f) (.makeMap typ)) :
    ∃ fo', Put f (.map t.maps.length) fo fo' ∧
      st.exec w names t = .ok (.next, writeMap t o fo' []) := by
  let s1 : State Val σ := { t with maps := t.maps ++ [[]] }
  obtain ⟨fs1, h1, e1⟩ := assign_field w (s := s1) (.map t.maps.length) hxo hso hfo
  refine ⟨fs1, h1, ?_⟩
  have hmake : (Expr.makeMap typ).eval w t = .ok (.map t.maps.length, s1) := rfl
  rcases hst with rfl | rfl
  · rw [exec_assign hmake e1]
    rfl
  · simp only [Stmt.exec, hmake, Res.bind, e1]
    rfl

theorem member_map {ρ : List (Value Val)} {mem : Mem} {ty e : TypeId} (hS : S ty = .map e)
    (hm : Memory U ρ (fun _ => True) t mem) (ho : .pointer o ∉ ρ) {R : BVal → Run Val}
    {typ : Text} {st : Stmt} (hst : st = .assign (dot t!"object" f) (.makeMap typ) ∨
      st = .assignWide (dot t!"object" f) (.makeMap typ))
    {q : Nat} {e' : TypeId} {entries : GoMap BVal} (hq : mem[q]? = some (.map e' entries)) (hy : ρ[q]? = some y)
    {body : List Stmt} {ok : BVal → Prop} (hok : ∀ bv ∈ entries, ok bv.2)
    (hbody : ∀ b k bv z u m fo', ok bv → Stores ρ (· ≠ .map b) u bv z → Memory U ρ (· ≠ .map b) u mem →
      u.vars = t.vars → u.structs[o]? = some fo' → fo'.lookup f = some (.map b) → u.maps[b]? = some m →
      .map b ∉ ρ → MapStep S U b k m e u
        ((execBlock w names body (inner u t!"v" z t!"k" (.str k))).bind fun r => .ok (leave u r)) (R bv)) :
    MemberBuilt S U o f fo ty t
      (execBlock w names [st, .rangeMap t!"k" t!"v" (dot t!"b" f) body] t)
      ((GoBuilder.mapRun (fun e => (R e.2).bind fun v => .done (e.1, v)) entries).bind
        fun entries => .done (.map entries)) := by
  obtain ⟨c, xs, rfl, hxs, hnd, hit⟩ := hm.cells q _ y hq hy trivial
  obtain ⟨fo', hp, he⟩ := exec_makeMap (w := w) (names := names) (typ := typ) hxo hso hfo st hst
  rw [execBlock_next he]
  have hf2 := frame_newMap t o fo' []
  have hs2 : (writeMap t o fo' []).structs[a]? = some fb := by
    simp [writeMap, List.getElem?_set_ne (Ne.symm hao), hs]
  have hso2 : (writeMap t o fo' []).structs[o]? = some fo' :=
    write_get (s := t) fo' hso
  have h3 : (writeMap t o fo' []).maps[c]? = some xs := by
    simp only [writeMap]
    rw [List.getElem?_append_left (List.getElem?_eq_some_iff.mp hxs).1]
    exact hxs
  have h4 : (writeMap t o fo' []).maps[t.maps.length]? = some [] := by
    simp [writeMap]
  generalize writeMap t o fo' [] = t2 at hf2 hs2 hso2 h3 h4
  have hinv : ¬ Valid t (.map t.maps.length) := by simp [Valid]
  have hnot : .map t.maps.length ∉ ρ := fresh_not_mem hm hinv
  have hv2 := hf2.vars
  have hloop := loop_map (S := S) (U := U) (ρ := ρ) (mem := mem) R e ok t.maps.length
    (fun k v s => (execBlock w names body
      { s with vars := (t!"v", v) :: (t!"k", .str k) :: s.vars }).bind fun r => .ok (leave s r))
    (fun u => u.vars = t.vars ∧ u.structs[o]? = some fo')
    (fun u u' hu hfr => ⟨hfr.vars.trans hu.1,
      hfr.structs o fo' ⟨(List.getElem?_eq_some_iff.mp hu.2).1, by simp⟩ hu.2⟩)
    (fun k bv z u m hbv hbs hbm hu hum => hbody _ k bv z u m fo' hbv hbs hbm hu.1 hu.2 hp.same hum hnot)
    entries xs t2 [] hok
    (StoresEntries.move (keep_shift hf2 _ hinv) (List.prefix_refl ρ) _ _ hit) (hm.shift hf2 ho _ hinv) ⟨hv2, hso2⟩
    h4 (by simpa using hnd)
  have hrange := exec_rangeMap (w := w) (names := names) (i := t!"k") (v := t!"v") (body := body)
    (eval_dot (w := w) (s := t2) (by rw [hv2]; exact hx) hs2 hf) (xs := xs) h3
  cases hR : GoBuilder.mapRun (fun e => (R e.2).bind fun v => .done (e.1, v)) entries with
  | outOfFuel => trivial
  | panic =>
    rw [hR] at hloop
    exact execBlock_panic (hrange.trans hloop)
  | done vs =>
    rw [hR] at hloop
    obtain ⟨post, t', he', hfr, hb', hk', hh⟩ := hloop
    refine ⟨fo', .map t.maps.length, t', execBlock_next (hrange.trans he'), ?_,
      hfr.structs o fo' ⟨(List.getElem?_eq_some_iff.mp hso2).1, by simp⟩ hso2, hp, ?_⟩
    · exact hf2.trans (hfr.mono fun l hl hd => ⟨hl, fun e => hinv (e ▸ hd.1)⟩)
    · rw [Holds]
      refine ⟨_, post, rfl, hinv, by simpa using hb', by rw [hk']; exact hnd, ?_⟩
      rw [show elementOf S ty = e by simp [elementOf, hS]]
      exact HoldsEntries.move (Move.change fun l hl _ hv => hl (hf2.valid l hv)) _ _ _ hh

end

/-! ### Attributes -/

theorem isObject_iff {sh : Shape} : isObject sh = true ↔ ∃ c n as, sh = .struct c n as := by
  cases sh <;> simp [isObject]

theorem fieldOk_scalar {mem : Mem} {a : AttrShape} {bv : BVal} (h : GoBuilder.FieldOk S mem a bv)
    (hs : (S a.typ).isScalar = true) : ∃ v, bv = .scalar v ∧ GoBuilder.scalarFits (S a.typ) v = true := by
  rcases h with h | ⟨-, h⟩
  · unfold GoBuilder.fits at h
    cases hS : S a.typ <;> simp only [hS, Shape.isScalar, Bool.false_eq_true] at h hs <;>
      cases bv <;> simp [GoBuilder.elementFits, hS] at h <;> exact ⟨_, rfl, h⟩
  · rw [hs] at h
    cases h

theorem fieldOk_object {mem : Mem} {a : AttrShape} {bv : BVal} (h : GoBuilder.FieldOk S mem a bv)
    (hs : isObject (S a.typ) = true) :
    bv = .nil ∨ ∃ r, bv = .ref r ∧ GoBuilder.elementFits S mem a.typ bv = true := by
  rcases h with h | ⟨h, -⟩
  · obtain ⟨c, n, as, hS⟩ := isObject_iff.mp hs
    have he : GoBuilder.elementFits S mem a.typ bv = true := by
      unfold GoBuilder.fits at h
      simpa only [hS] using h
    rcases GoBuilder.elementFits_cases he with ⟨h', -⟩ | ⟨-, h' | ⟨r, h'⟩⟩
    · simp [hS, Shape.isScalar] at h'
    · exact .inl h'
    · exact .inr ⟨r, h', he⟩
  · exact .inl h

theorem fieldOk_list {mem : Mem} {a : AttrShape} {bv : BVal} {n : Text} {e : TypeId}
    (h : GoBuilder.FieldOk S mem a bv) (hS : S a.typ = .list n e) : bv = .nil ∨
      (a.link = true ∧ ∃ r items, bv = .ref r ∧ mem[r]? = some (.listBuilder a.typ items)) ∨
      (a.link = false ∧ ∃ items, bv = .list items ∧ ∀ x ∈ items, GoBuilder.elementFits S mem e x = true) := by
  rcases h with h | ⟨h, -⟩
  · unfold GoBuilder.fits at h
    simp only [hS] at h
    cases bv with
    | nil => exact .inl rfl
    | scalar v => simp [GoBuilder.elementFits, hS, GoBuilder.scalarFits] at h
    | ref r =>
      simp only at h
      split at h
      · rename_i t items hr
        simp only [Bool.and_eq_true, beq_iff_eq] at h
        obtain ⟨h1, rfl⟩ := h
        exact .inr (.inl ⟨h1, r, items, rfl, hr⟩)
      · cases h
    | list items =>
      simp only [Bool.and_eq_true, Bool.not_eq_true', List.all_eq_true] at h
      exact .inr (.inr ⟨h.1, items, rfl, h.2⟩)
  · exact .inl h

theorem fieldOk_map {mem : Mem} {a : AttrShape} {bv : BVal} {e : TypeId}
    (h : GoBuilder.FieldOk S mem a bv) (hS : S a.typ = .map e) : bv = .nil ∨
      ∃ r entries, bv = .ref r ∧ mem[r]? = some (.map e entries) := by
  rcases h with h | ⟨h, -⟩
  · unfold GoBuilder.fits at h
    simp only [hS] at h
    cases bv with
    | nil => exact .inl rfl
    | scalar v => simp [GoBuilder.elementFits, hS, GoBuilder.scalarFits] at h
    | ref r =>
      simp only at h
      split at h
      · rename_i t items hr
        simp only [beq_iff_eq] at h
        subst h
        exact .inr ⟨r, items, rfl, hr⟩
      · cases h
    | list items => simp [GoBuilder.elementFits, hS] at h
  · exact .inl h

theorem member_nil {w : World Val σ} {names : List Text} {f : Text} {body : List Stmt} {t : State Val σ} {a o : Nat}
    {fb fo : List (Text × Value Val)} {ty : TypeId}
    (hx : t.vars.lookup t!"b" = some (.pointer a)) (hs : t.structs[a]? = some fb)
    (hf : fb.lookup f = some .nil) (hso : t.structs[o]? = some fo) (hfo : fo.lookup f = some .nil) :
    MemberBuilt S U o f fo ty t
      (execBlock w names [.branch (BuildersCode.fieldNotNil t!"b" f) body []] t) (.done .nil) := by
  refine ⟨fo, .nil, t, exec_absent hx hs hf, Frame.refl _ _, hso, put_same hfo, ?_⟩
  simp [Holds, value]

theorem member_skip {w : World Val σ} {names : List Text} {f : Text} {t : State Val σ} {o : Nat}
    {fo : List (Text × Value Val)} {ty : TypeId} (hso : t.structs[o]? = some fo) (hfo : fo.lookup f = some .nil) :
    MemberBuilt S U o f fo ty t (execBlock w names [] t) (.done .nil) := by
  refine ⟨fo, .nil, t, rfl, Frame.refl _ _, hso, put_same hfo, ?_⟩
  simp [Holds, value]

/-- The calls of `Build` of the builders of objects that the code of a package can do. -/
def BuildsObjects (S : Schema) (U : TypeId → Code) (w : World Val σ) (pkg : Text) (ρ : List (Value Val)) (mem : Mem)
    (B : GoBuilder.Ref → Run Val) : Prop :=
  ∀ tx e bv y t, resolve pkg tx = ((U e).pkg, (U e).builder.builder) → isObject (S e) = true →
    GoBuilder.elementFits S mem e bv = true → Stores ρ (fun _ => True) t bv y → Memory U ρ (fun _ => True) t mem →
    BuildsTo S U (w.methods tx t!"Build" y [] t) t e (GoBuilder.buildRef B bv)

/-- The calls of `Build` of the builders of lists that the code of a package can do. -/
def BuildsLists (S : Schema) (U : TypeId → Code) (w : World Val σ) (pkg : Text) (ρ : List (Value Val)) (mem : Mem)
    (B : GoBuilder.Ref → Run Val) : Prop :=
  ∀ tx ty n e (r : Nat) items y t, resolve pkg tx = ((U e).pkg, (U e).list.builder) → S ty = .list n e →
    isObject (S e) = true → mem[r]? = some (.listBuilder ty items) → ρ[r]? = some y →
    Memory U ρ (fun _ => True) t mem →
    BuildsTo S U (w.methods tx t!"Build" y [] t) t ty (GoBuilder.buildItems B items)

theorem exec_member {w : World Val σ} {names : List Text} {zero : Text → Text → Value Val} {pkg : Text}
    {ρ : List (Value Val)} {mem : Mem} {B : GoBuilder.Ref → Run Val} (hB : BuildsObjects S U w pkg ρ mem B)
    (hL : BuildsLists S U w pkg ρ mem B) (hmo : GoBuilder.MemOk S mem) {at_ : AttrShape} {m : BuildersCode.Member}
    {g : TypesCode.Member} (hat : Matches S U zero pkg at_ m g) {t : State Val σ} {a o : Nat}
    {fb fo : List (Text × Value Val)} {bv : BVal} {y : Value Val} (hx : t.vars.lookup t!"b" = some (.pointer a))
    (hs : t.structs[a]? = some fb) (hf : fb.lookup m.field = some y)
    (hxo : t.vars.lookup t!"object" = some (.pointer o)) (hso : t.structs[o]? = some fo)
    (hfo : fo.lookup m.field = some (value (GoJson.zero (S at_.typ)))) (hao : a ≠ o)
    (herr : t.vars.lookup t!"err" = some .nil) (hm : Memory U ρ (fun _ => True) t mem) (ho : .pointer o ∉ ρ)
    (hok : GoBuilder.FieldOk S mem at_ bv) (hst : Stores ρ (fun _ => True) t bv y) :
    MemberBuilt S U o m.field fo at_.typ t (execBlock w names m.build t)
      (GoBuilder.buildField B S mem at_.typ at_.link bv) := by
  have hform := hat.form
  have hzero : (S at_.typ).isScalar = false → fo.lookup m.field = some .nil := fun h => by
    rw [hfo, value_zero_nil _ h]
  have hnil : (S at_.typ).isScalar = false → bv = .nil → ∀ body, MemberBuilt S U o m.field fo at_.typ t
      (execBlock w names [.branch (BuildersCode.fieldNotNil t!"b" m.field) body []] t) (.done .nil) := by
    intro h hb body
    subst hb
    rw [Stores] at hst
    subst hst
    exact member_nil hx hs hf hso (hzero h)
  cases hF : m.form with
  | scalar =>
    rw [hF] at hform
    change (S at_.typ).isScalar = true at hform
    obtain ⟨v, rfl, hv⟩ := fieldOk_scalar hok hform
    have hR : GoBuilder.buildField B S mem at_.typ at_.link (.scalar v) = .done v := by
      unfold GoBuilder.buildField
      cases hS : S at_.typ <;> simp only [hS, Shape.isScalar, Bool.false_eq_true] at hform <;>
        simp [Shape.isScalar, GoBuilder.scalarOf]
    rw [hR, BuildersCode.Member.build, hF]
    rw [Stores] at hst
    subst hst
    obtain ⟨fo', hp, he⟩ := assign_field w (value v) hxo hso hfo
    refine ⟨fo', value v, _, ?_, ?_, write_get fo' hso, hp, holds_scalar hv _⟩
    · rw [execBlock_next (exec_assign (eval_dot hx hs hf) he)]
      rfl
    · exact frame_write t o fo' fun hd => hd.2 rfl
  | object tt =>
    rw [hF] at hform
    obtain ⟨ho1, hn⟩ := hform
    obtain ⟨c, n, as, hS⟩ := isObject_iff.mp ho1
    have hsc : (S at_.typ).isScalar = false := by simp [hS, Shape.isScalar]
    rw [BuildersCode.Member.build, hF]
    rcases fieldOk_object hok ho1 with hb | ⟨r, rfl, he⟩
    · subst hb
      rw [show GoBuilder.buildField B S mem at_.typ at_.link .nil = .done .nil by
        simp [GoBuilder.buildField, hS, BVal.isNil]]
      exact hnil hsc rfl _
    · rw [show GoBuilder.buildField B S mem at_.typ at_.link (.ref r) = GoBuilder.buildRef B (.ref r) by
        simp [GoBuilder.buildField, hS, BVal.isNil]]
      exact (member_into hx hs hf hxo hso hfo herr (hB _ _ _ _ _ hn.builder ho1 he hst hm)).present hx hs hf
        (stores_notNil hm hst (.inl ⟨r, rfl⟩))
  | linkList tt =>
    rw [hF] at hform
    obtain ⟨n, e, hS, hl, hn⟩ := hform
    have hsc : (S at_.typ).isScalar = false := by simp [hS, Shape.isScalar]
    rw [BuildersCode.Member.build, hF]
    rcases fieldOk_list hok hS with hb | ⟨-, r, items, rfl, hr⟩ | ⟨hl', -⟩
    · subst hb
      rw [show GoBuilder.buildField B S mem at_.typ at_.link .nil = .done .nil by
        simp [GoBuilder.buildField, hS, BVal.isNil]]
      exact hnil hsc rfl _
    · rw [show GoBuilder.buildField B S mem at_.typ at_.link (.ref r) = GoBuilder.buildItems B items by
        simp [GoBuilder.buildField, hS, BVal.isNil, hl, hr]]
      obtain ⟨⟨n', e', hS', ho'⟩, -⟩ := hmo.get hr
      rw [hS] at hS'
      simp only [Shape.list.injEq] at hS'
      obtain ⟨rfl, rfl⟩ := hS'
      have ho1 := isObject_iff.mpr ho'
      exact (member_into hx hs hf hxo hso hfo herr
        (hL _ _ _ _ _ _ _ _ (hn ho1).builder hS ho1 hr (by rw [Stores] at hst; exact hst) hm)).present hx hs hf
        (stores_notNil hm hst (.inl ⟨r, rfl⟩))
    · rw [hl] at hl'
      cases hl'
  | scalars base =>
    rw [hF] at hform
    obtain ⟨n, e, hS, hl, hse⟩ := hform
    have hsc : (S at_.typ).isScalar = false := by simp [hS, Shape.isScalar]
    rw [BuildersCode.Member.build, hF]
    rcases fieldOk_list hok hS with hb | ⟨hl', -⟩ | ⟨-, items, rfl, hit⟩
    · subst hb
      rw [show GoBuilder.buildField B S mem at_.typ at_.link .nil = .done .nil by
        simp [GoBuilder.buildField, hS, BVal.isNil]]
      exact hnil hsc rfl _
    · rw [hl] at hl'
      cases hl'
    · rw [show GoBuilder.buildField B S mem at_.typ at_.link (.list items) =
          (GoBuilder.mapRun GoBuilder.scalarOf items).bind fun items => .done (.list items) by
        cases hSe : S e <;> simp [hSe, Shape.isScalar] at hse <;>
          simp [GoBuilder.buildField, hS, BVal.isNil, hl, hSe, Shape.isScalar]]
      exact (member_scalars hx hs hf hxo hso hfo hao hS hse hit _ hst).present hx hs hf
        (stores_notNil hm hst (.inr ⟨items, rfl⟩))
  | objects tt =>
    rw [hF] at hform
    obtain ⟨n, e, hS, hl, hoe, hn⟩ := hform
    have hsc : (S at_.typ).isScalar = false := by simp [hS, Shape.isScalar]
    rw [BuildersCode.Member.build, hF]
    rcases fieldOk_list hok hS with hb | ⟨hl', -⟩ | ⟨-, items, rfl, hit⟩
    · subst hb
      rw [show GoBuilder.buildField B S mem at_.typ at_.link .nil = .done .nil by
        simp [GoBuilder.buildField, hS, BVal.isNil]]
      exact hnil hsc rfl _
    · rw [hl] at hl'
      cases hl'
    · obtain ⟨c', n', as', hSe⟩ := isObject_iff.mp hoe
      rw [show GoBuilder.buildField B S mem at_.typ at_.link (.list items) =
          (GoBuilder.mapRun (GoBuilder.buildRef B) items).bind fun items => .done (.list items) by
        simp [GoBuilder.buildField, hS, BVal.isNil, hl, hSe]]
      exact (member_objects hx hs hf hxo hso hfo hao hS hm ho herr
        (fun bv y t h1 h2 h3 => hB _ _ bv y t hn.builder hoe h1 h2 h3) hit _ hst).present hx hs hf
        (stores_notNil hm hst (.inr ⟨items, rfl⟩))
  | others base =>
    rw [hF] at hform
    obtain ⟨n, e, hS, hl, hse, hoe⟩ := hform
    have hsc : (S at_.typ).isScalar = false := by simp [hS, Shape.isScalar]
    rw [BuildersCode.Member.build, hF]
    rcases fieldOk_list hok hS with hb | ⟨hl', -⟩ | ⟨-, items, rfl, hit⟩
    · subst hb
      rw [show GoBuilder.buildField B S mem at_.typ at_.link .nil = .done .nil by
        simp [GoBuilder.buildField, hS, BVal.isNil]]
      exact hnil hsc rfl _
    · rw [hl] at hl'
      cases hl'
    · rw [show GoBuilder.buildField B S mem at_.typ at_.link (.list items) = .done .nil by
        cases hSe : S e <;> simp [hSe, Shape.isScalar, isObject] at hse hoe <;>
          simp [GoBuilder.buildField, hS, BVal.isNil, hl, hSe, Shape.isScalar]]
      exact (member_skip hso (hzero hsc)).present hx hs hf (stores_notNil hm hst (.inr ⟨items, rfl⟩))
  | scalarMap =>
    rw [hF] at hform
    obtain ⟨e, hS, hse⟩ := hform
    have hsc : (S at_.typ).isScalar = false := by simp [hS, Shape.isScalar]
    rw [BuildersCode.Member.build, hF]
    rcases fieldOk_map hok hS with hb | ⟨r, entries, rfl, hr⟩
    · subst hb
      rw [show GoBuilder.buildField B S mem at_.typ at_.link .nil = .done .nil by
        simp [GoBuilder.buildField, hS]]
      exact hnil hsc rfl _
    · rw [show GoBuilder.buildField B S mem at_.typ at_.link (.ref r) =
          (GoBuilder.mapRun (fun e => (GoBuilder.scalarOf e.2).bind fun v => .done (e.1, v)) entries).bind
            fun entries => .done (.map entries) by
        cases hSe : S e <;> simp [hSe, Shape.isScalar] at hse <;>
          simp [GoBuilder.buildField, hS, hr, hSe, Shape.isScalar]]
      refine (member_map hx hs hf hxo hso hfo hao hS hm ho (.inl rfl) hr (by rw [Stores] at hst; exact hst)
        (ok := fun bv => GoBuilder.elementFits S mem e bv = true) (hmo.get hr) ?_).present hx hs hf
        (stores_notNil hm hst (.inl ⟨r, rfl⟩))
      intro b k bv z u mm fo' hbv hbs hbm hvs hso' hlk humm hnot
      rcases GoBuilder.elementFits_cases hbv with ⟨-, v, rfl⟩ | ⟨⟨c', n', as', h'⟩, -⟩
      · rw [Stores] at hbs
        subst hbs
        refine ⟨value v, u, ?_, Frame.refl _ _, ?_⟩
        · have hvo : (inner u t!"v" (value v) t!"k" (.str k)).vars.lookup t!"object" = some (.pointer o) := by
            change u.vars.lookup t!"object" = _
            rw [hvs]
            exact hxo
          have ht := eval_dot (w := w) hvo hso' hlk
          have ha := eval_target_key (w := w) (kname := t!"k") (k := k) (p := value v) ht rfl humm
          rw [execBlock_next (exec_assign (eval_var rfl) ha)]
          exact congrArg Res.ok (leave_inner u _ t!"v" (value v) t!"k" (.str k) (by rfl) _)
        · have : GoBuilder.scalarFits (S e) v = true := by
            unfold GoBuilder.elementFits at hbv
            cases hS : S e <;> simp only [hS, Shape.isScalar, Bool.false_eq_true] at hbv hse ⊢ <;> exact hbv
          exact holds_scalar this e
      · simp [h', Shape.isScalar] at hse
  | objectMap tt =>
    rw [hF] at hform
    obtain ⟨e, hS, hoe, hn⟩ := hform
    have hsc : (S at_.typ).isScalar = false := by simp [hS, Shape.isScalar]
    rw [BuildersCode.Member.build, hF]
    rcases fieldOk_map hok hS with hb | ⟨r, entries, rfl, hr⟩
    · subst hb
      rw [show GoBuilder.buildField B S mem at_.typ at_.link .nil = .done .nil by
        simp [GoBuilder.buildField, hS]]
      exact hnil hsc rfl _
    · obtain ⟨c', n', as', hSe⟩ := isObject_iff.mp hoe
      rw [show GoBuilder.buildField B S mem at_.typ at_.link (.ref r) =
          (GoBuilder.mapRun (fun e => (GoBuilder.buildRef B e.2).bind fun v => .done (e.1, v)) entries).bind
            fun entries => .done (.map entries) by
        simp [GoBuilder.buildField, hS, hr, hSe]]
      refine (member_map hx hs hf hxo hso hfo hao hS hm ho (.inr rfl) hr (by rw [Stores] at hst; exact hst)
        (ok := fun bv => GoBuilder.elementFits S mem e bv = true) (hmo.get hr) ?_).present hx hs hf
        (stores_notNil hm hst (.inl ⟨r, rfl⟩))
      intro b k bv z u mm fo' hbv hbs hbm hvs hso' hlk humm hnot
      have hlook : ∀ z', z' ≠ t!"v" → z' ≠ t!"k" →
          (inner u t!"v" z t!"k" (.str k)).vars.lookup z' = t.vars.lookup z' := by
        intro z' h1 h2
        simp only [inner, hvs]
        rw [List.lookup, beq_eq_false_iff_ne.mpr h1, List.lookup, beq_eq_false_iff_ne.mpr h2]
      refine map_step rfl rfl ?_ (hB _ _ bv z _ hn.builder hoe hbv ?_ ?_) ?_ humm
      · rw [hlook _ (by decide) (by decide)]
        exact herr
      · exact Stores.move (keep_vars u _) (List.prefix_refl ρ) _ _ hbs
      · exact (hbm.full hnot).setVars _
      · intro t1 hfr
        have hvo : t1.vars.lookup t!"object" = some (.pointer o) := by
          rw [hfr.vars, hlook _ (by decide) (by decide)]
          exact hxo
        exact eval_dot hvo (hfr.structs o fo' (List.getElem?_eq_some_iff.mp hso').1 hso') hlk
  | otherMap =>
    rw [hF] at hform
    obtain ⟨e, hS, hse, hoe⟩ := hform
    have hsc : (S at_.typ).isScalar = false := by simp [hS, Shape.isScalar]
    rw [BuildersCode.Member.build, hF]
    rcases fieldOk_map hok hS with hb | ⟨r, entries, rfl, hr⟩
    · subst hb
      rw [show GoBuilder.buildField B S mem at_.typ at_.link .nil = .done .nil by
        simp [GoBuilder.buildField, hS]]
      exact hnil hsc rfl _
    · rw [show GoBuilder.buildField B S mem at_.typ at_.link (.ref r) = .done .nil by
        cases hSe : S e <;> simp [hSe, Shape.isScalar, isObject] at hse hoe <;>
          simp [GoBuilder.buildField, hS, hr, hSe, Shape.isScalar]]
      exact (member_skip hso (hzero hsc)).present hx hs hf (stores_notNil hm hst (.inl ⟨r, rfl⟩))

end Verif.BuildersRun
