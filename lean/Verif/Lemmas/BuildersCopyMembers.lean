import Verif.Lemmas.BuildersCopy

/-!
# Lemmas about running the generated builders: copying the attributes of objects
-/

namespace Verif.BuildersRun

open GoJson (Val Schema Shape AttrShape)
open GoBuilder (BVal Cell Mem typed typedItems typedEntries typedFields)
open GoProgram
open TypesCode (dot)
open TypesRun (Legal value)
open BuildersCode (copyOf copyIf fieldNotNil)

variable {σ : Type} {S : Schema} {U : TypeId → Code} {P : Program} {zero : Text → Text → Value Val}

/-! ## Values of types -/

theorem typed_fits {ty : TypeId} {link : Bool} {v : Val} (hs : (S ty).isScalar = true)
    (ht : typed S ty link v = true) : GoBuilder.scalarFits (S ty) v = true := by
  cases v with
  | linkList l h items => cases items <;> cases hS : S ty <;> simp_all [typed, Shape.isScalar]
  | _ => cases hS : S ty <;> simp_all [typed, Shape.isScalar]

theorem copyField_scalar {ty : TypeId} {link : Bool} {v : Val} (hs : (S ty).isScalar = true)
    (ht : typed S ty link v = true) (old : BVal) (mem : Mem) :
    GoBuilder.copyField S ty link old mem v = (mem, .scalar v) := by
  have := typed_fits hs ht
  cases v <;> cases hS : S ty <;> simp_all [GoBuilder.scalarFits, Shape.isScalar, GoBuilder.copyField]

theorem holds_value {E : Value Val → Prop} {t : State Val σ} {ty : TypeId} {sh : Shape} {v : Val} {y : Value Val}
    (hf : GoBuilder.scalarFits sh v = true) (h : Holds S U E t ty v y) : y = value v := by
  cases v <;> cases sh <;> simp_all [GoBuilder.scalarFits, Holds]

theorem typed_object {ty : TypeId} {link c : Bool} {n : Text} {as : List AttrShape} {v : Val}
    (hS : S ty = .struct c n as) (ht : typed S ty link v = true) :
    v = .nil ∨ ∃ bitmap id href fields, v = .obj bitmap id href fields ∧ typedFields S as fields = true := by
  cases v with
  | linkList l h items => cases items <;> simp [typed, hS] at ht
  | obj b i h fields =>
    simp only [typed, hS, Bool.and_eq_true] at ht
    exact .inr ⟨b, i, h, fields, rfl, ht.2⟩
  | nil => exact .inl rfl
  | _ => simp [typed, hS, GoBuilder.scalarFits] at ht

theorem typed_items {ty e : TypeId} {n : Text} {v : Val} (hS : S ty = .list n e)
    (ht : typed S ty false v = true) : v = .nil ∨ ∃ items, v = .list items ∧ typedItems S e items = true := by
  cases v with
  | linkList l h items => cases items <;> cases hE : S e <;> simp [typed, hS, hE] at ht
  | list items => simp only [typed, hS, Bool.and_eq_true] at ht; exact .inr ⟨items, rfl, ht.2⟩
  | nil => exact .inl rfl
  | _ => simp [typed, hS, GoBuilder.scalarFits] at ht

theorem typed_link {ty e : TypeId} {n : Text} {v : Val} (hS : S ty = .list n e)
    (ht : typed S ty true v = true) : v = .nil ∨ ∃ l h, isObject (S e) = true ∧ (v = .linkList l h .nil ∨
      ∃ items, v = .linkList l h (.list items) ∧ typedItems S e items = true) := by
  cases v with
  | linkList l h items =>
    cases items with
    | nil =>
      cases hE : S e <;> simp [typed, hS, hE] at ht
      exact .inr ⟨l, h, rfl, .inl rfl⟩
    | list items =>
      cases hE : S e <;> simp [typed, hS, hE] at ht
      exact .inr ⟨l, h, rfl, .inr ⟨items, rfl, ht⟩⟩
    | _ => simp [typed] at ht
  | nil => exact .inl rfl
  | _ => simp [typed, hS, GoBuilder.scalarFits] at ht

theorem typed_entries {ty e : TypeId} {link : Bool} {v : Val} (hS : S ty = .map e)
    (ht : typed S ty link v = true) : v = .nil ∨ ∃ es, v = .map es ∧ typedEntries S e es = true := by
  cases v with
  | linkList l h items => cases items <;> simp [typed, hS] at ht
  | map es => simp only [typed, hS] at ht; exact .inr ⟨es, rfl, ht⟩
  | nil => exact .inl rfl
  | _ => simp [typed, hS, GoBuilder.scalarFits] at ht

theorem typedItems_mem {e : TypeId} : ∀ {items : List Val}, typedItems S e items = true → ∀ v ∈ items,
    typed S e false v = true
  | [], _, _, hv => by simp at hv
  | x :: items, h, v, hv => by
    simp only [typedItems, Bool.and_eq_true] at h
    rcases List.mem_cons.mp hv with rfl | hv
    · exact h.1
    · exact typedItems_mem h.2 v hv

theorem typedEntries_mem {e : TypeId} : ∀ {es : List (Text × Val)}, typedEntries S e es = true → ∀ v ∈ es,
    typed S e false v.2 = true
  | [], _, _, hv => by simp at hv
  | (k, x) :: items, h, v, hv => by
    simp only [typedEntries, Bool.and_eq_true] at h
    rcases List.mem_cons.mp hv with rfl | hv
    · exact h.1
    · exact typedEntries_mem h.2 v hv

theorem size_entry {v : Text × Val} {es : List (Text × Val)} (h : v ∈ es) : sizeOf v.2 < sizeOf es := by
  have := List.sizeOf_lt_of_mem h
  cases v
  simp at this ⊢
  omega

theorem HoldsItems.length {E : Value Val → Prop} {t : State Val σ} {ty : TypeId} :
    ∀ {vs : List Val} {ys : List (Value Val)}, HoldsItems S U E t ty vs ys → ys.length = vs.length
  | [], [], _ => rfl
  | _ :: _, _ :: _, h => by
    rw [HoldsItems] at h
    simp [HoldsItems.length h.2]
  | [], _ :: _, h => by simp [HoldsItems] at h
  | _ :: _, [], h => by simp [HoldsItems] at h

theorem HoldsEntries.length {E : Value Val → Prop} {t : State Val σ} {ty : TypeId} :
    ∀ {vs : List (Text × Val)} {ys : GoMap (Value Val)}, HoldsEntries S U E t ty vs ys → ys.length = vs.length
  | [], [], _ => rfl
  | (_, _) :: _, (_, _) :: _, h => by
    rw [HoldsEntries] at h
    simp [HoldsEntries.length h.2.2]
  | [], _ :: _, h => by simp [HoldsEntries] at h
  | _ :: _, [], h => by simp [HoldsEntries] at h

theorem scalars_stored {E D : Value Val → Prop} {t t' : State Val σ} {e : TypeId} {ρ : List (Value Val)}
    (hs : (S e).isScalar = true) : ∀ (items : List Val) (ys : List (Value Val)), typedItems S e items = true →
    HoldsItems S U E t e items ys → StoresItems ρ D t' (items.map .scalar) ys
  | [], [], _, _ => by simp [StoresItems]
  | v :: items, y :: ys, ht, hh => by
    simp only [typedItems, Bool.and_eq_true] at ht
    rw [HoldsItems] at hh
    rw [List.map_cons, StoresItems]
    refine ⟨?_, scalars_stored hs items ys ht.2 hh.2⟩
    rw [Stores]
    exact holds_value (typed_fits hs ht.1) hh.1
  | [], _ :: _, _, h => by simp [HoldsItems] at h
  | _ :: _, [], _, h => by simp [HoldsItems] at h

/-! ## Steps of the loops -/

theorem array_copyStep {w : World Val σ} {names : List Text} {target e : Expr} {iname vname : Text} {b k : Nat}
    {xs : List (Value Val)} {t : State Val σ} {y : Value Val} {ρ : List (Value Val)} {D : Value Val → Prop}
    {r : Mem × BVal}
    (hi : (inner t vname y iname (.int k)).vars.lookup iname = some (.int k))
    (hg : Gives U ρ D (inner t vname y iname (.int k)) (e.eval w (inner t vname y iname (.int k))) r)
    (ht : ∀ t1, Frame (Valid (inner t vname y iname (.int k))) (inner t vname y iname (.int k)) t1 →
      target.eval w t1 = .ok (.slice b, t1))
    (hxs : t.arrays[b]? = some xs) (hk : k < xs.length) :
    ArrayCopied U ρ D b k xs t
      ((execBlock w names [.assign (.index target (.var iname)) e]
        (inner t vname y iname (.int k))).bind fun r => .ok (leave t r)) r := by
  obtain ⟨p, t1, δ, he, hf, hδ, hm, hst⟩ := hg
  have hxs1 : t1.arrays[b]? = some xs := hf.arrays b xs (List.getElem?_eq_some_iff.mp hxs).1 hxs
  have ha := eval_target_index (p := p) (ht t1 hf) (by rw [hf.vars]; exact hi) hxs1 hk
  refine ⟨p, { t1 with vars := t.vars }, δ, ?_, hf.setVars.mono (fun l _ hl => valid_vars.mpr hl),
    fun z hz hv => hδ z hz (valid_vars.mpr hv), hm.setVars _,
    Stores.move (s := t1) (t := { t1 with vars := t.vars }) (fun _ _ hd hs => ⟨hd, hs⟩) (List.prefix_refl _) _ _ hst⟩
  rw [execBlock_next (exec_assign he ha)]
  simp only [execBlock, Res.bind]
  exact congrArg Res.ok (leave_inner t _ vname y iname (.int k) (by exact hf.vars) _)

theorem map_copyStep {w : World Val σ} {names : List Text} {target e : Expr} {kname vname : Text} {b : Nat}
    {k : Text} {m : GoMap (Value Val)} {t : State Val σ} {y : Value Val} {ρ : List (Value Val)} {D : Value Val → Prop}
    {r : Mem × BVal}
    (hi : (inner t vname y kname (.str k)).vars.lookup kname = some (.str k))
    (hg : Gives U ρ D (inner t vname y kname (.str k)) (e.eval w (inner t vname y kname (.str k))) r)
    (ht : ∀ t1, Frame (Valid (inner t vname y kname (.str k))) (inner t vname y kname (.str k)) t1 →
      target.eval w t1 = .ok (.map b, t1))
    (hm : t.maps[b]? = some m) :
    MapCopied U ρ D b k m t
      ((execBlock w names [.assign (.index target (.var kname)) e]
        (inner t vname y kname (.str k))).bind fun r => .ok (leave t r)) r := by
  obtain ⟨p, t1, δ, he, hf, hδ, hmm, hst⟩ := hg
  have hm1 : t1.maps[b]? = some m := hf.maps b m (List.getElem?_eq_some_iff.mp hm).1 hm
  have ha := eval_target_key (p := p) (ht t1 hf) (by rw [hf.vars]; exact hi) hm1
  refine ⟨p, { t1 with vars := t.vars }, δ, ?_, hf.setVars.mono (fun l _ hl => valid_vars.mpr hl),
    fun z hz hv => hδ z hz (valid_vars.mpr hv), hmm.setVars _,
    Stores.move (s := t1) (t := { t1 with vars := t.vars }) (fun _ _ hd hs => ⟨hd, hs⟩) (List.prefix_refl _) _ _ hst⟩
  rw [execBlock_next (exec_assign he ha)]
  simp only [execBlock, Res.bind]
  exact congrArg Res.ok (leave_inner t _ vname y kname (.str k) (by exact hf.vars) _)

/-! ## Lists and maps -/

theorem Memory.enter {ρ : List (Value Val)} {D : Value Val → Prop} {s t : State Val σ} {mem : Mem} {o : Nat}
    {x : Value Val} (h : Memory U ρ D s mem) (hf : Frame (fun l => Valid s l ∧ l ≠ .pointer o) s t)
    (ho : ∀ x ∈ ρ, D x → x ≠ .pointer o) (hx : ¬ Valid s x) : Memory U ρ (Besides D x) t mem :=
  (h.change (fun _ hd hv => ⟨hd, fun e => hx (e ▸ hv)⟩) (fun _ _ hd => hd.1)).past hf (fun z hz hd => ho z hz hd.1)

theorem Memory.exit {ρ δ : List (Value Val)} {D : Value Val → Prop} {s t u : State Val σ} {mem mem' : Mem}
    {x : Value Val} (h : Memory U (ρ ++ δ) (Besides D x) t mem') (hm : Memory U ρ D s mem) (hx : ¬ Valid s x)
    (hδ : ∀ z ∈ δ, ¬ Valid u z) (hu : Valid u x) : Memory U (ρ ++ δ) D t mem' :=
  h.change (fun _ hd _ => hd.1) (fun z hz hd =>
    ⟨hd, apart_append (D := fun _ => True) (x := x) (fun _ hz _ e => fresh_not_mem hm hx (e ▸ hz)) hδ hu z hz trivial⟩)

theorem Fresh.enter {D : Value Val → Prop} {s t : State Val σ} {x : Value Val} (h : Fresh D s)
    (hv : ∀ l, Valid s l → Valid t l) (hx : Valid t x) : Fresh (Besides D x) t :=
  fun l hl => ⟨h l fun h' => hl (hv l h'), fun e => hl (e ▸ hx)⟩

section

variable {w : World Val σ} {names : List Text} {f f' src : Text} {t : State Val σ} {a o : Nat}
  {fb fo : List (Text × Value Val)} {old y : Value Val} (hx : t.vars.lookup t!"b" = some (.pointer a))
  (hs : t.structs[a]? = some fb) (hf : fb.lookup f = some old)
  (hxo : t.vars.lookup src = some (.pointer o)) (hso : t.structs[o]? = some fo)
  (hfo : fo.lookup f' = some y) (hao : a ≠ o)

include hx hs hf hxo hso hfo hao

theorem copy_scalars {ρ : List (Value Val)} {D : Value Val → Prop} {mem : Mem} {c : Nat} {ys : List (Value Val)}
    {items : List BVal} (typ : Text) (hy : y = .slice c) (hys : t.arrays[c]? = some ys)
    (hit : ∀ t' : State Val σ, StoresItems ρ D t' items ys) (hm : Memory U ρ D t mem) (hfresh : Fresh D t)
    (ha : ∀ z ∈ ρ, D z → z ≠ .pointer a) :
    MemberCopied U ρ D a f fb t
      (execBlock w names [.assign (dot t!"b" f) (.make typ (.len (dot src f'))),
        .copy (dot t!"b" f) (dot src f')] t) (mem, .list items) := by
  subst hy
  obtain ⟨fb', hp, he⟩ := exec_makeArray (w := w) (names := names) (typ := typ) hx hs hf
    (eval_dot hxo hso hfo) (xs := ys) hys
  have hso2 : (writeNew t a fb' [List.replicate ys.length .nil]).structs[o]? = some fo := by
    simp [writeNew, List.getElem?_set_ne hao, hso]
  have hs2 : (writeNew t a fb' [List.replicate ys.length .nil]).structs[a]? = some fb' :=
    write_get (s := t) fb' hs
  have hcopy : (Stmt.copy (dot t!"b" f) (dot src f')).exec w names
      (writeNew t a fb' [List.replicate ys.length .nil]) = .ok (.next, writeNew t a fb' [ys]) := by
    have h1 := eval_dot (w := w) (s := writeNew t a fb' [List.replicate ys.length .nil]) hx hs2 hp.same
    have h2 := eval_dot (w := w) (s := writeNew t a fb' [List.replicate ys.length .nil]) hxo hso2 hfo
    have h3 : (writeNew t a fb' [List.replicate ys.length .nil]).arrays[c]? = some ys := by
      simp only [writeNew]
      rw [List.getElem?_append_left (List.getElem?_eq_some_iff.mp hys).1]
      exact hys
    have h4 : (writeNew t a fb' [List.replicate ys.length .nil]).arrays[t.arrays.length]? =
        some (List.replicate ys.length .nil) := by
      simp [writeNew]
    simp only [Stmt.exec, h1, Res.bind, h2, State.elements, h3, Res.ofOption, h4]
    simp [writeNew]
  rw [execBlock_next he, execBlock_next hcopy]
  have hfr := frame_newArray t a fb' [ys]
  refine ⟨fb', .slice t.arrays.length, _, [], rfl, hfr, write_get (s := t) fb' hs, hp, by simp, ?_, ?_⟩
  · rw [List.append_nil]
    exact hm.past hfr ha
  · rw [List.append_nil, Stores]
    exact ⟨_, ys, rfl, hfresh _ (by simp [Valid]), by simp [writeNew], hit _⟩

theorem copy_items {ρ : List (Value Val)} {D E : Value Val → Prop} {mem : Mem} {c : Nat} {ys : List (Value Val)}
    {items : List Val} {e : TypeId} {elem : Expr} (R : Mem → Val → Mem × BVal) (ok : Val → Prop) (typ : Text)
    (hE : ∀ l, E l → Valid t l ∧ l ≠ .pointer a)
    (hy : y = .slice c) (hys : t.arrays[c]? = some ys) (hok : ∀ v ∈ items, ok v)
    (hit : HoldsItems S U E t e items ys) (hm : Memory U ρ D t mem) (hfresh : Fresh D t)
    (ha : ∀ z ∈ ρ, D z → z ≠ .pointer a)
    (hstep : ∀ (v : Val) (z : Value Val) (D : Value Val → Prop) (u : State Val σ) (ρ : List (Value Val)) (mem : Mem),
      ok v → Holds S U (fun _ => True) u e v z → Memory U ρ D u mem → Fresh D u →
      u.vars.lookup t!"v" = some z → Gives U ρ D u (elem.eval w u) (R mem v)) :
    MemberCopied U ρ D a f fb t
      (execBlock w names [.assign (dot t!"b" f) (.make typ (.len (dot src f'))),
        .range t!"i" t!"v" (dot src f') [.assign (.index (dot t!"b" f) (.var t!"i")) elem]] t)
      ((copyAll R mem items).1, .list (copyAll R mem items).2) := by
  subst hy
  obtain ⟨fb', hp, he⟩ := exec_makeArray (w := w) (names := names) (typ := typ) hx hs hf
    (eval_dot hxo hso hfo) (xs := ys) hys
  have hfr0 := frame_newArray t a fb' [List.replicate ys.length .nil]
  have hso2 : (writeNew t a fb' [List.replicate ys.length .nil]).structs[o]? = some fo := by
    simp [writeNew, List.getElem?_set_ne hao, hso]
  have hs2 : (writeNew t a fb' [List.replicate ys.length .nil]).structs[a]? = some fb' :=
    write_get (s := t) fb' hs
  have hb2 : (writeNew t a fb' [List.replicate ys.length .nil]).arrays[t.arrays.length]? =
      some (List.replicate ys.length .nil) := by
    simp [writeNew]
  have hv2 : (writeNew t a fb' [List.replicate ys.length .nil]).vars = t.vars := rfl
  rw [execBlock_next he]
  generalize writeNew t a fb' [List.replicate ys.length .nil] = t2 at hfr0 hso2 hs2 hb2 hv2
  have hinv : ¬ Valid t (.slice t.arrays.length) := by simp [Valid]
  have hvb : Valid t2 (.slice t.arrays.length) := (List.getElem?_eq_some_iff.mp hb2).1
  have hc2 : t2.arrays[c]? = some ys := hfr0.arrays c ys ⟨(List.getElem?_eq_some_iff.mp hys).1, by simp⟩ hys
  have hrange := exec_range (w := w) (names := names) (i := t!"i") (v := t!"v")
    (body := [.assign (.index (dot t!"b" f) (.var t!"i")) elem])
    (eval_dot (w := w) (s := t2) (x := src) (f := f') (by rw [hv2]; exact hxo) hso2 hfo) (xs := ys) hc2
  obtain ⟨post, t', δ, he', hf', hb', hδ, hm', hst'⟩ := loop_arrayCopy (S := S) (U := U) (E := E) (D := D) R e ok
    t.arrays.length
    (fun k v s => (execBlock w names [.assign (.index (dot t!"b" f) (.var t!"i")) elem]
      { s with vars := (t!"v", v) :: (t!"i", .int k) :: s.vars }).bind fun r => .ok (leave s r))
    (fun u => u.vars = t2.vars ∧ u.structs[a]? = some fb')
    (fun h => hinv (hE _ h).1)
    (fun u u' hu hfr => ⟨hfr.vars.trans hu.1,
      hfr.structs a fb' ⟨(List.getElem?_eq_some_iff.mp hu.2).1, by simp⟩ hu.2⟩)
    (by
      intro k v z u xs ρ mem hv hh hmu hfu hu hxs hk
      refine array_copyStep (vname := t!"v") rfl ?_ ?_ hxs hk
      · refine hstep v z _ _ ρ mem hv ?_ (hmu.setVars _) (fun l hl => hfu l fun h => hl (valid_vars.mpr h)) rfl
        exact Holds.move (move_vars (s := u) fun _ _ => trivial) _ _ _ hh
      · intro t1 hfr
        have hs1 : t1.structs[a]? = some fb' :=
          hfr.structs a fb' (List.getElem?_eq_some_iff.mp hu.2).1 hu.2
        refine eval_dot ?_ hs1 hp.same
        rw [hfr.vars]
        change List.lookup t!"b" ((t!"v", z) :: (t!"i", Value.int k) :: u.vars) = _
        rw [List.lookup, show (t!"b" == t!"v") = false from rfl, List.lookup, show (t!"b" == t!"i") = false from rfl,
          hu.1, hv2]
        exact hx)
    items ys t2 [] ρ mem hok (HoldsItems.move (hfr0.moves fun l hl _ => (hE l hl).2) _ _ _ hit)
    (hm.enter hfr0 ha hinv) (hfresh.enter hfr0.valid hvb) ⟨rfl, hs2⟩ (by rw [hb2, hit.length]; rfl)
  rw [execBlock_next (hrange.trans he')]
  refine ⟨fb', .slice t.arrays.length, t', δ, rfl, ?_, ?_, hp, fun z hz hv => hδ z hz (hfr0.valid z hv),
    hm'.exit hm hinv hδ hvb, ?_⟩
  · exact hfr0.trans (hf'.mono fun l _ hl => ⟨hfr0.valid l hl.1, fun e' => hinv (e' ▸ hl.1)⟩)
  · exact hf'.structs a fb' ⟨(List.getElem?_eq_some_iff.mp hs2).1, by simp⟩ hs2
  · rw [Stores]
    refine ⟨_, post, rfl, hfresh _ hinv, by simpa using hb', ?_⟩
    exact StoresItems.move (keep_same fun _ h => h.1) (List.prefix_refl _) _ _ hst'

theorem copy_entries {ρ : List (Value Val)} {D E : Value Val → Prop} {mem : Mem} {c : Nat} {m : GoMap (Value Val)}
    {es : List (Text × Val)} {e : TypeId} {elem : Expr} (R : Mem → Val → Mem × BVal) (ok : Val → Prop) (typ : Text)
    (hE : ∀ l, E l → Valid t l ∧ l ≠ .pointer a)
    (hy : y = .map c) (hys : t.maps[c]? = some m) (hnd : (m.map Prod.fst).Nodup) (hok : ∀ v ∈ es, ok v.2)
    (hit : HoldsEntries S U E t e es m) (hm : Memory U ρ D t mem) (hfresh : Fresh D t)
    (ha : ∀ z ∈ ρ, D z → z ≠ .pointer a)
    (hstep : ∀ (v : Val) (z : Value Val) (D : Value Val → Prop) (u : State Val σ) (ρ : List (Value Val)) (mem : Mem),
      ok v → Holds S U (fun _ => True) u e v z → Memory U ρ D u mem → Fresh D u →
      u.vars.lookup t!"v" = some z → Gives U ρ D u (elem.eval w u) (R mem v)) :
    MemberCopied U ρ D a f fb t
      (execBlock w names [.assign (dot t!"b" f) (.emptyMap typ),
        .rangeMap t!"k" t!"v" (dot src f') [.assign (.index (dot t!"b" f) (.var t!"k")) elem]] t)
      ((copyAllEntries R mem es).1 ++ [.map e (copyAllEntries R mem es).2], .ref (copyAllEntries R mem es).1.length) := by
  subst hy
  let s1 : State Val σ := { t with maps := t.maps ++ [[]] }
  obtain ⟨fb', hp, he0⟩ := assign_field w (s := s1) (.map t.maps.length) hx hs hf
  have he : (Stmt.assign (dot t!"b" f) (.emptyMap typ)).exec w names t = .ok (.next, writeMap t a fb' []) := by
    have hmk : (Expr.emptyMap typ).eval w t = .ok (.map t.maps.length, s1) := by simp only [Expr.eval, allocMap, s1]
    rw [exec_assign hmk he0]
    rfl
  have hfr0 := frame_newMap t a fb' []
  have hso2 : (writeMap t a fb' []).structs[o]? = some fo := by
    simp [writeMap, List.getElem?_set_ne hao, hso]
  have hs2 : (writeMap t a fb' []).structs[a]? = some fb' := write_get (s := t) fb' hs
  have hb2 : (writeMap t a fb' []).maps[t.maps.length]? = some [] := by simp [writeMap]
  have hv2 : (writeMap t a fb' []).vars = t.vars := rfl
  rw [execBlock_next he]
  generalize writeMap t a fb' [] = t2 at hfr0 hso2 hs2 hb2 hv2
  have hinv : ¬ Valid t (.map t.maps.length) := by simp [Valid]
  have hvb : Valid t2 (.map t.maps.length) := (List.getElem?_eq_some_iff.mp hb2).1
  have hc2 : t2.maps[c]? = some m := hfr0.maps c m ⟨(List.getElem?_eq_some_iff.mp hys).1, by simp⟩ hys
  have hrange := exec_rangeMap (w := w) (names := names) (i := t!"k") (v := t!"v")
    (body := [.assign (.index (dot t!"b" f) (.var t!"k")) elem])
    (eval_dot (w := w) (s := t2) (x := src) (f := f') (by rw [hv2]; exact hxo) hso2 hfo) (xs := m) hc2
  obtain ⟨post, t', δ, he', hf', hb', hk', hδ, hm', hst'⟩ := loop_mapCopy (S := S) (U := U) (E := E) (D := D) R e ok
    t.maps.length
    (fun k v s => (execBlock w names [.assign (.index (dot t!"b" f) (.var t!"k")) elem]
      { s with vars := (t!"v", v) :: (t!"k", .str k) :: s.vars }).bind fun r => .ok (leave s r))
    (fun u => u.vars = t2.vars ∧ u.structs[a]? = some fb')
    (fun h => hinv (hE _ h).1)
    (fun u u' hu hfr => ⟨hfr.vars.trans hu.1,
      hfr.structs a fb' ⟨(List.getElem?_eq_some_iff.mp hu.2).1, by simp⟩ hu.2⟩)
    (by
      intro k v z u xs ρ mem hv hh hmu hfu hu hxs
      refine map_copyStep (vname := t!"v") rfl ?_ ?_ hxs
      · refine hstep v z _ _ ρ mem hv ?_ (hmu.setVars _) (fun l hl => hfu l fun h => hl (valid_vars.mpr h)) rfl
        exact Holds.move (move_vars (s := u) fun _ _ => trivial) _ _ _ hh
      · intro t1 hfr
        have hs1 : t1.structs[a]? = some fb' :=
          hfr.structs a fb' (List.getElem?_eq_some_iff.mp hu.2).1 hu.2
        refine eval_dot ?_ hs1 hp.same
        rw [hfr.vars]
        change List.lookup t!"b" ((t!"v", z) :: (t!"k", Value.str k) :: u.vars) = _
        rw [List.lookup, show (t!"b" == t!"v") = false from rfl, List.lookup, show (t!"b" == t!"k") = false from rfl,
          hu.1, hv2]
        exact hx)
    es m t2 [] ρ mem hok (HoldsEntries.move (hfr0.moves fun l hl _ => (hE l hl).2) _ _ _ hit)
    (hm.enter hfr0 ha hinv) (hfresh.enter hfr0.valid hvb) ⟨rfl, hs2⟩ hb2 (by simpa using hnd)
  rw [execBlock_next (hrange.trans he')]
  have hme := hm'.exit hm hinv hδ hvb
  have hfr' : Frame (fun l => Valid t l ∧ l ≠ .pointer a) t t' :=
    hfr0.trans (hf'.mono fun l _ hl => ⟨hfr0.valid l hl.1, fun e' => hinv (e' ▸ hl.1)⟩)
  refine ⟨fb', .map t.maps.length, t', δ ++ [.map t.maps.length], rfl, hfr', ?_, hp, ?_, ?_, ?_⟩
  · exact hf'.structs a fb' ⟨(List.getElem?_eq_some_iff.mp hs2).1, by simp⟩ hs2
  · intro z hz hv
    rcases List.mem_append.mp hz with hz | hz
    · exact hδ z hz (hfr0.valid z hv)
    · simp at hz
      exact hinv (hz ▸ hv)
  · rw [← List.append_assoc]
    apply hme.push
    · exact hf'.valid _ hvb
    · intro h
      rcases List.mem_append.mp h with h | h
      · exact fresh_not_mem hm hinv h
      · exact hδ _ h hvb
    · refine ⟨_, post, rfl, by simpa using hb', by rw [hk']; exact hnd, ?_⟩
      exact StoresEntries.move (keep_same fun _ h => h.1) (List.prefix_append _ _) _ _ hst'
  · rw [Stores, ← List.append_assoc, ← hme.length]
    simp

end

end Verif.BuildersRun
