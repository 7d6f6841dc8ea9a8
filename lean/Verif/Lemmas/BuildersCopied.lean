import Verif.Lemmas.BuildersCopyMembers

/-!
# Lemmas about running the generated builders: what the methods `Copy` do
-/

namespace Verif.BuildersRun

open GoJson (Val Schema Shape AttrShape)
open GoBuilder (BVal Cell Mem typed typedItems typedEntries typedFields)
open GoProgram
open TypesCode (dot)
open TypesRun (Legal value)
open BuildersCode (copyOf copyIf fieldNotNil fluent)

variable {σ : Type} {S : Schema} {U : TypeId → Code} {P : Program} {zero : Text → Text → Value Val}

/-! ## The attributes of an object -/

/-- Copying objects to new builders does what the model says, for objects that are smaller than a size. -/
def CopiesObjects (S : Schema) (U : TypeId → Code) (w : World Val σ) (pkg : Text) (N : Nat) : Prop :=
  ∀ (tt : BuildersCode.Target) (e : TypeId) (link : Bool) (arg : Expr) (v : Val) (y : Value Val) (t : State Val σ)
    (ρ : List (Value Val)) (D : Value Val → Prop) (mem : Mem),
    Names pkg tt (U e) → isObject (S e) = true → typed S e link v = true → sizeOf v < N →
    Holds S U (fun _ => True) t e v y → Memory U ρ D t mem → Fresh D t →
    (∀ t1, Frame (Valid t) t t1 → arg.eval w t1 = .ok (y, t1)) →
    Gives U ρ D t ((copyOf tt arg).eval w t) (GoBuilder.copyNew S e mem v)

/-- Copying lists to new builders does what the model says, for lists that are smaller than a size. -/
def CopiesLists (S : Schema) (U : TypeId → Code) (w : World Val σ) (pkg : Text) (N : Nat) : Prop :=
  ∀ (tt : BuildersCode.Target) (ty e : TypeId) (n : Text) (arg : Expr) (l : Bool) (h : Text) (items : Val)
    (y : Value Val) (t : State Val σ) (ρ : List (Value Val)) (D : Value Val → Prop) (mem : Mem) (old : BVal),
    S ty = .list n e → isObject (S e) = true → ListNames pkg tt (U e) →
    typed S ty true (.linkList l h items) = true → sizeOf (Val.linkList l h items) < N →
    Holds S U (fun _ => True) t ty (.linkList l h items) y → Memory U ρ D t mem → Fresh D t →
    (∀ t1, Frame (Valid t) t t1 → arg.eval w t1 = .ok (y, t1)) →
    Gives U ρ D t ((copyOf tt arg).eval w t) (GoBuilder.copyField S ty true old mem (.linkList l h items))

theorem Holds.any {E : Value Val → Prop} {t : State Val σ} {ty : TypeId} {v : Val} {y : Value Val}
    (h : Holds S U E t ty v y) : Holds S U (fun _ => True) t ty v y :=
  Holds.move (Move.change fun _ _ _ => trivial) _ _ _ h

section

variable {w : World Val σ} {names : List Text} {pkg : Text} {N : Nat} {at_ : AttrShape} {m : BuildersCode.Member}
  {t : State Val σ} {a o : Nat} {fb fo : List (Text × Value Val)} {old y : Value Val} {ρ : List (Value Val)}
  {D E : Value Val → Prop} {mem : Mem} {bv : BVal} {v : Val}

theorem eval_notNil {x f : Text} (hx : t.vars.lookup x = some (.pointer a)) (hs : t.structs[a]? = some fb)
    (hf : fb.lookup f = some y) {q : Bool} (hq : equal y .nil = some q) :
    (fieldNotNil x f).eval w t = .ok (.bool !q, t) := by
  simp only [fieldNotNil, Expr.eval, eval_dot hx hs hf, Res.bind, hq, Res.ofOption]

theorem eval_some {x f : Text} (hx : t.vars.lookup x = some (.pointer a)) (hs : t.structs[a]? = some fb)
    (hf : fb.lookup f = some y) {ys : List (Value Val)} (hq : t.elements y = some ys) :
    (Expr.gt (.len (dot x f)) (.int 0)).eval w t = .ok (.bool !ys.isEmpty, t) := by
  simp only [Expr.eval, eval_dot hx hs hf, Res.bind, hq, Res.ofOption, GoProgram.compare]
  congr 3
  cases ys <;> simp <;> omega

theorem exec_copyMember (hO : CopiesObjects S U w pkg N) (hL : CopiesLists S U w pkg N)
    {g : TypesCode.Member} (hmt : Matches S U zero pkg at_ m g)
    (hx : t.vars.lookup t!"b" = some (.pointer a))
    (hs : t.structs[a]? = some fb) (hf : fb.lookup m.field = some old) (hold : Stores ρ D t bv old)
    (hxo : t.vars.lookup t!"object" = some (.pointer o)) (hso : t.structs[o]? = some fo)
    (hfo : fo.lookup m.field = some y) (hao : a ≠ o) (hE : ∀ l, E l → Valid t l ∧ l ≠ .pointer a)
    (hh : Holds S U E t at_.typ v y) (ht : typed S at_.typ at_.link v = true) (hN : sizeOf v < N)
    (hm : Memory U ρ D t mem) (hfresh : Fresh D t) (ha : ∀ z ∈ ρ, D z → z ≠ .pointer a) :
    MemberCopied U ρ D a m.field fb t (execBlock w names m.copy t)
      (GoBuilder.copyField S at_.typ at_.link bv mem v) := by
  have hform := hmt.form
  have hsrc : ∀ t1, Frame (Valid t) t t1 → (dot t!"object" m.field).eval w t1 = .ok (y, t1) := fun t1 hfr =>
    eval_dot (by rw [hfr.vars]; exact hxo) (hfr.structs o fo (List.getElem?_eq_some_iff.mp hso).1 hso) hfo
  have hnil : ∀ {q : Bool}, equal y .nil = some q →
      (fieldNotNil t!"object" m.field).eval w t = .ok (.bool !q, t) := fun hq => eval_notNil hxo hso hfo hq
  have hsome : ∀ {ys : List (Value Val)}, t.elements y = some ys →
      (Expr.gt (.len (dot t!"object" m.field)) (.int 0)).eval w t = .ok (.bool !ys.isEmpty, t) := fun hq =>
    eval_some hxo hso hfo hq
  cases hfm : m.form with
  | scalar =>
    rw [hfm] at hform
    rw [copyField_scalar hform ht]
    simp only [BuildersCode.Member.copy, hfm]
    apply member_assign hx hs hf ha
    rw [hsrc t (Frame.refl _ _)]
    exact gives_same hm (by rw [Stores]; exact holds_value (typed_fits hform ht) hh)
  | object tt =>
    rw [hfm] at hform
    obtain ⟨ho, hn⟩ := hform
    obtain ⟨c, nm, as, hS⟩ := isObject_iff.mp ho
    simp only [BuildersCode.Member.copy, hfm]
    rcases typed_object hS ht with rfl | ⟨bitmap, id, href, fields, rfl, -⟩
    · have hy : y = .nil := by simpa [Holds, value] using hh
      subst hy
      have : GoBuilder.copyField S at_.typ at_.link bv mem .nil = (mem, .nil) := by simp [GoBuilder.copyField, hS]
      rw [this]
      exact copyIf_no (hnil (q := true) rfl) hx hs hf ha hm
    · have hg := hO tt at_.typ at_.link _ _ y t ρ D mem hn ho ht hN hh.any hm hfresh hsrc
      have hq : equal y .nil = some false := by
        rw [Holds] at hh
        obtain ⟨_, _, rfl, -⟩ := hh
        rfl
      have hc : GoBuilder.copyField S at_.typ at_.link bv mem (.obj bitmap id href fields) =
          GoBuilder.copyNew S at_.typ mem (.obj bitmap id href fields) := by
        simp only [GoBuilder.copyField, GoBuilder.copyNew, hS]
      rw [hc]
      exact copyIf_yes (hnil hq) (member_assign hx hs hf ha hg)
  | linkList tt =>
    rw [hfm] at hform
    obtain ⟨n, e, hS, hl, hn⟩ := hform
    rw [hl] at ht ⊢
    simp only [BuildersCode.Member.copy, hfm]
    rcases typed_link hS ht with rfl | ⟨l, h, ho, hv⟩
    · have hy : y = .nil := by simpa [Holds, value] using hh
      subst hy
      have : GoBuilder.copyField S at_.typ true bv mem .nil = (mem, .nil) := by simp [GoBuilder.copyField, hS]
      rw [this]
      exact copyIf_no (hnil (q := true) rfl) hx hs hf ha hm
    · obtain ⟨items, rfl⟩ : ∃ items, v = .linkList l h items := by
        rcases hv with h | ⟨_, h, -⟩ <;> exact ⟨_, h⟩
      have hg := hL tt at_.typ e n _ l h items y t ρ D mem bv hS ho (hn ho) ht hN hh.any hm hfresh hsrc
      have hq : equal y .nil = some false := by
        rw [Holds] at hh
        obtain ⟨_, _, rfl, -⟩ := hh
        rfl
      exact copyIf_yes (hnil hq) (member_assign hx hs hf ha hg)
  | scalars element =>
    rw [hfm] at hform
    obtain ⟨n, e, hS, hl, hsc⟩ := hform
    rw [hl] at ht ⊢
    simp only [BuildersCode.Member.copy, hfm]
    rcases typed_items hS ht with rfl | ⟨items, rfl, hti⟩
    · have hy : y = .nil := by simpa [Holds, value] using hh
      subst hy
      have : GoBuilder.copyField S at_.typ false bv mem .nil = (mem, .nil) := by simp [GoBuilder.copyField, hS]
      rw [this]
      exact copyIf_no (hnil (q := true) rfl) hx hs hf ha hm
    · rw [Holds] at hh
      obtain ⟨c, ys, rfl, -, hys, hit⟩ := hh
      rw [show elementOf S at_.typ = e by simp [elementOf, hS]] at hit
      have : GoBuilder.copyField S at_.typ false bv mem (.list items) = (mem, .list (items.map .scalar)) := by
        simp only [GoBuilder.copyField, hS]
        cases hE : S e <;> simp [hE, Shape.isScalar] at hsc ⊢
      rw [this]
      exact copyIf_yes (hnil (q := false) rfl) (copy_scalars hx hs hf hxo hso hfo hao _ rfl hys
        (fun t' => scalars_stored hsc items ys hti hit) hm hfresh ha)
  | objects tt =>
    rw [hfm] at hform
    obtain ⟨n, e, hS, hl, ho, hn⟩ := hform
    rw [hl] at ht ⊢
    simp only [BuildersCode.Member.copy, hfm]
    rcases typed_items hS ht with rfl | ⟨items, rfl, hti⟩
    · have hy : y = .nil := by simpa [Holds, value] using hh
      subst hy
      have : GoBuilder.copyField S at_.typ false bv mem .nil = (mem, .nil) := by simp [GoBuilder.copyField, hS]
      rw [this]
      exact copyIf_no (hnil (q := true) rfl) hx hs hf ha hm
    · rw [Holds] at hh
      obtain ⟨c, ys, rfl, -, hys, hit⟩ := hh
      rw [show elementOf S at_.typ = e by simp [elementOf, hS]] at hit
      have : GoBuilder.copyField S at_.typ false bv mem (.list items) =
          ((copyAll (GoBuilder.copyNew S e) mem items).1, .list (copyAll (GoBuilder.copyNew S e) mem items).2) := by
        obtain ⟨c, nm, as, hSe⟩ := isObject_iff.mp ho
        simp only [GoBuilder.copyField, hS, hSe, copyItems_eq]
        rfl
      rw [this]
      refine copyIf_yes (hnil (q := false) rfl) (copy_items (S := S) (E := E) (e := e) hx hs hf hxo hso hfo hao
        (GoBuilder.copyNew S e) (fun v => typed S e false v = true ∧ sizeOf v < N) _ hE rfl hys
        (fun v hv => ⟨typedItems_mem hti v hv, ?_⟩) hit hm hfresh ha ?_)
      · have := List.sizeOf_lt_of_mem hv
        simp only [Val.list.sizeOf_spec] at hN
        omega
      · intro v z D u ρ mem hok hh hm hfr hlook
        exact hO tt e false _ v z u ρ D mem hn ho hok.1 hok.2 hh hm hfr fun t1 h1 =>
          eval_var (by rw [h1.vars]; exact hlook)
  | others builder =>
    rw [hfm] at hform
    obtain ⟨n, e, hS, hl, hsc, ho⟩ := hform
    rw [hl] at ht ⊢
    simp only [BuildersCode.Member.copy, hfm]
    rcases typed_items hS ht with rfl | ⟨items, rfl, hti⟩
    · have hy : y = .nil := by simpa [Holds, value] using hh
      subst hy
      have : GoBuilder.copyField S at_.typ false bv mem .nil = (mem, .nil) := by simp [GoBuilder.copyField, hS]
      rw [this]
      exact copyIf_no (hnil (q := true) rfl) hx hs hf ha hm
    · rw [Holds] at hh
      obtain ⟨c, ys, rfl, -, hys, hit⟩ := hh
      have : GoBuilder.copyField S at_.typ false bv mem (.list items) = (mem, bv) := by
        simp only [GoBuilder.copyField, hS]
        cases hE : S e <;> simp [hE, Shape.isScalar, isObject] at hsc ho ⊢
      rw [this]
      exact copyIf_yes (hnil (q := false) rfl) (member_keep hs hf hm hold)
  | scalarMap =>
    rw [hfm] at hform
    obtain ⟨e, hS, hsc⟩ := hform
    simp only [BuildersCode.Member.copy, hfm]
    rcases typed_entries hS ht with rfl | ⟨es, rfl, hte⟩
    · have hy : y = .nil := by simpa [Holds, value] using hh
      subst hy
      have : GoBuilder.copyField S at_.typ at_.link bv mem .nil = (mem, .nil) := by simp [GoBuilder.copyField, hS]
      rw [this]
      exact copyIf_no (hsome (ys := []) rfl) hx hs hf ha hm
    · rw [Holds] at hh
      obtain ⟨c, es', rfl, -, hys, hnd, hit⟩ := hh
      rw [show elementOf S at_.typ = e by simp [elementOf, hS]] at hit
      have hel : t.elements (.map c) = some (es'.map Prod.snd) := by simp [State.elements, hys]
      cases es with
      | nil =>
        have h0 : es' = [] := by simpa using hit.length
        subst h0
        have : GoBuilder.copyField S at_.typ at_.link bv mem (.map []) = (mem, .nil) := by
          simp [GoBuilder.copyField, hS]
        rw [this]
        exact copyIf_no (hsome hel) hx hs hf ha hm
      | cons e1 es =>
        have : GoBuilder.copyField S at_.typ at_.link bv mem (.map (e1 :: es)) =
            ((copyAllEntries (fun mem v => (mem, .scalar v)) mem (e1 :: es)).1 ++
              [.map e (copyAllEntries (fun mem v => (mem, .scalar v)) mem (e1 :: es)).2],
              .ref (copyAllEntries (fun mem v => (mem, .scalar v)) mem (e1 :: es)).1.length) := by
          simp only [copyScalars_eq, GoBuilder.copyField, hS]
          cases hE : S e <;> simp [hE, Shape.isScalar] at hsc ⊢
        rw [this]
        have hne : (es'.map Prod.snd).isEmpty = false := by
          cases es' with
          | nil => simp [HoldsEntries] at hit
          | cons _ _ => rfl
        have hc := hsome hel
        rw [hne] at hc
        refine copyIf_yes hc (copy_entries (S := S) (E := E) (e := e) hx hs hf hxo hso hfo hao
          (fun mem v => (mem, .scalar v)) (fun v => typed S e false v = true) _ hE rfl hys hnd
          (fun v hv => typedEntries_mem hte v hv) hit hm hfresh ha ?_)
        intro v z D u ρ mem hok hh hm hfr hlook
        rw [eval_var hlook]
        exact gives_same hm (by rw [Stores]; exact holds_value (typed_fits hsc hok) hh)
  | objectMap tt =>
    rw [hfm] at hform
    obtain ⟨e, hS, ho, hn⟩ := hform
    simp only [BuildersCode.Member.copy, hfm]
    rcases typed_entries hS ht with rfl | ⟨es, rfl, hte⟩
    · have hy : y = .nil := by simpa [Holds, value] using hh
      subst hy
      have : GoBuilder.copyField S at_.typ at_.link bv mem .nil = (mem, .nil) := by simp [GoBuilder.copyField, hS]
      rw [this]
      exact copyIf_no (hsome (ys := []) rfl) hx hs hf ha hm
    · rw [Holds] at hh
      obtain ⟨c, es', rfl, -, hys, hnd, hit⟩ := hh
      rw [show elementOf S at_.typ = e by simp [elementOf, hS]] at hit
      have hel : t.elements (.map c) = some (es'.map Prod.snd) := by simp [State.elements, hys]
      cases es with
      | nil =>
        have h0 : es' = [] := by simpa using hit.length
        subst h0
        have : GoBuilder.copyField S at_.typ at_.link bv mem (.map []) = (mem, .nil) := by
          simp [GoBuilder.copyField, hS]
        rw [this]
        exact copyIf_no (hsome hel) hx hs hf ha hm
      | cons e1 es =>
        have : GoBuilder.copyField S at_.typ at_.link bv mem (.map (e1 :: es)) =
            ((copyAllEntries (GoBuilder.copyNew S e) mem (e1 :: es)).1 ++
              [.map e (copyAllEntries (GoBuilder.copyNew S e) mem (e1 :: es)).2],
              .ref (copyAllEntries (GoBuilder.copyNew S e) mem (e1 :: es)).1.length) := by
          obtain ⟨c, nm, as, hSe⟩ := isObject_iff.mp ho
          simp only [GoBuilder.copyField, hS, hSe, copyEntries_eq]
        rw [this]
        have hne : (es'.map Prod.snd).isEmpty = false := by
          cases es' with
          | nil => simp [HoldsEntries] at hit
          | cons _ _ => rfl
        have hc := hsome hel
        rw [hne] at hc
        refine copyIf_yes hc (copy_entries (S := S) (E := E) (e := e) hx hs hf hxo hso hfo hao
          (GoBuilder.copyNew S e) (fun v => typed S e false v = true ∧ sizeOf v < N) _ hE rfl hys hnd
          (fun v hv => ⟨typedEntries_mem hte v hv, ?_⟩) hit hm hfresh ha ?_)
        · have := size_entry hv
          simp only [Val.map.sizeOf_spec] at hN
          omega
        · intro v z D u ρ mem hok hh hm hfr hlook
          exact hO tt e false _ v z u ρ D mem hn ho hok.1 hok.2 hh hm hfr fun t1 h1 =>
            eval_var (by rw [h1.vars]; exact hlook)
  | otherMap =>
    rw [hfm] at hform
    obtain ⟨e, hS, hsc, ho⟩ := hform
    simp only [BuildersCode.Member.copy, hfm]
    rcases typed_entries hS ht with rfl | ⟨es, rfl, hte⟩
    · have hy : y = .nil := by simpa [Holds, value] using hh
      subst hy
      have : GoBuilder.copyField S at_.typ at_.link bv mem .nil = (mem, .nil) := by simp [GoBuilder.copyField, hS]
      rw [this]
      exact copyIf_no (hsome (ys := []) rfl) hx hs hf ha hm
    · rw [Holds] at hh
      obtain ⟨c, es', rfl, -, hys, hnd, hit⟩ := hh
      have hel : t.elements (.map c) = some (es'.map Prod.snd) := by simp [State.elements, hys]
      cases es with
      | nil =>
        have h0 : es' = [] := by simpa using hit.length
        subst h0
        have : GoBuilder.copyField S at_.typ at_.link bv mem (.map []) = (mem, .nil) := by
          simp [GoBuilder.copyField, hS]
        rw [this]
        exact copyIf_no (hsome hel) hx hs hf ha hm
      | cons e1 es =>
        have : GoBuilder.copyField S at_.typ at_.link bv mem (.map (e1 :: es)) = (mem, bv) := by
          simp only [GoBuilder.copyField, hS]
          cases hE : S e <;> simp [hE, Shape.isScalar, isObject] at hsc ho ⊢
        rw [this]
        have hne : (es'.map Prod.snd).isEmpty = false := by
          cases es' with
          | nil => simp [HoldsEntries] at hit
          | cons _ _ => rfl
        have hc := hsome hel
        rw [hne] at hc
        exact copyIf_yes hc (member_keep hs hf hm hold)

end

/-- What copying the attributes of an object does. -/
def MembersCopied (U : TypeId → Code) (ρ : List (Value Val)) (D : Value Val → Prop) (a : Nat) (names : List Text)
    (fb : List (Text × Value Val)) (t : State Val σ) (res : Res (Flow Val × State Val σ)) (r : Mem × List BVal) : Prop :=
  ∃ fb' t' δ, res = .ok (.next, t') ∧ Frame (fun l => Valid t l ∧ l ≠ .pointer a) t t' ∧
    t'.structs[a]? = some fb' ∧ fb'.map Prod.fst = fb.map Prod.fst ∧
    (∀ f, f ∉ names → fb'.lookup f = fb.lookup f) ∧ (∀ z ∈ δ, ¬ Valid t z) ∧
    Memory U (ρ ++ δ) D t' r.1 ∧ StoresFields (ρ ++ δ) D t' fb' names r.2

theorem exec_copyMembers {w : World Val σ} {names : List Text} {pkg : Text} {N : Nat} {D E : Value Val → Prop}
    (hO : CopiesObjects S U w pkg N) (hL : CopiesLists S U w pkg N) {a o : Nat} {fo : List (Text × Value Val)}
    (hao : a ≠ o) :
    ∀ (as : List AttrShape) (ms : List BuildersCode.Member) (olds : List BVal) (vs : List Val) (t : State Val σ)
      (fb : List (Text × Value Val)) (ρ : List (Value Val)) (mem : Mem),
      (∀ (i : Nat) at_ m, as[i]? = some at_ → ms[i]? = some m → ∃ g, Matches S U zero pkg at_ m g) →
      typedFields S as vs = true → sizeOf vs < N → StoresFields ρ D t fb (ms.map (·.field)) olds →
      (ms.map (·.field)).Nodup → t.vars.lookup t!"b" = some (.pointer a) → t.structs[a]? = some fb →
      t.vars.lookup t!"object" = some (.pointer o) → t.structs[o]? = some fo →
      (∀ l, E l → Valid t l ∧ l ≠ .pointer a) → HoldsFields S U E t fo (as.zip (ms.map (·.field))) vs →
      Memory U ρ D t mem → Fresh D t → (∀ z ∈ ρ, D z → z ≠ .pointer a) → as.length = ms.length →
      MembersCopied U ρ D a (ms.map (·.field)) fb t (execBlock w names (ms.flatMap BuildersCode.Member.copy) t)
        (GoBuilder.copyFields S mem as olds vs)
  | [], [], [], [], t, fb, ρ, mem, _, _, _, _, _, _, hs, _, _, _, _, hm, _, _, _ => by
    refine ⟨fb, t, [], rfl, Frame.refl _ _, hs, rfl, fun _ _ => rfl, by simp, ?_, ?_⟩
    · simpa [GoBuilder.copyFields] using hm
    · simp [GoBuilder.copyFields, StoresFields]
  | at_ :: as, m :: ms, bv :: olds, v :: vs, t, fb, ρ, mem, hat, htf, hN, hst, hnd, hx, hs, hxo, hso, hE, hh, hm,
      hfr, ha, hlen => by
    obtain ⟨⟨old, hold, hbv⟩, hst'⟩ := hst
    obtain ⟨g, hg⟩ := hat 0 at_ m rfl rfl
    simp only [typedFields, Bool.and_eq_true] at htf
    rw [List.map_cons, List.zip_cons_cons, HoldsFields] at hh
    obtain ⟨⟨y, hy, hhy⟩, hh'⟩ := hh
    simp only [List.cons.sizeOf_spec] at hN
    have h1 := exec_copyMember (names := names) hO hL hg hx hs hold hbv hxo hso hy hao hE hhy htf.1 (by omega) hm hfr ha
    rw [List.map_cons, List.nodup_cons] at hnd
    obtain ⟨fb1, z, t1, δ1, he1, hf1, hs1, hp1, hδ1, hm1, hz⟩ := h1
    have hso1 : t1.structs[o]? = some fo :=
      hf1.structs o fo ⟨(List.getElem?_eq_some_iff.mp hso).1, by simp [Ne.symm hao]⟩ hso
    have hva : Valid t (.pointer a) := (List.getElem?_eq_some_iff.mp hs).1
    have ih := exec_copyMembers (names := names) hO hL hao as ms olds vs t1 fb1 (ρ ++ δ1) _
      (fun i a' m' h1 h2 => hat (i + 1) a' m' (by simpa using h1) (by simpa using h2)) htf.2 (by omega)
      (StoresFields.move (keep_past hf1) (List.prefix_append _ _) _ _
        (fun f hf => hp1.other f fun e => hnd.1 (e ▸ hf)) hst') hnd.2
      (by rw [hf1.vars]; exact hx) hs1 (by rw [hf1.vars]; exact hxo) hso1
      (fun l hl => ⟨hf1.valid l (hE l hl).1, (hE l hl).2⟩)
      (HoldsFields.move (hf1.moves fun l hl _ => (hE l hl).2) _ _ _ hh') hm1 (hfr.frame hf1)
      (apart_append ha hδ1 hva) (by simpa using hlen)
    obtain ⟨fb', t', δ, he', hf', hs', hk', hother, hδ, hm', hst2⟩ := ih
    refine ⟨fb', t', δ1 ++ δ, ?_, hf1.ext_trans hf', hs', hk'.trans hp1.keys, fun f hf => ?_,
      fresh_append hδ1 hf1 hδ, ?_, ?_⟩
    · rw [List.flatMap_cons, execBlock_append w names _ _ _ _ he1]
      exact he'
    · rw [List.map_cons, List.mem_cons, not_or] at hf
      rw [hother f hf.2, hp1.other f hf.1]
    · rw [← List.append_assoc, GoBuilder.copyFields]
      exact hm'
    · rw [← List.append_assoc, GoBuilder.copyFields]
      refine ⟨⟨z, by rw [hother _ hnd.1]; exact hp1.same, ?_⟩, hst2⟩
      exact Stores.move (keep_past hf') (List.prefix_append _ _) _ _ hz
  | [], _ :: _, _, _, _, _, _, _, _, _, _, _, _, _, _, _, _, _, _, _, _, _, hlen => by simp at hlen
  | _ :: _, [], _, _, _, _, _, _, _, _, _, _, _, _, _, _, _, _, _, _, _, _, hlen => by simp at hlen
  | [], [], _ :: _, _, _, _, _, _, _, _, _, hst, _, _, _, _, _, _, _, _, _, _, _ => hst.elim
  | [], [], [], _ :: _, _, _, _, _, _, htf, _, _, _, _, _, _, _, _, _, _, _, _, _ => by simp [typedFields] at htf
  | _ :: _, _ :: _, [], _, _, _, _, _, _, _, _, hst, _, _, _, _, _, _, _, _, _, _, _ => hst.elim
  | _ :: _, _ :: _, _ :: _, [], _, _, _, _, _, htf, _, _, _, _, _, _, _, _, _, _, _, _, _ => by
    simp [typedFields] at htf

/-! ## The builders of objects -/

/-- What copying an object to a builder does, for the method `Copy`. -/
def ObjectCopied (U : TypeId → Code) (ρ : List (Value Val)) (D : Value Val → Prop) (a : Nat) (s : State Val σ)
    (res : Res (List (Value Val) × State Val σ)) (e : TypeId) (bitmap : Nat) (id href : Text)
    (r : Mem × List BVal) : Prop :=
  ∃ t' δ, res = .ok ([.pointer a], t') ∧ Frame (fun l => Valid s l ∧ l ≠ .pointer a) s t' ∧ (∀ z ∈ δ, ¬ Valid s z) ∧
    Memory U (ρ ++ δ) D t' r.1 ∧ ∀ id' href', ((U e).builder.isClass = true → id' = id ∧ href' = href) →
      StoresCell U (ρ ++ δ) D t' (.builder e bitmap id' href' r.2) (.pointer a)

theorem exec_copyBack {w : World Val σ} {names : List Text} {t : State Val σ} {a o : Nat}
    {fb fo : List (Text × Value Val)} {f : Text} {v old : Value Val} (hx : t.vars.lookup t!"b" = some (.pointer a))
    (hs : t.structs[a]? = some fb) (hf : fb.lookup f = some old)
    (hxo : t.vars.lookup t!"object" = some (.pointer o)) (hso : t.structs[o]? = some fo)
    (hfo : fo.lookup f = some v) :
    ∃ fb', Put f v fb fb' ∧
      (Stmt.assign (dot t!"b" f) (dot t!"object" f)).exec w names t = .ok (.next, write t a fb') := by
  obtain ⟨fb', hp, he⟩ := assign_field w v hx hs hf
  exact ⟨fb', hp, exec_assign (eval_dot hxo hso hfo) he⟩

/-- The part of `Copy` before the attributes. -/
theorem exec_copyBase {w : World Val σ} {names : List Text} {u : Code} {t : State Val σ} {a o : Nat}
    {fb fo : List (Text × Value Val)} {bitmap b0 : Nat} {id href i0 h0 : Text}
    (hx : t.vars.lookup t!"b" = some (.pointer a)) (hs : t.structs[a]? = some fb)
    (hb0 : fb.lookup t!"bitmap_" = some (.int b0))
    (hi0 : u.builder.isClass = true → fb.lookup t!"id" = some (.str i0) ∧ fb.lookup t!"href" = some (.str h0))
    (hxo : t.vars.lookup t!"object" = some (.pointer o)) (hso : t.structs[o]? = some fo) (hao : a ≠ o)
    (hbm : fo.lookup t!"bitmap_" = some (.int bitmap))
    (hid : u.builder.isClass = true → fo.lookup t!"id" = some (.str id) ∧ fo.lookup t!"href" = some (.str href))
    (rest : List Stmt) :
    ∃ fb', execBlock w names (.assign (dot t!"b" t!"bitmap_") (dot t!"object" t!"bitmap_") ::
        (u.builder.ifClass [
            .assign (dot t!"b" t!"id") (dot t!"object" t!"id"),
            .assign (dot t!"b" t!"href") (dot t!"object" t!"href")] ++ rest)) t =
        execBlock w names rest (write t a fb') ∧
      fb'.map Prod.fst = fb.map Prod.fst ∧ fb'.lookup t!"bitmap_" = some (.int bitmap) ∧
      (u.builder.isClass = true → fb'.lookup t!"id" = some (.str id) ∧ fb'.lookup t!"href" = some (.str href)) ∧
      ∀ f, f ≠ t!"bitmap_" → (u.builder.isClass = true → f ≠ t!"id" ∧ f ≠ t!"href") →
        fb'.lookup f = fb.lookup f := by
  have hO : ∀ fb' : List (Text × Value Val), (write t a fb').structs[o]? = some fo := fun fb' => by
    simp [write, List.getElem?_set_ne hao, hso]
  obtain ⟨fb1, hp1, he1⟩ := exec_copyBack (w := w) (names := names) hx hs hb0 hxo hso hbm
  cases hc : u.builder.isClass with
  | false =>
    refine ⟨fb1, ?_, hp1.keys, hp1.same, (fun h => by cases h), fun f hf _ => hp1.other f hf⟩
    rw [BuildersCode.Builder.ifClass, hc]
    exact execBlock_next he1
  | true =>
    obtain ⟨hi1, hh1⟩ := hi0 hc
    obtain ⟨hi2, hh2⟩ := hid hc
    obtain ⟨fb2, hp2, he2⟩ := exec_copyBack (w := w) (names := names) (t := write t a fb1) hx (write_get fb1 hs)
      ((hp1.other _ (by decide)).trans hi1) hxo (hO _) hi2
    rw [write_write] at he2
    obtain ⟨fb3, hp3, he3⟩ := exec_copyBack (w := w) (names := names) (t := write t a fb2) hx (write_get fb2 hs)
      ((hp2.other _ (by decide)).trans ((hp1.other _ (by decide)).trans hh1)) hxo (hO _) hh2
    rw [write_write] at he3
    refine ⟨fb3, ?_, hp3.keys.trans (hp2.keys.trans hp1.keys), ?_, fun _ => ⟨?_, hp3.same⟩, fun f hf hf' => ?_⟩
    · rw [BuildersCode.Builder.ifClass, hc]
      change execBlock w names (_ :: _ :: _ :: rest) _ = _
      rw [execBlock_next he1, execBlock_next he2, execBlock_next he3]
    · rw [hp3.other _ (by decide), hp2.other _ (by decide)]
      exact hp1.same
    · rw [hp3.other _ (by decide)]
      exact hp2.same
    · rw [hp3.other _ (hf' rfl).2, hp2.other _ (hf' rfl).1, hp1.other _ hf]

/-- Calling `Copy` with nil. -/
theorem call_copyNil {u : Code} {c : Bool} {as : List AttrShape} (h : Linked P zero S U c as u)
    (fuel : Nat) {pkg tx : Text} (hr : resolve pkg tx = (u.pkg, u.builder.builder)) (x : Value Val) (s : State Val σ) :
    (world P zero (fuel + 1) pkg).methods tx t!"Copy" x [.nil] s = .ok ([x], s) := by
  have hd := h.builderItem (i := u.builder.copy) (by simp [BuildersCode.Builder.items])
  have hcall := methods_eq P zero fuel pkg tx u.pkg u.builder.builder _ x [.nil] s hr h.legal hd rfl
  rw [show (world P zero (fuel + 1) pkg).methods tx t!"Copy" x [.nil] s = _ from hcall]
  rfl

/-- Calling `Copy` with an object. -/
theorem call_copyObject {e : TypeId} {c : Bool} {nm : Text} {as : List AttrShape} (hS : S e = .struct c nm as)
    (h : Linked P zero S U c as (U e)) {fuel N : Nat}
    (hO : ∀ q, CopiesObjects S U (world P zero fuel q : World Val σ) q N)
    (hL : ∀ q, CopiesLists S U (world P zero fuel q : World Val σ) q N)
    {pkg tx : Text} (hr : resolve pkg tx = ((U e).pkg, (U e).builder.builder)) {s : State Val σ} {a : Nat}
    {ρ : List (Value Val)} {D E : Value Val → Prop} {mem : Mem} {b0 bitmap : Nat} {i0 h0 id href : Text}
    {olds : List BVal} {fields : List Val} {y : Value Val}
    (hc : StoresCell U ρ D s (.builder e b0 i0 h0 olds) (.pointer a)) (hE : ∀ l, E l → Valid s l ∧ l ≠ .pointer a)
    (hh : Holds S U E s e (.obj bitmap id href fields) y) (ht : typedFields S as fields = true)
    (hN : sizeOf fields < N) (hm : Memory U ρ D s mem) (hfresh : Fresh D s) (ha : ∀ z ∈ ρ, D z → z ≠ .pointer a) :
    ObjectCopied U ρ D a s ((world P zero (fuel + 1) pkg).methods tx t!"Copy" (.pointer a) [y] s) e bitmap id href
      (GoBuilder.copyFields S mem as olds fields) := by
  obtain ⟨a', fb, ha', hs, hkb, hb0, hi0, hst⟩ := hc
  cases ha'
  rw [Holds] at hh
  obtain ⟨o, fo, rfl, hEo, hso, hko, hbm, hid, hhf⟩ := hh
  have hao : a ≠ o := fun e' => (hE _ hEo).2 (by rw [e'])
  rw [show fieldNames S U e = as.zip ((U e).builder.members.map (·.field)) by simp [fieldNames, hS]] at hhf
  let V : List (Text × Value Val) := [(t!"b", .pointer a), (t!"object", .pointer o),
    ([], zero (U e).pkg (t!"*" ++ (U e).builder.builder))]
  obtain ⟨fb1, he1, hk1, hbm1, hid1, hother1⟩ := exec_copyBase (w := world P zero fuel (U e).pkg) (names := [[]])
    (u := U e) (t := { s with vars := V }) rfl hs hb0 hi0 rfl hso hao hbm hid
    ((U e).builder.members.flatMap BuildersCode.Member.copy)
  have hnm := names_nodup (U e).builder h.nodup
  have hfr1 : Frame (fun l => Valid { s with vars := V } l ∧ l ≠ .pointer a) { s with vars := V }
      (write { s with vars := V } a fb1) := frame_write _ a fb1 fun h => h.2 rfl
  have hs1 : (write { s with vars := V } a fb1).structs[a]? = some fb1 :=
    write_get (s := { s with vars := V }) fb1 hs
  have hso1 : (write { s with vars := V } a fb1).structs[o]? = some fo := by
    simp [write, List.getElem?_set_ne hao, hso]
  have hv1 : (write { s with vars := V } a fb1).vars = V := rfl
  generalize write { s with vars := V } a fb1 = t1 at he1 hfr1 hs1 hso1 hv1
  have hval : ∀ l, Valid s l → Valid t1 l := fun l hl => hfr1.valid l (valid_vars.mpr hl)
  have hms := exec_copyMembers (w := world P zero fuel (U e).pkg) (names := [[]]) (zero := zero) (D := D) (E := E)
    (hO (U e).pkg) (hL (U e).pkg) (a := a) (o := o) (fo := fo) hao as (U e).builder.members olds fields t1 fb1 ρ mem
    (fun i at_ m hi hj => by
      have hlt : i < (U e).entity.members.length := by
        rw [h.entityMembers]
        exact (List.getElem?_eq_some_iff.mp hi).1
      exact ⟨_, h.attributes i at_ m _ hi hj (List.getElem?_eq_getElem hlt)⟩)
    ht hN
    (StoresFields.move (keep_past hfr1) (List.prefix_refl ρ) _ _ (fun f hf => hother1 f (fun e' => hnm.2.1 (e' ▸ hf))
        fun hc => ⟨fun e' => (hnm.2.2 hc).1 (e' ▸ hf), fun e' => (hnm.2.2 hc).2 (e' ▸ hf)⟩)
      (StoresFields.move (s := s) (t := { s with vars := V }) (fun _ _ hd hs => ⟨hd, hs⟩) (List.prefix_refl ρ) _ _
        (fun _ _ => rfl) hst))
    hnm.1 (by rw [hv1]; rfl) hs1 (by rw [hv1]; rfl) hso1
    (fun l hl => ⟨hval l (hE l hl).1, (hE l hl).2⟩)
    (HoldsFields.move (hfr1.moves fun l hl _ => (hE l hl).2) _ _ _
      (HoldsFields.move (move_vars (s := s) (V := V) fun _ h => h) _ _ _ hhf))
    ((hm.setVars V).past hfr1 ha) (fun l hl => hfresh l fun hv => hl (hval l hv)) ha h.members.symm
  obtain ⟨fb', t', δ, he', hf', hs', hk', hother, hδ, hm', hst'⟩ := hms
  have hfr : Frame (fun l => Valid s l ∧ l ≠ .pointer a) s { t' with vars := s.vars } := by
    have := (hfr1.ext_trans hf').mono (D' := fun l => Valid s l ∧ l ≠ .pointer a)
      fun l _ hl => ⟨valid_vars.mpr hl.1, hl.2⟩
    exact this.setVars
  have hexec : execBlock (world P zero fuel (U e).pkg) [[]]
      (.branch (TypesCode.isNil t!"object") [.ret [.var t!"b"]] [] ::
        .assign (dot t!"b" t!"bitmap_") (dot t!"object" t!"bitmap_") ::
        ((U e).builder.ifClass [
            .assign (dot t!"b" t!"id") (dot t!"object" t!"id"),
            .assign (dot t!"b" t!"href") (dot t!"object" t!"href")] ++
          (U e).builder.members.flatMap BuildersCode.Member.copy)) { s with vars := V } = .ok (.next, t') := by
    rw [execBlock_next (t := { s with vars := V }), he1, he']
    rfl
  have hd := h.builderItem (i := (U e).builder.copy) (by simp [BuildersCode.Builder.items])
  have hcall := method_fluent h fuel pkg (U e).builder.builder tx t!"Copy" _ _ hd hr (.pointer a) [.pointer o] s t' hexec
    (by rw [hf'.vars, hv1]; rfl)
  refine ⟨{ t' with vars := s.vars }, δ, hcall, hfr, fun z hz hv => hδ z hz (hval z hv), hm'.setVars _, ?_⟩
  intro id' href' hidc
  refine ⟨a, fb', rfl, hs', hk'.trans (hk1.trans hkb), ?_, fun hcl => ?_, ?_⟩
  · rw [hother _ hnm.2.1]
    exact hbm1
  · obtain ⟨rfl, rfl⟩ := hidc hcl
    have := hnm.2.2 hcl
    rw [hother _ this.1, hother _ this.2]
    exact hid1 hcl
  · exact StoresFields.move (s := t') (t := { t' with vars := s.vars }) (fun _ _ hd hs => ⟨hd, hs⟩) (List.prefix_refl _) _ _ (fun _ _ => rfl) hst'

/-- `New().Copy(arg)` -/
theorem eval_copyOf {w : World Val σ} {tt : BuildersCode.Target} {arg : Expr} {t t1 : State Val σ} {x y : Value Val}
    (hn : w.constructors tt.ctor t = .ok ([x], t1)) (ha : arg.eval w t1 = .ok (y, t1)) :
    (copyOf tt arg).eval w t = single (w.methods tt.builder t!"Copy" x [y] t1) := by
  simp only [copyOf, Expr.eval, hn, single, Res.bind, evalArgs, ha]

theorem object_copies (hw : Whole P zero S U) {fuel N : Nat}
    (hO : ∀ q, CopiesObjects S U (world P zero fuel q : World Val σ) q N)
    (hL : ∀ q, CopiesLists S U (world P zero fuel q : World Val σ) q N) (pkg : Text) :
    CopiesObjects S U (world P zero (fuel + 1) pkg : World Val σ) pkg (N + 1) := by
  intro tt e link arg v y t ρ D mem hn ho ht hN hh hm hfresh harg
  obtain ⟨c, nm, as, hS⟩ := isObject_iff.mp ho
  have h := hw.linked e c nm as hS
  have hnew := call_new h fuel pkg tt.ctor hn.ctor t
  have hfr := frame_push (Valid t) t ((U e).builder.fields.map fun f => (f.1, zero (U e).pkg f.2.2))
  have hcell := stores_newBuilder (σ := σ) hS hw ρ D _ t.structs.length
    (push_get t ((U e).builder.fields.map fun f => (f.1, zero (U e).pkg f.2.2)))
  have hva := valid_push t ((U e).builder.fields.map fun f => (f.1, zero (U e).pkg f.2.2))
  generalize ({ t with structs := t.structs ++ [(U e).builder.fields.map fun f => (f.1, zero (U e).pkg f.2.2)] } :
    State Val σ) = t1 at hnew hfr hcell hva
  have hinv : ¬ Valid t (.pointer t.structs.length) := by simp [Valid]
  have hnot : .pointer t.structs.length ∉ ρ := fresh_not_mem hm hinv
  have hm1 : Memory U ρ D t1 mem := hm.valid_frame hfr
  rw [eval_copyOf hnew (harg t1 hfr)]
  rcases typed_object hS ht with rfl | ⟨bitmap, id, href, fields, rfl, htf⟩
  · have hy : y = .nil := by simpa [Holds, value] using hh
    subst hy
    rw [call_copyNil h fuel hn.builder]
    have hc : GoBuilder.copyNew S e mem .nil = (mem ++ [GoBuilder.newBuilder S e as], .ref mem.length) := by
      simp [GoBuilder.copyNew, hS]
    rw [hc]
    refine ⟨_, t1, [.pointer t.structs.length], rfl, hfr, by simpa using hinv, ?_, ?_⟩
    · exact hm1.push _ _ hva hnot (hcell.move (keep_same fun _ h => h) (List.prefix_append _ _) _ _
        (fun _ _ _ h => h) (fun _ _ _ h => h))
    · rw [Stores, ← hm.length]
      simp
  · have hoc := call_copyObject (E := fun l => Valid t1 l ∧ l ≠ .pointer t.structs.length) hS h hO hL hn.builder hcell
      (fun l hl => hl)
      (Holds.move (s := t) (D := fun _ => True) ⟨fun l _ hv => ⟨hfr.valid l hv, fun e' => hinv (e' ▸ hv)⟩,
        fun a fs _ hs => hfr.structs a fs (List.getElem?_eq_some_iff.mp hs).1 hs,
        fun a fs _ hs => hfr.arrays a fs (List.getElem?_eq_some_iff.mp hs).1 hs,
        fun a fs _ hs => hfr.maps a fs (List.getElem?_eq_some_iff.mp hs).1 hs⟩ _ _ _ hh)
      htf (by simp only [Val.obj.sizeOf_spec] at hN; omega) hm1 (hfresh.frame hfr)
      (fun z hz _ e' => hnot (e' ▸ hz))
    obtain ⟨t', δ, he, hf', hδ, hm', hc'⟩ := hoc
    rw [he]
    have hc : GoBuilder.copyNew S e mem (.obj bitmap id href fields) = GoBuilder.allocCopy e c bitmap id href
        (GoBuilder.copyFields S mem as (as.map (GoBuilder.zeroField S)) fields) := by
      simp only [GoBuilder.copyNew, hS]
    rw [hc, GoBuilder.allocCopy]
    refine ⟨_, t', δ ++ [.pointer t.structs.length], rfl, ?_, ?_, ?_, ?_⟩
    · exact hfr.trans (hf'.mono fun l _ hl => ⟨hfr.valid l hl, fun e' => hinv (e' ▸ hl)⟩)
    · intro z hz hv
      rcases List.mem_append.mp hz with hz | hz
      · exact hδ z hz (hfr.valid z hv)
      · simp at hz
        exact hinv (hz ▸ hv)
    · rw [← List.append_assoc]
      refine hm'.push _ _ (hf'.valid _ hva) ?_ ?_
      · intro hmem
        rcases List.mem_append.mp hmem with h | h
        · exact hnot h
        · exact hδ _ h hva
      · refine (hc' _ _ ?_).move (keep_same fun _ h => h) (List.prefix_append _ _) _ _ (fun _ _ _ h => h)
          (fun _ _ _ h => h)
        intro hcl
        simp [h.isClass.symm.trans hcl]
    · rw [Stores, ← List.append_assoc, ← hm'.length]
      simp

/-! ## The builders of lists -/

/-- What copying a list to a builder does, for the method `Copy`. -/
def ListCopied (U : TypeId → Code) (ρ : List (Value Val)) (D : Value Val → Prop) (a : Nat) (s : State Val σ)
    (res : Res (List (Value Val) × State Val σ)) (r : Mem × BVal) : Prop :=
  ∃ t' δ, res = .ok ([.pointer a], t') ∧ Frame (fun l => Valid s l ∧ l ≠ .pointer a) s t' ∧ (∀ z ∈ δ, ¬ Valid s z) ∧
    Memory U (ρ ++ δ) D t' r.1 ∧ ∀ ty, StoresCell U (ρ ++ δ) D t' (.listBuilder ty r.2) (.pointer a)

theorem branch_copied {w : World Val σ} {names : List Text} {f : Text} {condition : Expr} {yes no : List Stmt} {q : Bool}
    {t : State Val σ} {a : Nat} {fb : List (Text × Value Val)} {ρ : List (Value Val)} {D : Value Val → Prop}
    {r : Mem × BVal} (hc : condition.eval w t = .ok (.bool q, t))
    (hb : MemberCopied U ρ D a f fb t (execBlock w names (if q then yes else no) t) r) :
    MemberCopied U ρ D a f fb t (execBlock w names [.branch condition yes no] t) r := by
  obtain ⟨fb', z, t', δ, he, hfr, hr⟩ := hb
  refine ⟨fb', z, t', δ, ?_, hfr, hr⟩
  have h : (Stmt.branch condition yes no).exec w names t = .ok (.next, t') := by
    cases q with
    | true =>
      simp only [if_true] at he
      simp only [Stmt.exec, hc, Res.bind, he]
      rw [leave_same _ _ _ hfr.vars]
    | false =>
      simp only [Bool.false_eq_true, if_false] at he
      simp only [Stmt.exec, hc, Res.bind, he]
      rw [leave_same _ _ _ hfr.vars]
  rw [execBlock_next h]
  rfl

/-- The items that the method copies. -/
def copiedItems (S : Schema) (e : TypeId) (mem : Mem) : Val → Mem × BVal
  | .linkList _ _ (.list items) =>
    ((copyAll (GoBuilder.copyNew S e) mem items).1, .list (copyAll (GoBuilder.copyNew S e) mem items).2)
  | _ => (mem, .nil)

/-- Calling `Copy` of a builder of lists. -/
theorem call_copyList {ty e : TypeId} {n : Text} (hS : S ty = .list n e) (ho : isObject (S e) = true)
    (hw : Whole P zero S U) {fuel N : Nat}
    (hO : ∀ q, CopiesObjects S U (world P zero fuel q : World Val σ) q N)
    {pkg tx : Text} (hr : resolve pkg tx = ((U e).pkg, (U e).list.builder)) {s : State Val σ} {a : Nat}
    {ρ : List (Value Val)} {D E : Value Val → Prop} {mem : Mem} {v : Val} {y z0 : Value Val}
    (hs : s.structs[a]? = some [(t!"items", z0)]) (hE : ∀ l, E l → Valid s l ∧ l ≠ .pointer a)
    (hh : Holds S U E s ty v y) (ht : typed S ty true v = true)
    (hN : sizeOf v < N) (hm : Memory U ρ D s mem) (hfresh : Fresh D s) (ha : ∀ z ∈ ρ, D z → z ≠ .pointer a) :
    ListCopied U ρ D a s ((world P zero (fuel + 1) pkg).methods tx t!"Copy" (.pointer a) [y] s)
      (copiedItems S e mem v) := by
  obtain ⟨c, nm, as, hSe⟩ := isObject_iff.mp ho
  have h := hw.linked e c nm as hSe
  let V : List (Text × Value Val) := [(t!"b", .pointer a), (t!"list", y),
    ([], zero (U e).pkg (t!"*" ++ (U e).list.builder))]
  have hsV : ({ s with vars := V } : State Val σ).structs[a]? = some [(t!"items", z0)] := hs
  have hbody : MemberCopied U ρ D a t!"items" [(t!"items", z0)] { s with vars := V }
      (execBlock (world P zero fuel (U e).pkg) [[]] [
      .branch (.or (TypesCode.isNil t!"list") (.eq (dot t!"list" t!"items") .nil))
        [.assign (dot t!"b" t!"items") .nil]
        [ .assign (dot t!"b" t!"items") (.make (U e).list.slice (.len (dot t!"list" t!"items"))),
          .range t!"i" t!"v" (dot t!"list" t!"items") [
            .assign (.index (dot t!"b" t!"items") (.var t!"i")) (copyOf (U e).list.element (.var t!"v"))]]]
      { s with vars := V }) (copiedItems S e mem v) := by
    have hnil : ∀ names, MemberCopied U ρ D a t!"items" [(t!"items", z0)] { s with vars := V }
        (execBlock (world P zero fuel (U e).pkg) names [.assign (dot t!"b" t!"items") .nil] { s with vars := V })
        (mem, .nil) := fun names =>
      member_assign (old := z0) rfl hs (by simp) ha (gives_same (hm.setVars V) (by simp [Stores]))
    rcases typed_link hS ht with rfl | ⟨l, hr, -, rfl | ⟨items, rfl, hti⟩⟩
    · have hy : y = .nil := by simpa [Holds, value] using hh
      subst hy
      exact branch_copied (q := true) rfl (hnil _)
    · rw [Holds] at hh
      obtain ⟨o, y', rfl, hEo, hso, hy'⟩ := hh
      have hy : y' = .nil := by simpa [Holds, value] using hy'
      subst hy
      refine branch_copied (q := true) ?_ (hnil _)
      have hd := eval_dot (w := world P zero fuel (U e).pkg) (s := { s with vars := V }) (x := t!"list")
        (f := t!"items") (a := o) rfl hso rfl
      have hv : ({ s with vars := V } : State Val σ).vars.lookup t!"list" = some (.pointer o) := rfl
      simp only [Expr.eval, TypesCode.isNil, hv, Res.bind, equal, Res.ofOption, hd]
    · rw [Holds] at hh
      obtain ⟨o, y', rfl, hEo, hso, hy'⟩ := hh
      rw [Holds] at hy'
      obtain ⟨c', ys, rfl, -, hys, hit⟩ := hy'
      rw [show elementOf S ty = e by simp [elementOf, hS]] at hit
      have hao : a ≠ o := fun e' => (hE _ hEo).2 (by rw [e'])
      refine branch_copied (q := false) ?_ ?_
      · have hd := eval_dot (w := world P zero fuel (U e).pkg) (s := { s with vars := V }) (x := t!"list")
          (f := t!"items") (a := o) rfl hso rfl
        have hv : ({ s with vars := V } : State Val σ).vars.lookup t!"list" = some (.pointer o) := rfl
        simp only [Expr.eval, TypesCode.isNil, hv, Res.bind, equal, Res.ofOption, hd]
      · refine copy_items (S := S) (E := E) (e := e) (old := z0) (y := .slice c') (t := { s with vars := V }) rfl hs (by simp)
          (src := t!"list") rfl hso rfl hao
          (GoBuilder.copyNew S e) (fun v => typed S e false v = true ∧ sizeOf v < N) _
          (fun l hl => ⟨valid_vars.mpr (hE l hl).1, (hE l hl).2⟩) rfl hys
          (fun v hv => ⟨typedItems_mem hti v hv, ?_⟩)
          (HoldsItems.move (move_vars (s := s) (V := V) fun _ h => h) _ _ _ hit) (hm.setVars V)
          (fun l hl => hfresh l fun hv => hl (valid_vars.mpr hv)) ha ?_
        · have := List.sizeOf_lt_of_mem hv
          simp only [Val.linkList.sizeOf_spec, Val.list.sizeOf_spec] at hN
          omega
        · intro v z D u ρ mem hok hh hm hfr hlook
          refine hO (U e).pkg (U e).list.element e false _ v z u ρ D mem ⟨?_, ?_⟩ ho hok.1 hok.2 hh hm hfr fun t1 h1 =>
            eval_var (by rw [h1.vars]; exact hlook)
          · have heq : (U e).list.element.builder = (U e).builder.builder := by
              simp [BuildersCode.ListBuilder.element, BuildersCode.Builder.builder, h.list]
            rw [heq]
            exact resolve_simple _ _ h.builderName
          · have heq : (U e).list.element.ctor = (U e).builder.ctor := by
              simp [BuildersCode.ListBuilder.element, BuildersCode.Builder.ctor, h.list]
            rw [heq]
            exact resolve_simple _ _ h.ctorName
  obtain ⟨fb', z, t', δ, he, hfr, hs', hp, hδ, hm', hst⟩ := hbody
  have hd := h.listItem (List.getElem_mem (l := (U e).list.items) (n := 4) (by simp [BuildersCode.ListBuilder.items]))
  have hcall := method_fluent h fuel pkg (U e).list.builder tx t!"Copy" _ _ hd hr (.pointer a) [y] s t' he
    (by rw [hfr.vars]; rfl)
  have hfs : fb' = [(t!"items", z)] := by
    have hk := hp.keys
    have hsame := hp.same
    match fb', hk with
    | [(k, w)], hk =>
      simp at hk
      subst hk
      simp at hsame
      simp [hsame]
  subst hfs
  refine ⟨{ t' with vars := s.vars }, δ, hcall, ?_, fun z hz hv => hδ z hz (valid_vars.mpr hv), hm'.setVars _,
    fun ty => ⟨a, z, rfl, hs', ?_⟩⟩
  · exact (hfr.mono (D' := fun l => Valid s l ∧ l ≠ .pointer a) fun l _ hl => ⟨valid_vars.mpr hl.1, hl.2⟩).setVars
  · exact Stores.move (s := t') (t := { t' with vars := s.vars }) (fun _ _ hd hs => ⟨hd, hs⟩) (List.prefix_refl _) _ _ hst

theorem list_copies (hw : Whole P zero S U) {fuel N : Nat}
    (hO : ∀ q, CopiesObjects S U (world P zero fuel q : World Val σ) q N) (pkg : Text) :
    CopiesLists S U (world P zero (fuel + 1) pkg : World Val σ) pkg N := by
  intro tt ty e n arg l href items y t ρ D mem old hS ho hn ht hN hh hm hfresh harg
  obtain ⟨c, nm, as, hSe⟩ := isObject_iff.mp ho
  have h := hw.linked e c nm as hSe
  have hnew := call_newList h (hw.zeros _) fuel pkg tt.ctor hn.ctor t
  have hfr := frame_push (Valid t) t [(t!"items", .nil)]
  have hget := push_get t [(t!"items", .nil)]
  have hva := valid_push t [(t!"items", .nil)]
  generalize ({ t with structs := t.structs ++ [[(t!"items", .nil)]] } : State Val σ) = t1 at hnew hfr hget hva
  have hinv : ¬ Valid t (.pointer t.structs.length) := by simp [Valid]
  have hnot : .pointer t.structs.length ∉ ρ := fresh_not_mem hm hinv
  rw [eval_copyOf hnew (harg t1 hfr)]
  have hlc := call_copyList (E := fun l => Valid t1 l ∧ l ≠ .pointer t.structs.length) hS ho hw hO hn.builder hget
    (fun l hl => hl)
    (Holds.move (s := t) (D := fun _ => True) ⟨fun l _ hv => ⟨hfr.valid l hv, fun e' => hinv (e' ▸ hv)⟩,
      fun a fs _ hs => hfr.structs a fs (List.getElem?_eq_some_iff.mp hs).1 hs,
      fun a fs _ hs => hfr.arrays a fs (List.getElem?_eq_some_iff.mp hs).1 hs,
      fun a fs _ hs => hfr.maps a fs (List.getElem?_eq_some_iff.mp hs).1 hs⟩ _ _ _ hh)
    ht hN (hm.valid_frame hfr) (hfresh.frame hfr) (fun z hz _ e' => hnot (e' ▸ hz))
  obtain ⟨t', δ, he, hf', hδ, hm', hc'⟩ := hlc
  rw [he]
  have hc : GoBuilder.copyField S ty true old mem (.linkList l href items) =
      ((copiedItems S e mem (.linkList l href items)).1 ++
        [.listBuilder ty (copiedItems S e mem (.linkList l href items)).2],
        .ref (copiedItems S e mem (.linkList l href items)).1.length) := by
    cases items <;> simp [GoBuilder.copyField, hS, copiedItems, copyItems_eq]
  rw [hc]
  refine ⟨_, t', δ ++ [.pointer t.structs.length], rfl, ?_, ?_, ?_, ?_⟩
  · exact hfr.trans (hf'.mono fun l _ hl => ⟨hfr.valid l hl, fun e' => hinv (e' ▸ hl)⟩)
  · intro z hz hv
    rcases List.mem_append.mp hz with hz | hz
    · exact hδ z hz (hfr.valid z hv)
    · simp at hz
      exact hinv (hz ▸ hv)
  · rw [← List.append_assoc]
    refine hm'.push _ _ (hf'.valid _ hva) ?_ ?_
    · intro hmem
      rcases List.mem_append.mp hmem with h | h
      · exact hnot h
      · exact hδ _ h hva
    · exact (hc' ty).move (keep_same fun _ h => h) (List.prefix_append _ _) _ _ (fun _ _ _ h => h)
        (fun _ _ _ h => h)
  · rw [Stores, ← List.append_assoc, ← hm'.length]
    simp

/-! ## Any number of calls -/

theorem copies (hw : Whole P zero S U) :
    ∀ N fuel, 2 * N < fuel → ∀ pkg, CopiesObjects S U (world P zero fuel pkg : World Val σ) pkg N
  | 0, _, _, _ => fun _ _ _ _ _ _ _ _ _ _ _ _ _ hN => absurd hN (by omega)
  | N + 1, 0, h, _ => absurd h (by omega)
  | N + 1, 1, h, _ => absurd h (by omega)
  | N + 1, fuel + 2, h, pkg =>
    object_copies hw (copies hw N (fuel + 1) (by omega)) (list_copies hw (copies hw N fuel (by omega))) pkg

end Verif.BuildersRun
