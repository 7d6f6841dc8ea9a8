import Verif.Lemmas.JsonWrite

/-!
# Running the generated functions that write lists
-/

namespace Verif.JsonRun

open GoJson (Val Schema Shape AttrShape DateParser writeVal writeFields writeItems writeAll writeEntries sortKeys
  insertKey)
open GoProgram
open TypesRun (Legal value)
open BuildersRun (Program Code resolve fieldsOf isObject Holds HoldsFields HoldsItems HoldsEntries execBlock_append
  execBlock_append_stop execBlock_next execBlock_panic eval_var eval_dot eval_dot_nil exec_range)
open JsonCode (Form Entity Listing Functions Member)
open GoBuilder (typed typedFields typedItems typedEntries)

variable {P : Program} {zero : Text → Text → Value Val} {Dt : DateParser} {limit : Nat} {S : Schema}
  {U : TypeId → Code} {J : TypeId → Entity} {L : TypeId → ListCode} {names : List Text}

/-- A call of a function without results. -/
theorem call_writes {w : World Val Library} {f : Func} {r : Value Val} {args : List (Value Val)}
    {s : State Val Library} {o : Option (List Tok)} (hf : f.results = [])
    (h : Ends { s with vars := (f.receiver, r) :: (f.params.map Prod.fst).zip args }
      (execBlock w [] f.body { s with vars := (f.receiver, r) :: (f.params.map Prod.fst).zip args }) o) :
    Writes s (f.call w r args s) o := by
  rw [Func.call, hf]
  simp only [List.map_nil, List.append_nil, if_true]
  cases o with
  | none =>
    have : execBlock w [] f.body { s with vars := (f.receiver, r) :: (f.params.map Prod.fst).zip args } = .panic := h
    rw [this]
    rfl
  | some ts =>
    obtain ⟨arrays, vars, h⟩ := h
    refine ⟨arrays, ?_⟩
    rw [h]
    rfl

theorem write_items {el : TypeId} {pkg : Text} {fuel : Nat} {form : Form} {h : Value Val} {D : Value Val → Prop}
    (hF : Fits S U J L pkg el false form) : ∀ (vs : List Val) (xs : List (Value Val)) (j : Nat)
    (s : State Val Library), (∀ v ∈ vs, FormWrites P zero Dt limit S U J L v ∧ sizeOf v ≤ fuel) →
    typedItems S el vs = true → HoldsItems S U D s el vs xs → s.vars.lookup t!"stream" = some h →
    s.vars.lookup t!"time.RFC3339" = none →
    Wrote s s.vars (loop (fun k x s => (execBlock (world P zero Dt limit fuel pkg) names
        (.branch (.gt (.var t!"i") (.int 0)) [.perform t!"stream.WriteMore" []] [] :: form.write (.var t!"value"))
        { s with vars := (t!"value", x) :: (t!"i", .int k) :: s.vars }).bind fun r => .ok (leave s r)) j xs s)
      (writeItems S el j vs)
  | [], [], j, s, _, _, _, _, _ => by
    rw [writeItems]
    exact Wrote.loop_nil j s
  | v :: vs, x :: xs, j, s, hi, ht, hh, hs, hv => by
    rw [HoldsItems] at hh
    simp only [typedItems, Bool.and_eq_true] at ht
    have hbody : Wrote s s.vars ((execBlock (world P zero Dt limit fuel pkg) names
        (.branch (.gt (.var t!"i") (.int 0)) [.perform t!"stream.WriteMore" []] [] :: form.write (.var t!"value"))
        { s with vars := (t!"value", x) :: (t!"i", .int j) :: s.vars }).bind fun r => .ok (leave s r))
        ((writeVal S el false v).map (GoJson.more j ++ ·)) := by
      refine Wrote.enter (s := s)
        (t := { s with vars := (t!"value", x) :: (t!"i", .int j) :: s.vars })
        (extra := [(t!"value", x), (t!"i", .int j)]) (vars := s.vars) rfl ?_ rfl
      refine Wrote.cons (ts := GoJson.more j) (v := (t!"value", x) :: (t!"i", .int j) :: s.vars)
        (o := writeVal S el false v) (write_more rfl) ?_ rfl
      intro arrays
      refine (hi v (by simp)).1 form el false pkg fuel _ x (.var t!"value") names h D (hi v (by simp)).2 hF ht.1
        (by simp) ?_ hs hv ?_
      · refine holds_after ?_ _ _ _
        have := holds_after hh.1 [] [] ((t!"value", x) :: (t!"i", .int j) :: s.vars)
        simpa [after, wrote] using this
      · intro t _ ht
        refine eval_var ?_
        rw [ht t!"value" (by decide), after_vars]
        rfl
    rw [writeItems]
    cases hw : writeVal S el false v with
    | none =>
      rw [hw] at hbody
      exact loop_panic hbody
    | some ts =>
      rw [hw] at hbody
      refine Wrote.loop_cons hbody (o := writeItems S el (j + 1) vs) (fun arrays => ?_) ?_
      · exact write_items hF vs xs (j + 1) _ (fun v hv => hi v (by simp [hv])) ht.2 (items_after hh.2 _ _ _) hs hv
      · dsimp only
        cases writeItems S el (j + 1) vs <;> simp
  | [], _ :: _, _, _, _, _, hh, _, _ => by simp [HoldsItems] at hh
  | _ :: _, [], _, _, _, _, hh, _, _ => by simp [HoldsItems] at hh

/-- The function that writes lists. -/
def listWriter (l : Listing) : Func :=
  match l.writeFunc with
  | .func f => f
  | _ => { name := [], results := [], body := [] }

theorem write_list (hw : Whole P zero S U J L) {ty el : TypeId} {n : Text} {pkg t : Text} {fuel : Nat}
    {s : State Val Library} {x h : Value Val} {v : Val} {D : Value Val → Prop} (hS : S ty = .list n el)
    (hr : resolve pkg t = ((L ty).pkg, (L ty).listing.functions.write))
    (hIH : ∀ items, v = .list items → ∀ v ∈ items, FormWrites P zero Dt limit S U J L v ∧ sizeOf v ≤ fuel)
    (ht : typed S ty false v = true) (hh : Holds S U D s ty v x) :
    Writes s ((world P zero Dt limit (fuel + 1) pkg).apply t [x, h] s) (writeVal S ty false v) := by
  have hl := hw.lists ty n el hS
  have hmem : .func (listWriter (L ty).listing) ∈ P (L ty).pkg :=
    hl.declared _ (by simp [Listing.items]; exact .inr (.inl rfl))
  rw [apply_eq (f := listWriter (L ty).listing) fuel [x, h] s hr hl.legal hmem rfl]
  refine call_writes rfl ?_
  generalize hs0 : ({ s with vars := _ } : State Val Library) = s0
  have hvars : s0.vars = [([], .nil), (t!"list", x), (t!"stream", h)] := by rw [← hs0]; rfl
  have hh0 : Holds S U D s0 ty v x := by
    have := holds_after hh [] [] [([], .nil), (t!"list", x), (t!"stream", h)]
    rw [← hs0]
    simpa [after, wrote, listWriter, Listing.writeFunc] using this
  change Ends s0 (execBlock _ [] [
      .perform t!"stream.WriteArrayStart" [],
      .range t!"i" t!"value" (.var t!"list")
        (.branch (.gt (.var t!"i") (.int 0)) [.perform t!"stream.WriteMore" []] [] ::
          (L ty).listing.form.write (.var t!"value")),
      .perform t!"stream.WriteArrayEnd" []] s0) _
  refine Wrote.ends (vars := s0.vars) ?_
  have key : ∀ (items : List Val) (xs : List (Value Val)), (∀ arrays ts, (after s0 arrays ts s0.vars).elements x = some xs) →
      HoldsItems S U D s0 el items xs → typedItems S el items = true →
      (∀ v ∈ items, FormWrites P zero Dt limit S U J L v ∧ sizeOf v ≤ fuel) →
      Wrote s0 s0.vars (execBlock (world P zero Dt limit fuel (L ty).pkg) [] [
        .perform t!"stream.WriteArrayStart" [],
        .range t!"i" t!"value" (.var t!"list")
          (.branch (.gt (.var t!"i") (.int 0)) [.perform t!"stream.WriteMore" []] [] ::
            (L ty).listing.form.write (.var t!"value")),
        .perform t!"stream.WriteArrayEnd" []] s0)
        ((writeItems S el 0 items).map fun ts => .arrayStart :: (ts ++ [.arrayEnd])) := by
    intro items xs hxs hit hti hiI
    refine Wrote.cons (ts := [.arrayStart]) (v := s0.vars)
      (o := (writeItems S el 0 items).map (· ++ [.arrayEnd])) (performs ⟨_, rfl, rfl⟩ rfl) ?_ ?_
    rotate_left
    · cases writeItems S el 0 items <;> rfl
    intro arrays
    have hloop := write_items (names := []) (P := P) (zero := zero) (Dt := Dt) (limit := limit) (h := h) (D := D)
      (fuel := fuel) hl.form items xs 0
      (after s0 arrays [.arrayStart] s0.vars) hiI hti (items_after hit _ _ _) (by rw [after_vars, hvars]; rfl) (by rw [after_vars, hvars]; rfl)
    have hrange : (Stmt.range t!"i" t!"value" (.var t!"list")
          (.branch (.gt (.var t!"i") (.int 0)) [.perform t!"stream.WriteMore" []] [] ::
            (L ty).listing.form.write (.var t!"value"))).exec (world P zero Dt limit fuel (L ty).pkg) []
          (after s0 arrays [.arrayStart] s0.vars) = _ :=
      exec_range (y := x) (xs := xs) (eval_var (by rw [after_vars, hvars]; rfl)) (hxs _ _)
    rw [← hrange] at hloop
    cases hwi : writeItems S el 0 items with
    | none =>
      rw [hwi] at hloop
      exact execBlock_panic hloop
    | some ts =>
      rw [hwi] at hloop
      refine Wrote.cons (o := some [.arrayEnd]) hloop (fun arrays => ?_) rfl
      exact Wrote.one (performs ⟨_, rfl, rfl⟩ rfl)
  rcases BuildersRun.typed_items hS ht with rfl | ⟨items, rfl, hti⟩
  · have hx : x = .nil := by simpa [Holds, value] using hh0
    subst hx
    have := key [] [] (fun _ _ => rfl) (by simp [HoldsItems]) rfl (by simp)
    rw [writeVal, hS]
    exact this
  · rw [Holds] at hh0
    obtain ⟨a, xs, rfl, hD, hxs, hit⟩ := hh0
    simp only [BuildersRun.elementOf, hS] at hit
    have := key items xs (fun arrays ts => by
      simp only [State.elements, after, wrote]
      rw [List.getElem?_append_left (List.getElem?_eq_some_iff.mp hxs).1]
      exact hxs) hit hti (hIH items rfl)
    rw [writeVal, hS]
    dsimp only
    cases hwi : writeItems S el 0 items <;> rw [hwi] at this <;> exact this

end Verif.JsonRun
