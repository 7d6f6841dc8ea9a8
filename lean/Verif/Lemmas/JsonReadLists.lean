import Verif.Lemmas.JsonReadForms
import Verif.Lemmas.ListTypes

/-!
# Lemmas about running the generated code that reads JSON: lists and maps
-/

namespace Verif.JsonRun

open GoJson (Val Schema Shape AttrShape DateParser parseVal readVal readItems readEntries)
open GoProgram
open TypesRun (Legal value)
open BuildersRun (Program Code resolve fieldsOf isObject Holds HoldsFields HoldsItems HoldsEntries Valid execBlock_append
  execBlock_append_stop execBlock_next execBlock_panic eval_var)
open JsonCode (Form Entity Listing Functions Member nextField)

variable {P : Program} {zero : Text → Text → Value Val} {Dt : DateParser} {limit : Nat} {S : Schema}
  {U : TypeId → Code} {J : TypeId → Entity} {L : TypeId → ListCode} {w : World Val Library} {names : List Text}

theorem holdsItems_append {D : Value Val → Prop} {t : State Val Library} {ty : TypeId} {v : Val} {x : Value Val}
    (h : Holds S U D t ty v x) : ∀ (vs : List Val) (xs : List (Value Val)), HoldsItems S U D t ty vs xs →
      HoldsItems S U D t ty (vs ++ [v]) (xs ++ [x])
  | [], [], _ => by
    rw [List.nil_append, List.nil_append, HoldsItems, HoldsItems]
    exact ⟨h, trivial⟩
  | w :: vs, y :: ys, hi => by
    rw [HoldsItems] at hi
    rw [List.cons_append, List.cons_append, HoldsItems]
    exact ⟨hi.1, holdsItems_append h vs ys hi.2⟩
  | [], _ :: _, hi => by simp [HoldsItems] at hi
  | _ :: _, [], hi => by simp [HoldsItems] at hi

/-- The variables of the functions that read. -/
def given (z h : Value Val) : List (Text × Value Val) := [([], .nil), (t!"iterator", h), ([], z)]

theorem known_given (z h : Value Val) : Known (given z h) := by
  intro p hp
  simp [given] at hp
  rcases hp with rfl | rfl | rfl <;> simp [known]

/-- The memory while a list is read. -/
def Listed (S : Schema) (U : TypeId → Code) (s : State Val Library) (z h : Value Val) (ty : TypeId)
    (acc : List Val) (t : State Val Library) : Prop :=
  ∃ b xs, t.vars = (t!"list", .slice b) :: given z h ∧ Grows s t ∧ ¬ Valid s (.slice b) ∧ t.arrays[b]? = some xs ∧
    HoldsItems S U (fun l => ¬ Valid s l) t ty acc xs

/-- What the loop that reads a list does. -/
def Lists (S : Schema) (U : TypeId → Code) (s : State Val Library) (z h : Value Val) (ty : TypeId)
    (t : State Val Library) (r : Res (Flow Val × State Val Library)) : Option (List Val × List Tok) → Prop
  | some (acc, rest) => ∃ t', r = .ok (.next, t') ∧ t'.user = { t.user with input := rest } ∧ Listed S U s z h ty acc t'
  | none => ∃ t' y rest, r = .ok (.next, t') ∧ t'.vars = (t!"list", y) :: given z h ∧ Grows s t' ∧
      rest.length ≤ t.user.input.length ∧ t'.user = { t.user with input := rest, failed := true }

theorem loop_items {N k : Nat} {pkg : Text} {ty : TypeId} {form : Form} {s : State Val Library} {z h : Value Val}
    (hIH : ∀ M, M < N → FormReads P zero Dt limit S U J L M) (hNk : N ≤ k) (hfit : Fits S U J L pkg ty false form)
    (hflat : ∀ e, S ty ≠ .map e) :
    ∀ (n : Nat) (acc : List Val) (t : State Val Library), t.user.input.length < n → t.user.input.length ≤ N →
      Listed S U s z h ty acc t →
      ∃ o, Says t.user (fun f => readItems Dt S f ty acc t.user.input) o ∧
        Lists S U s z h ty t (loopWhile (fun s => (Expr.call t!"iterator.ReadArray" []).eval (world P zero Dt limit k pkg) s)
          (fun s => (execBlock (world P zero Dt limit k pkg) names (form.read t!"item" ++
            [.assign (.var t!"list") (.append (.var t!"list") (.var t!"item"))]) s).bind fun r => .ok (leave s r)) n t) o
  | 0, _, _, hn, _, _ => absurd hn (Nat.not_lt_zero _)
  | n + 1, acc, t, hn, hN, hi => by
    have hf : (world P zero Dt limit k pkg).funcs t!"iterator.ReadArray" = some (reading GoJson.readArray false .bool) := by
      rw [world_funcs]; rfl
    have hi' := hi
    obtain ⟨b, xs, hv, hg, hnb, hb, hh⟩ := hi'
    have hlost : ∀ {m : Nat} {t : State Val Library} {y : Value Val}, t.vars = (t!"list", y) :: given z h → Grows s t →
        t.user.failed = true ∨ GoJson.readArray t.user.input = none → 
        Lists S U s z h ty t (loopWhile (fun s => (Expr.call t!"iterator.ReadArray" []).eval
          (world P zero Dt limit k pkg) s)
          (fun s => (execBlock (world P zero Dt limit k pkg) names (form.read t!"item" ++
            [.assign (.var t!"list") (.append (.var t!"list") (.var t!"item"))]) s).bind fun r => .ok (leave s r))
          (m + 1) t) none := by
      intro m t y hv hg h
      refine ⟨{ t with user := { t.user with failed := true } }, y, t.user.input, ?_, hv,
        hg.trans ⟨fun _ _ h => h, fun _ _ h => h, fun _ _ h => h⟩, Nat.le_refl _, rfl⟩
      rw [loopWhile, read_none hf h, bind_ok]
    cases hb' : t.user.failed with
    | true => exact ⟨none, by simp [Says, hb'], hlost hv hg (.inl hb')⟩
    | false =>
      cases hr : GoJson.readArray t.user.input with
      | none =>
        refine ⟨none, ?_, hlost hv hg (.inr hr)⟩
        simp only [Says, hb']
        refine ⟨Settles.succ ((Settles.const none).congr fun n => ?_), by simp⟩
        simp [readItems, hr]
      | some p =>
        obtain ⟨more, r⟩ := p
        have hlt := readArray_shrinks hr
        cases more with
        | false =>
          refine ⟨some (acc, r), ?_, { t with user := { t.user with input := r } }, ?_, rfl, b, xs, hv,
            hg.trans ⟨fun _ _ h => h, fun _ _ h => h, fun _ _ h => h⟩, hnb, hb, ?_⟩
          · simp only [Says, hb']
            refine ⟨Settles.succ ((Settles.const (some (acc, r))).congr fun n => ?_), ?_⟩
            · simp [readItems, hr]
            · intro a rest he
              cases he
              exact hlt
          · rw [loopWhile, read_some hf hb' hr, bind_ok]
          · exact HoldsItems.move (s := t) (t := { t with user := { t.user with input := r } })
              (Grows.move (s := t) (t := { t with user := { t.user with input := r } })
                ⟨fun _ _ h => h, fun _ _ h => h, fun _ _ h => h⟩ fun _ h _ => h) ty _ _ hh
        | true =>
          rw [loopWhile, read_some hf hb' hr, bind_ok]
          dsimp only
          generalize ht1 : ({ t with user := { t.user with input := r } } : State Val Library) = t1
          have hu1 : t1.user = { t.user with input := r } := by rw [← ht1]
          have hv1 : t1.vars = (t!"list", .slice b) :: given z h := by rw [← ht1]; exact hv
          have hg1 : Grows t t1 := by rw [← ht1]; exact ⟨fun _ _ h => h, fun _ _ h => h, fun _ _ h => h⟩
          obtain ⟨o, ho, hgot⟩ := hIH (N - 1) (by omega) form ty false pkg k t1 t!"item" names h
            (by rw [hu1]; dsimp only; omega) (by omega) hfit (by decide) (fun e he => absurd he (hflat e))
            (by rw [hv1]; rfl) (by rw [hv1]; exact (known_given z h).cons (by decide) _)
          rw [hu1] at ho
          simp only [Says, hb'] at ho
          have happ : ∀ {t2 : State Val Library} {y : Value Val} {pre : List (Text × Value Val)},
              execBlock (world P zero Dt limit k pkg) names (form.read t!"item") t1 = .ok (.next, t2) →
              t2.vars = pre ++ t1.vars → Fresh t!"item" pre → pre.lookup t!"item" = some y → Grows t1 t2 →
              ((execBlock (world P zero Dt limit k pkg) names (form.read t!"item" ++
                [.assign (.var t!"list") (.append (.var t!"list") (.var t!"item"))]) t1).bind fun r =>
                  .ok (leave t1 r)) = .ok (.next, { t2 with
                    arrays := t2.arrays ++ [xs ++ [y]]
                    vars := (t!"list", .slice t2.arrays.length) :: given z h }) := by
            intro t2 y pre hex hv2 hfr hy hg2
            have hlist : t2.vars.lookup t!"list" = some (.slice b) := by
              rw [hv2, hfr.lookup (by decide), hv1]
              rfl
            have hitem : t2.vars.lookup t!"item" = some y := by rw [hv2]; exact lookup_pre hy
            have harr : t2.elements (.slice b) = some xs := hg2.arrays b xs (hg1.arrays b xs hb)
            have he : (Expr.append (.var t!"list") (.var t!"item")).eval (world P zero Dt limit k pkg) t2 =
                .ok (.slice t2.arrays.length, { t2 with arrays := t2.arrays ++ [xs ++ [y]] }) := by
              rw [Expr.eval, eval_var hlist, bind_ok]
              dsimp only
              rw [eval_var hitem, bind_ok]
              dsimp only
              rw [harr]
              rfl
            have hup : ∀ (pre : List (Text × Value Val)) (v : Value Val), Fresh t!"item" pre →
                update t!"list" v (pre ++ t1.vars) = some (pre ++ (t!"list", v) :: given z h) := by
              intro pre v
              induction pre with
              | nil =>
                intro _
                rw [hv1, List.nil_append]
                simp [update]
              | cons p pre ih =>
                intro hfr
                have hp : p.1 ≠ t!"list" := by
                  have := hfr p (by simp)
                  intro he
                  rw [he] at this
                  exact absurd this (by decide)
                rw [List.cons_append]
                obtain ⟨pn, pv⟩ := p
                rw [update, if_neg hp, ih fun q hq => hfr q (by simp [hq])]
                rfl
            have hass : (Stmt.assign (.var t!"list") (.append (.var t!"list") (.var t!"item"))).exec
                (world P zero Dt limit k pkg) names t2 = .ok (.next, { t2 with
                  arrays := t2.arrays ++ [xs ++ [y]]
                  vars := pre ++ (t!"list", .slice t2.arrays.length) :: given z h }) := by
              rw [Stmt.exec, he, bind_ok]
              dsimp only
              rw [assign]
              dsimp only
              rw [hv2, hup pre _ hfr]
              rfl
            rw [execBlock_append _ _ _ _ _ _ hex, execBlock_next hass, execBlock, bind_ok,
              leave_more (extra := pre) (vars := (t!"list", .slice t2.arrays.length) :: given z h) rfl
                (by rw [hv1]; rfl)]
          cases o with
          | none =>
            obtain ⟨t2, y, pre, rest, hex, hv2, hfr, hy, hg2, hle, hu2⟩ := hgot
            rw [happ hex hv2 hfr hy hg2, bind_ok]
            dsimp only
            generalize ht3 : ({ t2 with
              arrays := t2.arrays ++ [xs ++ [y]]
              vars := (t!"list", .slice t2.arrays.length) :: given z h } : State Val Library) = t3
            have hg3 : Grows t2 t3 := by
              rw [← ht3]
              refine ⟨fun _ _ h => h, fun a ys h => ?_, fun _ _ h => h⟩
              dsimp only
              rw [List.getElem?_append_left (List.getElem?_eq_some_iff.mp h).1]
              exact h
            obtain ⟨m, rfl⟩ : ∃ m, n = m + 1 := ⟨n - 1, by omega⟩
            have hu3 : t3.user = { t.user with input := rest, failed := true } := by
              rw [← ht3]
              dsimp only
              rw [hu2, hu1]
            rw [hu1] at hle
            dsimp only at hle
            refine ⟨none, ?_, ?_⟩
            · simp only [Says, hb']
              obtain ⟨F, hF⟩ := ho.1
              refine ⟨Settles.succ ⟨F, fun f hf => ?_⟩, by simp⟩
              dsimp only
              rw [readItems, hr]
              dsimp only
              rw [show readVal Dt S f ty false r = _ from hF f hf]
            · obtain ⟨t4, y4, rest4, h1, h2, h3, h4, h5⟩ := hlost (m := m) (t := t3) (y := .slice t2.arrays.length)
                (by rw [← ht3]) (((hg.trans hg1).trans hg2).trans hg3) (.inl (by rw [hu3]))
              rw [hu3] at h4 h5
              exact ⟨t4, y4, rest4, h1, h2, h3, Nat.le_trans h4 (by dsimp only; omega), h5⟩
          | some p =>
            obtain ⟨v, rest⟩ := p
            obtain ⟨t2, y, pre, hex, hv2, hfr, hy, hg2, hu2, hold⟩ := hgot
            rw [happ hex hv2 hfr hy hg2, bind_ok]
            dsimp only
            generalize ht3 : ({ t2 with
              arrays := t2.arrays ++ [xs ++ [y]]
              vars := (t!"list", .slice t2.arrays.length) :: given z h } : State Val Library) = t3
            have hg3 : Grows t2 t3 := by
              rw [← ht3]
              refine ⟨fun _ _ h => h, fun a ys h => ?_, fun _ _ h => h⟩
              dsimp only
              rw [List.getElem?_append_left (List.getElem?_eq_some_iff.mp h).1]
              exact h
            have hu3 : t3.user = { t.user with input := rest } := by
              rw [← ht3]
              dsimp only
              rw [hu2, hu1]
            have hle := ho.2 v rest rfl
            have hs2 := (hg.trans hg1).trans hg2
            have hL : Listed S U s z h ty (acc ++ [v]) t3 := by
              refine ⟨t2.arrays.length, xs ++ [y], by rw [← ht3], hs2.trans hg3, ?_, ?_, ?_⟩
              · intro hval
                have := hs2.valid _ hval
                simp [Valid] at this
              · rw [← ht3]
                simp
              · refine holdsItems_append ?_ acc xs ?_
                · refine Holds.move (s := t2) (t := t3) (hg3.move fun l hl _ hsl => ?_) ty v y hold
                  exact hl (hg1.valid _ (hg.valid _ hsl))
                · exact HoldsItems.move (s := t) (t := t3) (((hg1.trans hg2).trans hg3).move fun _ h _ => h) ty _ _ hh
            obtain ⟨q, hq, hres⟩ := loop_items hIH hNk hfit hflat n (acc ++ [v]) t3 (by rw [hu3]; dsimp only; omega)
              (by rw [hu3]; dsimp only; omega) hL
            rw [hu3] at hq
            simp only [Says, hb'] at hq
            refine ⟨q, ?_, ?_⟩
            · simp only [Says, hb']
              refine ⟨Settles.succ ?_, fun b rest' he => ?_⟩
              · obtain ⟨F, hF⟩ := ho.1
                obtain ⟨G, hG⟩ := hq.1
                refine ⟨F + G, fun f hf => ?_⟩
                dsimp only
                rw [readItems, hr]
                dsimp only
                rw [show readVal Dt S f ty false r = _ from hF f (by omega)]
                exact hG f (by omega)
              · have := hq.2 b rest' he
                omega
            · cases q with
              | none =>
                obtain ⟨u, y', rest', h1, h2, h3, h4, h5⟩ := hres
                rw [hu3] at h4 h5
                exact ⟨u, y', rest', h1, h2, h3, Nat.le_trans h4 (by dsimp only; omega), h5⟩
              | some p =>
                obtain ⟨u, h1, h4, h5⟩ := hres
                rw [hu3] at h4
                exact ⟨u, h1, h4, h5⟩

/-- The function that reads a list. -/
def listReader (l : Listing) : Func :=
  match l.readFunc with
  | .func f => f
  | _ => { name := [], results := [], body := [] }

/-- Something that was obtained calling a function is put in a variable. -/
theorem got_apply {ty : TypeId} {s : State Val Library} {r x : Text} {h : Value Val} {o : Option (Val × List Tok)}
    (hi : s.vars.lookup t!"iterator" = some h)
    (hshort : ∀ t y rest, w.apply r [h] s = .ok ([y], t) → t.user = { s.user with input := rest, failed := true } →
      rest.length ≤ s.user.input.length)
    (hr : Obtains S U s ty (w.apply r [h] s) o) :
    Got S U s x ty (execBlock w names [.define x (.apply r [.var t!"iterator"])] s) o := by
  have hrun : ∀ {t : State Val Library} {y : Value Val}, w.apply r [h] s = .ok ([y], t) →
      execBlock w names [.define x (.apply r [.var t!"iterator"])] s =
        .ok (.next, { t with vars := (x, y) :: t.vars }) := by
    intro t y he
    have : (Expr.apply r [.var t!"iterator"]).eval w s = .ok (y, t) := by
      rw [Expr.eval, args_one (eval_var hi), bind_ok]
      dsimp only
      rw [he]
      rfl
    rw [execBlock_next (exec_define this), execBlock]
  have hfresh : ∀ u : Value Val, Fresh x [(x, u)] := by
    intro u p hp
    simp at hp
    simp [hp]
  cases o with
  | none =>
    obtain ⟨t, y, rest, he, hv, hg, hu⟩ := hr
    exact ⟨_, y, [(x, y)], rest, hrun he, by simp [hv], hfresh y, by simp,
      hg.trans ⟨fun _ _ h => h, fun _ _ h => h, fun _ _ h => h⟩, hshort t y rest he hu, hu⟩
  | some p =>
    obtain ⟨v, rest⟩ := p
    obtain ⟨t, y, he, hv, hg, hu, hh⟩ := hr
    refine ⟨{ t with vars := (x, y) :: t.vars }, y, [(x, y)], hrun he, by simp [hv], hfresh y, by simp,
      hg.trans ⟨fun _ _ h => h, fun _ _ h => h, fun _ _ h => h⟩, hu, ?_⟩
    exact Holds.move (s := t) (t := { t with vars := (x, y) :: t.vars })
      (Grows.move (s := t) (t := { t with vars := (x, y) :: t.vars })
        ⟨fun _ _ h => h, fun _ _ h => h, fun _ _ h => h⟩ fun _ h _ => h) ty v y hh

/-- What a call of a function that reads does, with the length of what hasn't been read. -/
def Reached (S : Schema) (U : TypeId → Code) (s : State Val Library) (ty : TypeId)
    (r : Res (List (Value Val) × State Val Library)) (o : Option (Val × List Tok)) : Prop :=
  Obtains S U s ty r o ∧ ∀ t y rest, r = .ok ([y], t) → t.user = { s.user with input := rest, failed := true } →
    rest.length ≤ s.user.input.length

theorem reached_none {ty : TypeId} {s t : State Val Library} {y : Value Val} {rest : List Tok} (hv : t.vars = s.vars)
    (hg : Grows s t) (hle : rest.length ≤ s.user.input.length)
    (hu : t.user = { s.user with input := rest, failed := true }) : Reached S U s ty (.ok ([y], t)) none := by
  refine ⟨⟨t, y, rest, rfl, hv, hg, hu⟩, fun t' y' rest' he hu' => ?_⟩
  cases he
  rw [hu] at hu'
  injection hu' with _ _ _ h
  rw [← h]
  exact hle

/-- Calls of the functions that read lists. -/
theorem read_list (hw : Whole P zero S U J L) {N k : Nat} {pkg t n : Text} {ty el : TypeId} {s : State Val Library}
    {h : Value Val} (hIH : ∀ M, M < N → FormReads P zero Dt limit S U J L M) (hflat : Flat S) (hNk : N ≤ k)
    (hNl : N < limit) (hN : s.user.input.length ≤ N) (hS : S ty = .list n el)
    (hr : resolve pkg t = ((L ty).pkg, (L ty).listing.functions.read)) :
    ∃ o, Says s.user (fun f => readVal Dt S f ty false s.user.input) o ∧
      Reached S U s ty ((world P zero Dt limit (k + 1) pkg).apply t [h] s) o := by
  have hl := hw.lists ty n el hS
  have hmem : .func (listReader (L ty).listing) ∈ P (L ty).pkg :=
    hl.declared _ (by simp [Listing.items]; exact .inr (.inr (.inr rfl)))
  rw [apply_eq (f := listReader (L ty).listing) k [h] s hr hl.legal hmem rfl]
  generalize hz : zero (L ty).pkg (L ty).listing.typ = z
  have hcall : ∀ w : World Val Library, w.zero = zero (L ty).pkg →
      (listReader (L ty).listing).call w .nil [h] s =
      (execBlock w [[]] [
        .define t!"list" (.emptySlice (L ty).listing.typ),
        .while (.call t!"iterator.ReadArray" [])
          ((L ty).listing.form.read t!"item" ++ [.assign (.var t!"list") (.append (.var t!"list") (.var t!"item"))]),
        .ret [.var t!"list"]] { s with vars := given z h }).bind fun (flow, t) =>
          match flow with
          | .ret vs => .ok (vs, { t with vars := s.vars })
          | _ => .wrong := by
    intro w hwz
    rw [← hz, ← hwz]
    refine congrArg (Res.bind _) (funext fun ⟨flow, t⟩ => ?_)
    cases flow <;> rfl
  rw [hcall _ (world_zero _ _)]
  generalize ht0 : ({ s with
    arrays := s.arrays ++ [[]]
    vars := (t!"list", .slice s.arrays.length) :: given z h } : State Val Library) = t0
  have hdef : (Stmt.define t!"list" (.emptySlice (L ty).listing.typ)).exec (world P zero Dt limit k (L ty).pkg) [[]]
      { s with vars := given z h } = .ok (.next, t0) := by
    rw [Stmt.exec, Expr.eval, allocSlice, bind_ok]
    rw [← ht0]
  have hg0 : Grows s t0 := by
    rw [← ht0]
    refine ⟨fun _ _ h => h, fun a ys h => ?_, fun _ _ h => h⟩
    dsimp only
    rw [List.getElem?_append_left (List.getElem?_eq_some_iff.mp h).1]
    exact h
  have hu0 : t0.user = s.user := by rw [← ht0]
  have hL : Listed S U s z h el [] t0 := by
    refine ⟨s.arrays.length, [], by rw [← ht0], hg0, by simp [Valid], by rw [← ht0]; simp, ?_⟩
    rw [HoldsItems]
    trivial
  obtain ⟨o, ho, hres⟩ := loop_items (names := [[]]) (s := s) (z := z) (h := h) hIH hNk hl.form
    (fun e he => (hflat ty el e he).2 n hS) limit [] t0 (by rw [hu0]; omega) (by rw [hu0]; exact hN) hL
  rw [execBlock_next hdef, execBlock, Stmt.exec, world_limit]
  rw [hu0] at ho
  cases o with
  | none =>
    obtain ⟨t', y, rest, hrun, hv, hg, hle, hu⟩ := hres
    rw [hrun, bind_ok]
    dsimp only
    rw [execBlock, Stmt.exec, args_one (eval_var (v := y) (by rw [hv]; simp)), bind_ok]
    dsimp only
    rw [bind_ok]
    dsimp only
    rw [bind_ok]
    dsimp only
    rw [hu0] at hle hu
    refine ⟨none, ?_, reached_none rfl (hg.trans ⟨fun _ _ h => h, fun _ _ h => h, fun _ _ h => h⟩) hle hu⟩
    cases hb : s.user.failed with
    | true => simp [Says, hb]
    | false =>
      simp only [Says, hb] at ho ⊢
      refine ⟨Settles.succ ((ho.1.map (Option.map fun p => (Val.list p.1, p.2))).congr fun f => ?_), by simp⟩
      simp [readVal, hS]
  | some p =>
    obtain ⟨items, rest⟩ := p
    obtain ⟨t', hrun, hu, b, xs, hv, hg, hnb, hb', hh⟩ := hres
    rw [hrun, bind_ok]
    dsimp only
    rw [execBlock, Stmt.exec, args_one (eval_var (v := .slice b) (by rw [hv]; simp)), bind_ok]
    dsimp only
    rw [bind_ok]
    dsimp only
    rw [bind_ok]
    dsimp only
    rw [hu0] at hu
    cases hb : s.user.failed with
    | true => simp [Says, hb] at ho
    | false =>
      refine ⟨some (.list items, rest), ?_, ⟨{ t' with vars := s.vars }, .slice b, rfl, rfl,
        hg.trans ⟨fun _ _ h => h, fun _ _ h => h, fun _ _ h => h⟩, hu, ?_⟩, ?_⟩
      · simp only [Says, hb] at ho ⊢
        refine ⟨Settles.succ ((ho.1.map (Option.map fun p => (Val.list p.1, p.2))).congr fun f => ?_), ?_⟩
        · simp [readVal, hS]
        · intro a rest' he
          cases he
          exact ho.2 _ _ rfl
      · rw [Holds]
        refine ⟨b, xs, rfl, hnb, hb', ?_⟩
        have : BuildersRun.elementOf S ty = el := by simp [BuildersRun.elementOf, hS]
        rw [this]
        exact HoldsItems.move (s := t') (t := { t' with vars := s.vars })
          (Grows.move (s := t') (t := { t' with vars := s.vars })
            ⟨fun _ _ h => h, fun _ _ h => h, fun _ _ h => h⟩ fun _ h _ => h) el _ _ hh
      · intro t'' y rest' he hu'
        cases he
        rw [hu] at hu'
        injection hu' with _ _ _ _ h
        rw [hb] at h
        cases h

/-! ## Maps -/

theorem holdsEntries_insert {D : Value Val → Prop} {t : State Val Library} {ty : TypeId} {v : Val} {x : Value Val}
    {key : Text} (h : Holds S U D t ty v x) : ∀ (es : GoMap Val) (m : GoMap (Value Val)), HoldsEntries S U D t ty es m →
      HoldsEntries S U D t ty (es.insert key v) (m.insert key x)
  | [], [], _ => by
    rw [GoMap.insert, GoMap.insert, HoldsEntries, HoldsEntries]
    exact ⟨rfl, h, trivial⟩
  | (k, w) :: es, (l, y) :: m, hi => by
    rw [HoldsEntries] at hi
    obtain ⟨rfl, h1, h2⟩ := hi
    rw [GoMap.insert, GoMap.insert]
    split
    · rw [HoldsEntries]
      exact ⟨rfl, h, h2⟩
    · rw [HoldsEntries]
      exact ⟨rfl, h1, holdsEntries_insert h es m h2⟩
  | [], _ :: _, hi => by simp [HoldsEntries] at hi
  | _ :: _, [], hi => by simp [HoldsEntries] at hi

/-- The memory while a map is read. -/
def Mapped (S : Schema) (U : TypeId → Code) (s : State Val Library) (ty : TypeId) (es : GoMap Val)
    (t : State Val Library) : Prop :=
  ∃ m, Grows s t ∧ t.maps[s.maps.length]? = some m ∧ (m.map Prod.fst).Nodup ∧
    HoldsEntries S U (fun l => ¬ Valid s l ∧ l ≠ .map s.maps.length) t ty es m

/-- The memory while a map is read, if there is an error. -/
def MapSafe (s t : State Val Library) : Prop := Grows s t ∧ s.maps.length < t.maps.length

theorem grows_vars (s : State Val Library) (vars : List (Text × Value Val)) : Grows s { s with vars := vars } :=
  ⟨fun _ _ h => h, fun _ _ h => h, fun _ _ h => h⟩

/-- Changing a new map. -/
theorem grows_set {s t : State Val Library} (h : Grows s t) (m : GoMap (Value Val)) :
    Grows s { t with maps := t.maps.set s.maps.length m } := by
  refine ⟨h.structs, h.arrays, fun a m' ha => ?_⟩
  have hlt := (List.getElem?_eq_some_iff.mp ha).1
  dsimp only
  rw [List.getElem?_set_ne (by omega)]
  exact h.maps a m' ha

theorem move_set {D : Value Val → Prop} (t : State Val Library) (a : Nat) (m : GoMap (Value Val)) :
    BuildersRun.Move (fun l => D l ∧ l ≠ .map a) (fun l => D l ∧ l ≠ .map a) t { t with maps := t.maps.set a m } := by
  refine ⟨fun _ h _ => h, fun _ _ _ h => h, fun _ _ _ h => h, fun b m' hb h => ?_⟩
  have : a ≠ b := by
    rintro rfl
    exact hb.2 rfl
  dsimp only
  rw [List.getElem?_set_ne this]
  exact h

/-- The entries of a map. -/
theorem step_map {N k : Nat} {pkg : Text} {e : TypeId} {form : Form} {s0 : State Val Library} {h : Value Val}
    {vars : List (Text × Value Val)}
    (hIH : ∀ M, M < N → FormReads P zero Dt limit S U J L M) (hNk : N ≤ k) (hfit : Fits S U J L pkg e false form)
    (hflat : ∀ f, S e ≠ .map f) (hi : vars.lookup t!"iterator" = some h) (hk : Known vars)
    (hx : vars.lookup t!"value" = some (.map s0.maps.length)) (es : GoMap Val) (key : Text) (s : State Val Library)
    (hb : s.user.failed = false) (hN : s.user.input.length < N) (hI : Mapped S U s0 e es s)
    (hv : s.vars = (t!"key", .str key) :: vars) :
    ∃ o, Settles (fun f => (readVal Dt S f e false s.user.input).map fun p => (es.insert key p.1, p.2)) o ∧
      (∀ a' rest, o = some (a', rest) → rest.length ≤ s.user.input.length) ∧
      Turns (Mapped S U s0 e) (MapSafe s0) s s.vars (execBlock (world P zero Dt limit k pkg) names
        (form.read t!"item" ++ [.assign (.index (.var t!"value") (.var t!"key")) (.var t!"item")]) s) o := by
  obtain ⟨m, hg, hm, hnd, hes⟩ := hI
  obtain ⟨o, ho, hgot⟩ := hIH (N - 1) (by omega) form e false pkg k s t!"item" names h
    (by omega) (by omega) hfit (by decide) (fun f he => absurd he (hflat f))
    (by rw [hv, List.lookup_cons]; simpa using hi) (by rw [hv]; exact hk.cons (by decide) _)
  simp only [Says, hb] at ho
  have hput : ∀ {t2 : State Val Library} {y : Value Val} {pre : List (Text × Value Val)},
      execBlock (world P zero Dt limit k pkg) names (form.read t!"item") s = .ok (.next, t2) →
      t2.vars = pre ++ s.vars → Fresh t!"item" pre → pre.lookup t!"item" = some y → Grows s t2 →
      execBlock (world P zero Dt limit k pkg) names
        (form.read t!"item" ++ [.assign (.index (.var t!"value") (.var t!"key")) (.var t!"item")]) s =
        .ok (.next, { t2 with maps := t2.maps.set s0.maps.length (m.insert key y) }) := by
    intro t2 y pre hex hv2 hfr hy hg2
    have hmap : t2.vars.lookup t!"value" = some (.map s0.maps.length) := by
      rw [hv2, hfr.lookup (by decide), hv, List.lookup_cons]
      simpa using hx
    have hkey : t2.vars.lookup t!"key" = some (.str key) := by
      rw [hv2, hfr.lookup (by decide), hv]
      simp
    have hitem : t2.vars.lookup t!"item" = some y := by rw [hv2]; exact lookup_pre hy
    have hass : (Stmt.assign (.index (.var t!"value") (.var t!"key")) (.var t!"item")).exec
        (world P zero Dt limit k pkg) names t2 =
        .ok (.next, { t2 with maps := t2.maps.set s0.maps.length (m.insert key y) }) := by
      rw [Stmt.exec, eval_var hitem, bind_ok]
      dsimp only
      rw [assign, eval_var hmap, bind_ok]
      dsimp only
      rw [eval_var hkey, bind_ok]
      dsimp only
      rw [put, hg2.maps _ _ hm]
      rfl
    rw [execBlock_append _ _ _ _ _ _ hex, execBlock_next hass, execBlock]
  cases o with
  | none =>
    obtain ⟨t2, y, pre, rest, hex, hv2, hfr, hy, hg2, hle, hu2⟩ := hgot
    refine ⟨none, ?_, by simp, _, pre, rest, hput hex hv2 hfr hy hg2, hv2, hle, hu2, grows_set (hg.trans hg2) _, ?_⟩
    · exact ho.1.map (Option.map fun p => (es.insert key p.1, p.2))
    · simp only [List.length_set]
      exact (List.getElem?_eq_some_iff.mp (hg2.maps _ _ hm)).1
  | some p =>
    obtain ⟨v, rest⟩ := p
    obtain ⟨t2, y, pre, hex, hv2, hfr, hy, hg2, hu2, hold⟩ := hgot
    refine ⟨some (es.insert key v, rest), ?_, ?_, _, pre, hput hex hv2 hfr hy hg2, hv2, hu2, m.insert key y,
      grows_set (hg.trans hg2) _, ?_, ?_, ?_⟩
    · exact ho.1.map (Option.map fun p => (es.insert key p.1, p.2))
    · intro a' rest' he
      cases he
      exact Nat.le_of_lt (ho.2 v rest rfl)
    · simp only [List.getElem?_set_self (List.getElem?_eq_some_iff.mp (hg2.maps _ _ hm)).1]
    · exact nodup_insert hnd key y
    · refine holdsEntries_insert ?_ es m ?_
      · refine Holds.move (s := t2) (t := { t2 with maps := t2.maps.set s0.maps.length (m.insert key y) })
          (move_set (D := fun l => ¬ Valid s0 l) t2 s0.maps.length _) e v y ?_
        refine Holds.move (s := t2) (t := t2) (BuildersRun.Move.change fun l hl hvl => ⟨fun hvs => ?_, ?_⟩) e v y hold
        · exact hl (hg.valid l hvs)
        · rintro rfl
          exact hl (List.getElem?_eq_some_iff.mp hm).1
      · refine HoldsEntries.move (s := t2) (t := { t2 with maps := t2.maps.set s0.maps.length (m.insert key y) })
          (move_set (D := fun l => ¬ Valid s0 l) t2 s0.maps.length _) e es m ?_
        exact HoldsEntries.move (s := s) (t := t2) (hg2.move fun _ h _ => h) e es m hes

theorem Says.step {α β : Type} {l : Library} {p : Nat → Option (α × List Tok)} {q : Nat → Option (β × List Tok)}
    {o : Option (α × List Tok)} (g : α → β) (hq : ∀ f, q (f + 1) = (p f).map fun a => (g a.1, a.2)) (h : Says l p o) :
    Says l q (o.map fun a => (g a.1, a.2)) := by
  unfold Says at h ⊢
  split
  · rename_i hb
    rw [if_pos hb] at h
    rw [h]
    rfl
  · rename_i hb
    rw [if_neg hb] at h
    refine ⟨Settles.succ ((h.1.map (Option.map fun a => (g a.1, a.2))).congr fun f => hq f), fun b rest he => ?_⟩
    cases o with
    | none => cases he
    | some a =>
      cases he
      exact h.2 a.1 a.2 rfl

/-- Maps. -/
theorem reads_map {N k : Nat} {pkg typ ety : Text} {ty e : TypeId} {link : Bool} {form : Form} {s : State Val Library}
    {h : Value Val} (hIH : ∀ M, M < N → FormReads P zero Dt limit S U J L M) (hflat : Flat S) (hNk : N ≤ k)
    (hNl : N < limit) (hN : s.user.input.length ≤ N) (hS : S ty = .map e) (hfit : Fits S U J L pkg e false form)
    (hi : s.vars.lookup t!"iterator" = some h) (hk : Known s.vars) :
    ∃ o, Says s.user (fun f => readVal Dt S f ty link s.user.input) o ∧
      Got S U s t!"value" ty (execBlock (world P zero Dt limit k pkg) names ((Form.map typ ety form).read t!"value") s)
        o := by
  have hflat' : ∀ f, S e ≠ .map f := fun f he => (hflat ty e f he).1 hS
  generalize ht0 : ({ s with
    maps := s.maps ++ [[]]
    vars := (t!"value", .map s.maps.length) :: s.vars } : State Val Library) = t0
  have hdef : (Stmt.define t!"value" (.emptyMap typ)).exec (world P zero Dt limit k pkg) names s = .ok (.next, t0) := by
    rw [Stmt.exec, Expr.eval, allocMap, bind_ok]
    rw [← ht0]
  have hg0 : Grows s t0 := by
    rw [← ht0]
    refine ⟨fun _ _ h => h, fun _ _ h => h, fun a ys h => ?_⟩
    dsimp only
    rw [List.getElem?_append_left (List.getElem?_eq_some_iff.mp h).1]
    exact h
  have hu0 : t0.user = s.user := by rw [← ht0]
  have hv0 : t0.vars = (t!"value", .map s.maps.length) :: s.vars := by rw [← ht0]
  have hM : Mapped S U s e [] t0 := by
    refine ⟨[], hg0, by rw [← ht0]; simp, by simp, ?_⟩
    rw [HoldsEntries]
    trivial
  obtain ⟨o, ho, hres⟩ := loop_keys (P := P) (zero := zero) (Dt := Dt) (limit := limit) (names := names) (k := k) (pkg := pkg) (x := t!"key")
    (body := form.read t!"item" ++ [.assign (.index (.var t!"value") (.var t!"key")) (.var t!"item")])
    (model := fun f es r => readEntries Dt S f e es r)
    (step := fun f es key r => (readVal Dt S f e false r).map fun p => (es.insert key p.1, p.2))
    (Inv := Mapped S U s e) (Safe := MapSafe s) (N := N)
    (fun f es r => by
      rw [readEntries]
      cases GoJson.readObject r with
      | none => rfl
      | some p =>
        dsimp only
        split
        · rfl
        · cases readVal Dt S f e false p.2 <;> rfl)
    (fun es t h => by
      obtain ⟨m, hg, hm, -⟩ := h
      exact ⟨hg, (List.getElem?_eq_some_iff.mp hm).1⟩)
    (fun es t t' hs h => by
      obtain ⟨m, hg, hm, hnd, hes⟩ := h
      exact ⟨m, hg.trans hs.grows, by rw [hs.maps]; exact hm, hnd,
        HoldsEntries.move (s := t) (t := t') (hs.grows.move fun _ h _ => h) e es m hes⟩)
    (fun t t' hs h => ⟨h.1.trans hs.grows, by rw [hs.maps]; exact h.2⟩)
    t0.vars
    (fun es key t _ hb hN' hI hv => step_map (names := names) hIH hNk hfit hflat'
      (by rw [hv0, List.lookup_cons]; simpa using hi) (by rw [hv0]; exact hk.cons (by decide) _)
      (by rw [hv0]; simp) es key t hb hN' hI hv)
    limit [] t0 (by rw [hu0]; omega) (by rw [hu0]; exact hN) hM rfl
  have hexec : ∀ {t : State Val Library}, loopWhile (fun s => .ok (.bool true, s))
      (fun s => (execBlock (world P zero Dt limit k pkg) names (nextField t!"key" ++ (form.read t!"item" ++
        [.assign (.index (.var t!"value") (.var t!"key")) (.var t!"item")])) s).bind
          fun r => .ok (leave s r)) limit t0 = .ok (.next, t) →
      execBlock (world P zero Dt limit k pkg) names ((Form.map typ ety form).read t!"value") s = .ok (.next, t) := by
    intro t ht
    rw [Form.read, execBlock_next hdef, execBlock, Stmt.exec, world_limit, List.append_assoc, ht, bind_ok]
    dsimp only
    rw [execBlock]
  rw [hu0] at ho
  have hfresh : Fresh t!"value" [(t!"value", (Value.map s.maps.length : Value Val))] := by
    intro p hp
    simp only [List.mem_singleton] at hp
    simp [hp]
  have hq : ∀ f, readVal Dt S (f + 1) ty link s.user.input =
      (readEntries Dt S f e [] s.user.input).map fun a => (Val.map a.1, a.2) := by
    intro f
    rw [readVal, hS]
  refine ⟨_, ho.step Val.map hq, ?_⟩
  cases o with
  | none =>
    obtain ⟨t, rest, ht, htv, hle, htu, hg, -⟩ := hres
    rw [hu0] at hle htu
    exact ⟨t, .map s.maps.length, [(t!"value", .map s.maps.length)], rest, hexec ht, by simp [htv, hv0], hfresh, by simp, hg, hle, htu⟩
  | some p =>
    obtain ⟨es, rest⟩ := p
    obtain ⟨t, ht, htv, htu, m, hg, hm, hnd, hes⟩ := hres
    rw [hu0] at htu
    refine ⟨t, .map s.maps.length, [(t!"value", .map s.maps.length)], hexec ht, by simp [htv, hv0], hfresh, by simp, hg, htu, ?_⟩
    have he : BuildersRun.elementOf S ty = e := by rw [BuildersRun.elementOf, hS]
    rw [Holds, he]
    refine ⟨_, m, rfl, ?_, hm, hnd, ?_⟩
    · intro hvs
      exact absurd hvs (Nat.lt_irrefl _)
    · exact HoldsEntries.move (s := t) (t := t) (BuildersRun.Move.change fun l hl _ => hl.1) e es m hes

end Verif.JsonRun
