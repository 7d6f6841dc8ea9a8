import Verif.Lemmas.JsonWriteObject
import Verif.Lemmas.MethodsCode
import Verif.Spec.MethodsRun

/-!
# Lemmas about running the generated code that writes requests
-/

namespace Verif.MethodsRun

open GoJson (Val Schema Shape DateParser Written writeVal writeParameters)
open GoProgram
open TypesRun (Legal value)
open TypesCode (dot)
open BuildersRun (Program Code resolve isObject Holds execBlock_next execBlock_panic execBlock_append eval_var eval_dot)
open JsonCode (Form Entity Functions formOf functionsOf)
open JsonRun (Library ListCode Fits Sends Whole Wrote Ends after wrote errorOf world table performs write_more write_name
  exec_increment after_after after_vars formWrites holds_after panic_append args_one args_two bind_ok leave_same
  world_funcs)
open MethodsCode (Context fieldOf kindOf bodyOf lastThat messageOf requestOf equals_eq lastWhere_eq body_eq)
open GoBuilder (typed)

variable {P : Program} {zero : Text → Text → Value Val} {Dt : DateParser} {limit : Nat} {S : Schema}
  {U : TypeId → Code} {J : TypeId → Entity} {L : TypeId → ListCode} {names : List Text}

/-! ## Values -/

theorem holds_scalar {D : Value Val → Prop} {s : State Val Library} {ty : TypeId} {v : Val}
    (hs : (S ty).isScalar = true) (ht : typed S ty false v = true) : Holds S U D s ty v (value v) := by
  have := BuildersRun.typed_fits hs ht
  cases v <;> cases hS : S ty <;> simp_all [GoBuilder.scalarFits, Holds]

theorem given_nil {D : Value Val → Prop} {s : State Val Library} {ty : TypeId} {v : Val} {y : Value Val}
    (h : Given S U D s ty v y) : equal y .nil = some v.isNil := by
  rcases h with ⟨rfl, rfl⟩ | ⟨hn, ht, h⟩
  · rfl
  · split at h
    · rename_i hS
      obtain ⟨rfl, hne⟩ := h
      have hf := BuildersRun.typed_fits (by rw [hS]; rfl) ht
      rw [hS] at hf
      cases v with
      | iface j => cases j <;> first | exact absurd rfl hne | rfl
      | _ => simp [GoBuilder.scalarFits] at hf
    · split at h
      · obtain ⟨b, rfl, -⟩ := h
        cases v <;> first | exact absurd rfl hn | rfl
      · rename_i hs
        exact JsonRun.holds_nil (by simpa using hs) ht h

theorem anything_iff (x : Context) (p : Parameter) :
    (fieldOf x p).anything = true ↔ x.typeOf p.typ.id = .basic .interface := by
  rw [fieldOf]
  dsimp only
  split <;> simp_all

/-! ## Fields -/

/-- The variables of the function that writes a request. -/
def writing (n : Nat) (q w z : Value Val) : List (Text × Value Val) :=
  [(t!"stream", .other .nil), (t!"count", .int n), ([], .nil), (t!"request", q), (t!"writer", w), ([], z)]

theorem write_field (hw : Whole P zero S U J L) {x : Context} {p : Parameter} {pkg : Text} {fuel a n : Nat}
    {D : Value Val → Prop} {s : State Val Library} {fs : List (Text × Value Val)} {v : Val} {y w z : Value Val}
    (hvars : s.vars = writing n (.pointer a) w z) (hs : s.structs[a]? = some fs)
    (hy : fs.lookup (Go.privateName p.name) = some y) (hg : Given S U D s p.typ.id v y)
    (hsc : (x.typeOf p.typ.id).isScalar = (S p.typ.id).isScalar)
    (hany : x.typeOf p.typ.id = .basic .interface ↔ S p.typ.id = .interface)
    (hform : Fits S U J L pkg p.typ.id false (formOf x false none (x.typeOf p.typ.id))) (hf : sizeOf v ≤ fuel) :
    Wrote s (writing (if v.isNil then n else n + 1) (.pointer a) w z)
      ((fieldOf x p).write.exec (world P zero Dt limit fuel pkg) names s)
      (if v.isNil then some [] else (writeVal S p.typ.id false v).map fun ts =>
        GoJson.more n ++ (.str (Binding.bodyParameterName p) :: .colon :: ts)) := by
  have hreq : s.vars.lookup t!"request" = some (.pointer a) := by rw [hvars]; rfl
  have hdot : ∀ t : State Val Library, t.structs = s.structs →
      t.vars.lookup t!"request" = some (.pointer a) →
      (dot t!"request" (Go.privateName p.name)).eval (world P zero Dt limit fuel pkg) t = .ok (y, t) := fun t h1 h2 =>
    eval_dot h2 (by rw [h1]; exact hs) hy
  have hc : (Expr.ne (dot t!"request" (Go.privateName p.name)) .nil).eval (world P zero Dt limit fuel pkg) s =
      .ok (.bool (!v.isNil), s) := by
    rw [Expr.eval, hdot s rfl hreq, bind_ok]
    dsimp only
    rw [Expr.eval, bind_ok]
    dsimp only
    rw [given_nil hg]
    rfl
  rw [MethodsCode.Field.write]
  refine Wrote.branch (b := !v.isNil) hc (by rw [hvars]; rfl) ⟨[], ?_⟩
  rw [List.nil_append]
  cases hn : v.isNil with
  | true =>
    simp only [Bool.not_true, Bool.false_eq_true, if_false, if_true]
    rw [← hvars]
    exact Wrote.nil s
  | false =>
    simp only [Bool.not_false, Bool.false_eq_true, if_false, if_true]
    have hv : v ≠ .nil := by rintro rfl; cases hn
    obtain ⟨ht, h⟩ : typed S p.typ.id false v = true ∧
        if S p.typ.id = .interface then y = value v ∧ y ≠ .nil
        else if (S p.typ.id).isScalar then ∃ b, y = .pointer b ∧ s.structs[b]? = some [([], value v)]
        else Holds S U D s p.typ.id v y := by
      rcases hg with ⟨h, -⟩ | ⟨-, h⟩
      · exact absurd h hv
      · exact h
    generalize he : (if (fieldOf x p).scalar && !(fieldOf x p).anything then
      Expr.deref (dot t!"request" (fieldOf x p).field) else dot t!"request" (fieldOf x p).field) = e
    obtain ⟨y', hhold, hev⟩ : ∃ y', Holds S U D s p.typ.id v y' ∧ ∀ t : State Val Library, t.structs = s.structs →
        t.vars.lookup t!"request" = some (.pointer a) → e.eval (world P zero Dt limit fuel pkg) t = .ok (y', t) := by
      by_cases hi : S p.typ.id = .interface
      · rw [if_pos hi] at h
        have ha := (anything_iff x p).mpr (hany.mpr hi)
        rw [ha] at he
        simp only [Bool.not_true, Bool.and_false, Bool.false_eq_true, if_false] at he
        refine ⟨y, ?_, fun t h1 h2 => by rw [← he]; exact hdot t h1 h2⟩
        rw [h.1]
        exact holds_scalar (by rw [hi]; rfl) ht
      · rw [if_neg hi] at h
        have ha : (fieldOf x p).anything = false := by
          rw [← Bool.not_eq_true, anything_iff, hany]
          exact hi
        have hsc' : (fieldOf x p).scalar = (S p.typ.id).isScalar := hsc
        rw [ha, hsc'] at he
        by_cases hss : (S p.typ.id).isScalar = true
        · rw [if_pos hss] at h
          rw [hss] at he
          simp only [Bool.not_false, Bool.and_true, if_true] at he
          obtain ⟨b, rfl, hb⟩ := h
          refine ⟨value v, holds_scalar hss ht, fun t h1 h2 => ?_⟩
          rw [← he, Expr.eval, show (fieldOf x p).field = Go.privateName p.name from rfl, hdot t h1 h2, bind_ok]
          dsimp only
          rw [State.field, h1, hb]
          rfl
        · rw [if_neg hss] at h
          rw [Bool.not_eq_true] at hss
          rw [hss] at he
          simp only [Bool.not_false, Bool.and_true, Bool.false_eq_true, if_false] at he
          exact ⟨y, h, fun t h1 h2 => by rw [← he]; exact hdot t h1 h2⟩
    generalize hq : writeVal S p.typ.id false v = o
    refine Wrote.cons (ts := GoJson.more n) (v := s.vars)
      (o := o.map fun ts => .str (Binding.bodyParameterName p) :: .colon :: ts) (write_more (by rw [hvars]; rfl))
      (fun A => ?_) (by cases o <;> rfl)
    refine Wrote.cons (ts := [.str (Binding.bodyParameterName p), .colon]) (v := s.vars) (o := o) write_name
      (fun A' => ?_) (by cases o <;> rfl)
    rw [after_after]
    generalize A ++ A' = A
    generalize GoJson.more n ++ _ = ts
    have hone := formWrites (Dt := Dt) (limit := limit) hw v (formOf x false none (x.typeOf p.typ.id)) p.typ.id false pkg
      fuel (after s A ts s.vars) y' e names (.other .nil) D hf hform ht (fun h => by cases h) (holds_after hhold _ _ _)
      (by rw [after_vars, hvars]; rfl) (by rw [after_vars, hvars]; rfl) (by
        intro t h1 h2
        exact hev t h1 (by rw [h2 _ (by decide), after_vars]; exact hreq))
    rw [hq, after_vars] at hone
    change Wrote _ _ (execBlock _ _ ((formOf x false none (x.typeOf p.typ.id)).write e ++ _) _) _
    cases o with
    | none => exact panic_append hone
    | some us =>
      refine Wrote.append hone (o := some []) (fun A' => ?_) (by simp)
      rw [after_after]
      exact Wrote.one (exec_increment (vars := writing n (.pointer a) w z) rfl rfl (by rw [after_vars, hvars]))

/-- What is needed to write a parameter. -/
def Ready (S : Schema) (U : TypeId → Code) (J : TypeId → Entity) (L : TypeId → ListCode) (x : Context) (pkg : Text)
    (p : Parameter) : Prop :=
  (x.typeOf p.typ.id).isScalar = (S p.typ.id).isScalar ∧
  (x.typeOf p.typ.id = .basic .interface ↔ S p.typ.id = .interface) ∧
  Fits S U J L pkg p.typ.id false (formOf x false none (x.typeOf p.typ.id))

theorem given_after {D : Value Val → Prop} {s : State Val Library} {ty : TypeId} {v : Val} {y : Value Val}
    (h : Given S U D s ty v y) (A : List (List (Value Val))) (ts : List Tok) (vars : List (Text × Value Val)) :
    Given S U D (after s A ts vars) ty v y := by
  rcases h with h | ⟨h1, h2, h3⟩
  · exact .inl h
  · refine .inr ⟨h1, h2, ?_⟩
    split at h3
    · rename_i hS
      rw [if_pos hS]
      exact h3
    · rename_i hS
      rw [if_neg hS]
      split at h3
      · rename_i hs
        rw [if_pos hs]
        exact h3
      · rename_i hs
        rw [if_neg hs]
        exact holds_after h3 _ _ _

theorem write_fields (hw : Whole P zero S U J L) {x : Context} {pkg : Text} {fuel a : Nat}
    {D : Value Val → Prop} {fs : List (Text × Value Val)} {w z : Value Val} {fields : Parameter → Val} :
    ∀ (ps : List Parameter) (n : Nat) (s : State Val Library), s.vars = writing n (.pointer a) w z →
      s.structs[a]? = some fs →
      (∀ p ∈ ps, (∃ y, fs.lookup (Go.privateName p.name) = some y ∧ Given S U D s p.typ.id (fields p) y) ∧
        Ready S U J L x pkg p ∧ sizeOf (fields p) ≤ fuel) →
      Ends s (execBlock (world P zero Dt limit fuel pkg) names ((ps.map (fieldOf x)).map MethodsCode.Field.write) s)
        (writeParameters S fields n ps)
  | [], n, s, _, _, _ => by
    rw [writeParameters]
    exact (Wrote.nil s).ends
  | p :: ps, n, s, hvars, hs, h => by
    obtain ⟨⟨y, hy, hg⟩, ⟨h1, h2, h3⟩, hf⟩ := h p (by simp)
    have hone := write_field (names := names) (Dt := Dt) (limit := limit) hw hvars hs hy hg h1 h2 h3 hf
    have hrest : ∀ (n : Nat) (A : List (List (Value Val))) (ts : List Tok),
        Ends (after s A ts (writing n (.pointer a) w z)) (execBlock (world P zero Dt limit fuel pkg) names
          ((ps.map (fieldOf x)).map MethodsCode.Field.write) (after s A ts (writing n (.pointer a) w z)))
          (writeParameters S fields n ps) := fun n A ts =>
      write_fields hw ps n _ rfl hs fun q hq => by
        obtain ⟨⟨y, hy, hg⟩, hr⟩ := h q (by simp [hq])
        exact ⟨⟨y, hy, given_after hg _ _ _⟩, hr⟩
    rw [List.map_cons, List.map_cons, writeParameters]
    cases hn : (fields p).isNil with
    | true =>
      simp only [hn, if_true] at hone ⊢
      refine Ends.cons hone (fun A => hrest _ A _) ?_
      cases writeParameters S fields n ps <;> rfl
    | false =>
      simp only [hn, Bool.false_eq_true, if_false] at hone ⊢
      cases hwv : writeVal S p.typ.id false (fields p) with
      | none =>
        rw [hwv] at hone
        exact execBlock_panic hone
      | some ts =>
        rw [hwv] at hone
        refine Ends.cons hone (fun A => hrest _ A _) ?_
        cases writeParameters S fields (n + 1) ps <;> simp

/-! ## Whole bodies -/

theorem apply_resolve {pkg t q n : Text} (hr : resolve pkg t = (q, n)) (hq : '.' ∉ n) (k : Nat)
    (args : List (Value Val)) (s : State Val Library) :
    (world P zero Dt limit k pkg).apply t args s = (world P zero Dt limit k q).apply n args s := by
  cases k with
  | zero => rfl
  | succ k => simp only [world, hr, BuildersRun.resolve_simple q n hq]

/-- The functions that are called are simple names. -/
theorem call_ret {f : Func} {w : World Val Library} {args : List (Value Val)} {s t : State Val Library}
    {vs : List (Value Val)} (h : execBlock w (f.results.map Prod.fst) f.body
      { s with vars := (f.receiver, .nil) :: ((f.params.map Prod.fst).zip args ++
        f.results.map fun r => (r.1, w.zero r.2)) } = .ok (.ret vs, t)) :
    f.call w .nil args s = .ok (vs, { t with vars := s.vars }) := by
  rw [Func.call]
  dsimp only
  rw [h, bind_ok]

theorem call_panic {f : Func} {w : World Val Library} {args : List (Value Val)} {s : State Val Library}
    (h : execBlock w (f.results.map Prod.fst) f.body
      { s with vars := (f.receiver, .nil) :: ((f.params.map Prod.fst).zip args ++
        f.results.map fun r => (r.1, w.zero r.2)) } = .panic) :
    f.call w .nil args s = .panic := by
  rw [Func.call]
  dsimp only
  rw [h]
  rfl

/-- The function that writes a request. -/
def requestFunc (s : MethodsCode.Message) : Func :=
  match s.writeFunc with
  | .func f => f
  | _ => { name := [], results := [], body := [] }

theorem flush {k : Nat} {pkg : Text} {s s2 : State Val Library} {ts : List Tok}
    (hu : s2.user = { s.user with out := ts }) :
    ∃ t, execBlock (world P zero Dt limit k pkg) names [
        .define t!"err" (.call t!"stream.Flush" []),
        .branch (TypesCode.notNil t!"err") [.ret [.var t!"err"]] [],
        .ret [.read t!"stream.Error"]] s2 = .ok (.ret [errorOf s.user.broken], t) ∧ t.structs = s2.structs ∧
      t.arrays = s2.arrays ∧ t.maps = s2.maps ∧ t.user = { s.user with
        out := [], sent := if s.user.broken then s.user.sent else s.user.sent ++ ts } := by
  generalize hs3 : ({ s2 with
      vars := (t!"err", errorOf s.user.broken) :: s2.vars
      user := { s.user with out := [], sent := if s.user.broken then s.user.sent else s.user.sent ++ ts } } :
      State Val Library) = s3
  have hfl : (Stmt.define t!"err" (.call t!"stream.Flush" [])).exec (world P zero Dt limit k pkg) names s2 =
      .ok (.next, s3) := by
    rw [← hs3, Stmt.exec, Expr.eval, evalArgs, bind_ok]
    dsimp only
    rw [world_funcs]
    simp [table, List.lookup, Res.bind, hu]
  have herr : (TypesCode.notNil t!"err").eval (world P zero Dt limit k pkg) s3 = .ok (.bool s.user.broken, s3) := by
    rw [TypesCode.notNil, Expr.eval, eval_var (v := errorOf s.user.broken) (by rw [← hs3]; rfl), bind_ok]
    dsimp only
    rw [Expr.eval, bind_ok, errorOf]
    cases s.user.broken <;> rfl
  refine ⟨s3, ?_, by rw [← hs3], by rw [← hs3], by rw [← hs3], by rw [← hs3]⟩
  rw [execBlock_next hfl]
  cases hb : s.user.broken with
  | true =>
    have : (Stmt.branch (TypesCode.notNil t!"err") [.ret [.var t!"err"]] []).exec (world P zero Dt limit k pkg) names
        s3 = .ok (.ret [errorOf s.user.broken], s3) := by
      rw [Stmt.exec, herr, hb, bind_ok]
      dsimp only
      rw [execBlock, Stmt.exec, args_one (eval_var (v := errorOf s.user.broken) (by rw [← hs3]; rfl)), bind_ok]
      dsimp only
      rw [bind_ok]
      dsimp only
      rw [bind_ok, leave_same rfl, hb]
    rw [execBlock, this, bind_ok, hb]
  | false =>
    have : (Stmt.branch (TypesCode.notNil t!"err") [.ret [.var t!"err"]] []).exec (world P zero Dt limit k pkg) names
        s3 = .ok (.next, s3) := by
      rw [Stmt.exec, herr, hb, bind_ok]
      dsimp only
      rw [execBlock, bind_ok, leave_same rfl]
    have hread : (Expr.read t!"stream.Error").eval (world P zero Dt limit k pkg) s3 = .ok (errorOf s.user.broken, s3) := by
      have hf : (world P zero Dt limit k pkg).funcs t!"stream.Error" = some fun _ l => (errorOf l.broken, l) := by
        rw [world_funcs]
        rfl
      rw [Expr.eval, GoProgram.given, hf]
      dsimp only
      rw [← hs3]
    rw [execBlock_next this, execBlock, Stmt.exec, args_one hread, bind_ok, hb]
    rfl

theorem call_fields (hw : Whole P zero S U J L) {x : Context} {msg : MethodsCode.Message} {pkg : Text}
    {fuel a : Nat} {D : Value Val → Prop} {fs : List (Text × Value Val)} {w : Value Val} {fields : Parameter → Val}
    {ps : List Parameter} {s : State Val Library} (hm : msg.request = .fields (ps.map (fieldOf x)))
    (hs : s.structs[a]? = some fs)
    (h : ∀ p ∈ ps, (∃ y, fs.lookup (Go.privateName p.name) = some y ∧ Given S U D s p.typ.id (fields p) y) ∧
      Ready S U J L x pkg p ∧ sizeOf (fields p) ≤ fuel) :
    Sends s ((requestFunc msg).call (world P zero Dt limit fuel pkg) .nil [.pointer a, w] s)
      ((writeParameters S fields 0 ps).map fun ts => .objectStart :: (ts ++ [.objectEnd])) := by
  have hbody : (requestFunc msg).body = [
      .define t!"count" (.int 0),
      .define t!"stream" (.call t!"helpers.NewStream" [.var t!"writer"]),
      .perform t!"stream.WriteObjectStart" []] ++ (ps.map (fieldOf x)).map MethodsCode.Field.write ++ [
      .perform t!"stream.WriteObjectEnd" [],
      .define t!"err" (.call t!"stream.Flush" []),
      .branch (TypesCode.notNil t!"err") [.ret [.var t!"err"]] [],
      .ret [.read t!"stream.Error"]] := by
    change msg.request.body = _
    rw [hm]
    rfl
  generalize hz : (world P zero Dt limit fuel pkg).zero t!"error" = z
  generalize hs2 : ({ s with
    vars := writing 0 (.pointer a) w z
    user := { s.user with out := [] } } : State Val Library) = s2
  have hstart : ∀ rest : List Stmt, execBlock (world P zero Dt limit fuel pkg) [[]] ([
      .define t!"count" (.int 0),
      .define t!"stream" (.call t!"helpers.NewStream" [.var t!"writer"])] ++ rest)
      { s with vars := ([], .nil) :: [(t!"request", .pointer a), (t!"writer", w), ([], z)] } =
      execBlock (world P zero Dt limit fuel pkg) [[]] rest s2 := by
    intro rest
    rw [List.cons_append, execBlock_next (t := { s with
      vars := (t!"count", .int 0) :: ([], .nil) :: [(t!"request", .pointer a), (t!"writer", w), ([], z)] })
      (by rw [Stmt.exec, Expr.eval, bind_ok]), List.cons_append, List.nil_append, execBlock_next (t := s2)]
    rw [Stmt.exec, Expr.eval, args_one (eval_var (v := w) rfl), bind_ok]
    dsimp only
    rw [world_funcs]
    rw [← hs2]
    rfl
  have hv2 : s2.vars = writing 0 (.pointer a) w z := by rw [← hs2]
  have hgive : ∀ p ∈ ps, ∀ (A : List (List (Value Val))) (ts : List Tok),
      (∃ y, fs.lookup (Go.privateName p.name) = some y ∧
        Given S U D (after s2 A ts (writing 0 (.pointer a) w z)) p.typ.id (fields p) y) := by
    intro p hp A ts
    obtain ⟨⟨y, hy, hg⟩, -⟩ := h p hp
    refine ⟨y, hy, ?_⟩
    rcases hg with h | ⟨h1, h2, h3⟩
    · exact .inl h
    · refine .inr ⟨h1, h2, ?_⟩
      split at h3
      · rename_i hS
        rw [if_pos hS]
        exact h3
      · rename_i hS
        rw [if_neg hS]
        split at h3
        · rename_i hsc
          rw [if_pos hsc, ← hs2]
          exact h3
        · rename_i hsc
          rw [if_neg hsc]
          refine Holds.move (s := s) (t := after s2 A ts (writing 0 (.pointer a) w z)) ⟨fun _ h _ => h, fun _ _ _ h => ?_,
            fun b xs _ h => ?_, fun _ _ _ h => ?_⟩ _ _ _ h3
          · rw [← hs2]; exact h
          · rw [← hs2]
            simp only [after, wrote]
            rw [List.getElem?_append_left (List.getElem?_eq_some_iff.mp h).1]
            exact h
          · rw [← hs2]; exact h
  have hmid : Ends s2 (execBlock (world P zero Dt limit fuel pkg) [[]] ((.perform t!"stream.WriteObjectStart" [] ::
      (ps.map (fieldOf x)).map MethodsCode.Field.write) ++ [.perform t!"stream.WriteObjectEnd" []]) s2)
      ((writeParameters S fields 0 ps).map fun ts => .objectStart :: (ts ++ [.objectEnd])) := by
    rw [List.cons_append]
    refine Ends.cons (ts := [.objectStart]) (v := writing 0 (.pointer a) w z)
      (o := (writeParameters S fields 0 ps).map (· ++ [.objectEnd])) (by rw [← hv2]; exact performs ⟨_, rfl, rfl⟩ rfl) (fun A => ?_)
      (by cases writeParameters S fields 0 ps <;> rfl)
    have hfs := write_fields (names := [[]]) (Dt := Dt) (limit := limit) (D := D) (fields := fields) hw (x := x) (pkg := pkg)
      (fuel := fuel) (w := w) (z := z) (fs := fs) ps 0
      (after s2 A [.objectStart] (writing 0 (.pointer a) w z)) rfl (by rw [← hs2]; exact hs)
      (fun p hp => ⟨hgive p hp _ _, (h p hp).2⟩)
    cases ho : writeParameters S fields 0 ps with
    | none =>
      rw [ho] at hfs
      exact panic_append hfs
    | some ts =>
      rw [ho] at hfs
      exact Ends.append' (o := some [.objectEnd]) hfs (fun A' v => Wrote.ends (vars := v)
        (Wrote.one (performs ⟨_, rfl, rfl⟩ rfl))) rfl
  have hsplit : (requestFunc msg).body = [
      .define t!"count" (.int 0),
      .define t!"stream" (.call t!"helpers.NewStream" [.var t!"writer"])] ++
      (((.perform t!"stream.WriteObjectStart" [] :: (ps.map (fieldOf x)).map MethodsCode.Field.write) ++
        [.perform t!"stream.WriteObjectEnd" []]) ++ [
      .define t!"err" (.call t!"stream.Flush" []),
      .branch (TypesCode.notNil t!"err") [.ret [.var t!"err"]] [],
      .ret [.read t!"stream.Error"]]) := by
    rw [hbody]
    simp
  cases ho : writeParameters S fields 0 ps with
  | none =>
    rw [ho] at hmid
    refine call_panic ?_
    rw [hsplit]
    change execBlock _ [[]] _ { s with vars := ([], .nil) :: [(t!"request", .pointer a), (t!"writer", w),
      ([], (world P zero Dt limit fuel pkg).zero t!"error")] } = _
    rw [hz, hstart]
    exact panic_append hmid
  | some ts =>
    rw [ho] at hmid
    obtain ⟨A, vars, hmid⟩ := hmid
    obtain ⟨t, h1, h2, h3, h4, h5⟩ := flush (P := P) (zero := zero) (Dt := Dt) (limit := limit) (names := [[]]) (k := fuel)
      (pkg := pkg) (s := s) (s2 := after s2 A (.objectStart :: (ts ++ [.objectEnd])) vars)
      (ts := .objectStart :: (ts ++ [.objectEnd])) (by rw [← hs2]; rfl)
    refine ⟨A, ?_⟩
    rw [call_ret (t := t) (vs := [errorOf s.user.broken])]
    · congr 2
      cases t
      simp only at h2 h3 h4 h5
      subst h2 h3 h4 h5
      rw [← hs2]
      rfl
    · rw [hsplit]
      change execBlock _ [[]] _ { s with vars := ([], .nil) :: [(t!"request", .pointer a), (t!"writer", w),
        ([], (world P zero Dt limit fuel pkg).zero t!"error")] } = _
      rw [hz, hstart, execBlock_append _ _ _ _ _ _ hmid]
      exact h1

/-- What is the body of the request when it is the value of a parameter. -/
theorem call_whole {msg : MethodsCode.Message} {pkg field marshal : Text} {fuel a : Nat}
    {fs : List (Text × Value Val)} {w y : Value Val} {s : State Val Library} {o : Option (List Tok)}
    (hm : msg.request = .whole field marshal) (hs : s.structs[a]? = some fs) (hy : fs.lookup field = some y)
    (h : ∀ vars, Sends { s with vars := vars }
      ((world P zero Dt limit fuel pkg).apply marshal [y, w] { s with vars := vars }) o) :
    Sends s ((requestFunc msg).call (world P zero Dt limit fuel pkg) .nil [.pointer a, w] s) o := by
  have hbody : (requestFunc msg).body = [.ret [.apply marshal [dot t!"request" field, .var t!"writer"]]] := by
    change msg.request.body = _
    rw [hm]
    rfl
  generalize hz : (world P zero Dt limit fuel pkg).zero t!"error" = z
  generalize hs0 : ({ s with vars := ([], .nil) :: [(t!"request", .pointer a), (t!"writer", w), ([], z)] } :
    State Val Library) = s0
  have ha : evalArgs (world P zero Dt limit fuel pkg) [dot t!"request" field, .var t!"writer"] s0 = .ok ([y, w], s0) :=
    args_two (eval_dot (a := a) (fs := fs) (by rw [← hs0]; rfl) (by rw [← hs0]; exact hs) hy)
      (eval_var (by rw [← hs0]; rfl))
  have hk := h (([], .nil) :: [(t!"request", .pointer a), (t!"writer", w), ([], z)])
  rw [hs0] at hk
  cases o with
  | none =>
    have hk : (world P zero Dt limit fuel pkg).apply marshal [y, w] s0 = .panic := hk
    refine call_panic ?_
    rw [hbody]
    change execBlock _ [[]] _ { s with vars := ([], .nil) :: [(t!"request", .pointer a), (t!"writer", w),
        ([], (world P zero Dt limit fuel pkg).zero t!"error")] } = _
    rw [hz, hs0]
    refine execBlock_panic ?_
    rw [Stmt.exec, evalArgs, Expr.eval, ha, bind_ok]
    dsimp only
    rw [hk]
    rfl
  | some ts =>
    obtain ⟨A, hk⟩ := hk
    refine ⟨A, ?_⟩
    refine (call_ret (vs := [errorOf s.user.broken]) (t := { s0 with
      arrays := s0.arrays ++ A
      user := { s0.user with
        out := [], sent := if s0.user.broken then s0.user.sent else s0.user.sent ++ ts } }) ?_).trans ?_
    · rw [hbody]
      change execBlock _ [[]] _ { s with vars := ([], .nil) :: [(t!"request", .pointer a), (t!"writer", w),
        ([], (world P zero Dt limit fuel pkg).zero t!"error")] } = _
      rw [hz, hs0, execBlock, Stmt.exec, evalArgs, Expr.eval, ha, bind_ok]
      dsimp only
      rw [hk, single, bind_ok]
      dsimp only
      rw [bind_ok]
      dsimp only
      rw [evalArgs, bind_ok]
      dsimp only
      rw [bind_ok]
      dsimp only
      rw [bind_ok, ← hs0]
    · rw [← hs0]

theorem call_nothing {msg : MethodsCode.Message} {w : World Val Library} {args : List (Value Val)}
    {s : State Val Library} (hm : msg.request = .nothing) : (requestFunc msg).call w .nil args s = .ok ([.nil], s) := by
  have hbody : (requestFunc msg).body = [.ret [.nil]] := by
    change msg.request.body = _
    rw [hm]
    rfl
  refine (call_ret (vs := [.nil]) (t := { s with vars := ((requestFunc msg).receiver, .nil) ::
    (((requestFunc msg).params.map Prod.fst).zip args ++ (requestFunc msg).results.map fun r => (r.1, w.zero r.2)) })
    ?_).trans rfl
  rw [hbody, execBlock, Stmt.exec, evalArgs, Expr.eval, bind_ok]
  dsimp only
  rw [evalArgs, bind_ok]
  dsimp only
  rw [bind_ok]
  dsimp only
  rw [bind_ok]

end Verif.MethodsRun
