import Verif.Lemmas.JsonReadLoops

/-!
# Lemmas about running the generated code that reads JSON: values that aren't objects, and lists
-/

namespace Verif.JsonRun

open GoJson (Val Schema Shape AttrShape DateParser parseVal readVal)
open GoProgram
open TypesRun (Legal value)
open BuildersRun (Program Code resolve fieldsOf isObject Holds HoldsFields HoldsItems HoldsEntries Valid execBlock_append
  execBlock_append_stop execBlock_next execBlock_panic eval_var)
open JsonCode (Form Entity Listing Functions Member nextField)

variable {P : Program} {zero : Text → Text → Value Val} {Dt : DateParser} {limit : Nat} {S : Schema}
  {U : TypeId → Code} {J : TypeId → Entity} {L : TypeId → ListCode} {w : World Val Library} {names : List Text}

/-! ## Variables -/

/-- The names of the variables. -/
def known : List Text := [[], t!"iterator", t!"object", t!"field", t!"value", t!"text", t!"err", t!"key", t!"item",
  t!"list", t!"items", t!"source", t!"response", t!"reader"]

/-- There are no other variables. -/
def Known (vars : List (Text × Value Val)) : Prop := ∀ p ∈ vars, p.1 ∈ known

theorem Known.lookup {vars : List (Text × Value Val)} (h : Known vars) {c : Text} (hc : c ∉ known) :
    vars.lookup c = none := by
  rw [List.lookup_eq_none_iff]
  intro p hp
  rw [bne_iff_ne]
  rintro rfl
  exact hc (h p hp)

theorem Known.cons {vars : List (Text × Value Val)} (h : Known vars) {x : Text} (hx : x ∈ known) (v : Value Val) :
    Known ((x, v) :: vars) := by
  intro p hp
  rcases List.mem_cons.mp hp with rfl | hp
  · exact hx
  · exact h p hp

/-- The variables that are declared by the code that reads a value. -/
def Fresh (x : Text) (pre : List (Text × Value Val)) : Prop := ∀ p ∈ pre, p.1 ∈ [x, t!"text", t!"err"]

theorem Fresh.lookup {x c : Text} {pre vars : List (Text × Value Val)} (h : Fresh x pre) (hc : c ∉ [x, t!"text", t!"err"]) :
    (pre ++ vars).lookup c = vars.lookup c := by
  rw [List.lookup_append]
  have : pre.lookup c = none := by
    rw [List.lookup_eq_none_iff]
    intro p hp
    rw [bne_iff_ne]
    rintro rfl
    exact hc (h p hp)
  rw [this]
  rfl

theorem lookup_pre {x : Text} {pre vars : List (Text × Value Val)} {y : Value Val} (h : pre.lookup x = some y) :
    (pre ++ vars).lookup x = some y := by
  rw [List.lookup_append, h]
  rfl

/-- What the code that reads a value and puts it in a variable does. -/
def Got (S : Schema) (U : TypeId → Code) (s : State Val Library) (x : Text) (ty : TypeId)
    (r : Res (Flow Val × State Val Library)) : Option (Val × List Tok) → Prop
  | some (v, rest) => ∃ t y pre, r = .ok (.next, t) ∧ t.vars = pre ++ s.vars ∧ Fresh x pre ∧ pre.lookup x = some y ∧
      Grows s t ∧ t.user = { s.user with input := rest } ∧ Holds S U (fun l => ¬ Valid s l) t ty v y
  | none => ∃ t y pre rest, r = .ok (.next, t) ∧ t.vars = pre ++ s.vars ∧ Fresh x pre ∧ pre.lookup x = some y ∧
      Grows s t ∧ rest.length ≤ s.user.input.length ∧ t.user = { s.user with input := rest, failed := true }

/-- The code that reads values does what the model says, for documents that aren't longer than a given length. -/
def FormReads (P : Program) (zero : Text → Text → Value Val) (Dt : DateParser) (limit : Nat) (S : Schema)
    (U : TypeId → Code) (J : TypeId → Entity) (L : TypeId → ListCode) (N : Nat) : Prop :=
  ∀ (form : Form) (ty : TypeId) (link : Bool) (pkg : Text) (k : Nat) (s : State Val Library) (x : Text)
    (names : List Text) (h : Value Val), s.user.input.length ≤ N → N < k → Fits S U J L pkg ty link form →
    x ∈ [t!"value", t!"item"] → (∀ e, S ty = .map e → x = t!"value") → s.vars.lookup t!"iterator" = some h →
    Known s.vars →
    ∃ o, Says s.user (fun f => readVal Dt S f ty link s.user.input) o ∧
      Got S U s x ty (execBlock (world P zero Dt limit k pkg) names (form.read x) s) o

/-- The values of the scalar types that the library reads. -/
theorem reads_scalar {α : Type} {ty : TypeId} {link : Bool} {pkg x f : Text} {k : Nat} {s : State Val Library}
    {g : List Tok → Option (α × List Tok)} {z : α} {c : α → Value Val} {mk : α → Val}
    (hf : table.lookup f = some (reading g z c)) (hc : ∀ a, c a = value (mk a))
    (hmk : ∀ a (t : State Val Library), Holds S U (fun l => ¬ Valid s l) t ty (mk a) (value (mk a)))
    (hshort : ∀ r a r', g r = some (a, r') → r'.length < r.length)
    (hmodel : ∀ n, readVal Dt S (n + 1) ty link s.user.input = (g s.user.input).map fun p => (mk p.1, p.2)) :
    ∃ o, Says s.user (fun f => readVal Dt S f ty link s.user.input) o ∧
      Got S U s x ty (execBlock (world P zero Dt limit k pkg) names [.define x (.call f [])] s) o := by
  have hf' : (world P zero Dt limit k pkg).funcs f = some (reading g z c) := by rw [world_funcs, hf]
  have hlost : s.user.failed = true ∨ g s.user.input = none → Got S U s x ty
      (execBlock (world P zero Dt limit k pkg) names [.define x (.call f [])] s) none := by
    intro h
    refine ⟨_, c z, [(x, c z)], s.user.input, execBlock_next (exec_define (read_none hf' h)), rfl, ?_, by simp,
      ⟨fun _ _ h => h, fun _ _ h => h, fun _ _ h => h⟩, Nat.le_refl _, rfl⟩
    intro p hp
    simp at hp
    simp [hp]
  cases hb : s.user.failed with
  | true => exact ⟨none, by simp [Says, hb], hlost (.inl hb)⟩
  | false =>
    cases hr : g s.user.input with
    | none =>
      refine ⟨none, ?_, hlost (.inr hr)⟩
      simp only [Says, hb]
      refine ⟨Settles.succ ((Settles.const none).congr fun n => ?_), by simp⟩
      rw [hmodel, hr]
      rfl
    | some p =>
      obtain ⟨a, r⟩ := p
      refine ⟨some (mk a, r), ?_, _, c a, [(x, c a)], execBlock_next (exec_define (read_some hf' hb hr)), rfl, ?_, by simp,
        ⟨fun _ _ h => h, fun _ _ h => h, fun _ _ h => h⟩, rfl, ?_⟩
      · simp only [Says, hb]
        refine ⟨Settles.succ ((Settles.const _).congr fun n => ?_), ?_⟩
        · rw [hmodel, hr]
          rfl
        · intro v rest he
          cases he
          exact hshort _ _ _ hr
      · intro p hp
        simp at hp
        simp [hp]
      · rw [hc]
        exact hmk a _

/-- The values of the enumerated types. -/
theorem reads_enum {ty : TypeId} {link : Bool} {pkg x typ : Text} {k : Nat} {s : State Val Library} (hx : x ≠ t!"text")
    (hS : S ty = .enum) :
    ∃ o, Says s.user (fun f => readVal Dt S f ty link s.user.input) o ∧
      Got S U s x ty (execBlock (world P zero Dt limit k pkg) names ((Form.enum typ).read x) s) o := by
  have hf' : (world P zero Dt limit k pkg).funcs t!"iterator.ReadString" = some (reading GoJson.readString [] .str) := by
    rw [world_funcs]; rfl
  have hrun : ∀ (t : State Val Library) (u : Text),
      JsonCode.readString.eval (world P zero Dt limit k pkg) s = .ok (.str u, t) →
      execBlock (world P zero Dt limit k pkg) names ((Form.enum typ).read x) s =
        .ok (.next, { t with vars := (x, .str u) :: (t!"text", .str u) :: t.vars }) := by
    intro t u h
    rw [Form.read, execBlock_next (exec_define h)]
    rw [execBlock_next (exec_define (v := .str u)
      (t := { t with vars := (t!"text", .str u) :: t.vars }) (by rw [Expr.eval, eval_var (v := .str u) (by simp)]))]
    rfl
  have hfresh : ∀ u : Value Val, Fresh x [(x, u), (t!"text", u)] := by
    intro u p hp
    simp at hp
    rcases hp with rfl | rfl <;> simp
  have hlost : s.user.failed = true ∨ GoJson.readString s.user.input = none → Got S U s x ty
      (execBlock (world P zero Dt limit k pkg) names ((Form.enum typ).read x) s) none := by
    intro h
    exact ⟨_, .str [], [(x, .str []), (t!"text", .str [])], s.user.input, hrun _ _ (read_none hf' h), rfl, hfresh _,
      by simp, ⟨fun _ _ h => h, fun _ _ h => h, fun _ _ h => h⟩, Nat.le_refl _, rfl⟩
  cases hb : s.user.failed with
  | true => exact ⟨none, by simp [Says, hb], hlost (.inl hb)⟩
  | false =>
    cases hr : GoJson.readString s.user.input with
    | none =>
      refine ⟨none, ?_, hlost (.inr hr)⟩
      simp only [Says, hb]
      refine ⟨Settles.succ ((Settles.const none).congr fun n => ?_), by simp⟩
      simp [readVal, hS, hr]
    | some p =>
      obtain ⟨a, r⟩ := p
      refine ⟨some (.str a, r), ?_, _, .str a, [(x, .str a), (t!"text", .str a)], hrun _ _ (read_some hf' hb hr), rfl,
        hfresh _, by simp, ⟨fun _ _ h => h, fun _ _ h => h, fun _ _ h => h⟩, rfl, by rw [Holds]; rfl; all_goals simp⟩
      simp only [Says, hb]
      refine ⟨Settles.succ ((Settles.const _).congr fun n => ?_), ?_⟩
      · simp [readVal, hS, hr]
      · intro v rest he
        cases he
        exact readString_shrinks hr

/-- The values of the interface type. -/
theorem reads_interface {ty : TypeId} {link : Bool} {pkg x : Text} {k : Nat} {s : State Val Library}
    (hS : S ty = .interface) :
    ∃ o, Says s.user (fun f => readVal Dt S f ty link s.user.input) o ∧
      Got S U s x ty (execBlock (world P zero Dt limit k pkg) names (Form.interface.read x) s) o := by
  have hrun : ∀ (j : Json) (l : Library),
      reading (fun r => parseVal (r.length + 1) r) .null (fun j => value (.iface j)) [] s.user = (value (.iface j), l) →
      execBlock (world P zero Dt limit k pkg) names (Form.interface.read x) s =
        .ok (.next, { s with vars := (x, value (.iface j)) :: s.vars, user := l }) := by
    intro j l h
    have hf : (world P zero Dt limit k pkg).funcs t!"iterator.ReadVal" =
        some (reading (fun r => parseVal (r.length + 1) r) .null fun j => value (.iface j)) := by
      rw [world_funcs]; rfl
    rw [Form.read, execBlock, Stmt.exec, bind_ok]
    dsimp only
    rw [execBlock, Stmt.exec, given, hf]
    dsimp only
    rw [h, bind_ok]
    dsimp only
    rw [assign]
    dsimp only
    simp [update, Res.ofOption, Res.bind, execBlock]
  have hfresh : ∀ u : Value Val, Fresh x [(x, u)] := by
    intro u p hp
    simp at hp
    simp [hp]
  have hlost : s.user.failed = true ∨ parseVal (s.user.input.length + 1) s.user.input = none → Got S U s x ty
      (execBlock (world P zero Dt limit k pkg) names (Form.interface.read x) s) none := by
    intro h
    refine ⟨_, value (.iface .null), [(x, value (.iface .null))], s.user.input,
      hrun .null { s.user with failed := true } ?_, rfl, hfresh _, by simp,
      ⟨fun _ _ h => h, fun _ _ h => h, fun _ _ h => h⟩, Nat.le_refl _, rfl⟩
    cases hb : s.user.failed with
    | true =>
      have : ({ s.user with failed := true } : Library) = s.user := by rw [← hb]
      simp [reading, hb, this]
    | false =>
      have h : parseVal (s.user.input.length + 1) s.user.input = none := by simpa [hb] using h
      simp [reading, hb, h]
  cases hb : s.user.failed with
  | true => exact ⟨none, by simp [Says, hb], hlost (.inl hb)⟩
  | false =>
    have hset : Settles (fun f => readVal Dt S f ty link s.user.input)
        ((parseVal (s.user.input.length + 1) s.user.input).map fun p => (.iface p.1, p.2)) := by
      refine Settles.succ (((parse_settles s.user.input).map (Option.map fun p => (Val.iface p.1, p.2))).congr fun n => ?_)
      simp [readVal, hS]
    cases hr : parseVal (s.user.input.length + 1) s.user.input with
    | none =>
      rw [hr] at hset
      refine ⟨none, ?_, hlost (.inr hr)⟩
      simp only [Says, hb]
      exact ⟨hset, by simp⟩
    | some p =>
      rw [hr] at hset
      obtain ⟨j, r⟩ := p
      refine ⟨some (.iface j, r), ?_, _, value (.iface j), [(x, value (.iface j))],
        hrun j { s.user with input := r } (by simp [reading, hb, hr]), rfl, hfresh _, by simp,
        ⟨fun _ _ h => h, fun _ _ h => h, fun _ _ h => h⟩, rfl, by rw [Holds] <;> simp⟩
      simp only [Says, hb]
      refine ⟨hset, ?_⟩
      intro v rest he
      cases he
      exact (parse_shrinks _).1 _ _ _ hr

theorem eval_layout {k : Nat} {pkg : Text} {s : State Val Library} (h : Known s.vars) :
    (Expr.var t!"time.RFC3339").eval (world P zero Dt limit k pkg) s = .ok (.str layout, s) := by
  rw [Expr.eval, h.lookup (by decide), world_consts]
  rfl

/-- The dates. -/
theorem reads_date {ty : TypeId} {link : Bool} {pkg x : Text} {k : Nat} {s : State Val Library} (hx : x ≠ t!"text")
    (hx' : x ≠ t!"err") (hk : Known s.vars) (hS : S ty = .date) :
    ∃ o, Says s.user (fun f => readVal Dt S f ty link s.user.input) o ∧
      Got S U s x ty (execBlock (world P zero Dt limit k pkg) names (Form.date.read x) s) o := by
  have hf' : (world P zero Dt limit k pkg).funcs t!"iterator.ReadString" = some (reading GoJson.readString [] .str) := by
    rw [world_funcs]; rfl
  have hrun : ∀ (l : Library) (u : Text),
      JsonCode.readString.eval (world P zero Dt limit k pkg) s = .ok (.str u, { s with user := l }) →
      execBlock (world P zero Dt limit k pkg) names (Form.date.read x) s =
        match Dt u with
        | some d => .ok (.next, { s with
            vars := (t!"err", .nil) :: (x, value (.date d)) :: (t!"text", .str u) :: s.vars, user := l })
        | none => .ok (.next, { s with
            vars := (t!"err", .error []) :: (x, value (GoJson.zero .date)) :: (t!"text", .str u) :: s.vars
            user := { l with failed := true } }) := by
    intro l u h
    rw [Form.read, execBlock_next (exec_define h)]
    dsimp only
    generalize hs1 : ({ s with vars := (t!"text", .str u) :: s.vars, user := l } : State Val Library) = s1
    have hk1 : Known s1.vars := by rw [← hs1]; exact hk.cons (by decide) _
    have hp : (Stmt.defineBoth x t!"err" t!"time.Parse" [.var t!"time.RFC3339", .var t!"text"]).exec
        (world P zero Dt limit k pkg) names s1 = .ok (.next, { s1 with
          vars := (t!"err", match Dt u with | some _ => .nil | none => .error []) ::
            (x, match Dt u with | some d => value (.date d) | none => value (GoJson.zero .date)) :: s1.vars }) := by
      rw [Stmt.exec, args_two (eval_layout hk1) (eval_var (v := .str u) (by rw [← hs1]; simp)), bind_ok]
      dsimp only
      rw [world_pairs]
      cases hd : Dt u <;> simp [pairTable, List.lookup, hd]
    rw [execBlock_next hp, execBlock]
    cases hd : Dt u with
    | some d =>
      dsimp only
      generalize hs2 : ({ s1 with vars := (t!"err", .nil) :: (x, value (.date d)) :: s1.vars } : State Val Library) = s2
      have : (TypesCode.notNil t!"err").eval (world P zero Dt limit k pkg) s2 = .ok (.bool false, s2) := by
        rw [TypesCode.notNil, Expr.eval, eval_var (v := .nil) (by rw [← hs2]; simp), bind_ok]
        rfl
      rw [Stmt.exec, this, bind_ok]
      dsimp only
      rw [execBlock, bind_ok, leave_same rfl, bind_ok]
      dsimp only
      rw [execBlock, ← hs2, ← hs1]
    | none =>
      dsimp only
      generalize hs2 : ({ s1 with vars := (t!"err", .error []) :: (x, value (GoJson.zero .date)) :: s1.vars } :
        State Val Library) = s2
      have : (TypesCode.notNil t!"err").eval (world P zero Dt limit k pkg) s2 = .ok (.bool true, s2) := by
        rw [TypesCode.notNil, Expr.eval, eval_var (v := .error []) (by rw [← hs2]; simp), bind_ok]
        rfl
      rw [Stmt.exec, this, bind_ok]
      dsimp only
      have hrep : (Stmt.perform t!"iterator.ReportError" [.str [], .call t!"err.Error" []]).exec
          (world P zero Dt limit k pkg) names s2 = .ok (.next, { s2 with user := { s2.user with failed := true } }) := by
        rw [Stmt.exec, evalArgs, Expr.eval, bind_ok]
        dsimp only
        rw [evalArgs, Expr.eval, evalArgs, bind_ok]
        dsimp only
        rw [world_funcs]
        simp [table, List.lookup, Res.bind, evalArgs, given, world_funcs]
      rw [execBlock_next hrep]
      generalize hs3 : ({ s2 with user := { s2.user with failed := true } } : State Val Library) = s3
      rw [execBlock, bind_ok, leave_same (by rw [← hs3]), bind_ok]
      dsimp only
      rw [execBlock, ← hs3, ← hs2, ← hs1]
  have hfresh : ∀ u v w : Value Val, Fresh x [(t!"err", w), (x, u), (t!"text", v)] := by
    intro u v w p hp
    simp at hp
    rcases hp with rfl | rfl | rfl <;> simp
  have hlook : ∀ u v w : Value Val, List.lookup x [(t!"err", w), (x, u), (t!"text", v)] = some u := by
    intro u v w
    rw [List.lookup_cons, beq_eq_false_iff_ne.mpr hx']
    simp
  have hlost : s.user.failed = true ∨ GoJson.readString s.user.input = none → Got S U s x ty
      (execBlock (world P zero Dt limit k pkg) names (Form.date.read x) s) none := by
    intro h
    have := hrun _ _ (read_none hf' h)
    cases hd : Dt [] with
    | none =>
      rw [hd] at this
      exact ⟨_, _, [(t!"err", _), (x, _), (t!"text", _)], s.user.input, this, rfl, hfresh _ _ _,
        hlook _ _ _, ⟨fun _ _ h => h, fun _ _ h => h, fun _ _ h => h⟩, Nat.le_refl _, rfl⟩
    | some d =>
      rw [hd] at this
      exact ⟨_, _, [(t!"err", _), (x, _), (t!"text", _)], s.user.input, this, rfl, hfresh _ _ _,
        hlook _ _ _, ⟨fun _ _ h => h, fun _ _ h => h, fun _ _ h => h⟩, Nat.le_refl _, rfl⟩
  cases hb : s.user.failed with
  | true => exact ⟨none, by simp [Says, hb], hlost (.inl hb)⟩
  | false =>
    cases hr : GoJson.readString s.user.input with
    | none =>
      refine ⟨none, ?_, hlost (.inr hr)⟩
      simp only [Says, hb]
      refine ⟨Settles.succ ((Settles.const none).congr fun n => ?_), by simp⟩
      simp [readVal, hS, hr]
    | some p =>
      obtain ⟨u, r⟩ := p
      have := hrun _ _ (read_some hf' hb hr)
      have hlt := readString_shrinks hr
      cases hd : Dt u with
      | none =>
        rw [hd] at this
        refine ⟨none, ?_, _, _, [(t!"err", _), (x, _), (t!"text", _)], r, this, rfl, hfresh _ _ _,
          hlook _ _ _, ⟨fun _ _ h => h, fun _ _ h => h, fun _ _ h => h⟩, by omega, rfl⟩
        simp only [Says, hb]
        refine ⟨Settles.succ ((Settles.const none).congr fun n => ?_), by simp⟩
        simp [readVal, hS, hr, hd]
      | some d =>
        rw [hd] at this
        refine ⟨some (.date d, r), ?_, _, _, [(t!"err", _), (x, _), (t!"text", _)], this, rfl, hfresh _ _ _,
          hlook _ _ _, ⟨fun _ _ h => h, fun _ _ h => h, fun _ _ h => h⟩, rfl, by rw [Holds] <;> simp⟩
        simp only [Says, hb]
        refine ⟨Settles.succ ((Settles.const _).congr fun n => ?_), ?_⟩
        · simp [readVal, hS, hr, hd]
        · intro v rest he
          cases he
          exact hlt

end Verif.JsonRun
