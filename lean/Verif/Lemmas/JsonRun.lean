import Verif.Spec.JsonRun
import Verif.Lemmas.BuildersCopyMembers
import Verif.Lemmas.BuildersExec

/-!
# Lemmas about running the generated JSON support
-/

namespace Verif.JsonRun

open GoJson (Val Schema Shape AttrShape DateParser)
open GoProgram
open TypesRun (Legal value)
open BuildersRun (Program Code resolve fieldsOf isObject Holds HoldsFields HoldsItems HoldsEntries execBlock_append
  execBlock_append_stop execBlock_next execBlock_panic)
open JsonCode (Form Entity Listing Functions Member)
open GoBuilder (typed typedFields typedItems typedEntries)

variable {P : Program} {zero : Text → Text → Value Val} {Dt : DateParser} {limit : Nat} {S : Schema}
  {U : TypeId → Code} {J : TypeId → Entity} {L : TypeId → ListCode}

/-! ## The world -/

theorem world_funcs (fuel : Nat) (pkg f : Text) :
    (world P zero Dt limit fuel pkg).funcs f = table.lookup f := by
  cases fuel <;> rfl

theorem world_pairs (fuel : Nat) (pkg f : Text) :
    (world P zero Dt limit fuel pkg).pairs f = (pairTable Dt).lookup f := by
  cases fuel <;> rfl

theorem world_zero (fuel : Nat) (pkg : Text) : (world P zero Dt limit fuel pkg).zero = zero pkg := by
  cases fuel <;> rfl

theorem world_limit (fuel : Nat) (pkg : Text) : (world P zero Dt limit fuel pkg).limit = limit := by
  cases fuel <;> rfl

theorem world_consts (fuel : Nat) (pkg : Text) : (world P zero Dt limit fuel pkg).consts = constants P pkg := by
  cases fuel <;> rfl

theorem apply_eq (fuel : Nat) {pkg t q : Text} {f : Func} (args : List (Value Val))
    (s : State Val Library) (hr : resolve pkg t = (q, f.name)) (hl : Legal (P q)) (hf : .func f ∈ P q)
    (hx : f.typ = []) :
    (world P zero Dt limit (fuel + 1) pkg).apply t args s = f.call (world P zero Dt limit fuel q) .nil args s := by
  have := TypesRun.method_eq (P q) f hl hf
  rw [hx] at this
  simp only [world, hr, this]

theorem methods_eq (fuel : Nat) {pkg t q x : Text} {f : Func} (r : Value Val) (args : List (Value Val))
    (s : State Val Library) (hr : resolve pkg t = (q, x)) (hl : Legal (P q)) (hf : .func f ∈ P q) (hx : f.typ = x) :
    (world P zero Dt limit (fuel + 1) pkg).methods t f.name r args s =
      f.call (world P zero Dt limit fuel q) r args s := by
  subst hx
  simp only [world, hr, TypesRun.method_eq (P q) f hl hf]

/-! ## The state after writing -/

/-- The state after writing, with other variables. -/
def after (s : State Val Library) (arrays : List (List (Value Val))) (ts : List Tok) (vars : List (Text × Value Val)) :
    State Val Library :=
  { wrote s arrays ts with vars := vars }

theorem after_after (s : State Val Library) (a b : List (List (Value Val))) (ts us : List Tok)
    (v v' : List (Text × Value Val)) : after (after s a ts v) b us v' = after s (a ++ b) (ts ++ us) v' := by
  simp [after, wrote, List.append_assoc]

theorem after_self (s : State Val Library) : after s [] [] s.vars = s := by
  simp [after, wrote]

/-- What some statements do: they write those tokens and leave those variables, or they panic. -/
def Wrote (s : State Val Library) (vars : List (Text × Value Val)) (r : Res (Flow Val × State Val Library)) :
    Option (List Tok) → Prop
  | some ts => ∃ arrays, r = .ok (.next, after s arrays ts vars)
  | none => r = .panic

/-- The same for any variables. -/
def Ends (s : State Val Library) (r : Res (Flow Val × State Val Library)) : Option (List Tok) → Prop
  | some ts => ∃ arrays vars, r = .ok (.next, after s arrays ts vars)
  | none => r = .panic

theorem Wrote.ends {s : State Val Library} {vars : List (Text × Value Val)} {r : Res (Flow Val × State Val Library)}
    {o : Option (List Tok)} (h : Wrote s vars r o) : Ends s r o := by
  cases o with
  | none => exact h
  | some ts =>
    obtain ⟨a, h⟩ := h
    exact ⟨a, vars, h⟩

variable {w : World Val Library} {names : List Text}

theorem Wrote.nil (s : State Val Library) : Wrote s s.vars (execBlock w names [] s) (some []) :=
  ⟨[], by rw [execBlock, after_self]⟩

theorem Wrote.append {a b : List Stmt} {s : State Val Library} {v v' : List (Text × Value Val)} {ts : List Tok}
    {o q : Option (List Tok)} (h : Wrote s v (execBlock w names a s) (some ts))
    (k : ∀ arrays, Wrote (after s arrays ts v) v' (execBlock w names b (after s arrays ts v)) o)
    (hq : q = o.map (ts ++ ·)) : Wrote s v' (execBlock w names (a ++ b) s) q := by
  subst hq
  obtain ⟨arrays, h⟩ := h
  rw [execBlock_append w names a b s _ h]
  have := k arrays
  cases o with
  | none => exact this
  | some us =>
    obtain ⟨more, this⟩ := this
    exact ⟨arrays ++ more, by rw [this, after_after]⟩

theorem Ends.append {a b : List Stmt} {s : State Val Library} {v : List (Text × Value Val)} {ts : List Tok}
    {o q : Option (List Tok)} (h : Wrote s v (execBlock w names a s) (some ts))
    (k : ∀ arrays, Ends (after s arrays ts v) (execBlock w names b (after s arrays ts v)) o)
    (hq : q = o.map (ts ++ ·)) : Ends s (execBlock w names (a ++ b) s) q := by
  subst hq
  obtain ⟨arrays, h⟩ := h
  rw [execBlock_append w names a b s _ h]
  have := k arrays
  cases o with
  | none => exact this
  | some us =>
    obtain ⟨more, vars, this⟩ := this
    exact ⟨arrays ++ more, vars, by rw [this, after_after]⟩

theorem Ends.append' {a b : List Stmt} {s : State Val Library} {ts : List Tok}
    {o q : Option (List Tok)} (h : Ends s (execBlock w names a s) (some ts))
    (k : ∀ arrays v, Ends (after s arrays ts v) (execBlock w names b (after s arrays ts v)) o)
    (hq : q = o.map (ts ++ ·)) : Ends s (execBlock w names (a ++ b) s) q := by
  obtain ⟨arrays, v, h⟩ := h
  refine Ends.append (v := v) (ts := ts) (o := o) ⟨arrays, h⟩ (fun more => k more v) hq

theorem panic_append {a b : List Stmt} {s : State Val Library} (h : execBlock w names a s = .panic) :
    execBlock w names (a ++ b) s = .panic :=
  execBlock_append_stop w names .panic (fun _ h => by cases h) a b s h

theorem Wrote.cons {c : Stmt} {cs : List Stmt} {s : State Val Library} {v v' : List (Text × Value Val)}
    {ts : List Tok} {o q : Option (List Tok)} (h : Wrote s v (c.exec w names s) (some ts))
    (k : ∀ arrays, Wrote (after s arrays ts v) v' (execBlock w names cs (after s arrays ts v)) o)
    (hq : q = o.map (ts ++ ·)) : Wrote s v' (execBlock w names (c :: cs) s) q := by
  subst hq
  obtain ⟨arrays, h⟩ := h
  rw [execBlock_next h]
  have := k arrays
  cases o with
  | none => exact this
  | some us =>
    obtain ⟨more, this⟩ := this
    exact ⟨arrays ++ more, by rw [this, after_after]⟩

theorem Ends.cons {c : Stmt} {cs : List Stmt} {s : State Val Library} {v : List (Text × Value Val)}
    {ts : List Tok} {o q : Option (List Tok)} (h : Wrote s v (c.exec w names s) (some ts))
    (k : ∀ arrays, Ends (after s arrays ts v) (execBlock w names cs (after s arrays ts v)) o)
    (hq : q = o.map (ts ++ ·)) : Ends s (execBlock w names (c :: cs) s) q := by
  subst hq
  obtain ⟨arrays, h⟩ := h
  rw [execBlock_next h]
  have := k arrays
  cases o with
  | none => exact this
  | some us =>
    obtain ⟨more, v, this⟩ := this
    exact ⟨arrays ++ more, v, by rw [this, after_after]⟩

theorem Wrote.one {c : Stmt} {s : State Val Library} {v : List (Text × Value Val)} {o : Option (List Tok)}
    (h : Wrote s v (c.exec w names s) o) : Wrote s v (execBlock w names [c] s) o := by
  cases o with
  | none => exact execBlock_panic h
  | some ts =>
    obtain ⟨arrays, h⟩ := h
    exact ⟨arrays, by rw [execBlock_next h, execBlock]⟩

/-- A statement that calls a function of the stream. -/
theorem exec_perform {f : Text} {g : List (Value Val) → List Tok} {args : List Expr} {vs : List (Value Val)}
    {s : State Val Library} (hf : w.funcs f = some (writing g)) (ha : evalArgs w args s = .ok (vs, s)) :
    Wrote s s.vars ((Stmt.perform f args).exec w names s) (some (g vs)) := by
  refine ⟨[], ?_⟩
  simp only [Stmt.exec, ha, Res.bind, given, hf, writing, after, wrote, List.append_nil]

theorem args_one {e : Expr} {v : Value Val} {s : State Val Library} (h : e.eval w s = .ok (v, s)) :
    evalArgs w [e] s = .ok ([v], s) := by
  simp only [evalArgs, h, Res.bind]

theorem args_two {e e' : Expr} {v v' : Value Val} {s : State Val Library} (h : e.eval w s = .ok (v, s))
    (h' : e'.eval w s = .ok (v', s)) : evalArgs w [e, e'] s = .ok ([v, v'], s) := by
  simp only [evalArgs, h, h', Res.bind]

theorem leave_same {s t : State Val Library} {f : Flow Val} (h : t.vars.length = s.vars.length) :
    leave s (f, t) = (f, t) := by
  simp [leave, h]

theorem leave_more {s t : State Val Library} {f : Flow Val} {extra vars : List (Text × Value Val)}
    (h : t.vars = extra ++ vars) (hl : vars.length = s.vars.length) :
    leave s (f, t) = (f, { t with vars := vars }) := by
  simp [leave, h, hl]

/-- A branch with a condition. -/
theorem Wrote.branch {e : Expr} {b : Bool} {yes no : List Stmt} {s : State Val Library}
    {v : List (Text × Value Val)} {o : Option (List Tok)} (he : e.eval w s = .ok (.bool b, s))
    (hl : v.length = s.vars.length)
    (h : ∃ extra, Wrote s (extra ++ v) (execBlock w names (if b then yes else no) s) o) :
    Wrote s v ((Stmt.branch e yes no).exec w names s) o := by
  obtain ⟨extra, h⟩ := h
  have key : ∀ (q : Res (Flow Val × State Val Library)), Wrote s (extra ++ v) q o →
      Wrote s v (q.bind fun r => .ok (leave s r)) o := by
    intro q hq
    cases o with
    | none => simp only [Wrote] at hq; rw [hq]; rfl
    | some ts =>
      obtain ⟨arrays, hq⟩ := hq
      refine ⟨arrays, ?_⟩
      rw [hq, Res.bind, leave_more (extra := extra) (vars := v) rfl hl]
      rfl
  have hexec : (Stmt.branch e yes no).exec w names s =
      (execBlock w names (if b then yes else no) s).bind fun r => .ok (leave s r) := by
    rw [Stmt.exec, he]
    cases b <;> rfl
  rw [hexec]
  exact key _ h

/-- What an expression that uses only the variables of the templates is, whatever the keys of the maps are. -/
def Reads (w : World Val Library) (e : Expr) (x : Value Val) (s : State Val Library) : Prop :=
  ∀ t : State Val Library, t.structs = s.structs →
    (∀ y, y ∉ [t!"keys", t!"i", t!"key"] → t.vars.lookup y = s.vars.lookup y) → e.eval w t = .ok (x, t)

theorem Reads.self {e : Expr} {x : Value Val} {s : State Val Library} (h : Reads w e x s) : e.eval w s = .ok (x, s) :=
  h s rfl fun _ _ => rfl

theorem Reads.after {e : Expr} {x : Value Val} {s : State Val Library} (h : Reads w e x s)
    (arrays : List (List (Value Val))) (ts : List Tok) : Reads w e x (after s arrays ts s.vars) :=
  fun t h1 h2 => h t h1 h2

theorem move_after (D : Value Val → Prop) (s : State Val Library) (arrays : List (List (Value Val))) (ts : List Tok)
    (vars : List (Text × Value Val)) : BuildersRun.Move D D s (after s arrays ts vars) := by
  refine ⟨fun _ h _ => h, fun _ _ _ h => h, fun a xs _ h => ?_, fun _ _ _ h => h⟩
  simp only [after, wrote]
  rw [List.getElem?_append_left (List.getElem?_eq_some_iff.mp h).1]
  exact h

theorem holds_after {D : Value Val → Prop} {s : State Val Library} {ty : TypeId} {v : Val} {x : Value Val}
    (h : Holds S U D s ty v x) (arrays : List (List (Value Val))) (ts : List Tok) (vars : List (Text × Value Val)) :
    Holds S U D (after s arrays ts vars) ty v x :=
  Holds.move (s := s) (t := after s arrays ts vars) (move_after D s arrays ts vars) ty v x h

theorem items_after {D : Value Val → Prop} {s : State Val Library} {ty : TypeId} {v : List Val} {x : List (Value Val)}
    (h : HoldsItems S U D s ty v x) (arrays : List (List (Value Val))) (ts : List Tok)
    (vars : List (Text × Value Val)) : HoldsItems S U D (after s arrays ts vars) ty v x :=
  HoldsItems.move (s := s) (t := after s arrays ts vars) (move_after D s arrays ts vars) ty v x h

theorem fields_after {D : Value Val → Prop} {s : State Val Library} {fs : List (Text × Value Val)}
    {as : List (AttrShape × Text)} {vs : List Val} (h : HoldsFields S U D s fs as vs)
    (arrays : List (List (Value Val))) (ts : List Tok) (vars : List (Text × Value Val)) :
    HoldsFields S U D (after s arrays ts vars) fs as vs :=
  HoldsFields.move (s := s) (t := after s arrays ts vars) (move_after D s arrays ts vars) fs as vs h

theorem Wrote.enter {s t : State Val Library} {extra vars : List (Text × Value Val)}
    {r : Res (Flow Val × State Val Library)} {o : Option (List Tok)} (ht : t = { s with vars := t.vars })
    (h : Wrote t (extra ++ vars) r o) (hl : vars.length = s.vars.length) :
    Wrote s vars (r.bind fun r => .ok (leave s r)) o := by
  cases o with
  | none => simp only [Wrote] at h; rw [h]; rfl
  | some ts =>
    obtain ⟨arrays, h⟩ := h
    refine ⟨arrays, ?_⟩
    rw [h, Res.bind, leave_more (extra := extra) (vars := vars) rfl hl, ht]
    rfl

theorem Wrote.loop_nil {body : Nat → Value Val → State Val Library → Res (Flow Val × State Val Library)} (k : Nat)
    (s : State Val Library) : Wrote s s.vars (loop body k [] s) (some []) :=
  ⟨[], by rw [loop, after_self]⟩

theorem Wrote.loop_cons {body : Nat → Value Val → State Val Library → Res (Flow Val × State Val Library)} {k : Nat}
    {x : Value Val} {xs : List (Value Val)} {s : State Val Library} {ts : List Tok} {o q : Option (List Tok)}
    (h : Wrote s s.vars (body k x s) (some ts))
    (hk : ∀ arrays, Wrote (after s arrays ts s.vars) s.vars (loop body (k + 1) xs (after s arrays ts s.vars)) o)
    (hq : q = o.map (ts ++ ·)) : Wrote s s.vars (loop body k (x :: xs) s) q := by
  subst hq
  obtain ⟨arrays, h⟩ := h
  rw [loop, h]
  have := hk arrays
  cases o with
  | none => exact this
  | some us =>
    obtain ⟨more, this⟩ := this
    refine ⟨arrays ++ more, ?_⟩
    rw [Res.bind]
    dsimp only
    rw [this, after_after]

theorem loop_panic {body : Nat → Value Val → State Val Library → Res (Flow Val × State Val Library)} {k : Nat}
    {x : Value Val} {xs : List (Value Val)} {s : State Val Library} (h : body k x s = .panic) :
    loop body k (x :: xs) s = .panic := by
  rw [loop, h]
  rfl

theorem after_vars (s : State Val Library) (arrays : List (List (Value Val))) (ts : List Tok)
    (vars : List (Text × Value Val)) : (after s arrays ts vars).vars = vars := rfl

end Verif.JsonRun
