import Verif.Lemmas.JsonReadRun

/-!
# Lemmas about running the generated code that reads JSON: the library and the loops
-/

namespace Verif.JsonRun

open GoJson (Val Schema Shape AttrShape DateParser parseVal parseItems parseMembers)
open GoProgram
open TypesRun (Legal value)
open BuildersRun (Program Code resolve fieldsOf isObject Holds HoldsFields HoldsItems HoldsEntries Valid execBlock_append
  execBlock_append_stop execBlock_next execBlock_panic eval_var)
open JsonCode (Form Entity Listing Functions Member nextField)

variable {P : Program} {zero : Text → Text → Value Val} {Dt : DateParser} {limit : Nat} {S : Schema}
  {U : TypeId → Code} {J : TypeId → Entity} {L : TypeId → ListCode} {w : World Val Library} {names : List Text}

/-! ## Memory -/

theorem Grows.refl (s : State Val Library) : Grows s s := ⟨fun _ _ h => h, fun _ _ h => h, fun _ _ h => h⟩

theorem Grows.trans {s t u : State Val Library} (h : Grows s t) (k : Grows t u) : Grows s u :=
  ⟨fun a fs hs => k.structs a fs (h.structs a fs hs), fun a fs hs => k.arrays a fs (h.arrays a fs hs),
    fun a fs hs => k.maps a fs (h.maps a fs hs)⟩

/-- Two states with the same memory. -/
structure Same (s t : State Val Library) : Prop where
  structs : t.structs = s.structs
  arrays : t.arrays = s.arrays
  maps : t.maps = s.maps

theorem Same.grows {s t : State Val Library} (h : Same s t) : Grows s t :=
  ⟨fun a fs hs => by rw [h.structs]; exact hs, fun a fs hs => by rw [h.arrays]; exact hs,
    fun a fs hs => by rw [h.maps]; exact hs⟩

theorem Same.symm {s t : State Val Library} (h : Same s t) : Same t s := ⟨h.structs.symm, h.arrays.symm, h.maps.symm⟩

theorem Grows.valid {s t : State Val Library} (h : Grows s t) : ∀ l, Valid s l → Valid t l := by
  intro l hl
  cases l with
  | pointer a =>
    exact (List.getElem?_eq_some_iff.mp (h.structs a _ (List.getElem?_eq_getElem hl))).1
  | slice a =>
    exact (List.getElem?_eq_some_iff.mp (h.arrays a _ (List.getElem?_eq_getElem hl))).1
  | map a =>
    exact (List.getElem?_eq_some_iff.mp (h.maps a _ (List.getElem?_eq_getElem hl))).1
  | _ => exact hl.elim

/-- What doesn't change. -/
theorem Grows.move {s t : State Val Library} (h : Grows s t) {D D' : Value Val → Prop}
    (hd : ∀ l, D l → Valid s l → D' l) : BuildersRun.Move D D' s t :=
  ⟨hd, fun a fs _ hs => h.structs a fs hs, fun a fs _ hs => h.arrays a fs hs, fun a fs _ hs => h.maps a fs hs⟩

/-! ## The library -/

theorem read_some {α : Type} {f : Text} {g : List Tok → Option (α × List Tok)} {z : α} {h : α → Value Val}
    (hf : w.funcs f = some (reading g z h)) {s : State Val Library} {a : α} {r : List Tok} (hn : s.user.failed = false)
    (hg : g s.user.input = some (a, r)) :
    (Expr.call f []).eval w s = .ok (h a, { s with user := { s.user with input := r } }) := by
  simp [Expr.eval, evalArgs, Res.bind, hf, reading, hn, hg]

theorem read_none {α : Type} {f : Text} {g : List Tok → Option (α × List Tok)} {z : α} {h : α → Value Val}
    (hf : w.funcs f = some (reading g z h)) {s : State Val Library} (hg : s.user.failed = true ∨ g s.user.input = none) :
    (Expr.call f []).eval w s = .ok (h z, { s with user := { s.user with failed := true } }) := by
  cases hb : s.user.failed with
  | true =>
    have : ({ s.user with failed := true } : Library) = s.user := by rw [← hb]
    simp [Expr.eval, evalArgs, Res.bind, hf, reading, hb, this]
  | false =>
    have hg : g s.user.input = none := by simpa [hb] using hg
    simp [Expr.eval, evalArgs, Res.bind, hf, reading, hb, hg]

theorem exec_define {x : Text} {e : Expr} {s t : State Val Library} {v : Value Val} (h : e.eval w s = .ok (v, t)) :
    (Stmt.define x e).exec w names s = .ok (.next, { t with vars := (x, v) :: t.vars }) := by
  rw [Stmt.exec, h]
  rfl

/-- What the next key is. -/
def nextKey (l : Library) : Text × Library :=
  if l.failed then ([], l)
  else
    match GoJson.readObject l.input with
    | some (k, r) => (k, { l with input := r })
    | none => ([], { l with failed := true })

/-- Reading the next key. -/
theorem exec_nextField {k : Nat} {pkg x : Text} {s : State Val Library} (rest : List Stmt) :
    execBlock (world P zero Dt limit k pkg) names (nextField x ++ rest) s =
      if (nextKey s.user).1 = [] then
        .ok (.stop, { s with vars := (x, .str []) :: s.vars, user := (nextKey s.user).2 })
      else
        execBlock (world P zero Dt limit k pkg) names rest
          { s with vars := (x, .str (nextKey s.user).1) :: s.vars, user := (nextKey s.user).2 } := by
  have hdef : (Stmt.define x (.call t!"iterator.ReadObject" [])).exec (world P zero Dt limit k pkg) names s =
      .ok (.next, { s with vars := (x, .str (nextKey s.user).1) :: s.vars, user := (nextKey s.user).2 }) := by
    have hf : (world P zero Dt limit k pkg).funcs t!"iterator.ReadObject" =
        some (reading GoJson.readObject [] .str) := by
      rw [world_funcs]; rfl
    cases hb : s.user.failed with
    | true =>
      rw [exec_define (read_none hf (.inl hb))]
      have : ({ s.user with failed := true } : Library) = s.user := by rw [← hb]
      simp [nextKey, hb, this]
    | false =>
      cases hr : GoJson.readObject s.user.input with
      | none =>
        rw [exec_define (read_none hf (.inr hr))]
        simp [nextKey, hb, hr]
      | some p =>
        rw [exec_define (read_some hf hb (a := p.1) (r := p.2) hr)]
        simp [nextKey, hb, hr]
  rw [nextField, List.cons_append, execBlock_next hdef, List.cons_append, List.nil_append]
  generalize hs' : ({ s with vars := (x, .str (nextKey s.user).1) :: s.vars, user := (nextKey s.user).2 } :
    State Val Library) = s'
  have hx : s'.vars.lookup x = some (.str (nextKey s.user).1) := by rw [← hs']; simp
  have hc : (Expr.eq (.var x) (.str [])).eval (world P zero Dt limit k pkg) s' =
      .ok (.bool ((nextKey s.user).1 == []), s') := by
    rw [Expr.eval, eval_var hx, bind_ok]
    dsimp only
    rw [Expr.eval, bind_ok]
    rfl
  by_cases hk : (nextKey s.user).1 = []
  · have : (Stmt.branch (.eq (.var x) (.str [])) [.stop] []).exec (world P zero Dt limit k pkg) names s' =
        .ok (.stop, s') := by
      rw [Stmt.exec, hc, bind_ok, hk]
      dsimp only
      rw [show (([] : Text) == []) = true from rfl]
      dsimp only
      rw [execBlock, Stmt.exec, bind_ok]
      dsimp only
      rw [bind_ok, leave_same rfl]
    rw [execBlock, this, bind_ok, if_pos hk, ← hs', hk]
  · have : (Stmt.branch (.eq (.var x) (.str [])) [.stop] []).exec (world P zero Dt limit k pkg) names s' =
        .ok (.next, s') := by
      rw [Stmt.exec, hc, bind_ok]
      dsimp only
      rw [show ((nextKey s.user).1 == ([] : Text)) = false from beq_eq_false_iff_ne.mpr hk]
      dsimp only
      rw [execBlock, bind_ok, leave_same rfl]
    rw [execBlock_next this, if_neg hk]

/-! ## The loop over the keys of an object -/

/-- What something that reads and changes the memory does: in the end the memory is what is expected, or the iterator
has an error and the memory is still correct. -/
def Turns {α : Type} (Inv : α → State Val Library → Prop) (Safe : State Val Library → Prop) (s : State Val Library)
    (vars : List (Text × Value Val)) (r : Res (Flow Val × State Val Library)) : Option (α × List Tok) → Prop
  | some (a, rest) => ∃ t pre, r = .ok (.next, t) ∧ t.vars = pre ++ vars ∧
      t.user = { s.user with input := rest } ∧ Inv a t
  | none => ∃ t pre rest, r = .ok (.next, t) ∧ t.vars = pre ++ vars ∧ rest.length ≤ s.user.input.length ∧
      t.user = { s.user with input := rest, failed := true } ∧ Safe t

/-- What a loop does: the same, and it declares no variables. -/
def Finishes {α : Type} (Inv : α → State Val Library → Prop) (Safe : State Val Library → Prop) (s : State Val Library)
    (vars : List (Text × Value Val)) (r : Res (Flow Val × State Val Library)) : Option (α × List Tok) → Prop
  | some (a, rest) => ∃ t, r = .ok (.next, t) ∧ t.vars = vars ∧ t.user = { s.user with input := rest } ∧ Inv a t
  | none => ∃ t rest, r = .ok (.next, t) ∧ t.vars = vars ∧ rest.length ≤ s.user.input.length ∧
      t.user = { s.user with input := rest, failed := true } ∧ Safe t

theorem loop_keys {α : Type} {k : Nat} {pkg x : Text} {body : List Stmt}
    {model : Nat → α → List Tok → Option (α × List Tok)}
    {step : Nat → α → Text → List Tok → Option (α × List Tok)} {Inv : α → State Val Library → Prop}
    {Safe : State Val Library → Prop} {N : Nat}
    (hmodel : ∀ f a r, model (f + 1) a r =
      match GoJson.readObject r with
      | none => none
      | some (key, r) =>
        if key = [] then some (a, r)
        else
          match step f a key r with
          | none => none
          | some (a, r) => model f a r)
    (hsafe : ∀ a s, Inv a s → Safe s)
    (hInv : ∀ a s t, Same s t → Inv a s → Inv a t) (hSafe : ∀ s t, Same s t → Safe s → Safe t)
    (vars : List (Text × Value Val))
    (hstep : ∀ a key s, key ≠ [] → s.user.failed = false → s.user.input.length < N → Inv a s →
      s.vars = (x, .str key) :: vars →
      ∃ o, Settles (fun f => step f a key s.user.input) o ∧
        (∀ a' rest, o = some (a', rest) → rest.length ≤ s.user.input.length) ∧
        Turns Inv Safe s s.vars (execBlock (world P zero Dt limit k pkg) names body s) o) :
    ∀ (n : Nat) (a : α) (s : State Val Library), s.user.input.length < n → s.user.input.length ≤ N → Inv a s →
      s.vars = vars →
      ∃ o, Says s.user (fun f => model f a s.user.input) o ∧
        Finishes Inv Safe s vars (loopWhile (fun s => .ok (.bool true, s))
          (fun s => (execBlock (world P zero Dt limit k pkg) names (nextField x ++ body) s).bind
            fun r => .ok (leave s r)) n s) o
  | 0, _, _, hn, _, _, _ => absurd hn (Nat.not_lt_zero _)
  | n + 1, a, s, hn, hN, hi, hv => by
    rw [loopWhile, bind_ok]
    dsimp only
    rw [exec_nextField]
    by_cases hk : (nextKey s.user).1 = []
    · rw [if_pos hk, bind_ok, leave_more (extra := [(x, .str [])]) (vars := s.vars) rfl rfl, bind_ok]
      dsimp only
      cases hb : s.user.failed with
      | true =>
        refine ⟨none, by simp [Says, hb], _, s.user.input, rfl, hv, Nat.le_refl _, ?_, ?_⟩
        · have : ({ s.user with failed := true } : Library) = s.user := by rw [← hb]
          simp [nextKey, hb, this]
        · exact hSafe s _ ⟨rfl, rfl, rfl⟩ (hsafe a s hi)
      | false =>
        cases hr : GoJson.readObject s.user.input with
        | none =>
          refine ⟨none, ?_, _, s.user.input, rfl, hv, Nat.le_refl _, by simp [nextKey, hb, hr],
            hSafe s _ ⟨rfl, rfl, rfl⟩ (hsafe a s hi)⟩
          simp only [Says, hb]
          refine ⟨Settles.succ ?_, by simp⟩
          refine (Settles.const none).congr fun f => ?_
          rw [hmodel, hr]
        | some p =>
          obtain ⟨key, r⟩ := p
          have hkey : key = [] := by simpa [nextKey, hb, hr] using hk
          subst hkey
          refine ⟨some (a, r), ?_, _, rfl, hv, by simp [nextKey, hb, hr], hInv a s _ ⟨rfl, rfl, rfl⟩ hi⟩
          simp only [Says, hb]
          refine ⟨Settles.succ ?_, ?_⟩
          · refine (Settles.const (some (a, r))).congr fun f => ?_
            rw [hmodel, hr]
            simp
          · intro a' rest h
            cases h
            exact readObject_shrinks hr
    · rw [if_neg hk]
      have hb : s.user.failed = false := by
        cases hb : s.user.failed with
        | true => simp [nextKey, hb] at hk
        | false => rfl
      obtain ⟨key, r, hr⟩ : ∃ key r, GoJson.readObject s.user.input = some (key, r) := by
        cases hr : GoJson.readObject s.user.input with
        | none => simp [nextKey, hb, hr] at hk
        | some p => exact ⟨p.1, p.2, rfl⟩
      have hnk : nextKey s.user = (key, { s.user with input := r }) := by simp [nextKey, hb, hr]
      rw [hnk] at hk ⊢
      dsimp only at hk ⊢
      have hlt := readObject_shrinks hr
      generalize hs' : ({ s with vars := (x, .str key) :: s.vars, user := { s.user with input := r } } :
        State Val Library) = s'
      have hsame : Same s s' := by rw [← hs']; exact ⟨rfl, rfl, rfl⟩
      have huser : s'.user = { s.user with input := r } := by rw [← hs']
      have hvars : s'.vars = (x, .str key) :: s.vars := by rw [← hs']
      obtain ⟨o, ho, hshort, hdo⟩ := hstep a key s' hk (by rw [huser]; exact hb) (by rw [huser]; dsimp only; omega)
        (hInv a s s' hsame hi) (by rw [hvars, hv])
      rw [huser] at ho hshort
      dsimp only at ho hshort
      cases o with
      | none =>
        obtain ⟨t, pre, rest, ht, htv, hle, htu, hts⟩ := hdo
        rw [ht, bind_ok, leave_more (extra := pre ++ [(x, .str key)]) (vars := s.vars)
          (by rw [htv, hvars, List.append_assoc]; rfl) rfl, bind_ok]
        dsimp only
        rw [huser] at hle htu
        dsimp only at hle htu
        generalize ht' : ({ t with vars := s.vars } : State Val Library) = t'
        have hu' : t'.user = { s.user with input := rest, failed := true } := by rw [← ht']; exact htu
        obtain ⟨m, rfl⟩ : ∃ m, n = m + 1 := ⟨n - 1, by omega⟩
        rw [loopWhile, bind_ok]
        dsimp only
        have hnk' : nextKey t'.user = ([], t'.user) := by simp [nextKey, hu']
        rw [exec_nextField, hnk', if_pos rfl, bind_ok, leave_more (extra := [(x, .str [])]) (vars := t'.vars) rfl rfl,
          bind_ok]
        dsimp only
        refine ⟨none, ?_, _, rest, rfl, ?_, by omega, ?_, hSafe t _ ?_ hts⟩
        · simp only [Says, hb]
          obtain ⟨F, hF⟩ := ho
          refine ⟨Settles.succ ⟨F, fun f hf => ?_⟩, by simp⟩
          dsimp only
          rw [hmodel, hr]
          dsimp only
          rw [if_neg hk, show step f a key r = _ from hF f hf]
        · rw [← ht']; exact hv
        · exact hu'
        · rw [← ht']; exact ⟨rfl, rfl, rfl⟩
      | some p =>
        obtain ⟨a', rest⟩ := p
        obtain ⟨t, pre, ht, htv, htu, hti⟩ := hdo
        rw [ht, bind_ok, leave_more (extra := pre ++ [(x, .str key)]) (vars := s.vars)
          (by rw [htv, hvars, List.append_assoc]; rfl) rfl, bind_ok]
        dsimp only
        rw [huser] at htu
        dsimp only at htu
        generalize ht' : ({ t with vars := s.vars } : State Val Library) = t'
        have hu' : t'.user = { s.user with input := rest } := by rw [← ht']; exact htu
        have hle := hshort a' rest rfl
        have hIt : Inv a' t' := hInv a' t t' (by rw [← ht']; exact ⟨rfl, rfl, rfl⟩) hti
        obtain ⟨q, hq, hres⟩ := loop_keys hmodel hsafe hInv hSafe vars hstep n a' t' (by rw [hu']; dsimp only; omega)
          (by rw [hu']; dsimp only; omega) hIt (by rw [← ht']; exact hv)
        rw [hu'] at hq
        simp only [Says, hb] at hq
        refine ⟨q, ?_, ?_⟩
        · simp only [Says, hb]
          refine ⟨Settles.succ ?_, fun b rest' he => ?_⟩
          · obtain ⟨F, hF⟩ := ho
            obtain ⟨G, hG⟩ := hq.1
            refine ⟨F + G, fun f hf => ?_⟩
            dsimp only
            rw [hmodel, hr]
            dsimp only
            rw [if_neg hk, show step f a key r = _ from hF f (by omega)]
            dsimp only
            exact hG f (by omega)
          · have := hq.2 b rest' he
            omega
        · cases q with
          | none =>
            obtain ⟨u, rest', h1, h2, h3, h4, h5⟩ := hres
            rw [hu'] at h3 h4
            exact ⟨u, rest', h1, h2, Nat.le_trans h3 (by dsimp only; omega), h4, h5⟩
          | some p =>
            obtain ⟨u, h1, h2, h4, h5⟩ := hres
            rw [hu'] at h4
            exact ⟨u, h1, h2, h4, h5⟩

end Verif.JsonRun
