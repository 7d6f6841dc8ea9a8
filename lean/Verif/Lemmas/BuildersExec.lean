import Verif.Lemmas.BuildersRun

/-!
# Lemmas about running the generated builders: statements
-/

namespace Verif.BuildersRun

open GoJson (Val Schema Shape AttrShape)
open GoBuilder (BVal Cell Mem)
open GoProgram
open TypesCode (dot)
open TypesRun (Legal value)
open BuildersCode (setBit clearBit fluent)

variable {σ : Type} {S : Schema} {U : TypeId → Code}

/-- Changes a structure. -/
def write (s : State Val σ) (a : Nat) (fs : List (Text × Value Val)) : State Val σ :=
  { s with structs := s.structs.set a fs }

theorem write_get {s : State Val σ} {a : Nat} {fs : List (Text × Value Val)} (g : List (Text × Value Val))
    (h : s.structs[a]? = some fs) : (write s a g).structs[a]? = some g := by
  simp [write, (List.getElem?_eq_some_iff.mp h).1]

theorem write_write (s : State Val σ) (a : Nat) (f g : List (Text × Value Val)) :
    write (write s a f) a g = write s a g := by
  simp [write]

theorem write_same {s : State Val σ} {a : Nat} {fs : List (Text × Value Val)}
    (h : s.structs[a]? = some fs) : write s a fs = s := by
  obtain ⟨hlt, he⟩ := List.getElem?_eq_some_iff.mp h
  simp [write, ← he]

theorem frame_write {D : Value Val → Prop} (s : State Val σ) (a : Nat) (fs : List (Text × Value Val))
    (hd : ¬ D (.pointer a)) : Frame D s (write s a fs) := by
  refine ⟨fun b gs hb h => ?_, fun _ _ _ h => h, fun _ _ _ h => h, fun l hl => ?_, rfl, rfl⟩
  · have : a ≠ b := by
      rintro rfl
      exact hd hb
    simp [write, List.getElem?_set_ne this, h]
  · cases l <;> simpa [Valid, write] using hl

theorem execBlock_append (w : World Val σ) (results : List Text) : ∀ (a b : List Stmt) (s t : State Val σ),
    execBlock w results a s = .ok (.next, t) → execBlock w results (a ++ b) s = execBlock w results b t
  | [], b, s, t, h => by
    simp only [execBlock, Res.ok.injEq, Prod.mk.injEq, true_and] at h
    rw [h, List.nil_append]
  | c :: a, b, s, t, h => by
    rw [List.cons_append, execBlock]
    rw [execBlock] at h
    cases hc : c.exec w results s with
    | ok r =>
      obtain ⟨flow, u⟩ := r
      rw [hc] at h
      cases flow with
      | next => exact execBlock_append w results a b u t h
      | stop => simp [Res.bind] at h
      | ret vs => simp [Res.bind] at h
    | panic => rw [hc] at h; cases h
    | wrong => rw [hc] at h; cases h
    | outOfFuel => rw [hc] at h; cases h

theorem execBlock_append_stop (w : World Val σ) (results : List Text) (q : Res (Flow Val × State Val σ))
    (hq : ∀ t, q ≠ .ok (.next, t)) : ∀ (a b : List Stmt) (s : State Val σ),
    execBlock w results a s = q → execBlock w results (a ++ b) s = q
  | [], b, s, h => by
    rw [execBlock] at h
    exact absurd h.symm (hq s)
  | c :: a, b, s, h => by
    rw [List.cons_append, execBlock]
    rw [execBlock] at h
    cases hc : c.exec w results s with
    | ok r =>
      obtain ⟨flow, u⟩ := r
      rw [hc] at h
      cases flow with
      | next => exact execBlock_append_stop w results q hq a b u h
      | stop => exact h
      | ret vs => exact h
    | panic => rw [hc] at h; exact h
    | wrong => rw [hc] at h; exact h
    | outOfFuel => rw [hc] at h; exact h

theorem execBlock_next {w : World Val σ} {results : List Text} {c : Stmt} {cs : List Stmt} {s t : State Val σ}
    (h : c.exec w results s = .ok (.next, t)) :
    execBlock w results (c :: cs) s = execBlock w results cs t := by
  rw [execBlock, h]
  rfl

theorem execBlock_panic {w : World Val σ} {results : List Text} {c : Stmt} {cs : List Stmt} {s : State Val σ}
    (h : c.exec w results s = .panic) : execBlock w results (c :: cs) s = .panic := by
  rw [execBlock, h]
  rfl

theorem exec_assign {w : World Val σ} {results : List Text} {target e : Expr} {s t u : State Val σ} {v : Value Val}
    (he : e.eval w s = .ok (v, t)) (ha : assign w v target t = .ok u) :
    (Stmt.assign target e).exec w results s = .ok (.next, u) := by
  simp only [Stmt.exec, he, Res.bind, ha]

/-- The fields of a structure with a change. -/
structure Put (f : Text) (v : Value Val) (fs fs' : List (Text × Value Val)) : Prop where
  keys : fs'.map Prod.fst = fs.map Prod.fst
  same : fs'.lookup f = some v
  other : ∀ g, g ≠ f → fs'.lookup g = fs.lookup g

theorem assign_field (w : World Val σ) {s : State Val σ} {x f : Text} {a : Nat} {fs : List (Text × Value Val)}
    {old : Value Val} (v : Value Val) (hx : s.vars.lookup x = some (.pointer a)) (hs : s.structs[a]? = some fs)
    (hf : fs.lookup f = some old) :
    ∃ fs', Put f v fs fs' ∧ assign w v (dot x f) s = .ok (write s a fs') := by
  obtain ⟨fs', h1, h2, h3⟩ := update_ok f v fs old hf
  exact ⟨fs', ⟨h2, by simp [h3], fun g hg => by simp [h3, hg]⟩, assign_dot hx hs h1⟩

theorem exec_setBit (w : World Val σ) (results : List Text) (bit : Nat) {s : State Val σ} {a : Nat}
    {fs : List (Text × Value Val)} {n : Nat} (hx : s.vars.lookup t!"b" = some (.pointer a))
    (hs : s.structs[a]? = some fs) (hf : fs.lookup t!"bitmap_" = some (.int n)) :
    ∃ fs', Put t!"bitmap_" (.int (n ||| 2 ^ bit : Nat)) fs fs' ∧
      (setBit bit).exec w results s = .ok (.next, write s a fs') := by
  obtain ⟨fs', h1, h2⟩ := assign_field w (.int (n ||| 2 ^ bit : Nat)) hx hs hf
  refine ⟨fs', h1, ?_⟩
  simp only [setBit, Stmt.exec, eval_dot hx hs hf, Res.bind, Expr.eval]
  rw [TypesRun.bits_eq]
  change (assign w (.int (n ||| 2 ^ bit : Nat)) (dot t!"b" t!"bitmap_") s).bind _ = _
  rw [h2]
  rfl

theorem sub_bit (n bit : Nat) (hb : n.testBit bit = true) : n - 2 ^ bit = n ^^^ 2 ^ bit := by
  have h1 : n / 2 ^ bit % 2 = 1 := by
    rw [Nat.testBit_eq_decide_div_mod_eq] at hb
    exact of_decide_eq_true hb
  have h2 : 2 ^ (bit + 1) * (n / 2 ^ (bit + 1)) + n % 2 ^ bit = n - 2 ^ bit := by
    have h3 := Nat.div_add_mod n (2 ^ (bit + 1))
    rw [Nat.mod_pow_succ, h1] at h3
    omega
  rw [← h2]
  apply Nat.eq_of_testBit_eq
  intro i
  have hlt : n % 2 ^ bit < 2 ^ (bit + 1) := by
    have := Nat.mod_lt n (Nat.two_pow_pos bit)
    have := Nat.pow_lt_pow_right (a := 2) (by omega) (Nat.lt_succ_self bit)
    omega
  rw [Nat.testBit_two_pow_mul_add _ hlt, Nat.testBit_xor, Nat.testBit_two_pow, Nat.testBit_mod_two_pow,
    Nat.testBit_div_two_pow]
  by_cases h4 : i < bit + 1
  · by_cases h5 : bit = i
    · subst h5
      simp [hb]
    · have : i < bit := by omega
      simp [h4, h5, this]
  · have h5 : bit ≠ i := by omega
    have h6 : bit + 1 + (i - (bit + 1)) = i := by omega
    have h7 : i - (bit + 1) + (bit + 1) = i := by omega
    simp [h4, h5, h6, h7]

theorem exec_clearBit (w : World Val σ) (results : List Text) (bit : Nat) {s : State Val σ} {a : Nat}
    {fs : List (Text × Value Val)} {n : Nat} (hx : s.vars.lookup t!"b" = some (.pointer a))
    (hs : s.structs[a]? = some fs) (hf : fs.lookup t!"bitmap_" = some (.int n)) :
    ∃ fs', Put t!"bitmap_" (.int (GoBuilder.clearBit n bit : Nat)) fs fs' ∧
      (clearBit bit).exec w results s = .ok (.next, write s a fs') := by
  obtain ⟨fs', h1, h2⟩ := assign_field w (.int (GoBuilder.clearBit n bit : Nat)) hx hs hf
  refine ⟨fs', h1, ?_⟩
  simp only [clearBit, Stmt.exec, eval_dot hx hs hf, Res.bind, Expr.eval]
  rw [TypesRun.bits_eq]
  have he : n - Nat.land n (2 ^ bit) = GoBuilder.clearBit n bit := by
    change n - (n &&& 2 ^ bit) = n ^^^ (n &&& 2 ^ bit)
    cases hb : n.testBit bit with
    | false =>
      have : n &&& 2 ^ bit = 0 := (TypesRun.land_bit n bit).mpr hb
      simp [this]
    | true =>
      have h1 : n &&& 2 ^ bit = 2 ^ bit := by
        apply Nat.eq_of_testBit_eq
        intro i
        rw [Nat.testBit_and, Nat.testBit_two_pow]
        by_cases hi : bit = i
        · subst hi
          simp [hb]
        · simp [hi]
      rw [h1]
      exact sub_bit n bit hb
  change (assign w (.int (n - Nat.land n (2 ^ bit) : Nat)) (dot t!"b" t!"bitmap_") s).bind _ = _
  rw [he, h2]
  rfl

end Verif.BuildersRun
