import Verif.Lemmas.JsonRun
import Verif.Lemmas.BuildersBuild

/-!
# Running the generated functions that write values
-/

namespace Verif.JsonRun

open GoJson (Val Schema Shape AttrShape DateParser writeVal writeFields writeItems writeAll writeEntries sortKeys
  insertKey)
open GoProgram
open TypesRun (Legal value)
open BuildersRun (Program Code resolve fieldsOf isObject Holds HoldsFields HoldsItems HoldsEntries execBlock_append
  execBlock_append_stop execBlock_next execBlock_panic eval_var eval_dot eval_dot_nil exec_range)
open JsonCode (Form Entity Listing Functions Member)
open GoBuilder (typed typedFields typedItems typedEntries)

/-! ## Sorting -/

theorem insertText_map {α : Type} (e : Text × α) : ∀ l : List (Text × α),
    (insertKey e l).map Prod.fst = insertText e.1 (l.map Prod.fst)
  | [] => rfl
  | f :: fs => by
    rw [insertKey, List.map_cons, insertText]
    split
    · rfl
    · rw [List.map_cons, insertText_map e fs]

theorem sortTexts_map {α : Type} (l : List (Text × α)) :
    (sortKeys l).map Prod.fst = sortTexts (l.map Prod.fst) := by
  unfold sortKeys sortTexts
  suffices h : ∀ acc : List (Text × α), (l.foldl (fun acc e => insertKey e acc) acc).map Prod.fst =
      (l.map Prod.fst).foldl (fun acc t => insertText t acc) (acc.map Prod.fst) from h []
  induction l with
  | nil => intro acc; rfl
  | cons e l ih =>
    intro acc
    rw [List.foldl_cons, ih, List.map_cons, List.foldl_cons, insertText_map]

theorem insertText_mem (t u : Text) : ∀ l : List Text, u ∈ insertText t l ↔ u = t ∨ u ∈ l
  | [] => by simp [insertText]
  | v :: l => by
    rw [insertText]
    split
    · simp
    · simp only [List.mem_cons, insertText_mem t u l]
      grind

theorem sortTexts_mem (u : Text) (l : List Text) : u ∈ sortTexts l ↔ u ∈ l := by
  unfold sortTexts
  suffices h : ∀ acc : List Text, u ∈ l.foldl (fun acc t => insertText t acc) acc ↔ u ∈ acc ∨ u ∈ l by
    simpa using h []
  induction l with
  | nil => intro acc; simp
  | cons e l ih =>
    intro acc
    rw [List.foldl_cons, ih, insertText_mem]
    grind

theorem insertKey_mem {α : Type} (e f : Text × α) : ∀ l : List (Text × α), f ∈ insertKey e l ↔ f = e ∨ f ∈ l
  | [] => by simp [insertKey]
  | v :: l => by
    rw [insertKey]
    split
    · simp
    · simp only [List.mem_cons, insertKey_mem e f l]
      grind

theorem sortKeys_mem {α : Type} (u : Text × α) (l : List (Text × α)) : u ∈ sortKeys l ↔ u ∈ l := by
  unfold sortKeys
  suffices h : ∀ acc : List (Text × α), u ∈ l.foldl (fun acc e => insertKey e acc) acc ↔ u ∈ acc ∨ u ∈ l by
    simpa using h []
  induction l with
  | nil => intro acc; simp
  | cons e l ih =>
    intro acc
    rw [List.foldl_cons, ih, insertKey_mem]
    grind

/-- What the loop over the keys writes. -/
def writeKeys (R : Text → Option (List Tok)) : Nat → List Text → Option (List Tok)
  | _, [] => some []
  | j, k :: ks =>
    match R k with
    | none => none
    | some ts => (writeKeys R (j + 1) ks).map fun rest => GoJson.more j ++ (.str k :: .colon :: (ts ++ rest))

theorem writeKeys_some {R : Text → Option (List Tok)} : ∀ (l : List (Text × List Tok)) (j : Nat),
    (∀ e ∈ l, R e.1 = some e.2) → writeKeys R j (l.map Prod.fst) = some (writeEntries j l)
  | [], _, _ => rfl
  | (k, ts) :: l, j, h => by
    rw [List.map_cons, writeKeys, h (k, ts) (by simp)]
    simp only [writeKeys_some l (j + 1) fun e he => h e (by simp [he]), Option.map_some, writeEntries]

theorem writeKeys_none {R : Text → Option (List Tok)} : ∀ (ks : List Text) (j : Nat),
    (∃ k ∈ ks, R k = none) → writeKeys R j ks = none
  | [], _, h => by simp at h
  | k :: ks, j, h => by
    rw [writeKeys]
    cases hk : R k with
    | none => rfl
    | some ts =>
      obtain ⟨k', hm, hn⟩ := h
      rcases List.mem_cons.mp hm with rfl | hm
      · rw [hk] at hn; cases hn
      · simp only [writeKeys_none ks (j + 1) ⟨k', hm, hn⟩, Option.map_none]

theorem writeAll_some {S : Schema} {e : TypeId} : ∀ (entries : List (Text × Val)) (es : List (Text × List Tok)),
    writeAll S e entries = some es → es.map Prod.fst = entries.map Prod.fst ∧
      ∀ p ∈ es, ∃ v, (p.1, v) ∈ entries ∧ writeVal S e false v = some p.2
  | [], es, h => by
    simp [writeAll] at h
    subst h
    simp
  | (k, v) :: entries, es, h => by
    rw [writeAll] at h
    cases hv : writeVal S e false v with
    | none => simp [hv] at h
    | some ts =>
      cases hr : writeAll S e entries with
      | none => simp [hv, hr] at h
      | some rest =>
        simp [hv, hr] at h
        subst h
        obtain ⟨h1, h2⟩ := writeAll_some entries rest hr
        refine ⟨by simp [h1], fun p hp => ?_⟩
        rcases List.mem_cons.mp hp with rfl | hp
        · exact ⟨v, by simp, hv⟩
        · obtain ⟨u, hu, hw⟩ := h2 p hp
          exact ⟨u, by simp [hu], hw⟩

theorem writeAll_none {S : Schema} {e : TypeId} : ∀ (entries : List (Text × Val)),
    writeAll S e entries = none → ∃ k v, (k, v) ∈ entries ∧ writeVal S e false v = none
  | [], h => by simp [writeAll] at h
  | (k, v) :: entries, h => by
    rw [writeAll] at h
    cases hv : writeVal S e false v with
    | none => exact ⟨k, v, by simp, hv⟩
    | some ts =>
      cases hr : writeAll S e entries with
      | some rest => simp [hv, hr] at h
      | none =>
        obtain ⟨k', v', hm, hn⟩ := writeAll_none entries hr
        exact ⟨k', v', by simp [hm], hn⟩

/-- What is written for a key of a map. -/
def keyTokens (S : Schema) (e : TypeId) (entries : List (Text × Val)) (k : Text) : Option (List Tok) :=
  (entries.lookup k).bind (writeVal S e false)

theorem writeKeys_eq {S : Schema} {e : TypeId} (entries : List (Text × Val)) (hn : (entries.map Prod.fst).Nodup)
    (j : Nat) :
    writeKeys (keyTokens S e entries) j (sortTexts (entries.map Prod.fst)) =
      (writeAll S e entries).map fun es => writeEntries j (sortKeys es) := by
  cases h : writeAll S e entries with
  | none =>
    obtain ⟨k, v, hm, hv⟩ := writeAll_none entries h
    rw [writeKeys_none _ _ ⟨k, (sortTexts_mem _ _).mpr (List.mem_map.mpr ⟨(k, v), hm, rfl⟩), ?_⟩]
    · rfl
    · rw [keyTokens, BuildersRun.lookup_of_mem k v entries hn hm]
      exact hv
  | some es =>
    obtain ⟨h1, h2⟩ := writeAll_some entries es h
    rw [← h1, ← sortTexts_map, writeKeys_some]
    · rfl
    · intro p hp
      obtain ⟨v, hm, hv⟩ := h2 p ((sortKeys_mem p es).mp hp)
      rw [keyTokens, BuildersRun.lookup_of_mem p.1 v entries hn hm]
      exact hv

theorem lookup_ne {α : Type} {y z : Text} {v : α} {l : List (Text × α)} (h : y ≠ z) :
    List.lookup y ((z, v) :: l) = List.lookup y l := by
  have : (y == z) = false := beq_eq_false_iff_ne.mpr h
  rw [List.lookup, this]

/-! ## Values -/

variable {P : Program} {zero : Text → Text → Value Val} {Dt : DateParser} {limit : Nat} {S : Schema}
  {U : TypeId → Code} {J : TypeId → Entity} {L : TypeId → ListCode} {names : List Text}

theorem performs {fuel : Nat} {pkg f : Text} {args : List Expr} {vs : List (Value Val)} {ts : List Tok}
    {s : State Val Library} (hf : ∃ g, table.lookup f = some (writing g) ∧ g vs = ts)
    (ha : evalArgs (world P zero Dt limit fuel pkg) args s = .ok (vs, s)) :
    Wrote s s.vars ((Stmt.perform f args).exec (world P zero Dt limit fuel pkg) names s) (some ts) := by
  obtain ⟨g, hf, rfl⟩ := hf
  exact exec_perform (by rw [world_funcs, hf]) ha

theorem perform_exact {fuel : Nat} {pkg f : Text} {args : List Expr} {vs : List (Value Val)} {ts : List Tok}
    {s : State Val Library} (hf : ∃ g, table.lookup f = some (writing g) ∧ g vs = ts)
    (ha : evalArgs (world P zero Dt limit fuel pkg) args s = .ok (vs, s)) :
    (Stmt.perform f args).exec (world P zero Dt limit fuel pkg) names s = .ok (.next, after s [] ts s.vars) := by
  obtain ⟨g, hf, rfl⟩ := hf
  have hf' : (world P zero Dt limit fuel pkg).funcs f = some (writing g) := by rw [world_funcs, hf]
  simp only [Stmt.exec, ha, Res.bind, given, hf', writing, after, wrote, List.append_nil]

theorem Wrote.cons_exact {w : World Val Library} {c : Stmt} {cs : List Stmt} {s : State Val Library}
    {v v' : List (Text × Value Val)} {arrays : List (List (Value Val))} {ts : List Tok} {o q : Option (List Tok)}
    (h : c.exec w names s = .ok (.next, after s arrays ts v))
    (k : Wrote (after s arrays ts v) v' (execBlock w names cs (after s arrays ts v)) o)
    (hq : q = o.map (ts ++ ·)) : Wrote s v' (execBlock w names (c :: cs) s) q := by
  subst hq
  rw [execBlock_next h]
  cases o with
  | none => exact k
  | some us =>
    obtain ⟨more, k⟩ := k
    exact ⟨arrays ++ more, by rw [k, after_after]⟩

variable (P zero Dt limit S U J L) in
/-- The code that writes a value writes what the model says, or panics. -/
def FormWrites (v : Val) : Prop :=
  ∀ (form : Form) (ty : TypeId) (link : Bool) (pkg : Text) (fuel : Nat) (s : State Val Library) (x : Value Val)
    (e : Expr) (names : List Text) (h : Value Val) (D : Value Val → Prop),
    sizeOf v ≤ fuel → Fits S U J L pkg ty link form → typed S ty link v = true → (link = true → v ≠ .nil) →
    Holds S U D s ty v x → s.vars.lookup t!"stream" = some h → s.vars.lookup t!"time.RFC3339" = none →
    Reads (world P zero Dt limit fuel pkg) e x s →
    Wrote s s.vars (execBlock (world P zero Dt limit fuel pkg) names (form.write e) s) (writeVal S ty link v)

section

variable {ty : TypeId} {link : Bool} {pkg : Text} {fuel : Nat} {s : State Val Library} {x : Value Val}
    {e : Expr} {v : Val} {D : Value Val → Prop}

/-- The code that writes values of the types that every version has. -/
theorem write_scalar (form : Form) (hF : Fits S U J L pkg ty link form)
    (hs : (S ty).isScalar = true) (ht : typed S ty link v = true) (hh : Holds S U D s ty v x)
    (hr : Reads (world P zero Dt limit fuel pkg) e x s)
    (hv : s.vars.lookup t!"time.RFC3339" = none) :
    Wrote s s.vars (execBlock (world P zero Dt limit fuel pkg) names (form.write e) s) (writeVal S ty link v) := by
  have hfit := BuildersRun.typed_fits hs ht
  have hx := BuildersRun.holds_value hfit hh
  subst hx
  have he := hr.self
  cases form with
  | boolean =>
    have hS : S ty = .boolean := hF
    rw [hS] at hfit
    cases v <;> first | (exfalso; revert hfit; simp [GoBuilder.scalarFits]; done) | skip
    rw [writeVal, if_pos hS]
    exact Wrote.one (performs ⟨_, rfl, rfl⟩ (args_one he))
  | integer =>
    have hS : S ty = .integer := hF
    rw [hS] at hfit
    cases v <;> first | (exfalso; revert hfit; simp [GoBuilder.scalarFits]; done) | skip
    rw [writeVal, if_pos (.inl hS)]
    exact Wrote.one (performs ⟨_, rfl, rfl⟩ (args_one he))
  | long =>
    have hS : S ty = .long := hF
    rw [hS] at hfit
    cases v <;> first | (exfalso; revert hfit; simp [GoBuilder.scalarFits]; done) | skip
    rw [writeVal, if_pos (.inr hS)]
    exact Wrote.one (performs ⟨_, rfl, rfl⟩ (args_one he))
  | float =>
    have hS : S ty = .float := hF
    rw [hS] at hfit
    cases v <;> first | (exfalso; revert hfit; simp [GoBuilder.scalarFits]; done) | skip
    rw [writeVal, if_pos hS]
    exact Wrote.one (performs ⟨_, rfl, rfl⟩ (args_one he))
  | string =>
    have hS : S ty = .string := hF
    rw [hS] at hfit
    cases v <;> first | (exfalso; revert hfit; simp [GoBuilder.scalarFits]; done) | skip
    rw [writeVal, if_pos (.inl hS)]
    exact Wrote.one (performs ⟨_, rfl, rfl⟩ (args_one he))
  | enum typ =>
    have hS : S ty = .enum := hF
    rw [hS] at hfit
    cases v <;> first | (exfalso; revert hfit; simp [GoBuilder.scalarFits]; done) | skip
    rw [writeVal, if_pos (.inr hS)]
    exact Wrote.one (performs ⟨_, rfl, rfl⟩ (args_one (by rw [Expr.eval]; exact he)))
  | interface =>
    have hS : S ty = .interface := hF
    rw [hS] at hfit
    cases v <;> first | (exfalso; revert hfit; simp [GoBuilder.scalarFits]; done) | skip
    rename_i j
    rw [writeVal, if_pos hS]
    cases j <;> exact Wrote.one (performs ⟨_, rfl, rfl⟩ (args_one he))
  | date =>
    have hS : S ty = .date := hF
    rw [hS] at hfit
    cases v <;> first | (exfalso; revert hfit; simp [GoBuilder.scalarFits]; done) | skip
    rename_i d
    rw [writeVal, if_pos hS]
    refine Wrote.one (performs (vs := [.str d.text]) ⟨_, rfl, rfl⟩ (args_one ?_))
    have hl : (Expr.var t!"time.RFC3339").eval (world P zero Dt limit fuel pkg) s = .ok (.str layout, s) := by
      rw [Expr.eval, hv, world_consts]
      rfl
    rw [Expr.eval, he]
    simp only [Res.bind, hl, given, world_funcs]
    rfl
  | object w r =>
    obtain ⟨h1, -⟩ := hF
    cases hS : S ty <;> simp [hS, isObject, Shape.isScalar] at h1 hs
  | list w r =>
    obtain ⟨n, e, hS, -⟩ := hF
    simp [hS, Shape.isScalar] at hs
  | linkList t w r =>
    obtain ⟨n, e, hS, -⟩ := hF
    simp [hS, Shape.isScalar] at hs
  | map t e f =>
    obtain ⟨e, hS, -⟩ := hF
    simp [hS, Shape.isScalar] at hs

end

/-! ## Maps -/

theorem write_more {fuel : Nat} {pkg : Text} {s : State Val Library} {c : Text} {n : Nat}
    (hc : s.vars.lookup c = some (.int n)) :
    Wrote s s.vars ((Stmt.branch (.gt (.var c) (.int 0)) [.perform t!"stream.WriteMore" []] []).exec
      (world P zero Dt limit fuel pkg) names s) (some (GoJson.more n)) := by
  refine Wrote.branch (b := decide (n > 0)) ?_ rfl ⟨[], ?_⟩
  · simp [Expr.eval, hc, Res.bind, GoProgram.compare]
  · rw [List.nil_append, GoJson.more]
    by_cases h : n > 0
    · simp only [h, decide_true, if_true]
      exact Wrote.one (performs ⟨_, rfl, rfl⟩ rfl)
    · simp only [h, decide_false, if_false, Bool.false_eq_true]
      exact Wrote.nil s

section

variable {a : Nat} {m : GoMap (Value Val)} {el : TypeId} {entries : List (Text × Val)} {pkg : Text} {fuel : Nat}
  {element : Text} {form : Form} {e : Expr} {h : Value Val} {D : Value Val → Prop}

/-- What is in a map for a key. -/
def Entry (P : Program) (zero : Text → Text → Value Val) (Dt : DateParser) (limit : Nat) (S : Schema)
    (U : TypeId → Code) (J : TypeId → Entity) (L : TypeId → ListCode) (D : Value Val → Prop) (fuel : Nat)
    (el : TypeId) (entries : List (Text × Val)) (m : GoMap (Value Val)) (s : State Val Library) (k : Text) : Prop :=
  ∃ v x, entries.lookup k = some v ∧ m.find k = some x ∧ FormWrites P zero Dt limit S U J L v ∧
    sizeOf v ≤ fuel ∧ typed S el false v = true ∧ Holds S U D s el v x

theorem write_key (hF : Fits S U J L pkg el false form) (k : Text) (j : Nat) (s : State Val Library)
    (hk : Entry P zero Dt limit S U J L D fuel el entries m s k) (hm : s.maps[a]? = some m)
    (hr : Reads (world P zero Dt limit fuel pkg) e (.map a) s) (hs : s.vars.lookup t!"stream" = some h)
    (hv : s.vars.lookup t!"time.RFC3339" = none) :
    Wrote s s.vars ((execBlock (world P zero Dt limit fuel pkg) names (
          .branch (.gt (.var t!"i") (.int 0)) [.perform t!"stream.WriteMore" []] [] ::
          .define t!"item" (.lookup element e (.var t!"key")) ::
          .perform t!"stream.WriteObjectField" [.var t!"key"] ::
          form.write (.var t!"item")) { s with vars := (t!"key", .str k) :: (t!"i", .int j) :: s.vars }).bind
        fun r => .ok (leave s r))
      ((keyTokens S el entries k).map fun ts => GoJson.more j ++ (.str k :: .colon :: ts)) := by
  obtain ⟨v, x, h1, h2, h3, h4, h5, h6⟩ := hk
  generalize hs' : ({ s with vars := (t!"key", .str k) :: (t!"i", .int j) :: s.vars } : State Val Library) = s'
  have hvars : s'.vars = (t!"key", .str k) :: (t!"i", .int j) :: s.vars := by rw [← hs']
  refine Wrote.enter (s := s) (t := s') (extra := [(t!"item", x), (t!"key", .str k), (t!"i", .int j)]) (vars := s.vars)
    (by rw [← hs']) ?_ rfl
  refine Wrote.cons (ts := GoJson.more j) (v := s'.vars)
    (o := (writeVal S el false v).map ([.str k, .colon] ++ ·)) (write_more (by rw [hvars]; rfl)) ?_ ?_
  rotate_left
  · rw [keyTokens, h1]
    cases hw : writeVal S el false v <;> simp [hw]
  intro arrays
  have hr' : e.eval (world P zero Dt limit fuel pkg) (after s' arrays (GoJson.more j) s'.vars) =
      .ok (.map a, after s' arrays (GoJson.more j) s'.vars) := by
    refine hr _ ?_ ?_
    · rw [← hs']; rfl
    · intro y hy
      rw [after_vars, hvars]
      simp only [List.mem_cons, List.not_mem_nil, or_false, not_or] at hy
      rw [lookup_ne hy.2.2, lookup_ne hy.2.1]
  refine Wrote.cons (ts := []) (v := (t!"item", x) :: s'.vars)
    (o := (writeVal S el false v).map ([.str k, .colon] ++ ·)) ⟨[], ?_⟩ ?_ ?_
  · have hk : (Expr.var t!"key").eval (world P zero Dt limit fuel pkg) (after s' arrays (GoJson.more j) s'.vars) =
        .ok (.str k, after s' arrays (GoJson.more j) s'.vars) := eval_var (by rw [after_vars, hvars]; rfl)
    have hm' : (after s' arrays (GoJson.more j) s'.vars).maps[a]? = some m := by rw [← hs']; exact hm
    simp only [Stmt.exec, Expr.eval, hr', Res.bind]
    rw [Expr.eval] at hk
    rw [hk]
    simp only [valueOf, hm', Res.ofOption, Res.bind, h2, Option.getD_some]
    simp [after, wrote]
  · intro arrays2
    refine Wrote.cons (ts := [.str k, .colon]) (v := (t!"item", x) :: s'.vars) (o := writeVal S el false v) ?_ ?_ rfl
    · refine performs (vs := [.str k]) ⟨_, rfl, rfl⟩ (args_one (eval_var ?_))
      rw [after_vars, hvars]
      rfl
    · intro arrays3
      have hvs : (t!"item", x) :: s'.vars = [(t!"item", x), (t!"key", .str k), (t!"i", .int j)] ++ s.vars := by
        rw [hvars]; rfl
      rw [← hvs]
      refine h3 form el false pkg fuel _ x (.var t!"item") names h D h4 hF h5 (by simp) ?_ ?_ ?_ ?_
      · refine holds_after (holds_after (holds_after ?_ _ _ _) _ _ _) _ _ _
        have hh := holds_after h6 [] [] s'.vars
        have he : after s [] [] s'.vars = s' := by
          rw [← hs']
          simp [after, wrote]
        rwa [he] at hh
      · rw [after_vars, hvars]; simpa [List.lookup] using hs
      · rw [after_vars, hvars]; simpa [List.lookup] using hv
      · intro t _ ht
        refine eval_var ?_
        rw [ht t!"item" (by decide), after_vars]
        rfl
  · cases writeVal S el false v <;> rfl

theorem write_keys (hF : Fits S U J L pkg el false form) : ∀ (ks : List Text) (j : Nat) (s : State Val Library),
    (∀ k ∈ ks, Entry P zero Dt limit S U J L D fuel el entries m s k) → s.maps[a]? = some m →
    Reads (world P zero Dt limit fuel pkg) e (.map a) s → s.vars.lookup t!"stream" = some h →
    s.vars.lookup t!"time.RFC3339" = none →
    Wrote s s.vars (loop (fun j v s => (execBlock (world P zero Dt limit fuel pkg) names (
          .branch (.gt (.var t!"i") (.int 0)) [.perform t!"stream.WriteMore" []] [] ::
          .define t!"item" (.lookup element e (.var t!"key")) ::
          .perform t!"stream.WriteObjectField" [.var t!"key"] ::
          form.write (.var t!"item")) { s with vars := (t!"key", v) :: (t!"i", .int j) :: s.vars }).bind
        fun r => .ok (leave s r)) j (ks.map .str) s) (writeKeys (keyTokens S el entries) j ks)
  | [], j, s, _, _, _, _, _ => by
    rw [List.map_nil, writeKeys]
    exact Wrote.loop_nil j s
  | k :: ks, j, s, hk, hm, hr, hs, hv => by
    have h1 := write_key (names := names) (element := element) hF k j s (hk k (by simp)) hm hr hs hv
    rw [List.map_cons, writeKeys]
    cases hR : keyTokens S el entries k with
    | none =>
      rw [hR] at h1
      exact loop_panic h1
    | some ts =>
      rw [hR] at h1
      refine Wrote.loop_cons h1 (o := writeKeys (keyTokens S el entries) (j + 1) ks) (fun arrays => ?_) ?_
      · refine write_keys hF ks (j + 1) _ (fun k' hk' => ?_) hm (hr.after _ _) hs hv
        obtain ⟨v, x, g1, g2, g3, g4, g5, g6⟩ := hk k' (by simp [hk'])
        exact ⟨v, x, g1, g2, g3, g4, g5, holds_after g6 _ _ _⟩
      · cases writeKeys (keyTokens S el entries) (j + 1) ks <;> simp

end

theorem bind_ok {α β : Type} (a : α) (f : α → Res β) : (Res.ok a).bind f = f a := rfl

/-- The loop that puts the keys of a map in a slice. -/
theorem fill_keys {w : World Val Library} {s : State Val Library} {A : Nat} (hA : A = s.arrays.length)
    {V : List (Text × Value Val)} : ∀ (ks done : List Text),
    loopKeys (fun k s => (execBlock w names [
        .assign (.index (.var t!"keys") (.var t!"i")) (.var t!"key"),
        .increment t!"i"] { s with vars := (t!"key", .str k) :: s.vars }).bind fun r => .ok (leave s r)) ks
      { s with
        arrays := s.arrays ++ [done.map .str ++ List.replicate ks.length .nil]
        vars := (t!"i", .int done.length) :: (t!"keys", .slice A) :: V } =
    .ok (.next, { s with
        arrays := s.arrays ++ [(done ++ ks).map .str]
        vars := (t!"i", .int (done ++ ks).length) :: (t!"keys", .slice A) :: V })
  | [], done => by simp [loopKeys]
  | k :: ks, done => by
    rw [loopKeys]
    have hstep : (execBlock w names [
        .assign (.index (.var t!"keys") (.var t!"i")) (.var t!"key"),
        .increment t!"i"] { s with
          arrays := s.arrays ++ [done.map .str ++ List.replicate (k :: ks).length .nil]
          vars := (t!"key", .str k) :: (t!"i", .int done.length) :: (t!"keys", .slice A) :: V }) =
        .ok (.next, { s with
          arrays := s.arrays ++ [(done ++ [k]).map .str ++ List.replicate ks.length .nil]
          vars := (t!"key", .str k) :: (t!"i", .int (done ++ [k]).length) :: (t!"keys", .slice A) :: V }) := by
      subst hA
      have hset : (done.map .str ++ List.replicate (k :: ks).length .nil : List (Value Val)).set done.length (.str k) =
          (done ++ [k]).map .str ++ List.replicate ks.length .nil := by
        simp [List.replicate_succ]
      simp [execBlock, Stmt.exec, assign, Expr.eval, List.lookup, Res.bind, Res.ofOption, put, update,
        List.replicate_succ]
    dsimp only
    rw [hstep]
    have := fill_keys (w := w) hA (V := V) ks (done ++ [k])
    rw [bind_ok, leave_more (extra := [(t!"key", .str k)])
      (vars := (t!"i", .int (done ++ [k]).length) :: (t!"keys", .slice A) :: V) rfl rfl, bind_ok]
    dsimp only
    rw [this]
    simp

theorem texts_map : ∀ l : List Text, texts (l.map .str : List (Value Val)) = some l
  | [] => rfl
  | t :: l => by simp [texts, texts_map l]

theorem make_keys {fuel : Nat} {pkg : Text} {s : State Val Library} {a : Nat} {m : GoMap (Value Val)} {e : Expr}
    (hm : s.maps[a]? = some m) (hr : Reads (world P zero Dt limit fuel pkg) e (.map a) s) :
    execBlock (world P zero Dt limit fuel pkg) names [
        .define t!"keys" (.make t!"[]string" (.len e)),
        .defineEnd t!"i" (.int 0),
        .rangeKeys t!"key" e [
          .assign (.index (.var t!"keys") (.var t!"i")) (.var t!"key"),
          .increment t!"i"],
        .sort (.var t!"keys")] s =
      .ok (.next, after s [(sortTexts (m.map Prod.fst)).map .str] []
        ((t!"i", .int m.length) :: (t!"keys", .slice s.arrays.length) :: s.vars)) := by
  generalize hW : world P zero Dt limit fuel pkg = W at hr
  have h1 : (Stmt.define t!"keys" (.make t!"[]string" (.len e))).exec W names s =
      .ok (.next, { s with
        arrays := s.arrays ++ [List.replicate m.length .nil]
        vars := (t!"keys", .slice s.arrays.length) :: s.vars }) := by
    simp [Stmt.exec, Expr.eval, hr.self, Res.bind, State.elements, hm, Res.ofOption]
  rw [execBlock_next h1]
  have h2 : (Stmt.defineEnd t!"i" (.int 0)).exec W names { s with
        arrays := s.arrays ++ [List.replicate m.length .nil]
        vars := (t!"keys", .slice s.arrays.length) :: s.vars } = .ok (.next, { s with
        arrays := s.arrays ++ [List.map .str [] ++ List.replicate (m.map Prod.fst).length .nil]
        vars := (t!"i", .int ([] : List Text).length) :: (t!"keys", .slice s.arrays.length) :: s.vars }) := by
    simp [Stmt.exec, Expr.eval, Res.bind]
  rw [execBlock_next h2]
  have h3 : (Stmt.rangeKeys t!"key" e [
          .assign (.index (.var t!"keys") (.var t!"i")) (.var t!"key"),
          .increment t!"i"]).exec W names { s with
        arrays := s.arrays ++ [List.map .str [] ++ List.replicate (m.map Prod.fst).length .nil]
        vars := (t!"i", .int ([] : List Text).length) :: (t!"keys", .slice s.arrays.length) :: s.vars } =
      .ok (.next, { s with
        arrays := s.arrays ++ [([] ++ m.map Prod.fst).map .str]
        vars := (t!"i", .int ([] ++ m.map Prod.fst).length) :: (t!"keys", .slice s.arrays.length) :: s.vars }) := by
    have he := hr { s with
        arrays := s.arrays ++ [List.map .str [] ++ List.replicate (m.map Prod.fst).length .nil]
        vars := (t!"i", .int ([] : List Text).length) :: (t!"keys", .slice s.arrays.length) :: s.vars } rfl (by
          intro y hy
          simp only [List.mem_cons, List.not_mem_nil, or_false, not_or] at hy
          dsimp only
          rw [lookup_ne hy.2.1, lookup_ne hy.1])
    rw [Stmt.exec, he]
    simp only [Res.bind, State.entries, hm, Res.ofOption]
    exact fill_keys (w := W) rfl (V := s.vars) (m.map Prod.fst) []
  rw [execBlock_next h3]
  have h4 : (Stmt.sort (.var t!"keys")).exec W names { s with
        arrays := s.arrays ++ [([] ++ m.map Prod.fst).map .str]
        vars := (t!"i", .int ([] ++ m.map Prod.fst).length) :: (t!"keys", .slice s.arrays.length) :: s.vars } =
      .ok (.next, after s [(sortTexts (m.map Prod.fst)).map .str] []
        ((t!"i", .int m.length) :: (t!"keys", .slice s.arrays.length) :: s.vars)) := by
    rw [Stmt.exec, eval_var (v := .slice s.arrays.length) (by rfl)]
    have ht := texts_map (m.map Prod.fst)
    simp only [Res.bind, List.getElem?_concat_length, Res.ofOption, List.nil_append, ht]
    simp [after, wrote]
  rw [execBlock_next h4, execBlock]

theorem Wrote.shift {s : State Val Library} {arrays : List (List (Value Val))} {v v' : List (Text × Value Val)}
    {r : Res (Flow Val × State Val Library)} {o : Option (List Tok)} (h : Wrote (after s arrays [] v) v' r o) :
    Wrote s v' r o := by
  cases o with
  | none => exact h
  | some ts =>
    obtain ⟨more, h⟩ := h
    exact ⟨arrays ++ more, by rw [h, after_after, List.nil_append]⟩

theorem HoldsEntries.keys {E : Value Val → Prop} {t : State Val Library} {ty : TypeId} :
    ∀ {es : List (Text × Val)} {m : GoMap (Value Val)}, HoldsEntries S U E t ty es m →
      es.map Prod.fst = m.map Prod.fst
  | [], [], _ => rfl
  | (_, _) :: _, (_, _) :: _, h => by
    rw [HoldsEntries] at h
    simp [h.1, HoldsEntries.keys h.2.2]
  | [], _ :: _, h => by simp [HoldsEntries] at h
  | _ :: _, [], h => by simp [HoldsEntries] at h

theorem HoldsEntries.find {E : Value Val → Prop} {t : State Val Library} {ty : TypeId} {k : Text} :
    ∀ {es : List (Text × Val)} {m : GoMap (Value Val)}, HoldsEntries S U E t ty es m → k ∈ es.map Prod.fst →
      ∃ v x, (k, v) ∈ es ∧ es.lookup k = some v ∧ m.find k = some x ∧ Holds S U E t ty v x
  | [], [], _, hk => by simp at hk
  | (l, v) :: es, (l', x) :: m, h, hk => by
    rw [HoldsEntries] at h
    obtain ⟨rfl, h1, h2⟩ := h
    by_cases hl : k = l
    · subst hl
      exact ⟨v, x, by simp, by simp, by simp [GoMap.find], h1⟩
    · simp only [List.map_cons, List.mem_cons, hl, false_or] at hk
      obtain ⟨v', x', g1, g2, g3, g4⟩ := HoldsEntries.find h2 hk
      exact ⟨v', x', by simp [g1], by rw [lookup_ne hl]; exact g2, by
        rw [GoMap.find, if_neg (fun e => hl e.symm)]; exact g3, g4⟩
  | [], _ :: _, h, _ => by simp [HoldsEntries] at h
  | _ :: _, [], h, _ => by simp [HoldsEntries] at h

theorem write_map {ty el : TypeId} {link : Bool} {pkg : Text} {fuel : Nat} {s : State Val Library} {x : Value Val}
    {e : Expr} {entries : List (Text × Val)} {D : Value Val → Prop} {typ element : Text} {form : Form} {h : Value Val}
    (hS : S ty = .map el) (hF : Fits S U J L pkg el false form) (ht : typedEntries S el entries = true)
    (hfuel : sizeOf (Val.map entries) ≤ fuel)
    (hIH : ∀ p ∈ entries, FormWrites P zero Dt limit S U J L p.2)
    (hh : Holds S U D s ty (.map entries) x) (hr : Reads (world P zero Dt limit fuel pkg) e x s)
    (hs : s.vars.lookup t!"stream" = some h) (hv : s.vars.lookup t!"time.RFC3339" = none) :
    Wrote s s.vars (execBlock (world P zero Dt limit fuel pkg) names ((Form.map typ element form).write e) s)
      (writeVal S ty link (.map entries)) := by
  rw [Holds] at hh
  obtain ⟨a, m, rfl, hD, hm, hn, hE⟩ := hh
  simp only [BuildersRun.elementOf, hS] at hE
  rw [Form.write, writeVal, hS]
  refine Wrote.one (Wrote.branch (b := true) ?_ rfl
    ⟨[(t!"i", .int m.length), (t!"keys", .slice s.arrays.length)], ?_⟩)
  · simp [Expr.eval, hr.self, Res.bind, equal, Res.ofOption]
  rw [if_pos rfl]
  have h0 : (Stmt.perform t!"stream.WriteObjectStart" []).exec (world P zero Dt limit fuel pkg) names s =
      .ok (.next, after s [] [.objectStart] s.vars) :=
    perform_exact ⟨_, rfl, rfl⟩ rfl
  generalize ho : (writeAll S el entries).map (fun es => writeEntries 0 (sortKeys es) ++ [.objectEnd]) = o
  refine Wrote.cons_exact h0 (o := o) ?_ ?_
  rotate_left
  · rw [← ho]
    dsimp only
    cases writeAll S el entries <;> rfl
  generalize hs1 : after s [] [.objectStart] s.vars = s1
  have hlen : s.arrays.length = s1.arrays.length := by
    rw [← hs1]
    simp [after, wrote]
  have hvars1 : s1.vars = s.vars := by rw [← hs1]; rfl
  have hm1 : s1.maps[a]? = some m := by rw [← hs1]; exact hm
  have hr1 : Reads (world P zero Dt limit fuel pkg) e (.map a) s1 := by
    rw [← hs1]
    exact hr.after _ _
  have hk := make_keys (names := names) hm1 hr1
  rw [hlen]
  have hblock := fun rest => execBlock_append (world P zero Dt limit fuel pkg) names _ rest s1 _ hk
  refine (congrArg (fun r => Wrote s1 _ r o) (hblock _)).mpr ?_
  apply Wrote.shift (arrays := [(sortTexts (m.map Prod.fst)).map .str])
    (v := (t!"i", .int m.length) :: (t!"keys", .slice s1.arrays.length) :: s1.vars)
  generalize hs2 : after s1 [(sortTexts (m.map Prod.fst)).map .str] []
    ((t!"i", .int m.length) :: (t!"keys", .slice s1.arrays.length) :: s1.vars) = s2
  have hvars2 : s2.vars = (t!"i", .int m.length) :: (t!"keys", .slice s1.arrays.length) :: s1.vars := by
    rw [← hs2]; rfl
  have hlook : ∀ y, y ∉ [t!"keys", t!"i", t!"key"] → s2.vars.lookup y = s.vars.lookup y := by
    intro y hy
    simp only [List.mem_cons, List.not_mem_nil, or_false, not_or] at hy
    rw [hvars2, lookup_ne hy.2.1, lookup_ne hy.1, hvars1]
  have hcons : [(t!"i", .int m.length), (t!"keys", .slice s1.arrays.length)] ++ s.vars = s2.vars := by
    rw [hvars2, hvars1]; rfl
  rw [hcons]
  have hkeys := HoldsEntries.keys hE
  have hloop := write_keys (names := names) (element := element) (P := P) (zero := zero) (Dt := Dt) (limit := limit)
    (S := S) (U := U) (J := J) (L := L) (fuel := fuel) (entries := entries) (m := m) (a := a) (e := e) (h := h)
    (D := D) hF (sortTexts (m.map Prod.fst)) 0 s2 (fun k hk => by
      rw [sortTexts_mem, ← hkeys] at hk
      obtain ⟨v, x, g1, g2, g3, g4⟩ := HoldsEntries.find hE hk
      have hsz := BuildersRun.size_entry g1
      refine ⟨v, x, g2, g3, hIH _ g1, ?_, BuildersRun.typedEntries_mem ht _ g1, ?_⟩
      · have : sizeOf (Val.map entries) = 1 + sizeOf entries := by simp
        dsimp only at hsz
        omega
      · rw [← hs2, ← hs1]
        exact holds_after (holds_after g4 _ _ _) _ _ _)
    (by rw [← hs2]; exact hm1)
    (fun t ht hy => hr t (by rw [ht, ← hs2, ← hs1]; rfl) fun y hn => (hy y hn).trans (hlook y hn))
    ((hlook _ (by decide)).trans hs) ((hlook _ (by decide)).trans hv)
  rw [← hkeys, writeKeys_eq entries (hkeys ▸ hn)] at hloop
  have hrange : (Stmt.range t!"i" t!"key" (.var t!"keys") (
          .branch (.gt (.var t!"i") (.int 0)) [.perform t!"stream.WriteMore" []] [] ::
          .define t!"item" (.lookup element e (.var t!"key")) ::
          .perform t!"stream.WriteObjectField" [.var t!"key"] ::
          form.write (.var t!"item"))).exec (world P zero Dt limit fuel pkg) names s2 = _ :=
    exec_range (y := .slice s1.arrays.length) (xs := (sortTexts (entries.map Prod.fst)).map .str)
      (eval_var (by rw [hvars2]; rfl)) (by
        rw [← hs2, hkeys]
        simp [State.elements, after, wrote])
  rw [← hrange] at hloop
  cases hw : writeAll S el entries with
  | none =>
    rw [hw] at hloop ho
    rw [← ho]
    exact execBlock_panic hloop
  | some es =>
    rw [hw] at hloop ho
    rw [← ho]
    refine Wrote.cons (o := some [.objectEnd]) hloop (fun arrays => ?_) rfl
    exact Wrote.one (performs ⟨_, rfl, rfl⟩ rfl)

end Verif.JsonRun
