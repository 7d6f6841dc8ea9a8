import Verif.Spec.MetadataRun
import Verif.Lemmas.JsonReadWhole
import Verif.Lemmas.JsonWriteObject

/-!
# Lemmas about running the generated JSON support of the metadata
-/

namespace Verif.JsonRun

open GoJson (Val DateParser)
open GoProgram hiding given
open TypesRun (Legal)
open TypesCode (dot bitSet)
open BuildersRun (Program resolve execBlock_next execBlock_panic eval_var eval_dot write)
open JsonCode (Functions nextField readString setBit)

variable {P : Program} {zero : Text → Text → Value Val} {Dt : DateParser} {limit : Nat} {names : List Text}

/-! ## Creating the iterator -/

theorem unmarshal_call {fs : Functions} {x typ q : Text} {src : Value Val} {k : Nat}
    {s : State Val Library} {f : Func} {r : List Tok}
    (hx : x ∈ [t!"object", t!"items"]) (hf : JsonCode.unmarshalFunc fs x typ = .func f) (hsrc : s.user.source = some r) :
    ∃ s1 : State Val Library, s1.structs = s.structs ∧ s1.arrays = s.arrays ∧ s1.maps = s.maps ∧
      s1.user = { s.user with input := r, failed := false } ∧
      ∀ y t, (world P zero Dt limit k q).apply fs.read [.other .nil] s1 = .ok ([y], t) → t.vars = s1.vars →
        f.call (world P zero Dt limit k q) .nil [src] s = .ok ([y, errorOf t.user.failed], { t with vars := s.vars }) := by
  rw [JsonCode.unmarshalFunc] at hf
  injection hf with hf
  subst hf
  have hxe : x ≠ t!"err" ∧ x ≠ t!"source" ∧ x ≠ t!"iterator" ∧ x ≠ [] := by
    simp only [List.mem_cons, List.not_mem_nil, or_false] at hx
    rcases hx with rfl | rfl <;> decide
  have hb4 : (x == t!"err") = false := by simpa using hxe.1
  have hb5 : (x == t!"source") = false := by simpa using hxe.2.1
  have hb6 : (x == t!"iterator") = false := by simpa using hxe.2.2.1
  have hb7 : (x == ([] : Text)) = false := by simpa using hxe.2.2.2
  rw [Func.call]
  dsimp only
  generalize hz1 : (world P zero Dt limit k q).zero typ = z1
  generalize hz2 : (world P zero Dt limit k q).zero t!"error" = z2
  generalize hs0 : ({ s with vars := _ } : State Val Library) = s0
  have hv0 : s0.vars = [([], .nil), (t!"source", src), (x, z1), (t!"err", z2)] := by
    rw [← hs0, ← hz1, ← hz2]
    rfl
  have h0 : s0.structs = s.structs ∧ s0.arrays = s.arrays ∧ s0.maps = s.maps ∧ s0.user = s.user := by
    rw [← hs0]
    exact ⟨rfl, rfl, rfl, rfl⟩
  generalize hs1 : ({ s0 with
    vars := (t!"err", .nil) :: (t!"iterator", .other .nil) :: s0.vars
    user := { s0.user with input := r, failed := false } } : State Val Library) = s1
  have hd : (Stmt.defineBoth t!"iterator" t!"err" t!"helpers.NewIterator" [.var t!"source"]).exec
      (world P zero Dt limit k q) [x, t!"err"] s0 = .ok (.next, s1) := by
    have hp : (world P zero Dt limit k q).pairs t!"helpers.NewIterator" = some fun _ l =>
        match l.source with
        | some r => ((.other .nil, .nil), { l with input := r, failed := false })
        | none => ((.nil, .error []), l) := by
      cases k <;> rfl
    rw [Stmt.exec, args_one (eval_var (v := src) (by rw [hv0]; rfl)), bind_ok, hp]
    dsimp only
    rw [h0.2.2.2, hsrc, ← hs1, h0.2.2.2]
    simp [hsrc]
  have hv1 : s1.vars = [(t!"err", .nil), (t!"iterator", .other .nil), ([], .nil), (t!"source", src), (x, z1),
      (t!"err", z2)] := by
    rw [← hs1, hv0]
  have hbr : (Stmt.branch (TypesCode.notNil t!"err") [.ret []] []).exec (world P zero Dt limit k q) [x, t!"err"] s1 =
      .ok (.next, s1) := by
    have hn : (TypesCode.notNil t!"err").eval (world P zero Dt limit k q) s1 = .ok (.bool false, s1) := by
      rw [TypesCode.notNil, Expr.eval, eval_var (v := .nil) (by rw [hv1]; rfl), bind_ok]
      rfl
    rw [Stmt.exec, hn, bind_ok]
    dsimp only
    rw [execBlock, bind_ok, leave_same rfl]
  have hu1 : s1.user = { s.user with input := r, failed := false } := by rw [← hs1, h0.2.2.2]
  refine ⟨s1, by rw [← hs1]; exact h0.1, by rw [← hs1]; exact h0.2.1, by rw [← hs1]; exact h0.2.2.1, hu1, ?_⟩
  intro y t he htv
  have hrun : execBlock (world P zero Dt limit k q) [x, t!"err"] [
        .assign (.var x) (.apply fs.read [.var t!"iterator"]),
        .assign (.var t!"err") (.read t!"iterator.Error"),
        .ret []] s1 = .ok (.ret [y, errorOf t.user.failed], { t with
          vars := [(t!"err", errorOf t.user.failed), (t!"iterator", .other .nil), ([], .nil), (t!"source", src), (x, y),
            (t!"err", z2)] }) := by
    have hev : (Expr.apply fs.read [.var t!"iterator"]).eval (world P zero Dt limit k q) s1 = .ok (y, t) := by
      rw [Expr.eval, args_one (eval_var (v := .other .nil) (by rw [hv1]; rfl)), bind_ok]
      dsimp only
      rw [he]
      rfl
    have ha1 : assign (world P zero Dt limit k q) y (.var x) t = .ok { t with
        vars := [(t!"err", .nil), (t!"iterator", .other .nil), ([], .nil), (t!"source", src), (x, y),
          (t!"err", z2)] } := by
      rw [assign, htv, hv1]
      simp [update, Ne.symm hxe.1, Ne.symm hxe.2.1, Ne.symm hxe.2.2.1, Ne.symm hxe.2.2.2, Res.ofOption, Res.bind]
    rw [execBlock_next (BuildersRun.exec_assign hev ha1),
      execBlock_next (BuildersRun.exec_assign eval_failed (show assign _ _ (.var t!"err") _ = _ from rfl)), execBlock,
      Stmt.exec]
    have hl : List.lookup x [(t!"err", errorOf t.user.failed), (t!"iterator", .other .nil), ([], .nil),
        (t!"source", src), (x, y), (t!"err", z2)] = some y := by
      simp only [List.lookup_cons, hb4, hb5, hb6, hb7, beq_self_eq_true]
    simp only [List.mapM_cons, List.mapM_nil]
    rw [hl]
    rfl
  rw [show [(x, typ), (t!"err", t!"error")].map Prod.fst = [x, t!"err"] from rfl, execBlock_next hd, execBlock_next hbr,
    hrun, bind_ok]

/-! ## Writing -/

/-- A function of the file. -/
def funcOf : Declaration → Func
  | .func f => f
  | _ => { name := [], results := [], body := [] }

theorem write_metadata {pkg : Text} (hl : MetadataLinked P zero pkg) {k : Nat} {s : State Val Library}
    {x h : Value Val} {o : Option GoJson.Metadata} (hx : MetadataAt s x o) :
    Writes s ((world P zero Dt limit (k + 1) pkg).apply t!"writeMetadata" [x, h] s) (o.map GoJson.writeMetadata) := by
  have hmem : .func (funcOf JsonCode.metadataWrite) ∈ P pkg :=
    hl.json ⟨[], JsonCode.metadataWrite⟩ (List.getElem_mem (l := JsonCode.metadataJson) (n := 1) (by decide))
  rw [apply_eq (f := funcOf JsonCode.metadataWrite) k [x, h] s
    (BuildersRun.resolve_simple pkg t!"writeMetadata" (by decide)) hl.legal hmem rfl]
  refine call_writes rfl ?_
  generalize hs0 : ({ s with vars := _ } : State Val Library) = s0
  have hvars : s0.vars = base x h := by rw [← hs0]; rfl
  have hx0 : MetadataAt s0 x o := by
    rw [← hs0]
    cases x <;> cases o <;> exact hx
  change Ends s0 (execBlock _ [] [
      .perform t!"stream.WriteObjectStart" [],
      .branch (bitSet t!"object" 0) [
        .perform t!"stream.WriteObjectField" [.str t!"server_version"],
        .perform t!"stream.WriteString" [dot t!"object" t!"serverVersion"]] [],
      .perform t!"stream.WriteObjectEnd" []] s0) _
  match x, o, hx0 with
  | .nil, none, _ =>
    refine Ends.cons (ts := [.objectStart]) (v := s0.vars) (o := none) (performs ⟨_, rfl, rfl⟩ rfl) (fun A => ?_) rfl
    exact execBlock_panic (branch_panic (bit_nil (by rw [after_vars, hvars]; rfl)))
  | .pointer a, some m, hm =>
    have hm : s0.structs[a]? = some [(t!"bitmap_", .int m.bitmap), (t!"serverVersion", .str m.serverVersion)] := hm
    refine Ends.cons (ts := [.objectStart]) (v := s0.vars)
      (o := some ((if m.bitmap.testBit 0 then [.str t!"server_version", .colon, .str m.serverVersion] else []) ++
        [.objectEnd])) (performs ⟨_, rfl, rfl⟩ rfl) (fun A => ?_) rfl
    refine Ends.cons (ts := if m.bitmap.testBit 0 then [.str t!"server_version", .colon, .str m.serverVersion] else [])
      (v := s0.vars) (o := some [.objectEnd]) ?_ (fun A' => ?_) rfl
    · generalize hs1 : after s0 A [.objectStart] s0.vars = s1
      have hv1 : s1.vars = s0.vars := by rw [← hs1, after_vars]
      have hst : s1.structs[a]? = some [(t!"bitmap_", .int m.bitmap), (t!"serverVersion", .str m.serverVersion)] := by
        rw [← hs1]
        exact hm
      have hobj : s1.vars.lookup t!"object" = some (.pointer a) := by rw [hv1, hvars]; rfl
      rw [← hv1]
      refine Wrote.branch (b := m.bitmap.testBit 0)
        ((TypesRun.eval_present _ t!"object" 0 s1 _ hobj).2 a _ m.bitmap rfl hst rfl).2 rfl ⟨[], ?_⟩
      rw [List.nil_append]
      cases m.bitmap.testBit 0 with
      | false =>
        simp only [Bool.false_eq_true, if_false]
        exact Wrote.nil s1
      | true =>
        simp only [if_true]
        refine Wrote.cons (ts := [.str t!"server_version", .colon]) (v := s1.vars) (o := some [.str m.serverVersion])
          write_name (fun A' => ?_) rfl
        refine Wrote.one ?_
        exact performs (vs := [.str m.serverVersion]) ⟨_, rfl, rfl⟩
          (args_one (eval_dot (s := after s1 A' [.str t!"server_version", .colon] s1.vars) hobj hst rfl))
    · exact Wrote.ends (vars := s0.vars) (Wrote.one (performs ⟨_, rfl, rfl⟩ rfl))

/-! ## Reading -/

/-- The memory while the metadata is read. -/
def MetaMem (s : State Val Library) (m : GoJson.Metadata) (t : State Val Library) : Prop :=
  Grows s t ∧ t.structs[s.structs.length]? =
    some [(t!"bitmap_", .int m.bitmap), (t!"serverVersion", .str m.serverVersion)]

/-- The same if there is an error. -/
def MetaSafe (s : State Val Library) (t : State Val Library) : Prop := Grows s t

/-- What is done for a field. -/
def metaStep (f : Nat) (m : GoJson.Metadata) (key : Text) (r : List Tok) : Option (GoJson.Metadata × List Tok) :=
  if key = t!"server_version" then
    (GoJson.readString r).map fun p => ({ bitmap := m.bitmap ||| 1, serverVersion := p.1 }, p.2)
  else (GoJson.parseVal f r).map fun p => (m, p.2)

/-- The cases of the fields of the metadata. -/
def metaCases : List Stmt := [
  .case t!"server_version" [.assign (dot t!"object" t!"serverVersion") readString, setBit 0],
  .default [.perform t!"iterator.ReadAny" []]]

theorem MetaMem.same {s t t' : State Val Library} {m : GoJson.Metadata} (h : MetaMem s m t) (hs : Same t t') :
    MetaMem s m t' := ⟨h.1.trans hs.grows, hs.grows.structs _ _ h.2⟩

theorem step_metadata {k : Nat} {pkg : Text} {s0 : State Val Library} {z h : Value Val} (m : GoJson.Metadata)
    (key : Text) (s : State Val Library) (hb : s.user.failed = false) (hI : MetaMem s0 m s)
    (hv : s.vars = (t!"field", .str key) :: (t!"object", .pointer s0.structs.length) :: given z h) :
    ∃ r, Settles (fun f => metaStep f m key s.user.input) r ∧
      (∀ a' rest, r = some (a', rest) → rest.length ≤ s.user.input.length) ∧
      Turns (MetaMem s0) (MetaSafe s0) s s.vars (execBlock (world P zero Dt limit k pkg) names
        [.switch (.var t!"field") metaCases] s) r := by
  have hxs : s.vars.lookup t!"object" = some (.pointer s0.structs.length) := by
    rw [hv]
    rfl
  suffices H : ∃ r, Settles (fun f => metaStep f m key s.user.input) r ∧
      (∀ a' rest, r = some (a', rest) → rest.length ≤ s.user.input.length) ∧
      Turns (MetaMem s0) (MetaSafe s0) s s.vars (execCases (world P zero Dt limit k pkg) names key metaCases s) r by
    obtain ⟨r, h1, h2, h3⟩ := H
    refine ⟨r, h1, h2, turns_switch (fun _ _ _ hs h => h.same hs) (fun _ _ hs h => Grows.trans h hs.grows) ?_ h3⟩
    rw [hv]
    simp
  by_cases hk : key = t!"server_version"
  · rw [metaCases, cases_hit hk.symm]
    have hstep : ∀ f, metaStep f m key s.user.input = (GoJson.readString s.user.input).map fun p =>
        ({ bitmap := m.bitmap ||| 1, serverVersion := p.1 }, p.2) := by
      intro f
      rw [metaStep, if_pos hk]
    have hrun : ∀ {u : Text} {l : Library}, readString.eval (world P zero Dt limit k pkg) s =
        .ok (.str u, { s with user := l }) →
        execBlock (world P zero Dt limit k pkg) names
          [.assign (dot t!"object" t!"serverVersion") readString, setBit 0] s =
          .ok (.next, write { s with user := l } s0.structs.length
            [(t!"bitmap_", .int (m.bitmap ||| 1 : Nat)), (t!"serverVersion", .str u)]) := by
      intro u l he
      obtain ⟨fs', g1, g2, g3, -, g5⟩ := exec_field (names := names) (w := world P zero Dt limit k pkg) 0
        (f := t!"serverVersion") (a := s0.structs.length) (n := m.bitmap) he hxs hI.2 rfl rfl (by decide)
      rw [g5]
      have : fs' = [(t!"bitmap_", .int (m.bitmap ||| 1 : Nat)), (t!"serverVersion", .str u)] := by
        match fs', g1, g2, g3 with
        | [(a, x), (b, y)], g1, g2, g3 =>
          simp only [List.map_cons, List.map_nil, List.cons.injEq, and_true] at g1
          obtain ⟨rfl, rfl⟩ := g1
          have g2 : some y = some (.str u) := g2
          have g3 : some x = some (.int (m.bitmap ||| 1 : Nat)) := g3
          injection g2 with g2
          injection g3 with g3
          rw [g2, g3]
      rw [this]
    have hgu : ∀ l : Library, Grows s0 { s with user := l } := fun l =>
      hI.1.trans ⟨fun _ _ h => h, fun _ _ h => h, fun _ _ h => h⟩
    rcases text_cases (P := P) (zero := zero) (Dt := Dt) (limit := limit) k pkg hb with
      ⟨u, r, h1, h2, h3⟩ | ⟨h1, h3⟩
    · refine ⟨some ({ bitmap := m.bitmap ||| 1, serverVersion := u }, r), ⟨0, fun f _ => ?_⟩, ?_, _, [], hrun h3, rfl,
        rfl, ?_⟩
      · dsimp only
        rw [hstep, h1]
        rfl
      · intro a' rest he
        cases he
        exact Nat.le_of_lt h2
      · exact ⟨grows_write (hgu _) _, BuildersRun.write_get _ hI.2⟩
    · refine ⟨none, ⟨0, fun f _ => ?_⟩, by simp, _, [], s.user.input, hrun h3, rfl, Nat.le_refl _, rfl, ?_⟩
      · dsimp only
        rw [hstep, h1]
        rfl
      · exact grows_write (hgu _) _
  · rw [metaCases, cases_miss (fun e => hk e.symm), execCases]
    obtain ⟨r, h4, h5, h6⟩ := turns_ignore (P := P) (zero := zero) (Dt := Dt) (limit := limit) (names := names) (k := k)
      (pkg := pkg) (s := s) (Inv := MetaMem s0) (Safe := MetaSafe s0) (a := m) (fun _ _ h => h.1)
      (fun _ _ _ hs h => h.same hs) hb hI
    exact ⟨r, h4.congr fun f => by rw [metaStep, if_neg hk], h5, h6⟩

/-- What reading the metadata gives, and what is left. -/
def readMeta (f : Nat) (m : GoJson.Metadata) (r : List Tok) : Option (GoJson.Metadata × List Tok) :=
  GoJson.readLoop (fun fuel field (m : GoJson.Metadata) r => metaStep fuel m field r) f m r

theorem readMetadata_eq (f : Nat) (r : List Tok) : GoJson.readMetadata f r = (readMeta f {} r).map Prod.fst := rfl

theorem read_metadata {pkg : Text} (hl : MetadataLinked P zero pkg) {k : Nat} {s : State Val Library} {h : Value Val}
    (hlim : s.user.input.length < limit) :
    ∃ o, Says s.user (fun f => readMeta f {} s.user.input) o ∧
      ObtainsMetadata s ((world P zero Dt limit (k + 1) pkg).apply t!"readMetadata" [h] s) o := by
  have hmem : .func (funcOf JsonCode.metadataRead) ∈ P pkg :=
    hl.json ⟨[], JsonCode.metadataRead⟩ (List.getElem_mem (l := JsonCode.metadataJson) (n := 3) (by decide))
  rw [apply_eq (f := funcOf JsonCode.metadataRead) k [h] s
    (BuildersRun.resolve_simple pkg t!"readMetadata" (by decide)) hl.legal hmem rfl]
  generalize hzz : zero pkg t!"*Metadata" = z
  have hcall : ∀ w : World Val Library, w.zero = zero pkg →
      (funcOf JsonCode.metadataRead).call w .nil [h] s =
      (execBlock w [[]] [
        .define t!"object" (.address t!"Metadata"),
        .forever (nextField t!"field" ++ [.switch (.var t!"field") metaCases]),
        .ret [.var t!"object"]] { s with vars := given z h }).bind fun (flow, t) =>
          match flow with
          | .ret vs => .ok (vs, { t with vars := s.vars })
          | _ => .wrong := by
    intro w hwz
    rw [← hzz, ← hwz]
    refine congrArg (Res.bind _) (funext fun ⟨flow, t⟩ => ?_)
    cases flow <;> rfl
  rw [hcall _ (world_zero _ _)]
  generalize ht0 : ({ s with
    structs := s.structs ++ [[(t!"bitmap_", .int 0), (t!"serverVersion", .str [])]]
    vars := (t!"object", .pointer s.structs.length) :: given z h } : State Val Library) = t0
  have hdef : (Stmt.define t!"object" (.address t!"Metadata")).exec (world P zero Dt limit k pkg) [[]]
      { s with vars := given z h } = .ok (.next, t0) := by
    have hst : .struct 1 t!"Metadata" [(t!"bitmap_", 7, t!"uint32"), (t!"serverVersion", 1, t!"string")] ∈ P pkg :=
      hl.types _ (List.getElem_mem (l := TypesCode.metadataItems) (n := 0) (by decide))
    rw [Stmt.exec, Expr.eval, alloc_new k (BuildersRun.resolve_simple _ _ (by decide)) hl.legal hst, bind_ok, ← ht0]
    simp [hl.number, hl.text]
  have hg0 : Grows s t0 := by
    rw [← ht0]
    refine ⟨fun a ys h => ?_, fun _ _ h => h, fun _ _ h => h⟩
    dsimp only
    rw [List.getElem?_append_left (List.getElem?_eq_some_iff.mp h).1]
    exact h
  have hu0 : t0.user = s.user := by rw [← ht0]
  have hv0 : t0.vars = (t!"object", .pointer s.structs.length) :: given z h := by rw [← ht0]
  have hM : MetaMem s {} t0 := ⟨hg0, by rw [← ht0]; simp⟩
  obtain ⟨o, hsays, hres⟩ := loop_keys (P := P) (zero := zero) (Dt := Dt) (limit := limit) (names := [[]]) (k := k)
    (pkg := pkg) (x := t!"field") (body := [.switch (.var t!"field") metaCases])
    (model := readMeta) (step := metaStep) (Inv := MetaMem s) (Safe := MetaSafe s) (N := s.user.input.length)
    (fun f o r => by
      rw [readMeta, GoJson.readLoop]
      cases GoJson.readObject r with
      | none => rfl
      | some p =>
        dsimp only
        split
        · rfl
        · cases metaStep f o p.1 p.2 <;> rfl)
    (fun _ _ h => h.1) (fun _ _ _ hs h => h.same hs) (fun _ _ hs h => Grows.trans h hs.grows)
    t0.vars
    (fun o key t _ hb _ hI hv => step_metadata (names := [[]]) o key t hb hI (by rw [hv, hv0]))
    limit {} t0 (by rw [hu0]; omega) (by rw [hu0]; exact Nat.le_refl _) hM rfl
  rw [hu0] at hsays
  refine ⟨o, hsays, ?_⟩
  rw [execBlock_next hdef, execBlock, Stmt.exec, world_limit]
  have hret : ∀ t' : State Val Library, t'.vars = t0.vars →
      execBlock (world P zero Dt limit k pkg) [[]] [.ret [.var t!"object"]] t' =
        .ok (.ret [.pointer s.structs.length], t') := by
    intro t' hv
    rw [execBlock, Stmt.exec, args_one (eval_var (v := .pointer s.structs.length) (by rw [hv, hv0]; rfl)), bind_ok]
    dsimp only
    rw [bind_ok]
  cases o with
  | none =>
    obtain ⟨t', rest, hrun, hv, hle, hu, hsafe⟩ := hres
    rw [hrun, bind_ok]
    dsimp only
    rw [hret t' hv, bind_ok]
    dsimp only
    rw [hu0] at hu
    exact ⟨_, _, rest, rfl, rfl, Grows.trans hsafe ⟨fun _ _ h => h, fun _ _ h => h, fun _ _ h => h⟩, hu⟩
  | some p =>
    obtain ⟨m, rest⟩ := p
    obtain ⟨t', hrun, hv, hu, hg, hfs⟩ := hres
    rw [hrun, bind_ok]
    dsimp only
    rw [hret t' hv, bind_ok]
    dsimp only
    rw [hu0] at hu
    exact ⟨_, rfl, rfl, hg.trans ⟨fun _ _ h => h, fun _ _ h => h, fun _ _ h => h⟩, hu, hfs⟩

end Verif.JsonRun
