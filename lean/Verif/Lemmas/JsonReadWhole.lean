import Verif.Lemmas.JsonReadObject

/-!
# Lemmas about running the generated code that reads JSON: whole documents
-/

namespace Verif.JsonRun

open GoJson (Val Schema Shape AttrShape DateParser readVal readFields findCase Obj newObj)
open GoProgram hiding given
open TypesRun (Legal value)
open TypesCode (dot)
open BuildersRun (Program Code resolve fieldsOf isObject Holds HoldsFields HoldsItems HoldsEntries execBlock_append
  execBlock_next eval_var Valid fieldNames names_nodup zero_lookup entityField_mem)
open JsonCode (Form Entity Listing Functions Member nextField readString)

variable {P : Program} {zero : Text → Text → Value Val} {Dt : DateParser} {limit : Nat} {S : Schema}
  {U : TypeId → Code} {J : TypeId → Entity} {L : TypeId → ListCode} {names : List Text}

theorem holds_zero (D : Value Val → Prop) (t : State Val Library) (ty : TypeId) (sh : Shape) :
    Holds S U D t ty (GoJson.zero sh) (value (GoJson.zero sh)) := by
  cases sh <;> simp [GoJson.zero, Holds]

theorem holdsFields_zero {D : Value Val → Prop} {t : State Val Library} {fs : List (Text × Value Val)} :
    ∀ (as : List AttrShape) (ns : List Text), ns.length = as.length →
      (∀ (i : Nat) a f, as[i]? = some a → ns[i]? = some f →
        fs.lookup f = some (value (GoJson.zero (S a.typ)))) →
      HoldsFields S U D t fs (as.zip ns) (as.map fun a => GoJson.zero (S a.typ))
  | [], [], _, _ => by
    rw [List.zip_nil_left, List.map_nil, HoldsFields]
    trivial
  | a :: as, f :: ns, hl, h => by
    rw [List.zip_cons_cons, List.map_cons, HoldsFields]
    exact ⟨⟨_, h 0 a f rfl rfl, holds_zero D t a.typ _⟩, holdsFields_zero as ns (by simpa using hl)
      fun i a' f' h1 h2 => h (i + 1) a' f' (by simpa using h1) (by simpa using h2)⟩
  | [], _ :: _, hl, _ => by simp at hl
  | _ :: _, [], hl, _ => by simp at hl

/-- The function that reads objects. -/
def objReader (e : Entity) : Func :=
  match e.readFunc with
  | .func f => f
  | _ => { name := [], results := [], body := [] }

/-- Calls of the functions that read objects. -/
theorem read_object (hw : Whole P zero S U J L) {N k : Nat} {pkg t : Text} {ty : TypeId} {c : Bool} {n : Text}
    {as : List AttrShape} {s : State Val Library}
    {h : Value Val} (hIH : ∀ M, M < N → FormReads P zero Dt limit S U J L M) (hNk : N ≤ k)
    (hNl : N < limit) (hN : s.user.input.length ≤ N) (hS : S ty = .struct c n as) (link : Bool)
    (hr : resolve pkg t = ((U ty).pkg, (J ty).functions.read)) :
    ∃ o, Says s.user (fun f => readVal Dt S f ty link s.user.input) o ∧
      Reached S U s ty ((world P zero Dt limit (k + 1) pkg).apply t [h] s) o := by
  have hl := hw.base.linked ty _ _ _ hS
  have hj := hw.objects ty _ _ _ hS
  have hz := hw.base.zeros (U ty).pkg
  have hnm := names_nodup (U ty).builder hl.nodup
  have hmem : .func (objReader (J ty)) ∈ P (U ty).pkg := by
    refine hj.declared ⟨[t!"// " ++ (J ty).functions.read ++ t!" reads a value of the '" ++ (J ty).name ++
      t!"' type from the given iterator."], (J ty).readFunc⟩ ?_
    simp [Entity.items]
  rw [apply_eq (f := objReader (J ty)) k [h] s hr hl.legal hmem rfl]
  generalize hzz : zero (U ty).pkg (t!"*" ++ (J ty).object) = z
  have hcall : ∀ w : World Val Library, w.zero = zero (U ty).pkg →
      (objReader (J ty)).call w .nil [h] s =
      (execBlock w [[]] [
        .define t!"object" (.address (J ty).object),
        .forever (nextField t!"field" ++ [.switch (.var t!"field") (objCases (J ty))]),
        .ret [.var t!"object"]] { s with vars := given z h }).bind fun (flow, t) =>
          match flow with
          | .ret vs => .ok (vs, { t with vars := s.vars })
          | _ => .wrong := by
    intro w hwz
    rw [← hzz, ← hwz]
    refine congrArg (Res.bind _) (funext fun ⟨flow, t⟩ => ?_)
    cases flow <;> rfl
  rw [hcall _ (world_zero _ _)]
  generalize hfs0 : ((U ty).entity.fields.map fun f => (f.1, zero (U ty).pkg f.2.2)) = fs0
  generalize ht0 : ({ s with
    structs := s.structs ++ [fs0]
    vars := (t!"object", .pointer s.structs.length) :: given z h } : State Val Library) = t0
  have hdef : (Stmt.define t!"object" (.address (J ty).object)).exec (world P zero Dt limit k (U ty).pkg) [[]]
      { s with vars := given z h } = .ok (.next, t0) := by
    have hdot : '.' ∉ (U ty).entity.object := by
      rw [hl.entity]
      exact hl.simple
    rw [Stmt.exec, Expr.eval, hj.object, alloc_new k (BuildersRun.resolve_simple _ _ hdot) hl.legal
      (hl.declared _ (List.mem_map.mpr ⟨(U ty).entity.struct, by simp [TypesCode.Entity.items], rfl⟩)), bind_ok, hfs0]
    rw [← ht0]
  have hg0 : Grows s t0 := by
    rw [← ht0]
    refine ⟨fun a ys h => ?_, fun _ _ h => h, fun _ _ h => h⟩
    dsimp only
    rw [List.getElem?_append_left (List.getElem?_eq_some_iff.mp h).1]
    exact h
  have hu0 : t0.user = s.user := by rw [← ht0]
  have hv0 : t0.vars = (t!"object", .pointer s.structs.length) :: given z h := by rw [← ht0]
  have hM : ObjMem S U s ty (newObj S as) t0 := by
    refine ⟨fs0, hg0, by rw [← ht0]; simp, ?_, ?_, fun hc => ?_, ?_⟩
    · rw [← hfs0, List.map_map]
      rfl
    · rw [← hfs0, zero_lookup _ _ hl.entityNodup (t := (U ty).entity.bitmap) (g := 1) (by simp [TypesCode.Entity.fields]),
        hl.entityBitmap]
      rfl
    · have hec : (U ty).entity.isClass = true := hl.entityClass.trans (hl.isClass.symm.trans hc)
      rw [← hfs0, zero_lookup _ _ hl.entityNodup (t := t!"string") (g := 3) (by simp [TypesCode.Entity.fields, hec]),
        zero_lookup _ _ hl.entityNodup (t := t!"string") (g := 1) (by simp [TypesCode.Entity.fields, hec]), hz.string]
      exact ⟨rfl, rfl⟩
    · rw [fieldNames_eq hS]
      refine holdsFields_zero as _ (by simp [hl.members]) fun i a f hi hf => ?_
      rw [List.getElem?_map, Option.map_eq_some_iff] at hf
      obtain ⟨m, hm, rfl⟩ := hf
      have hi' : i < (U ty).entity.members.length := by
        rw [hl.entityMembers]
        exact (List.getElem?_eq_some_iff.mp hi).1
      have hmt := hl.attributes i a m _ hi hm (List.getElem?_eq_getElem hi')
      rw [← hfs0, ← hmt.field, zero_lookup _ _ hl.entityNodup (entityField_mem _ _ (List.getElem_mem hi')),
        hmt.objectZero]
  obtain ⟨o, hsays, hres⟩ := loop_keys (P := P) (zero := zero) (Dt := Dt) (limit := limit) (names := [[]]) (k := k)
    (pkg := (U ty).pkg) (x := t!"field") (body := [.switch (.var t!"field") (objCases (J ty))])
    (model := fun f o r => readFields Dt S f c n as o r) (step := objStep Dt S c n as)
    (Inv := ObjMem S U s ty) (Safe := ObjSafe U s ty) (N := N)
    (fun f o r => by
      rw [readFields_step]
      cases GoJson.readObject r with
      | none => rfl
      | some p =>
        dsimp only
        split
        · rfl
        · cases objStep Dt S c n as f o p.1 p.2 <;> rfl)
    (fun _ _ h => h.safe) (fun _ _ _ hs h => ObjMem.grow h hs.grows) (fun _ _ hs h => ObjSafe.grow h hs.grows)
    t0.vars
    (fun o key t _ hb hN' hI hv => step_object (names := [[]]) hw hIH hNk hS o key t hb hN' hI (by rw [hv, hv0]))
    limit (newObj S as) t0 (by rw [hu0]; omega) (by rw [hu0]; exact hN) hM rfl
  rw [hu0] at hsays
  have hq : ∀ f, readVal Dt S (f + 1) ty link s.user.input =
      (readFields Dt S f c n as (newObj S as) s.user.input).map fun a => (a.1.val, a.2) := by
    intro f
    rw [readVal, hS]
  refine ⟨_, hsays.step Obj.val hq, ?_⟩
  rw [execBlock_next hdef, execBlock, Stmt.exec, world_limit]
  have hret : ∀ t' : State Val Library, t'.vars = t0.vars →
      execBlock (world P zero Dt limit k (U ty).pkg) [[]] [.ret [.var t!"object"]] t' =
        .ok (.ret [.pointer s.structs.length], t') := by
    intro t' hv
    rw [execBlock, Stmt.exec, args_one (eval_var (v := .pointer s.structs.length) (by rw [hv, hv0]; rfl)), bind_ok]
    dsimp only
    rw [bind_ok]
  cases o with
  | none =>
    obtain ⟨t', rest, hrun, hv, hle, hu, hsafe⟩ := hres
    rw [hrun, bind_ok]
    dsimp only
    rw [hret t' hv, bind_ok]
    dsimp only
    rw [hu0] at hle hu
    exact reached_none rfl (hsafe.1.trans ⟨fun _ _ h => h, fun _ _ h => h, fun _ _ h => h⟩) hle hu
  | some p =>
    obtain ⟨ob, rest⟩ := p
    obtain ⟨t', hrun, hv, hu, fs, hg, hfs, hkeys, hbit, hid, hh⟩ := hres
    rw [hrun, bind_ok]
    dsimp only
    rw [hret t' hv, bind_ok]
    dsimp only
    rw [hu0] at hu
    have hlen : rest.length ≤ s.user.input.length := by
      unfold Says at hsays
      split at hsays
      · cases hsays
      · exact Nat.le_of_lt (hsays.2 _ _ rfl)
    refine ⟨⟨{ t' with vars := s.vars }, .pointer s.structs.length, rfl, rfl,
      hg.trans ⟨fun _ _ h => h, fun _ _ h => h, fun _ _ h => h⟩, hu, ?_⟩, ?_⟩
    · rw [Obj.val, Holds]
      refine ⟨_, fs, rfl, ?_, hfs, hkeys, hbit, hid, ?_⟩
      · intro hvs
        exact absurd hvs (Nat.lt_irrefl _)
      · exact HoldsFields.move (s := t') (t := { t' with vars := s.vars })
          (Grows.move (s := t') (t := { t' with vars := s.vars })
            ⟨fun _ _ h => h, fun _ _ h => h, fun _ _ h => h⟩ fun l hl _ => hl.1) _ _ _ hh
    · intro t'' y rest' he hu'
      cases he
      rw [hu] at hu'
      injection hu' with _ _ _ h4
      rw [← h4]
      exact hlen

/-! ## All the values -/

theorem isObject_struct {sh : Shape} (h : isObject sh = true) : ∃ c n as, sh = .struct c n as := by
  cases sh <;> simp [isObject] at h
  exact ⟨_, _, _, rfl⟩

theorem form_reads (hw : Whole P zero S U J L) (hflat : Flat S) :
    ∀ N, N < limit → FormReads P zero Dt limit S U J L N := by
  intro N
  induction N using Nat.strongRecOn with
  | ind N ih =>
    intro hNl form ty link pkg k s x names h hN hk hfit hxx hxm hi hkn
    have hIH : ∀ M, M < N → FormReads P zero Dt limit S U J L M := fun M hM => ih M hM (by omega)
    obtain ⟨k, rfl⟩ : ∃ k', k = k' + 1 := ⟨k - 1, by omega⟩
    have hxt : x ≠ t!"text" ∧ x ≠ t!"err" := by
      simp only [List.mem_cons, List.not_mem_nil, or_false] at hxx
      rcases hxx with rfl | rfl <;> decide
    cases form with
    | boolean =>
      exact reads_scalar (f := t!"iterator.ReadBool") (g := GoJson.readBool) (z := false) (c := .bool) (mk := .bool) rfl
        (fun _ => rfl) (fun _ _ => by simp [Holds]) (fun _ _ _ h => readBool_shrinks h)
        (fun n => by rw [readVal, show S ty = .boolean from hfit])
    | integer =>
      exact reads_scalar (f := t!"iterator.ReadInt") (g := GoJson.readInt) (z := 0) (c := .int) (mk := .int) rfl
        (fun _ => rfl) (fun _ _ => by simp [Holds]) (fun _ _ _ h => readInt_shrinks h)
        (fun n => by rw [readVal, show S ty = .integer from hfit])
    | long =>
      exact reads_scalar (f := t!"iterator.ReadInt64") (g := GoJson.readInt) (z := 0) (c := .int) (mk := .int) rfl
        (fun _ => rfl) (fun _ _ => by simp [Holds]) (fun _ _ _ h => readInt_shrinks h)
        (fun n => by rw [readVal, show S ty = .long from hfit])
    | float =>
      exact reads_scalar (f := t!"iterator.ReadFloat64") (g := GoJson.readFloat) (z := t!"0")
        (c := fun t => value (.float t)) (mk := .float) rfl
        (fun _ => rfl) (fun _ _ => by simp [Holds]) (fun _ _ _ h => readFloat_shrinks h)
        (fun n => by rw [readVal, show S ty = .float from hfit])
    | string =>
      exact reads_scalar (f := t!"iterator.ReadString") (g := GoJson.readString) (z := []) (c := .str) (mk := .str) rfl
        (fun _ => rfl) (fun _ _ => by simp [Holds]) (fun _ _ _ h => readString_shrinks h)
        (fun n => by rw [readVal, show S ty = .string from hfit])
    | date => exact reads_date hxt.1 hxt.2 hkn hfit
    | interface => exact reads_interface hfit
    | enum typ => exact reads_enum hxt.1 hfit
    | object w r =>
      obtain ⟨ho, -, hr⟩ := hfit
      obtain ⟨c, n, as, hS⟩ := isObject_struct ho
      obtain ⟨o, h1, h2, h3⟩ := read_object (h := h) hw hIH (Nat.le_of_lt_succ hk) hNl hN hS link hr
      exact ⟨o, h1, got_apply hi h3 h2⟩
    | list w r =>
      obtain ⟨n, e, hS, rfl, -, hr⟩ := hfit
      obtain ⟨o, h1, h2, h3⟩ := read_list (h := h) hw hIH hflat (Nat.le_of_lt_succ hk) hNl hN hS hr
      exact ⟨o, h1, got_apply hi h3 h2⟩
    | linkList typ w r =>
      obtain ⟨n, e, hS, rfl, ho, hn, hrt, -, hr⟩ := hfit
      exact reads_link hw hIH hflat hk hNl hN hS ho hn hrt hr hxx hi hkn
    | map typ ety form =>
      obtain ⟨e, hS, hf⟩ := hfit
      obtain rfl := hxm e hS
      exact reads_map hIH hflat (by omega) hNl hN hS hf hi hkn

/-! ## Creating the iterator -/

theorem eval_failed {k : Nat} {pkg : Text} {s : State Val Library} :
    (Expr.read t!"iterator.Error").eval (world P zero Dt limit k pkg) s = .ok (errorOf s.user.failed, s) := by
  have hf : (world P zero Dt limit k pkg).funcs t!"iterator.Error" = some fun _ l => (errorOf l.failed, l) := by
    rw [world_funcs]
    rfl
  rw [Expr.eval, GoProgram.given, hf]

theorem call_unmarshal {fs : Functions} {x typ q : Text} {src : Value Val} {k : Nat} {ty : TypeId}
    {s : State Val Library} {f : Func} {r : List Tok} {o : Option (Val × List Tok)}
    (hx : x ∈ [t!"object", t!"items"]) (hf : JsonCode.unmarshalFunc fs x typ = .func f) (hsrc : s.user.source = some r)
    (h : ∀ s' : State Val Library, s'.structs = s.structs → s'.arrays = s.arrays → s'.maps = s.maps →
      s'.user = { s.user with input := r, failed := false } →
      Obtains S U s' ty ((world P zero Dt limit k q).apply fs.read [.other .nil] s') o) :
    Receives S U s ty (f.call (world P zero Dt limit k q) .nil [src] s) (o.map Prod.fst) := by
  rw [JsonCode.unmarshalFunc] at hf
  injection hf with hf
  subst hf
  have hxe : x ≠ t!"err" ∧ x ≠ t!"source" ∧ x ≠ t!"iterator" ∧ x ≠ [] := by
    simp only [List.mem_cons, List.not_mem_nil, or_false] at hx
    rcases hx with rfl | rfl <;> decide
  have hb1 : (t!"err" == x) = false := by simpa using Ne.symm hxe.1
  have hb2 : (t!"source" == x) = false := by simpa using Ne.symm hxe.2.1
  have hb3 : (t!"iterator" == x) = false := by simpa using Ne.symm hxe.2.2.1
  have hb4 : (x == t!"err") = false := by simpa using hxe.1
  have hb5 : (x == t!"source") = false := by simpa using hxe.2.1
  have hb6 : (x == t!"iterator") = false := by simpa using hxe.2.2.1
  have hb7 : (x == ([] : Text)) = false := by simpa using hxe.2.2.2
  rw [Func.call]
  dsimp only
  generalize hz1 : (world P zero Dt limit k q).zero typ = z1
  generalize hz2 : (world P zero Dt limit k q).zero t!"error" = z2
  generalize hs0 : ({ s with vars := _ } : State Val Library) = s0
  have hv0 : s0.vars = [([], .nil), (t!"source", src), (x, z1), (t!"err", z2)] := by
    rw [← hs0, ← hz1, ← hz2]
    rfl
  have h0 : s0.structs = s.structs ∧ s0.arrays = s.arrays ∧ s0.maps = s.maps ∧ s0.user = s.user := by
    rw [← hs0]
    exact ⟨rfl, rfl, rfl, rfl⟩
  generalize hs1 : ({ s0 with
    vars := (t!"err", .nil) :: (t!"iterator", .other .nil) :: s0.vars
    user := { s0.user with input := r, failed := false } } : State Val Library) = s1
  have hd : (Stmt.defineBoth t!"iterator" t!"err" t!"helpers.NewIterator" [.var t!"source"]).exec
      (world P zero Dt limit k q) [x, t!"err"] s0 = .ok (.next, s1) := by
    have hp : (world P zero Dt limit k q).pairs t!"helpers.NewIterator" = some fun _ l =>
        match l.source with
        | some r => ((.other .nil, .nil), { l with input := r, failed := false })
        | none => ((.nil, .error []), l) := by
      cases k <;> rfl
    rw [Stmt.exec, args_one (eval_var (v := src) (by rw [hv0]; rfl)), bind_ok, hp]
    dsimp only
    rw [h0.2.2.2, hsrc, ← hs1, h0.2.2.2]
    simp [hsrc]
  have hv1 : s1.vars = [(t!"err", .nil), (t!"iterator", .other .nil), ([], .nil), (t!"source", src), (x, z1),
      (t!"err", z2)] := by
    rw [← hs1, hv0]
  have hbr : (Stmt.branch (TypesCode.notNil t!"err") [.ret []] []).exec (world P zero Dt limit k q) [x, t!"err"] s1 =
      .ok (.next, s1) := by
    have hn : (TypesCode.notNil t!"err").eval (world P zero Dt limit k q) s1 = .ok (.bool false, s1) := by
      rw [TypesCode.notNil, Expr.eval, eval_var (v := .nil) (by rw [hv1]; rfl), bind_ok]
      rfl
    rw [Stmt.exec, hn, bind_ok]
    dsimp only
    rw [execBlock, bind_ok, leave_same rfl]
  have hu1 : s1.user = { s.user with input := r, failed := false } := by rw [← hs1, h0.2.2.2]
  have hk := h s1 (by rw [← hs1]; exact h0.1) (by rw [← hs1]; exact h0.2.1) (by rw [← hs1]; exact h0.2.2.1) hu1
  have hgs : Grows s s1 := by
    rw [← hs1]
    exact ⟨fun _ _ h => by dsimp only; rw [h0.1]; exact h, fun _ _ h => by dsimp only; rw [h0.2.1]; exact h,
      fun _ _ h => by dsimp only; rw [h0.2.2.1]; exact h⟩
  have hvalid : ∀ l, Valid s l → Valid s1 l := hgs.valid
  have hrun : ∀ {t : State Val Library} {y : Value Val},
      (world P zero Dt limit k q).apply fs.read [.other .nil] s1 = .ok ([y], t) → t.vars = s1.vars →
      execBlock (world P zero Dt limit k q) [x, t!"err"] [
        .assign (.var x) (.apply fs.read [.var t!"iterator"]),
        .assign (.var t!"err") (.read t!"iterator.Error"),
        .ret []] s1 = .ok (.ret [y, errorOf t.user.failed], { t with
          vars := [(t!"err", errorOf t.user.failed), (t!"iterator", .other .nil), ([], .nil), (t!"source", src), (x, y),
            (t!"err", z2)] }) := by
    intro t y he htv
    have hev : (Expr.apply fs.read [.var t!"iterator"]).eval (world P zero Dt limit k q) s1 = .ok (y, t) := by
      rw [Expr.eval, args_one (eval_var (v := .other .nil) (by rw [hv1]; rfl)), bind_ok]
      dsimp only
      rw [he]
      rfl
    have ha1 : assign (world P zero Dt limit k q) y (.var x) t = .ok { t with
        vars := [(t!"err", .nil), (t!"iterator", .other .nil), ([], .nil), (t!"source", src), (x, y),
          (t!"err", z2)] } := by
      rw [assign, htv, hv1]
      simp [update, Ne.symm hxe.1, Ne.symm hxe.2.1, Ne.symm hxe.2.2.1, Ne.symm hxe.2.2.2, Res.ofOption, Res.bind]
    rw [execBlock_next (BuildersRun.exec_assign hev ha1),
      execBlock_next (BuildersRun.exec_assign eval_failed (show assign _ _ (.var t!"err") _ = _ from rfl)), execBlock,
      Stmt.exec]
    have hl : List.lookup x [(t!"err", errorOf t.user.failed), (t!"iterator", .other .nil), ([], .nil),
        (t!"source", src), (x, y), (t!"err", z2)] = some y := by
      simp only [List.lookup_cons, hb4, hb5, hb6, hb7, beq_self_eq_true]
    simp only [List.mapM_cons, List.mapM_nil]
    rw [hl]
    rfl
  rw [show [(x, typ), (t!"err", t!"error")].map Prod.fst = [x, t!"err"] from rfl, execBlock_next hd, execBlock_next hbr]
  cases o with
  | none =>
    obtain ⟨t, y, rest, he, htv, hgt, hut⟩ := hk
    rw [hrun he htv, bind_ok]
    have hfail : t.user.failed = true := by rw [hut]
    refine ⟨{ t with vars := s.vars }, y, by dsimp only; rw [hfail]; rfl, rfl,
      (hgs.trans hgt).trans ⟨fun _ _ h => h, fun _ _ h => h, fun _ _ h => h⟩, ?_, ?_⟩
    · dsimp only
      rw [hut, hu1]
    · dsimp only
      rw [hut, hu1]
  | some p =>
    obtain ⟨v, rest⟩ := p
    obtain ⟨t, y, he, htv, hgt, hut, hh⟩ := hk
    rw [hrun he htv, bind_ok]
    have hfail : t.user.failed = false := by rw [hut, hu1]
    refine ⟨{ t with vars := s.vars }, y, by dsimp only; rw [hfail]; rfl, rfl,
      (hgs.trans hgt).trans ⟨fun _ _ h => h, fun _ _ h => h, fun _ _ h => h⟩, ?_, ?_, ?_⟩
    · dsimp only
      rw [hut, hu1]
    · dsimp only
      rw [hut, hu1]
    · exact Holds.move (s := t) (t := { t with vars := s.vars })
        (Grows.move (s := t) (t := { t with vars := s.vars })
          ⟨fun _ _ h => h, fun _ _ h => h, fun _ _ h => h⟩ fun l hl _ hv => hl (hvalid l hv)) _ _ _ hh

theorem call_unmarshal_none {fs : Functions} {x typ q : Text} {src : Value Val} {k : Nat} {ty : TypeId}
    {s : State Val Library} {f : Func}
    (hx : x ∈ [t!"object", t!"items"]) (hf : JsonCode.unmarshalFunc fs x typ = .func f) (hsrc : s.user.source = none) :
    Receives S U s ty (f.call (world P zero Dt limit k q) .nil [src] s) none := by
  rw [JsonCode.unmarshalFunc] at hf
  injection hf with hf
  subst hf
  have hxe : x ≠ t!"err" ∧ x ≠ t!"source" ∧ x ≠ t!"iterator" ∧ x ≠ [] := by
    simp only [List.mem_cons, List.not_mem_nil, or_false] at hx
    rcases hx with rfl | rfl <;> decide
  have hb4 : (x == t!"err") = false := by simpa using hxe.1
  have hb5 : (x == t!"source") = false := by simpa using hxe.2.1
  have hb6 : (x == t!"iterator") = false := by simpa using hxe.2.2.1
  have hb7 : (x == ([] : Text)) = false := by simpa using hxe.2.2.2
  rw [Func.call]
  dsimp only
  generalize hz1 : (world P zero Dt limit k q).zero typ = z1
  generalize hz2 : (world P zero Dt limit k q).zero t!"error" = z2
  generalize hs0 : ({ s with vars := _ } : State Val Library) = s0
  have hv0 : s0.vars = [([], .nil), (t!"source", src), (x, z1), (t!"err", z2)] := by
    rw [← hs0, ← hz1, ← hz2]
    rfl
  have h0 : s0.structs = s.structs ∧ s0.arrays = s.arrays ∧ s0.maps = s.maps ∧ s0.user = s.user := by
    rw [← hs0]
    exact ⟨rfl, rfl, rfl, rfl⟩
  generalize hs1 : ({ s0 with
    vars := (t!"err", .error []) :: (t!"iterator", .nil) :: s0.vars } : State Val Library) = s1
  have hd : (Stmt.defineBoth t!"iterator" t!"err" t!"helpers.NewIterator" [.var t!"source"]).exec
      (world P zero Dt limit k q) [x, t!"err"] s0 = .ok (.next, s1) := by
    have hp : (world P zero Dt limit k q).pairs t!"helpers.NewIterator" = some fun _ l =>
        match l.source with
        | some r => ((.other .nil, .nil), { l with input := r, failed := false })
        | none => ((.nil, .error []), l) := by
      cases k <;> rfl
    rw [Stmt.exec, args_one (eval_var (v := src) (by rw [hv0]; rfl)), bind_ok, hp]
    dsimp only
    rw [h0.2.2.2, hsrc, ← hs1, ← h0.2.2.2]
  have hv1 : s1.vars = [(t!"err", .error []), (t!"iterator", .nil), ([], .nil), (t!"source", src), (x, z1),
      (t!"err", z2)] := by
    rw [← hs1, hv0]
  have hbr : (Stmt.branch (TypesCode.notNil t!"err") [.ret []] []).exec (world P zero Dt limit k q) [x, t!"err"] s1 =
      .ok (.ret [z1, .error []], s1) := by
    have hn : (TypesCode.notNil t!"err").eval (world P zero Dt limit k q) s1 = .ok (.bool true, s1) := by
      rw [TypesCode.notNil, Expr.eval, eval_var (v := .error []) (by rw [hv1]; rfl), bind_ok]
      rfl
    rw [Stmt.exec, hn, bind_ok]
    dsimp only
    have hl : List.lookup x [(t!"err", .error []), (t!"iterator", .nil), ([], .nil), (t!"source", src), (x, z1),
        (t!"err", z2)] = some z1 := by
      simp only [List.lookup_cons, hb4, hb5, hb6, hb7, beq_self_eq_true]
    have hr : execBlock (world P zero Dt limit k q) [x, t!"err"] [.ret []] s1 = .ok (.ret [z1, .error []], s1) := by
      rw [execBlock, Stmt.exec]
      simp only [List.mapM_cons, List.mapM_nil]
      rw [hv1, hl]
      rfl
    rw [hr, bind_ok, leave_same rfl]
  rw [show [(x, typ), (t!"err", t!"error")].map Prod.fst = [x, t!"err"] from rfl, execBlock_next hd, execBlock, hbr,
    bind_ok]
  dsimp only
  rw [bind_ok]
  refine ⟨{ s1 with vars := s.vars }, z1, rfl, rfl, ?_, ?_, ?_⟩
  · rw [← hs1]
    exact ⟨fun _ _ h => by dsimp only; rw [h0.1]; exact h, fun _ _ h => by dsimp only; rw [h0.2.1]; exact h,
      fun _ _ h => by dsimp only; rw [h0.2.2.1]; exact h⟩
  · rw [← hs1]
    dsimp only
    rw [h0.2.2.2]
  · rw [← hs1]
    dsimp only
    rw [h0.2.2.2]

end Verif.JsonRun
