import Verif.Lemmas.MethodsRun
import Verif.Props.JsonReadRun

/-!
# Lemmas about running the generated code that reads responses
-/

namespace Verif.MethodsRun

open GoJson (Val Schema Shape DateParser Received readVal readResponse unmarshalBody readCases readCase readLoop setField
  Case bodyCase skipValue)
open GoProgram hiding given
open TypesRun (Legal value)
open TypesCode (dot)
open BuildersRun (Program Code resolve isObject Holds Valid execBlock_next execBlock_append eval_var eval_dot write
  write_get Put assign_field exec_assign lookup_mem Move)
open JsonCode (Form Entity Functions formOf functionsOf nextField)
open JsonRun (Library ListCode Fits Whole Flat Grows Same Settles Says Obtains Receives Got Fresh Known known Turns
  Finishes FormReads form_reads turns_switch turns_ignore loop_keys eval_failed errorOf world world_funcs world_limit
  bind_ok args_one leave_same lookup_pre got_apply read_list link_declared apply_eq)
open MethodsCode (Context fieldOf kindOf bodyOf itemsOf lastThat messageOf responseOf pageList)

variable {P : Program} {zero : Text → Text → Value Val} {Dt : DateParser} {limit : Nat} {S : Schema}
  {U : TypeId → Code} {J : TypeId → Entity} {L : TypeId → ListCode} {names : List Text}

/-! ## Memory -/

theorem Stored.move {D D' : Value Val → Prop} {s t : State Val Library} (h : Move D D' s t) {ty : TypeId} {v : Val}
    {y : Value Val} (hs : Stored S U D s ty v y) : Stored S U D' t ty v y := by
  rw [Stored] at hs ⊢
  split at hs
  · rename_i hsc
    rw [if_pos hsc]
    rcases hs with hs | ⟨h1, b, rfl, h2, h3⟩
    · exact .inl hs
    · exact .inr ⟨h1, b, rfl, h.sub _ h2 (List.getElem?_eq_some_iff.mp h3).1, h.structs _ _ h2 h3⟩
  · rename_i hsc
    rw [if_neg hsc]
    exact Holds.move h _ _ _ hs

theorem Keeps.refl (s : State Val Library) (m : Method) (a : Nat) : Keeps s s m a :=
  ⟨fun _ _ _ h => h, fun _ _ h => h, fun _ _ h => h, fun fs h => ⟨fs, h, rfl, fun _ _ => rfl⟩⟩

theorem Keeps.grow {s t u : State Val Library} {m : Method} {a : Nat} (h : Keeps s t m a) (hg : Grows t u) :
    Keeps s u m a := by
  refine ⟨fun b fs hb hs => hg.structs _ _ (h.structs b fs hb hs), fun b xs hs => hg.arrays _ _ (h.arrays b xs hs),
    fun b xs hs => hg.maps _ _ (h.maps b xs hs), fun fs hs => ?_⟩
  obtain ⟨fs', h1, h2⟩ := h.response fs hs
  exact ⟨fs', hg.structs _ _ h1, h2⟩

theorem Keeps.put {s t : State Val Library} {m : Method} {a : Nat} {p : Parameter} {y : Value Val}
    {fs fs' : List (Text × Value Val)} (h : Keeps s t m a) (hs : t.structs[a]? = some fs) (hp : p ∈ obtained m)
    (hput : Put (Go.privateName p.name) y fs fs') : Keeps s (write t a fs') m a := by
  refine ⟨fun b gs hb hb' => ?_, h.arrays, h.maps, fun gs hg => ?_⟩
  · simp only [write]
    rw [List.getElem?_set_ne (Ne.symm hb)]
    exact h.structs b gs hb hb'
  · obtain ⟨gs', h1, h2, h3⟩ := h.response gs hg
    rw [hs] at h1
    cases h1
    refine ⟨fs', write_get _ hs, hput.keys.trans h2, fun f hf => ?_⟩
    rw [hput.other f fun e => hf (List.mem_map.mpr ⟨p, hp, e.symm⟩)]
    exact h3 f hf

/-- The memory while a response is read. -/
def Mem (S : Schema) (U : TypeId → Code) (s : State Val Library) (m : Method) (a : Nat) (f : Parameter → Val)
    (t : State Val Library) : Prop := Keeps s t m a ∧ ResponseAt S U t m f a

theorem Mem.grow {s t u : State Val Library} {m : Method} {a : Nat} {f : Parameter → Val} (h : Mem S U s m a f t)
    (hg : Grows t u) : Mem S U s m a f u := by
  obtain ⟨hk, fs, hs, hr⟩ := h
  refine ⟨hk.grow hg, fs, hg.structs _ _ hs, fun p hp => ?_⟩
  obtain ⟨y, hy, hst⟩ := hr p hp
  exact ⟨y, hy, Stored.move (hg.move fun _ h _ => h) hst⟩

theorem Mem.put {s t u : State Val Library} {m : Method} {a : Nat} {f : Parameter → Val} {p : Parameter} {v : Val}
    {y : Value Val} {fs fs' : List (Text × Value Val)} (h : Mem S U s m a f t) (hg : Grows t u)
    (hs : u.structs[a]? = some fs) (hp : p ∈ obtained m) (hput : Put (Go.privateName p.name) y fs fs')
    (hst : Stored S U (· ≠ .pointer a) u p.typ.id v y)
    (hd : ∀ p ∈ obtained m, ∀ q ∈ obtained m, Go.privateName p.name = Go.privateName q.name → p = q) :
    Mem S U s m a (setField f p v) (write u a fs') := by
  have hm : Move (fun l => l ≠ .pointer a) (fun l => l ≠ .pointer a) u (write u a fs') := by
    refine ⟨fun _ h _ => h, fun b gs hb hb' => ?_, fun _ _ _ h => h, fun _ _ _ h => h⟩
    simp only [write]
    rw [List.getElem?_set_ne (by rintro rfl; exact hb rfl)]
    exact hb'
  obtain ⟨hk, gs, hgs, hr⟩ := h.grow hg
  rw [hs] at hgs
  cases hgs
  refine ⟨(h.1.grow hg).put hs hp hput, fs', write_get _ hs, fun q hq => ?_⟩
  by_cases hqp : q = p
  · subst hqp
    refine ⟨y, hput.same, ?_⟩
    rw [setField, if_pos rfl]
    exact Stored.move hm hst
  · obtain ⟨z, hz, hsz⟩ := hr q hq
    refine ⟨z, ?_, ?_⟩
    · rw [hput.other _ fun e => hqp (hd q hq p hp e)]
      exact hz
    · rw [setField, if_neg hqp]
      exact Stored.move hm hsz

/-! ## Cases -/

/-- The variables of the function that reads a response. -/
def reading (a : Nat) (rd z : Value Val) : List (Text × Value Val) :=
  [(t!"err", .nil), (t!"iterator", .other .nil), ([], .nil), (t!"response", .pointer a), (t!"reader", rd), ([], z)]

/-- The code of a case does what the model says. -/
def CaseOk (P : Program) (zero : Text → Text → Value Val) (Dt : DateParser) (limit : Nat) (S : Schema)
    (U : TypeId → Code) (N k : Nat) (pkg : Text) (s0 : State Val Library) (m : Method) (a : Nat) (rd z : Value Val)
    (c : Case × List Stmt) : Prop :=
  ∀ (f : Parameter → Val) (key : Text) (s : State Val Library), s.user.failed = false → s.user.input.length < N →
    Mem S U s0 m a f s → s.vars = (t!"field", .str key) :: reading a rd z →
    ∃ r, Settles (fun n => (readVal Dt S n c.1.param.typ.id false s.user.input).map fun p =>
        (setField f c.1.param (c.1.value p.1), p.2)) r ∧
      (∀ f' rest, r = some (f', rest) → rest.length ≤ s.user.input.length) ∧
      Turns (Mem S U s0 m a) (Keeps s0 · m a) s s.vars (execBlock (world P zero Dt limit k pkg) [[]] c.2 s) r

theorem cases_find {w : World Val Library} {key : Text} {tail : List Stmt} {s : State Val Library} :
    ∀ cs : List (Case × List Stmt),
      ((cs.map Prod.fst).find? (fun c => c.tag == key) = none ∧
        execCases w names key (cs.map (fun c => .case c.1.tag c.2) ++ tail) s = execCases w names key tail s) ∨
      ∃ c ∈ cs, (cs.map Prod.fst).find? (fun c => c.tag == key) = some c.1 ∧
        execCases w names key (cs.map (fun c => .case c.1.tag c.2) ++ tail) s = execBlock w names c.2 s
  | [] => .inl ⟨rfl, rfl⟩
  | c :: cs => by
    rw [List.map_cons, List.map_cons, List.cons_append, List.find?_cons]
    by_cases hk : c.1.tag = key
    · refine .inr ⟨c, by simp, by simp [hk], JsonRun.cases_hit hk⟩
    · rw [JsonRun.cases_miss hk]
      simp only [show (c.1.tag == key) = false from beq_eq_false_iff_ne.mpr hk]
      rcases cases_find (w := w) (key := key) (tail := tail) (s := s) cs with h | ⟨d, hd, h⟩
      · exact .inl h
      · exact .inr ⟨d, by simp [hd], h⟩

theorem scalar_read {n : Nat} {ty : TypeId} {link : Bool} {r rest : List Tok} {v : Val}
    (hs : (S ty).isScalar = true) (h : readVal Dt S n ty link r = some (v, rest)) :
    v ≠ .nil ∧ ∀ (D : Value Val → Prop) (t : State Val Library) (y : Value Val), Holds S U D t ty v y → y = value v := by
  cases n with
  | zero => cases h
  | succ n =>
    rw [readVal] at h
    cases hS : S ty <;> rw [hS] at hs h <;> dsimp only at h <;> first
      | cases hs
      | skip
    all_goals first
      | (rw [Option.map_eq_some_iff] at h
         obtain ⟨p, -, hp⟩ := h
         cases hp
         exact ⟨by simp, fun D t y hh => by simpa [Holds] using hh⟩)
      | skip
    split at h
    · cases h
    · rw [Option.map_eq_some_iff] at h
      obtain ⟨p, -, hp⟩ := h
      cases hp
      exact ⟨by simp, fun D t y hh => by simpa [Holds] using hh⟩

theorem valid_response {s s0 : State Val Library} {m : Method} {a : Nat} {f : Parameter → Val}
    (h : Mem S U s0 m a f s) : Valid s (.pointer a) := by
  obtain ⟨-, fs, hs, -⟩ := h
  exact (List.getElem?_eq_some_iff.mp hs).1

theorem case_field (hw : Whole P zero S U J L) (hflat : Flat S) {N k : Nat} {pkg : Text} {s0 : State Val Library}
    {x : Context} {m : Method} {a : Nat} {rd z : Value Val} {p : Parameter} (hp : p ∈ obtained m)
    (hr : Ready S U J L x pkg p)
    (hd : ∀ p ∈ obtained m, ∀ q ∈ obtained m, Go.privateName p.name = Go.privateName q.name → p = q)
    (hN : N ≤ limit) (hk : N ≤ k) :
    CaseOk P zero Dt limit S U N k pkg s0 m a rd z (bodyCase p, (fieldOf x p).form.read t!"value" ++
      [.assign (dot t!"response" (fieldOf x p).field)
        (if (fieldOf x p).scalar then .ref t!"value" else .var t!"value")]) := by
  intro f key s hb hlen hM hv
  obtain ⟨hsc, -, hform⟩ := hr
  have hka : Known s.vars := by
    rw [hv]
    intro q hq
    simp only [reading, List.mem_cons, List.not_mem_nil, or_false] at hq
    rcases hq with rfl | rfl | rfl | rfl | rfl | rfl | rfl <;> simp [known]
  obtain ⟨o, hsays, hgot⟩ := form_reads (Dt := Dt) (limit := limit) hw hflat (N - 1) (by omega) (formOf x false none (x.typeOf p.typ.id)) p.typ.id
    false pkg k s t!"value" [[]] (.other .nil) (by omega) (by omega) hform (by simp) (fun _ _ => rfl)
    (by rw [hv]; rfl) hka
  simp only [Says, hb] at hsays
  obtain ⟨hset, hshort⟩ := hsays
  obtain ⟨-, fs, hs, hfs⟩ := id hM
  obtain ⟨old, hold, -⟩ := hfs p hp
  have hscalar : (fieldOf x p).scalar = (S p.typ.id).isScalar := hsc
  have hfield : (fieldOf x p).field = Go.privateName p.name := rfl
  have hval := valid_response hM
  have hrun : ∀ {t : State Val Library} {y : Value Val} {pre : List (Text × Value Val)},
      execBlock (world P zero Dt limit k pkg) [[]] ((fieldOf x p).form.read t!"value") s = .ok (.next, t) →
      t.vars = pre ++ s.vars → Fresh t!"value" pre → pre.lookup t!"value" = some y → Grows s t →
      ∃ u y' fs', Grows t u ∧ u.vars = t.vars ∧ u.user = t.user ∧ u.structs[a]? = some fs ∧
        Put (Go.privateName p.name) y' fs fs' ∧
        (if (S p.typ.id).isScalar then ∃ b, y' = .pointer b ∧ y' ≠ .pointer a ∧ u.structs[b]? = some [([], y)]
          else u = t ∧ y' = y) ∧
        execBlock (world P zero Dt limit k pkg) [[]] ((fieldOf x p).form.read t!"value" ++
          [.assign (dot t!"response" (fieldOf x p).field)
            (if (fieldOf x p).scalar then .ref t!"value" else .var t!"value")]) s = .ok (.next, write u a fs') := by
    intro t y pre he htv hfr hy hgt
    have hl : t.vars.lookup t!"value" = some y := by rw [htv]; exact lookup_pre hy
    have hresp : t.vars.lookup t!"response" = some (.pointer a) := by
      rw [htv, hfr.lookup (by decide), hv]
      rfl
    have hst := hgt.structs _ _ hs
    by_cases hss : (S p.typ.id).isScalar = true
    · generalize hu : ({ t with structs := t.structs ++ [[([], y)]] } : State Val Library) = u
      have hus : u.structs[a]? = some fs := by
        rw [← hu]
        dsimp only
        rw [List.getElem?_append_left (List.getElem?_eq_some_iff.mp hst).1]
        exact hst
      obtain ⟨fs', hput, has⟩ := assign_field (world P zero Dt limit k pkg) (s := u) (x := t!"response")
        (f := Go.privateName p.name) (.pointer t.structs.length) (by rw [← hu]; exact hresp) hus hold
      refine ⟨u, .pointer t.structs.length, fs', ?_, by rw [← hu], by rw [← hu], hus, hput, ?_, ?_⟩
      · rw [← hu]
        refine ⟨fun b gs h => ?_, fun _ _ h => h, fun _ _ h => h⟩
        dsimp only
        rw [List.getElem?_append_left (List.getElem?_eq_some_iff.mp h).1]
        exact h
      · rw [if_pos hss]
        refine ⟨_, rfl, ?_, by rw [← hu]; simp⟩
        intro e
        injection e with e
        have := (List.getElem?_eq_some_iff.mp hst).1
        omega
      · rw [execBlock_append _ _ _ _ _ _ he, hscalar, hfield, if_pos hss,
          execBlock_next (exec_assign (t := u) (v := .pointer t.structs.length) ?_ has), execBlock]
        rw [Expr.eval, hl, ← hu]
        rfl
    · obtain ⟨fs', hput, has⟩ := assign_field (world P zero Dt limit k pkg) (s := t) (x := t!"response")
        (f := Go.privateName p.name) y hresp hst hold
      refine ⟨t, y, fs', Grows.refl t, rfl, rfl, hst, hput, ?_, ?_⟩
      · rw [if_neg hss]
        exact ⟨rfl, rfl⟩
      · rw [execBlock_append _ _ _ _ _ _ he, hscalar, hfield, if_neg hss,
          execBlock_next (exec_assign (eval_var hl) has),
          execBlock]
  cases o with
  | none =>
    obtain ⟨t, y, pre, rest, he, htv, hfr, hy, hgt, hle, hut⟩ := hgot
    obtain ⟨u, y', fs', h1, h2, h3, h4, h5, -, h6⟩ := hrun he htv hfr hy hgt
    refine ⟨none, hset.map (Option.map _), by simp, _, pre, rest, h6, h2.trans htv, hle, h3.trans hut, ?_⟩
    exact ((hM.1.grow hgt).grow h1).put h4 hp h5
  | some q =>
    obtain ⟨v, rest⟩ := q
    obtain ⟨t, y, pre, he, htv, hfr, hy, hgt, hut, hhold⟩ := hgot
    obtain ⟨u, y', fs', h1, h2, h3, h4, h5, h7, h6⟩ := hrun he htv hfr hy hgt
    refine ⟨some (setField f p v, rest), hset.map (Option.map _), ?_, _, pre, h6, h2.trans htv, h3.trans hut, ?_⟩
    · intro f' rest' e
      cases e
      exact Nat.le_of_lt (hshort _ _ rfl)
    · refine hM.put (hgt.trans h1) h4 hp h5 ?_ hd
      rw [Stored]
      split at h7
      · rename_i hss
        rw [if_pos hss]
        obtain ⟨b, rfl, hba, hb'⟩ := h7
        obtain ⟨F, hF⟩ := hset
        obtain ⟨hn, hy'⟩ := scalar_read (U := U) hss (hF F (Nat.le_refl F))
        rw [hy' _ _ _ hhold] at hb'
        exact .inr ⟨hn, b, rfl, hba, hb'⟩
      · rename_i hss
        rw [if_neg hss]
        obtain ⟨rfl, rfl⟩ := h7
        refine Holds.move (s := u) (t := u) (BuildersRun.Move.change fun l hl _ => ?_) _ _ _ hhold
        rintro rfl
        exact hl hval

/-- The code that puts the items in the response. -/
def putItems (list : Option Text) : Stmt :=
  match list with
  | none => .assign (dot t!"response" t!"items") (.var t!"items")
  | some typ => .assignNew (dot t!"response" t!"items") typ t!"items" (.var t!"items")

theorem case_items (hw : Whole P zero S U J L) (hflat : Flat S) {N k : Nat} {pkg n : Text} {s0 : State Val Library}
    {form : Form} {list : Option Text} {m : Method} {a : Nat} {rd z : Value Val} {p : Parameter} {e : TypeId}
    (hp : p ∈ obtained m) (hname : Go.privateName p.name = t!"items") (hS : S p.typ.id = .list n e)
    (hform : Fits S U J L pkg p.typ.id false form)
    (hlist : match list with
      | none => (S e).isScalar = true
      | some typ => isObject (S e) = true ∧ resolve pkg typ = ((U e).pkg, (U e).entity.list))
    (hd : ∀ p ∈ obtained m, ∀ q ∈ obtained m, Go.privateName p.name = Go.privateName q.name → p = q)
    (hN : N ≤ limit) (hk : N ≤ k) :
    CaseOk P zero Dt limit S U N k pkg s0 m a rd z
      ({ tag := t!"items", param := p, wrap := !(S e).isScalar }, form.read t!"items" ++ [putItems list]) := by
  intro f key s hb hlen hM hv
  obtain ⟨w, r, rfl, hr⟩ : ∃ w r, form = .list w r ∧ resolve pkg r = ((L p.typ.id).pkg, (L p.typ.id).listing.functions.read) := by
    cases form with
    | list w r =>
      obtain ⟨-, -, -, -, -, hr⟩ := hform
      exact ⟨w, r, rfl, hr⟩
    | linkList typ w r =>
      obtain ⟨-, -, -, h, -⟩ := hform
      cases h
    | object w r =>
      have := hform.1
      rw [hS] at this
      cases this
    | map t u f =>
      obtain ⟨g, h, -⟩ := hform
      rw [hS] at h
      cases h
    | _ =>
      have h := hform
      simp only [Fits] at h
      rw [hS] at h
      cases h
  obtain ⟨k, rfl⟩ : ∃ k', k = k' + 1 := ⟨k - 1, by omega⟩
  obtain ⟨o, hsays, h1, h2⟩ := read_list (Dt := Dt) (limit := limit) (h := .other .nil) (k := k) (N := N - 1) (s := s) hw
    (fun M hM => form_reads hw hflat M (by omega)) hflat (by omega) (by omega) (by omega) hS hr
  have hgot := got_apply (names := [[]]) (x := t!"items") (s := s) (by rw [hv]; rfl) h2 h1
  simp only [Says, hb] at hsays
  obtain ⟨hset, hshort⟩ := hsays
  obtain ⟨-, fs, hs, hfs⟩ := id hM
  obtain ⟨old, hold, -⟩ := hfs p hp
  rw [hname] at hold
  have hval := valid_response hM
  have hrun : ∀ {t : State Val Library} {y : Value Val} {pre : List (Text × Value Val)},
      execBlock (world P zero Dt limit (k + 1) pkg) [[]] [.define t!"items" (.apply r [.var t!"iterator"])] s =
        .ok (.next, t) →
      t.vars = pre ++ s.vars → Fresh t!"items" pre → pre.lookup t!"items" = some y → Grows s t →
      ∃ u y' fs', Grows t u ∧ u.vars = t.vars ∧ u.user = t.user ∧ u.structs[a]? = some fs ∧
        Put t!"items" y' fs fs' ∧
        (if (S e).isScalar then u = t ∧ y' = y
          else ∃ b, y' = .pointer b ∧ y' ≠ .pointer a ∧
            u.structs[b]? = some [(t!"href", .str []), (t!"link", .bool false), (t!"items", y)]) ∧
        execBlock (world P zero Dt limit (k + 1) pkg) [[]] ((Form.list w r).read t!"items" ++ [putItems list]) s =
          .ok (.next, write u a fs') := by
    intro t y pre he htv hfr hy hgt
    have hl : t.vars.lookup t!"items" = some y := by rw [htv]; exact lookup_pre hy
    have hresp : t.vars.lookup t!"response" = some (.pointer a) := by
      rw [htv, hfr.lookup (by decide), hv]
      rfl
    have hst := hgt.structs _ _ hs
    cases list with
    | none =>
      obtain ⟨fs', hput, has⟩ := assign_field (world P zero Dt limit (k + 1) pkg) (s := t) (x := t!"response")
        (f := t!"items") y hresp hst hold
      refine ⟨t, y, fs', Grows.refl t, rfl, rfl, hst, hput, ?_, ?_⟩
      · rw [if_pos hlist]
        exact ⟨rfl, rfl⟩
      · rw [Form.read, execBlock_append _ _ _ _ _ _ he, putItems, execBlock_next (exec_assign (eval_var hl) has),
          execBlock]
    | some typ =>
      obtain ⟨ho, hrt⟩ := hlist
      have hld := link_declared hw ho
      have hdecl : ∀ i ∈ (U e).entity.listKinds, i.decl ∈ P (U e).pkg := fun i hi =>
        hld.2 _ (List.mem_map.mpr ⟨i, by simp [TypesCode.Entity.items, hi], rfl⟩)
      have hz := hw.base.zeros (U e).pkg
      have hslice : zero (U e).pkg ('[' :: ']' :: '*' :: (U e).entity.object) = .nil := hz.slice _
      have hstruct : (world P zero Dt limit (k + 1) pkg).structs typ =
          some [(t!"href", .str []), (t!"link", .bool false), (t!"items", .nil)] := by
        have := BuildersRun.fieldsOf_eq (P (U e).pkg) _ _ _ hld.1
          (hdecl _ (List.getElem_mem (n := 3) (by simp [TypesCode.Entity.listKinds])))
        simp only [world, hrt]
        rw [this]
        simp only [List.map_cons, List.map_nil, hz.string, hz.bool, List.cons_append, List.nil_append, hslice,
          Option.map_some]
      generalize hu : ({ t with structs := t.structs ++
        [[(t!"href", .str []), (t!"link", .bool false), (t!"items", y)]] } : State Val Library) = u
      have hus : u.structs[a]? = some fs := by
        rw [← hu]
        dsimp only
        rw [List.getElem?_append_left (List.getElem?_eq_some_iff.mp hst).1]
        exact hst
      obtain ⟨fs', hput, has⟩ := assign_field (world P zero Dt limit (k + 1) pkg) (s := u) (x := t!"response")
        (f := t!"items") (.pointer t.structs.length) (by rw [← hu]; exact hresp) hus hold
      refine ⟨u, .pointer t.structs.length, fs', ?_, by rw [← hu], by rw [← hu], hus, hput, ?_, ?_⟩
      · rw [← hu]
        refine ⟨fun b gs h => ?_, fun _ _ h => h, fun _ _ h => h⟩
        dsimp only
        rw [List.getElem?_append_left (List.getElem?_eq_some_iff.mp h).1]
        exact h
      · have hns : ¬ (S e).isScalar = true := by
          obtain ⟨c, n, as, hSe⟩ := object_struct ho
          rw [hSe]
          simp [GoJson.Shape.isScalar]
        rw [if_neg hns]
        refine ⟨_, rfl, ?_, by rw [← hu]; simp⟩
        intro e
        injection e with e
        have := (List.getElem?_eq_some_iff.mp hst).1
        omega
      · have hnew : (putItems (some typ)).exec (world P zero Dt limit (k + 1) pkg) [[]] t =
            .ok (.next, write u a fs') := by
          rw [putItems, Stmt.exec, eval_var hl, bind_ok]
          dsimp only
          rw [hstruct]
          have : (some [(t!"href", Value.str []), (t!"link", Value.bool false), (t!"items", (Value.nil : Value Val))]).bind
              (update t!"items" y) = some [(t!"href", .str []), (t!"link", .bool false), (t!"items", y)] := rfl
          rw [this, Res.ofOption, bind_ok, hu, has, bind_ok]
        rw [Form.read, execBlock_append _ _ _ _ _ _ he, execBlock_next hnew, execBlock]
  cases o with
  | none =>
    obtain ⟨t, y, pre, rest, he, htv, hfr, hy, hgt, hle, hut⟩ := hgot
    obtain ⟨u, y', fs', h1, h2, h3, h4, h5, -, h6⟩ := hrun he htv hfr hy hgt
    refine ⟨none, hset.map (Option.map _), by simp, _, pre, rest, h6, h2.trans htv, hle, h3.trans hut, ?_⟩
    exact ((hM.1.grow hgt).grow h1).put h4 hp (by rw [hname]; exact h5)
  | some q =>
    obtain ⟨v, rest⟩ := q
    obtain ⟨t, y, pre, he, htv, hfr, hy, hgt, hut, hhold⟩ := hgot
    obtain ⟨u, y', fs', h1, h2, h3, h4, h5, h7, h6⟩ := hrun he htv hfr hy hgt
    refine ⟨_, hset.map (Option.map _), ?_, _, pre, h6, h2.trans htv, h3.trans hut, ?_⟩
    · intro f' rest' e
      cases e
      exact Nat.le_of_lt (hshort _ _ rfl)
    · refine hM.put (hgt.trans h1) h4 hp (by rw [hname]; exact h5) ?_ hd
      have hD : Holds S U (· ≠ .pointer a) t p.typ.id v y := by
        refine Holds.move (s := t) (t := t) (BuildersRun.Move.change fun l hl _ => ?_) _ _ _ hhold
        rintro rfl
        exact hl hval
      rw [Stored, if_neg (by rw [hS]; simp [GoJson.Shape.isScalar]), Case.value]
      cases hss : (S e).isScalar with
      | true =>
        simp only [hss, if_true] at h7
        obtain ⟨rfl, rfl⟩ := h7
        exact hD
      | false =>
        simp only [hss, Bool.false_eq_true, if_false] at h7
        obtain ⟨b, rfl, hba, hbs⟩ := h7
        simp only [Bool.not_false, if_true]
        rw [Holds]
        exact ⟨b, y, rfl, hba, hbs, Holds.move (s := t) (t := u) (h1.move fun _ h _ => h) _ _ _ hD⟩

/-! ## The loop -/

/-- The function that reads a response. -/
def responseFunc (s : MethodsCode.Message) : Func :=
  match s.readFunc with
  | .func f => f
  | _ => { name := [], results := [], body := [] }

theorem call_cases {msg : MethodsCode.Message} {cs : List (Case × List Stmt)} {k a : Nat} {pkg : Text}
    {m : Method} {rd : Value Val} {s : State Val Library} {fields : Parameter → Val} {r : List Tok}
    (hbody : msg.response.body = MethodsCode.readFields (cs.map fun c => .case c.1.tag c.2))
    (hsrc : s.user.source = some r) (hR : ResponseAt S U s m fields a) (hlim : r.length < limit)
    (hok : ∀ z s0, ∀ c ∈ cs, CaseOk P zero Dt limit S U r.length k pkg s0 m a rd z c) :
    ∃ o, Settles (fun n => readCases Dt S n (cs.map Prod.fst) fields r) o ∧
      Answers S U s m a ((responseFunc msg).call (world P zero Dt limit k pkg) .nil [.pointer a, rd] s) o := by
  generalize hz : (world P zero Dt limit k pkg).zero t!"error" = z
  generalize hs0 : ({ s with vars := [([], .nil), (t!"response", .pointer a), (t!"reader", rd), ([], z)] } :
    State Val Library) = s0
  generalize hs1 : ({ s with
    vars := reading a rd z
    user := { s.user with input := r, failed := false } } : State Val Library) = s1
  have hd : (Stmt.defineBoth t!"iterator" t!"err" t!"helpers.NewIterator" [.var t!"reader"]).exec
      (world P zero Dt limit k pkg) [[]] s0 = .ok (.next, s1) := by
    have hp : (world P zero Dt limit k pkg).pairs t!"helpers.NewIterator" = some fun _ l =>
        match l.source with
        | some r => ((.other .nil, .nil), { l with input := r, failed := false })
        | none => ((.nil, .error []), l) := by
      cases k <;> rfl
    rw [Stmt.exec, args_one (eval_var (v := rd) (by rw [← hs0]; rfl)), bind_ok, hp]
    dsimp only
    rw [show s0.user = s.user by rw [← hs0], hsrc, ← hs1, ← hs0]
    simp [hsrc, reading]
  have hbr : (Stmt.branch (TypesCode.notNil t!"err") [.ret [.var t!"err"]] []).exec (world P zero Dt limit k pkg) [[]] s1 =
      .ok (.next, s1) := by
    have hn : (TypesCode.notNil t!"err").eval (world P zero Dt limit k pkg) s1 = .ok (.bool false, s1) := by
      rw [TypesCode.notNil, Expr.eval, eval_var (v := .nil) (by rw [← hs1]; rfl), bind_ok]
      rfl
    rw [Stmt.exec, hn, bind_ok]
    dsimp only
    rw [execBlock, bind_ok, leave_same rfl]
  have hu1 : s1.user = { s.user with input := r, failed := false } := by rw [← hs1]
  have hsame : Same s s1 := by rw [← hs1]; exact ⟨rfl, rfl, rfl⟩
  have hM : Mem S U s m a fields s1 := Mem.grow ⟨Keeps.refl s m a, hR⟩ hsame.grows
  obtain ⟨o, hsays, hres⟩ := loop_keys (P := P) (zero := zero) (Dt := Dt) (limit := limit) (names := [[]]) (k := k)
    (pkg := pkg) (x := t!"field")
    (body := [.switch (.var t!"field") ((cs.map fun c => .case c.1.tag c.2) ++
      [.default [.perform t!"iterator.ReadAny" []]])])
    (model := fun n f r => readLoop (readCase Dt S (cs.map Prod.fst)) n f r)
    (step := fun n f key r => readCase Dt S (cs.map Prod.fst) n key f r)
    (Inv := Mem S U s m a) (Safe := (Keeps s · m a)) (N := r.length)
    (fun n f r => by
      rw [readLoop]
      cases GoJson.readObject r with
      | none => rfl
      | some p =>
        dsimp only
        split
        · rfl
        · cases readCase Dt S (cs.map Prod.fst) n p.1 f p.2 <;> rfl)
    (fun _ _ h => h.1) (fun _ _ _ hs h => Mem.grow h hs.grows) (fun _ _ hs h => Keeps.grow h hs.grows)
    (reading a rd z)
    (by
      intro f key t _ hb hN hI hv
      suffices H : ∃ o, Settles (fun n => readCase Dt S (cs.map Prod.fst) n key f t.user.input) o ∧
          (∀ a' rest, o = some (a', rest) → rest.length ≤ t.user.input.length) ∧
          Turns (Mem S U s m a) (Keeps s · m a) t t.vars (execCases (world P zero Dt limit k pkg) [[]] key
            ((cs.map fun c => .case c.1.tag c.2) ++ [.default [.perform t!"iterator.ReadAny" []]]) t) o by
        obtain ⟨o, h1, h2, h3⟩ := H
        exact ⟨o, h1, h2, turns_switch (fun _ _ _ hs h => Mem.grow h hs.grows)
          (fun _ _ hs h => Keeps.grow h hs.grows) (by rw [hv]; simp) h3⟩
      rcases cases_find (w := world P zero Dt limit k pkg) (names := [[]]) (key := key)
        (tail := [.default [.perform t!"iterator.ReadAny" []]]) (s := t) cs with ⟨h1, h2⟩ | ⟨c, hc, h1, h2⟩
      · rw [h2, execCases]
        obtain ⟨o, h4, h5, h6⟩ := turns_ignore (P := P) (zero := zero) (Dt := Dt) (limit := limit) (names := [[]]) (k := k)
          (pkg := pkg) (s := t) (Inv := Mem S U s m a) (Safe := (Keeps s · m a)) (a := f) (fun _ _ h => h.1)
          (fun _ _ _ hs h => Mem.grow h hs.grows) hb hI
        exact ⟨o, h4.congr fun n => by rw [readCase, h1]; rfl, h5, h6⟩
      · rw [h2]
        obtain ⟨o, h4, h5, h6⟩ := hok z s c hc f key t hb hN hI hv
        exact ⟨o, h4.congr fun n => by rw [readCase, h1], h5, h6⟩)
    limit fields s1 (by rw [hu1]; exact hlim) (by rw [hu1]; exact Nat.le_refl _) hM (by rw [← hs1])
  rw [hu1] at hsays
  simp only [Says, Bool.false_eq_true, if_false] at hsays
  have hexec : ∀ {t : State Val Library}, loopWhile (fun s => .ok (.bool true, s))
      (fun s => (execBlock (world P zero Dt limit k pkg) [[]] (nextField t!"field" ++ [.switch (.var t!"field")
        ((cs.map fun c => .case c.1.tag c.2) ++ [.default [.perform t!"iterator.ReadAny" []]])]) s).bind
          fun r => .ok (leave s r)) limit s1 = .ok (.next, t) →
      (responseFunc msg).call (world P zero Dt limit k pkg) .nil [.pointer a, rd] s =
        .ok ([errorOf t.user.failed], { t with vars := s.vars }) := by
    intro t ht
    refine call_ret (t := t) ?_
    change execBlock _ [[]] msg.response.body { s with vars := [([], .nil), (t!"response", .pointer a), (t!"reader", rd),
      ([], (world P zero Dt limit k pkg).zero t!"error")] } = _
    rw [hbody, hz, hs0, MethodsCode.readFields, execBlock_next hd, execBlock_next hbr, execBlock, Stmt.exec, world_limit,
      ht, bind_ok]
    dsimp only
    rw [execBlock, Stmt.exec, args_one eval_failed, bind_ok]
    rfl
  refine ⟨_, hsays.1.map fun o : Option ((Parameter → Val) × List Tok) =>
    match o with
    | some (f, _) => Received.fields f
    | none => .error, ?_⟩
  cases o with
  | none =>
    obtain ⟨t, rest, ht, htv, hle, htu, hk⟩ := hres
    rw [hexec ht, show t.user.failed = true by rw [htu]]
    exact ⟨{ t with vars := s.vars }, rfl, rfl, hk.grow ⟨fun _ _ h => h, fun _ _ h => h, fun _ _ h => h⟩,
      by dsimp only; rw [htu, hu1], by dsimp only; rw [htu, hu1]⟩
  | some q =>
    obtain ⟨f, rest⟩ := q
    obtain ⟨t, ht, htv, htu, hk⟩ := hres
    rw [hexec ht, show t.user.failed = false by rw [htu, hu1]]
    have hg : Grows t { t with vars := s.vars } := ⟨fun _ _ h => h, fun _ _ h => h, fun _ _ h => h⟩
    exact ⟨{ t with vars := s.vars }, rfl, rfl, hk.1.grow hg, by dsimp only; rw [htu, hu1],
      by dsimp only; rw [htu, hu1], (hk.grow hg).2⟩

theorem call_no_source {msg : MethodsCode.Message} {cases : List Stmt} {w rd : Value Val} {k a : Nat} {pkg : Text}
    {m : Method} {s : State Val Library} (hbody : msg.response.body = MethodsCode.readFields cases)
    (hsrc : s.user.source = none) :
    Answers S U s m a ((responseFunc msg).call (world P zero Dt limit k pkg) .nil [w, rd] s) .error := by
  generalize hz : (world P zero Dt limit k pkg).zero t!"error" = z
  generalize hs0 : ({ s with vars := [([], .nil), (t!"response", w), (t!"reader", rd), ([], z)] } :
    State Val Library) = s0
  generalize hs1 : ({ s0 with vars := (t!"err", .error []) :: (t!"iterator", .nil) :: s0.vars } :
    State Val Library) = s1
  have hd : (Stmt.defineBoth t!"iterator" t!"err" t!"helpers.NewIterator" [.var t!"reader"]).exec
      (world P zero Dt limit k pkg) [[]] s0 = .ok (.next, s1) := by
    have hp : (world P zero Dt limit k pkg).pairs t!"helpers.NewIterator" = some fun _ l =>
        match l.source with
        | some r => ((.other .nil, .nil), { l with input := r, failed := false })
        | none => ((.nil, .error []), l) := by
      cases k <;> rfl
    rw [Stmt.exec, args_one (eval_var (v := rd) (by rw [← hs0]; rfl)), bind_ok, hp]
    dsimp only
    rw [show s0.user.source = none by rw [← hs0]; exact hsrc, ← hs1]
  have hbr : (Stmt.branch (TypesCode.notNil t!"err") [.ret [.var t!"err"]] []).exec (world P zero Dt limit k pkg) [[]] s1 =
      .ok (.ret [.error []], s1) := by
    have hn : (TypesCode.notNil t!"err").eval (world P zero Dt limit k pkg) s1 = .ok (.bool true, s1) := by
      rw [TypesCode.notNil, Expr.eval, eval_var (v := .error []) (by rw [← hs1]; rfl), bind_ok]
      rfl
    rw [Stmt.exec, hn, bind_ok]
    dsimp only
    rw [execBlock, Stmt.exec, args_one (eval_var (v := .error []) (by rw [← hs1]; rfl)), bind_ok]
    dsimp only
    rw [bind_ok]
    dsimp only
    rw [bind_ok, leave_same rfl]
  have hcall : (responseFunc msg).call (world P zero Dt limit k pkg) .nil [w, rd] s =
      .ok ([.error []], { s1 with vars := s.vars }) := by
    refine call_ret ?_
    change execBlock _ [[]] msg.response.body { s with vars := [([], .nil), (t!"response", w), (t!"reader", rd),
      ([], (world P zero Dt limit k pkg).zero t!"error")] } = _
    rw [hbody, hz, hs0, MethodsCode.readFields, execBlock_next hd, execBlock, hbr, bind_ok]
  refine ⟨_, hcall, rfl, (Keeps.refl s m a).grow ?_, ?_, ?_⟩
  · rw [← hs1, ← hs0]
    exact ⟨fun _ _ h => h, fun _ _ h => h, fun _ _ h => h⟩
  · rw [← hs1, ← hs0]
  · rw [← hs1, ← hs0]

/-! ## Whole bodies -/

theorem call_whole_read {msg : MethodsCode.Message} {pkg unmarshal : Text} {k a : Nat} {p : Parameter} {m : Method}
    {rd : Value Val} {s : State Val Library} {fields : Parameter → Val} {o : Option Val}
    (hm : msg.response = .whole (Go.privateName p.name) unmarshal) (hp : p ∈ obtained m)
    (hns : (S p.typ.id).isScalar = false)
    (hd : ∀ p ∈ obtained m, ∀ q ∈ obtained m, Go.privateName p.name = Go.privateName q.name → p = q)
    (hR : ResponseAt S U s m fields a)
    (h : ∀ vars, Receives S U { s with vars := vars } p.typ.id
      ((world P zero Dt limit k pkg).apply unmarshal [rd] { s with vars := vars }) o) :
    Answers S U s m a ((responseFunc msg).call (world P zero Dt limit k pkg) .nil [.pointer a, rd] s)
      (match o with
        | some v => .fields (setField fields p v)
        | none => .error) := by
  have hbody : (responseFunc msg).body = [
      .var t!"err" t!"error",
      .assignPair (dot t!"response" (Go.privateName p.name)) (.var t!"err") unmarshal [.var t!"reader"],
      .ret [.var t!"err"]] := by
    change msg.response.body = _
    rw [hm]
    rfl
  generalize hz : (world P zero Dt limit k pkg).zero t!"error" = z
  generalize hs1 : ({ s with vars := [(t!"err", z), ([], .nil), (t!"response", .pointer a), (t!"reader", rd), ([], z)] } :
    State Val Library) = s1
  have hrun : ∀ {u : State Val Library} {e : Value Val},
      (Stmt.assignPair (dot t!"response" (Go.privateName p.name)) (.var t!"err") unmarshal [.var t!"reader"]).exec
        (world P zero Dt limit k pkg) [[]] s1 = .ok (.next, u) → u.vars.lookup t!"err" = some e →
      (responseFunc msg).call (world P zero Dt limit k pkg) .nil [.pointer a, rd] s =
        .ok ([e], { u with vars := s.vars }) := by
    intro u e hu he
    refine call_ret (t := u) ?_
    rw [hbody]
    change execBlock _ [[]] _ { s with vars := [([], .nil), (t!"response", .pointer a), (t!"reader", rd),
      ([], (world P zero Dt limit k pkg).zero t!"error")] } = _
    rw [hz, execBlock_next (t := s1) (by rw [Stmt.exec, hz, ← hs1]), execBlock_next hu, execBlock, Stmt.exec,
      args_one (eval_var he), bind_ok]
    rfl
  have hk := h [(t!"err", z), ([], .nil), (t!"response", .pointer a), (t!"reader", rd), ([], z)]
  rw [hs1] at hk
  have hv1 : s1.vars = [(t!"err", z), ([], .nil), (t!"response", .pointer a), (t!"reader", rd), ([], z)] := by
    rw [← hs1]
  have hu1 : s1.user = s.user := by rw [← hs1]
  have hsame : Same s s1 := by rw [← hs1]; exact ⟨rfl, rfl, rfl⟩
  have hM : Mem S U s m a fields s1 := Mem.grow ⟨Keeps.refl s m a, hR⟩ hsame.grows
  have hval := valid_response hM
  obtain ⟨-, fs, hs, hfs⟩ := id hM
  obtain ⟨old, hold, -⟩ := hfs p hp
  have hpair : ∀ {t : State Val Library} {y e : Value Val},
      (world P zero Dt limit k pkg).apply unmarshal [rd] s1 = .ok ([y, e], t) → t.vars = s1.vars → Grows s1 t →
      ∃ fs', Put (Go.privateName p.name) y fs fs' ∧
        (Stmt.assignPair (dot t!"response" (Go.privateName p.name)) (.var t!"err") unmarshal [.var t!"reader"]).exec
          (world P zero Dt limit k pkg) [[]] s1 = .ok (.next, { write t a fs' with
            vars := [(t!"err", e), ([], .nil), (t!"response", .pointer a), (t!"reader", rd), ([], z)] }) := by
    intro t y e he htv hgt
    obtain ⟨fs', hput, has⟩ := assign_field (world P zero Dt limit k pkg) (s := t) (x := t!"response")
      (f := Go.privateName p.name) y (a := a) (by rw [htv, hv1]; rfl) (hgt.structs _ _ hs) hold
    refine ⟨fs', hput, ?_⟩
    have has2 : assign (world P zero Dt limit k pkg) e (.var t!"err") (write t a fs') = .ok { write t a fs' with
            vars := [(t!"err", e), ([], .nil), (t!"response", .pointer a), (t!"reader", rd), ([], z)] } := by
      rw [assign, show (write t a fs').vars = _ from htv.trans hv1]
      rfl
    rw [Stmt.exec, args_one (eval_var (v := rd) (by rw [hv1]; rfl)), bind_ok]
    dsimp only
    rw [he, bind_ok]
    dsimp only
    rw [has, bind_ok, has2, bind_ok]
  cases o with
  | none =>
    obtain ⟨t, y, he, htv, hgt, ho, hsent⟩ := hk
    obtain ⟨fs', hput, hex⟩ := hpair he htv hgt
    refine ⟨_, hrun hex (e := .error []) rfl, rfl, ?_, by dsimp only [write]; rw [ho, hu1], by dsimp only [write]; rw [hsent, hu1]⟩
    exact ((hM.1.grow hgt).put (hgt.structs _ _ hs) hp hput).grow ⟨fun _ _ h => h, fun _ _ h => h, fun _ _ h => h⟩
  | some v =>
    obtain ⟨t, y, he, htv, hgt, ho, hsent, hh⟩ := hk
    obtain ⟨fs', hput, hex⟩ := hpair he htv hgt
    have hst : Stored S U (· ≠ .pointer a) t p.typ.id v y := by
      rw [Stored, if_neg (by rw [hns]; simp)]
      refine Holds.move (s := t) (t := t) (BuildersRun.Move.change fun l hl _ => ?_) _ _ _ hh
      rintro rfl
      exact hl hval
    have hmem := hM.put hgt (hgt.structs _ _ hs) hp hput hst hd
    have hmem' := hmem.grow (u := { write t a fs' with vars := s.vars })
      ⟨fun _ _ h => h, fun _ _ h => h, fun _ _ h => h⟩
    exact ⟨_, hrun hex (e := .nil) rfl, rfl, hmem'.1, by dsimp only [write]; rw [ho, hu1],
      by dsimp only [write]; rw [hsent, hu1], hmem'.2⟩

theorem call_nothing_read {msg : MethodsCode.Message} {w : World Val Library} {args : List (Value Val)}
    {s : State Val Library} {m : Method} {a : Nat} {fields : Parameter → Val} (hm : msg.response = .nothing)
    (hR : ResponseAt S U s m fields a) : Answers S U s m a ((responseFunc msg).call w .nil args s) (.fields fields) := by
  have hbody : (responseFunc msg).body = [.ret [.nil]] := by
    change msg.response.body = _
    rw [hm]
    rfl
  have : (responseFunc msg).call w .nil args s = .ok ([.nil], s) := by
    refine (call_ret (vs := [.nil]) (t := { s with vars := ((responseFunc msg).receiver, .nil) ::
      (((responseFunc msg).params.map Prod.fst).zip args ++ (responseFunc msg).results.map fun r => (r.1, w.zero r.2)) })
      ?_).trans rfl
    rw [hbody, execBlock, Stmt.exec, evalArgs, Expr.eval, bind_ok]
    dsimp only
    rw [evalArgs, bind_ok]
    dsimp only
    rw [bind_ok]
    dsimp only
    rw [bind_ok]
  exact ⟨s, this, rfl, Keeps.refl s m a, rfl, rfl, hR⟩

end Verif.MethodsRun
