import Verif.Lemmas.JsonReadLists

/-!
# Lemmas about running the generated code that reads JSON: lists that are links
-/

namespace Verif.JsonRun

open GoJson (Val Schema Shape AttrShape DateParser readVal readFields readItems readLink readEntries Link)
open GoProgram hiding given
open TypesRun (Legal value)
open TypesCode (dot)
open BuildersRun (Program Code resolve fieldsOf isObject Holds HoldsFields HoldsItems HoldsEntries execBlock_append
  execBlock_next eval_var Valid write write_get)
open JsonCode (Form Entity Listing Functions Member nextField readString)

variable {P : Program} {zero : Text → Text → Value Val} {Dt : DateParser} {limit : Nat} {S : Schema}
  {U : TypeId → Code} {J : TypeId → Entity} {L : TypeId → ListCode} {names : List Text}

/-! ## Switches -/

theorem exec_switch {w : World Val Library} {x key : Text} {cases : List Stmt} {s t : State Val Library}
    {pre : List (Text × Value Val)} (hx : s.vars.lookup x = some (.str key))
    (h : execCases w names key cases s = .ok (.next, t)) (hv : t.vars = pre ++ s.vars) :
    execBlock w names [.switch (.var x) cases] s = .ok (.next, { t with vars := s.vars }) := by
  have : (Stmt.switch (.var x) cases).exec w names s = .ok (.next, { t with vars := s.vars }) := by
    rw [Stmt.exec, eval_var hx, bind_ok]
    dsimp only
    rw [h, bind_ok, leave_more hv rfl]
    rfl
  rw [execBlock_next this, execBlock]

theorem turns_switch {α : Type} {w : World Val Library} {x key : Text} {cases : List Stmt} {s : State Val Library}
    {Inv : α → State Val Library → Prop} {Safe : State Val Library → Prop} {o : Option (α × List Tok)}
    (hInv : ∀ a s t, Same s t → Inv a s → Inv a t) (hSafe : ∀ s t, Same s t → Safe s → Safe t)
    (hx : s.vars.lookup x = some (.str key))
    (h : Turns Inv Safe s s.vars (execCases w names key cases s) o) :
    Turns Inv Safe s s.vars (execBlock w names [.switch (.var x) cases] s) o := by
  cases o with
  | none =>
    obtain ⟨t, pre, rest, h1, h2, h3, h4, h5⟩ := h
    exact ⟨_, [], rest, exec_switch hx h1 h2, rfl, h3, h4, hSafe t _ ⟨rfl, rfl, rfl⟩ h5⟩
  | some p =>
    obtain ⟨t, pre, h1, h2, h3, h4⟩ := h
    exact ⟨_, [], exec_switch hx h1 h2, rfl, h3, hInv p.1 t _ ⟨rfl, rfl, rfl⟩ h4⟩

theorem cases_hit {w : World Val Library} {label key : Text} {body : List Stmt} {cs : List Stmt}
    {s : State Val Library} (h : label = key) :
    execCases w names key (.case label body :: cs) s = execBlock w names body s := by
  rw [execCases, if_pos h]

theorem cases_miss {w : World Val Library} {label key : Text} {body : List Stmt} {cs : List Stmt}
    {s : State Val Library} (h : label ≠ key) :
    execCases w names key (.case label body :: cs) s = execCases w names key cs s := by
  rw [execCases, if_neg h]

/-- Reading a text. -/
theorem text_cases (k : Nat) (pkg : Text) {s : State Val Library} (hb : s.user.failed = false) :
    (∃ u r, GoJson.readString s.user.input = some (u, r) ∧ r.length < s.user.input.length ∧
      readString.eval (world P zero Dt limit k pkg) s =
        .ok (.str u, { s with user := { s.user with input := r } })) ∨
    (GoJson.readString s.user.input = none ∧
      readString.eval (world P zero Dt limit k pkg) s =
        .ok (.str [], { s with user := { s.user with failed := true } })) := by
  have hf : (world P zero Dt limit k pkg).funcs t!"iterator.ReadString" = some (reading GoJson.readString [] .str) := by
    rw [world_funcs]
    rfl
  cases hr : GoJson.readString s.user.input with
  | none => exact .inr ⟨rfl, read_none hf (.inr hr)⟩
  | some p => exact .inl ⟨p.1, p.2, rfl, readString_shrinks hr, read_some hf hb hr⟩

/-- The default case ignores a value. -/
theorem turns_ignore {α : Type} {k : Nat} {pkg : Text} {s : State Val Library} {Inv : α → State Val Library → Prop}
    {Safe : State Val Library → Prop} {a : α} (hsafe : ∀ a s, Inv a s → Safe s)
    (hInv : ∀ a s t, Same s t → Inv a s → Inv a t) (hb : s.user.failed = false) (hI : Inv a s) :
    ∃ o, Settles (fun f => (GoJson.parseVal f s.user.input).map fun p => (a, p.2)) o ∧
      (∀ a' rest, o = some (a', rest) → rest.length ≤ s.user.input.length) ∧
      Turns Inv Safe s s.vars
        (execBlock (world P zero Dt limit k pkg) names [.perform t!"iterator.ReadAny" []] s) o := by
  have hf : (world P zero Dt limit k pkg).funcs t!"iterator.ReadAny" =
      some (reading (fun r => GoJson.parseVal (r.length + 1) r) .null fun _ => .nil) := by
    rw [world_funcs]
    rfl
  have hset := parse_settles s.user.input
  have hrun : execBlock (world P zero Dt limit k pkg) names [.perform t!"iterator.ReadAny" []] s =
      .ok (.next, { s with user := (reading (fun r => GoJson.parseVal (r.length + 1) r) .null (fun _ => .nil) []
        s.user).2 }) := by
    have : (Stmt.perform t!"iterator.ReadAny" []).exec (world P zero Dt limit k pkg) names s = .ok (.next, { s with
        user := (reading (fun r => GoJson.parseVal (r.length + 1) r) .null (fun _ => .nil) [] s.user).2 }) := by
      rw [Stmt.exec, evalArgs, bind_ok]
      dsimp only
      rw [GoProgram.given, hf]
      rfl
    rw [execBlock_next this, execBlock]
  refine ⟨_, hset.map (Option.map fun p => (a, p.2)), ?_, ?_⟩
  · intro a' rest he
    cases hp : GoJson.parseVal (s.user.input.length + 1) s.user.input with
    | none => rw [hp] at he; cases he
    | some p =>
      rw [hp] at he
      cases he
      exact Nat.le_of_lt ((parse_shrinks _).1 _ _ _ hp)
  · rw [hrun]
    cases hp : GoJson.parseVal (s.user.input.length + 1) s.user.input with
    | none =>
      exact ⟨_, [], s.user.input, rfl, rfl, Nat.le_refl _, by simp [reading, hb, hp],
        hsafe a _ (hInv a s _ ⟨rfl, rfl, rfl⟩ hI)⟩
    | some p =>
      exact ⟨_, [], rfl, rfl, by simp [reading, hb, hp], hInv a s _ ⟨rfl, rfl, rfl⟩ hI⟩

/-! ## New structures -/

theorem grows_write {s t : State Val Library} (h : Grows s t) (fs : List (Text × Value Val)) :
    Grows s (write t s.structs.length fs) := by
  refine ⟨fun a m' ha => ?_, h.arrays, h.maps⟩
  have hlt := (List.getElem?_eq_some_iff.mp ha).1
  simp only [write]
  rw [List.getElem?_set_ne (by omega)]
  exact h.structs a m' ha

theorem move_write {D : Value Val → Prop} (t : State Val Library) (a : Nat) (fs : List (Text × Value Val)) :
    BuildersRun.Move (fun l => D l ∧ l ≠ .pointer a) (fun l => D l ∧ l ≠ .pointer a) t (write t a fs) := by
  refine ⟨fun _ h _ => h, fun b m' hb h => ?_, fun _ _ _ h => h, fun _ _ _ h => h⟩
  have : a ≠ b := by
    rintro rfl
    exact hb.2 rfl
  simp only [write]
  rw [List.getElem?_set_ne this]
  exact h

theorem alloc_new (k : Nat) {pkg t q n : Text} {gap : Nat} {fields : List (Text × Nat × Text)}
    (hr : resolve pkg t = (q, n)) (hl : Legal (P q)) (hm : .struct gap n fields ∈ P q) (s : State Val Library) :
    alloc (world P zero Dt limit k pkg) t s = .ok (.pointer s.structs.length,
      { s with structs := s.structs ++ [fields.map fun f => (f.1, zero q f.2.2)] }) := by
  have h : (world P zero Dt limit k pkg).structs t = some (fields.map fun f => (f.1, zero q f.2.2)) := by
    cases k <;> simp [world, hr, BuildersRun.fieldsOf_eq (P q) gap n fields hl hm]
  rw [alloc, h]

theorem resolve_append {pkg t q n : Text} (k : Text) (h : resolve pkg t = (q, n)) (hk : '.' ∉ k) :
    resolve pkg (t ++ k) = (q, n ++ k) := by
  cases hd : t.dropWhile (· ≠ '.') with
  | nil =>
    have ht : '.' ∉ t := by
      clear h
      induction t with
      | nil => simp
      | cons c t ih =>
        rw [List.dropWhile_cons] at hd
        split at hd
        · rename_i hc
          simp only [List.mem_cons, not_or]
          exact ⟨fun he => by simp [← he] at hc, ih hd⟩
        · cases hd
    rw [BuildersRun.resolve_simple pkg t ht] at h
    cases h
    exact BuildersRun.resolve_simple _ _ (by simp [ht, hk])
  | cons c rest =>
    rw [resolve, hd] at h
    cases h
    have h1 : (t ++ k).dropWhile (· ≠ '.') = c :: (n ++ k) := by
      rw [List.dropWhile_append, hd]
      rfl
    have h2 : (t ++ k).takeWhile (· ≠ '.') = t.takeWhile (· ≠ '.') := by
      rw [List.takeWhile_append]
      split
      · rename_i he
        exfalso
        have := List.takeWhile_append_dropWhile (p := (· ≠ '.')) (l := t)
        have := congrArg List.length this
        rw [List.length_append, hd] at this
        simp at this he
        omega
      · rfl
    rw [resolve, h1]
    dsimp only
    rw [h2]

theorem kind_unknown (t : Text) : t ++ t!"LinkKind" ∉ known := by
  have h : ∀ c ∈ known, 'K' ∉ c := by decide
  intro hm
  exact h _ hm (by simp)

theorem kind_layout (t : Text) : t ++ t!"LinkKind" ≠ t!"time.RFC3339" := by
  intro h
  have : 'K' ∈ t!"time.RFC3339" := by rw [← h]; simp
  revert this
  decide

/-- The constant that contains the kind of the links to a list. -/
theorem eval_listKind (hw : Whole P zero S U J L) {el : TypeId} {k : Nat} {pkg typ : Text} {s : State Val Library}
    (ho : isObject (S el) = true) (hr : resolve pkg typ = ((U el).pkg, (U el).entity.list)) (hk : Known s.vars) :
    (Expr.var (typ ++ t!"LinkKind")).eval (world P zero Dt limit k pkg) s =
      .ok (.str ((U el).entity.list ++ t!"Link"), s) := by
  have hl := link_declared hw ho
  have hdecl : ∀ i ∈ (U el).entity.listKinds, i.decl ∈ P (U el).pkg := fun i hi =>
    hl.2 _ (List.mem_map.mpr ⟨i, by simp [TypesCode.Entity.items, hi], rfl⟩)
  rw [Expr.eval, hk.lookup (kind_unknown typ)]
  dsimp only
  rw [world_consts, constants, if_neg (kind_layout typ), resolve_append _ hr (by decide),
    TypesRun.constant_eq _ _ ((U el).entity.list ++ t!"Link") hl.1
      (hdecl _ (List.getElem_mem (n := 1) (by simp [TypesCode.Entity.listKinds])))]

/-- The methods that change the lists. -/
theorem exec_setter (hw : Whole P zero S U J L) {el : TypeId} {k a : Nat} {pkg typ x name field result : Text}
    {s t : State Val Library} {e : Expr} {v : Value Val} {fs fs' : List (Text × Value Val)}
    (ho : isObject (S el) = true) (hr : resolve pkg typ = ((U el).pkg, (U el).entity.list))
    (hm : TypesCode.setter (U el).entity.list name field result ∈ P (U el).pkg) (hfield : field ≠ t!"l")
    (hx : s.vars.lookup x = some (.pointer a)) (he : e.eval (world P zero Dt limit (k + 1) pkg) s = .ok (v, t))
    (hs : t.structs[a]? = some fs) (hu : update field v fs = some fs') :
    (Stmt.invoke typ (.var x) name [e]).exec (world P zero Dt limit (k + 1) pkg) names s =
      .ok (.next, write t a fs') := by
  have := methods_eq (P := P) (zero := zero) (Dt := Dt) (limit := limit) k (.pointer a) [v] t hr
    (link_declared hw ho).1 hm rfl
  dsimp only at this
  rw [Stmt.exec, eval_var hx, bind_ok]
  dsimp only
  rw [evalArgs, he, bind_ok]
  dsimp only
  rw [evalArgs, bind_ok]
  dsimp only
  rw [bind_ok]
  dsimp only
  rw [this]
  have hb : (field == t!"l") = false := beq_eq_false_iff_ne.mpr hfield
  simp [Func.call, execBlock, Stmt.exec, Expr.eval, List.lookup, Res.bind, Res.ofOption, TypesCode.dot, assign, hs, hu,
    hb, write]

theorem holds_same {D : Value Val → Prop} {s t : State Val Library} {ty : TypeId} {v : Val} {x : Value Val}
    (hs : Same s t) (h : Holds S U D s ty v x) : Holds S U D t ty v x :=
  Holds.move (s := s) (t := t) (hs.grows.move fun _ h _ => h) ty v x h

/-! ## Reading a list that is a link -/

/-- The memory while a list that is a link is read. -/
def LinkMem (S : Schema) (U : TypeId → Code) (s : State Val Library) (ty : TypeId) (l : Link)
    (t : State Val Library) : Prop :=
  ∃ y, Grows s t ∧
    t.structs[s.structs.length]? = some [(t!"href", .str l.href), (t!"link", .bool l.link), (t!"items", y)] ∧
    Holds S U (fun p => ¬ Valid s p ∧ p ≠ .pointer s.structs.length) t ty l.items y

/-- The same if there is an error. -/
def LinkSafe (s t : State Val Library) : Prop :=
  Grows s t ∧ ∃ h l y, t.structs[s.structs.length]? = some [(t!"href", h), (t!"link", l), (t!"items", y)]

theorem LinkMem.safe {s t : State Val Library} {ty : TypeId} {l : Link} (h : LinkMem S U s ty l t) : LinkSafe s t := by
  obtain ⟨y, hg, hs, -⟩ := h
  exact ⟨hg, _, _, y, hs⟩

theorem LinkMem.grow {s t t' : State Val Library} {ty : TypeId} {l : Link} (h : LinkMem S U s ty l t) (hg : Grows t t') :
    LinkMem S U s ty l t' := by
  obtain ⟨y, hg', hs, hh⟩ := h
  exact ⟨y, hg'.trans hg, hg.structs _ _ hs,
    Holds.move (s := t) (t := t') (hg.move fun _ h _ => h) ty _ y hh⟩

theorem LinkMem.put {s t : State Val Library} {ty : TypeId} {y : Value Val} {fs : List (Text × Value Val)} (l : Link)
    (hg : Grows s t) (hs : t.structs[s.structs.length]? = some fs)
    (hh : Holds S U (fun p => ¬ Valid s p ∧ p ≠ .pointer s.structs.length) t ty l.items y) :
    LinkMem S U s ty l
      (write t s.structs.length [(t!"href", .str l.href), (t!"link", .bool l.link), (t!"items", y)]) :=
  ⟨y, grows_write hg _, write_get _ hs,
    Holds.move (s := t) (t := write t s.structs.length _) (move_write t s.structs.length _) ty _ y hh⟩

theorem LinkSafe.put {s t : State Val Library} {h l y : Value Val} {fs : List (Text × Value Val)}
    (hg : Grows s t) (hs : t.structs[s.structs.length]? = some fs) :
    LinkSafe s (write t s.structs.length [(t!"href", h), (t!"link", l), (t!"items", y)]) :=
  ⟨grows_write hg _, h, l, y, write_get _ hs⟩

/-- What is done for a field. -/
def linkStep (Dt : DateParser) (S : Schema) (ty : TypeId) (name : Text) (f : Nat) (l : Link) (key : Text)
    (r : List Tok) : Option (Link × List Tok) :=
  if key = t!"kind" then (GoJson.readString r).map fun p => ({ l with link := p.1 == name ++ t!"Link" }, p.2)
  else if key = t!"href" then (GoJson.readString r).map fun p => ({ l with href := p.1 }, p.2)
  else if key = t!"items" then (readVal Dt S f ty false r).map fun p => ({ l with items := p.1 }, p.2)
  else (GoJson.parseVal f r).map fun p => (l, p.2)

theorem readLink_step (ty : TypeId) (name : Text) (f : Nat) (l : Link) (r : List Tok) :
    readLink Dt S (f + 1) ty name l r =
      match GoJson.readObject r with
      | none => none
      | some (key, r) =>
        if key = [] then some (l, r)
        else
          match linkStep Dt S ty name f l key r with
          | none => none
          | some (l, r) => readLink Dt S f ty name l r := by
  rw [readLink]
  cases GoJson.readObject r with
  | none => rfl
  | some p =>
    obtain ⟨key, r⟩ := p
    dsimp only [linkStep]
    split
    · rfl
    · split
      · cases GoJson.readString r <;> rfl
      · split
        · cases GoJson.readString r <;> rfl
        · split
          · cases readVal Dt S f ty false r <;> rfl
          · cases GoJson.parseVal f r <;> rfl

theorem step_link (hw : Whole P zero S U J L) {N k : Nat} {pkg typ r x n : Text} {ty el : TypeId}
    {s0 : State Val Library} {h : Value Val} {vars : List (Text × Value Val)}
    (hIH : ∀ M, M < N → FormReads P zero Dt limit S U J L M) (hflat : Flat S) (hNk : N < k) (hNl : N < limit)
    (hS : S ty = .list n el) (ho : isObject (S el) = true) (hn : n = (U el).entity.list)
    (hrt : resolve pkg typ = ((U el).pkg, (U el).entity.list))
    (hr : resolve pkg r = ((L ty).pkg, (L ty).listing.functions.read)) (hxx : x ∈ [t!"value", t!"item"])
    (hi : vars.lookup t!"iterator" = some h) (hk : Known vars)
    (hx : vars.lookup x = some (.pointer s0.structs.length)) (l : Link) (key : Text) (s : State Val Library)
    (hb : s.user.failed = false) (hN : s.user.input.length < N) (hI : LinkMem S U s0 ty l s)
    (hv : s.vars = (t!"field", .str key) :: vars) :
    ∃ o, Settles (fun f => linkStep Dt S ty n f l key s.user.input) o ∧
      (∀ a' rest, o = some (a', rest) → rest.length ≤ s.user.input.length) ∧
      Turns (LinkMem S U s0 ty) (LinkSafe s0) s s.vars (execBlock (world P zero Dt limit k pkg) names
        [.switch (.var t!"field") [
          .case t!"kind" [
            .define t!"text" readString,
            .invoke typ (.var x) t!"SetLink" [.eq (.var t!"text") (.var (typ ++ t!"LinkKind"))]],
          .case t!"href" [.invoke typ (.var x) t!"SetHREF" [readString]],
          .case t!"items" [.invoke typ (.var x) t!"SetItems" [.apply r [.var t!"iterator"]]],
          .default [.perform t!"iterator.ReadAny" []]]] s) o := by
  obtain ⟨k, rfl⟩ : ∃ k', k = k' + 1 := ⟨k - 1, by omega⟩
  have hxs : s.vars.lookup x = some (.pointer s0.structs.length) := by
    rw [hv, List.lookup_cons]
    simp only [List.mem_cons, List.not_mem_nil, or_false] at hxx
    rcases hxx with rfl | rfl <;> simpa using hx
  have hks : Known s.vars := by rw [hv]; exact hk.cons (by decide) _
  have hIs := hI
  obtain ⟨y, hg, hfs, hh⟩ := hI
  have hset : ∀ i (hi : i < (U el).entity.listMethods.length), (U el).entity.listMethods[i].decl ∈ P (U el).pkg :=
    fun i hi => list_method hw ho (List.getElem_mem hi)
  suffices H : ∃ o, Settles (fun f => linkStep Dt S ty n f l key s.user.input) o ∧
      (∀ a' rest, o = some (a', rest) → rest.length ≤ s.user.input.length) ∧
      Turns (LinkMem S U s0 ty) (LinkSafe s0) s s.vars (execCases (world P zero Dt limit (k + 1) pkg) names key
        [.case t!"kind" [
            .define t!"text" readString,
            .invoke typ (.var x) t!"SetLink" [.eq (.var t!"text") (.var (typ ++ t!"LinkKind"))]],
          .case t!"href" [.invoke typ (.var x) t!"SetHREF" [readString]],
          .case t!"items" [.invoke typ (.var x) t!"SetItems" [.apply r [.var t!"iterator"]]],
          .default [.perform t!"iterator.ReadAny" []]] s) o by
    obtain ⟨o, h1, h2, h3⟩ := H
    refine ⟨o, h1, h2, turns_switch (fun _ _ _ hs h => LinkMem.grow h hs.grows)
      (fun _ _ hs h => ⟨h.1.trans hs.grows, by rw [hs.structs]; exact h.2⟩) ?_ h3⟩
    rw [hv]
    simp
  by_cases h1 : key = t!"kind"
  · rw [cases_hit h1.symm]
    have hstep : ∀ f, linkStep Dt S ty n f l key s.user.input =
        (GoJson.readString s.user.input).map fun p => ({ l with link := p.1 == n ++ t!"Link" }, p.2) := by
      intro f
      rw [linkStep, if_pos h1]
    have hrun : ∀ {u : Text} {t : State Val Library}, readString.eval (world P zero Dt limit (k + 1) pkg) s =
        .ok (.str u, t) → t.structs = s.structs → t.vars = s.vars →
        execBlock (world P zero Dt limit (k + 1) pkg) names [
          .define t!"text" readString,
          .invoke typ (.var x) t!"SetLink" [.eq (.var t!"text") (.var (typ ++ t!"LinkKind"))]] s =
        .ok (.next, write { t with vars := (t!"text", .str u) :: s.vars } s0.structs.length
          [(t!"href", .str l.href), (t!"link", .bool (u == n ++ t!"Link")), (t!"items", y)]) := by
      intro u t he hst hvt
      rw [execBlock_next (exec_define he), hvt]
      have hev : (Expr.eq (.var t!"text") (.var (typ ++ t!"LinkKind"))).eval (world P zero Dt limit (k + 1) pkg)
          { t with vars := (t!"text", .str u) :: s.vars } =
          .ok (.bool (u == n ++ t!"Link"), { t with vars := (t!"text", .str u) :: s.vars }) := by
        rw [Expr.eval, eval_var (v := .str u) (by simp), bind_ok]
        dsimp only
        rw [eval_listKind hw ho hrt (hks.cons (by decide) _), bind_ok, hn]
        rfl
      have := exec_setter (names := names) (zero := zero) (Dt := Dt) (limit := limit) (k := k) (x := x) hw ho hrt
        (hset 1 (by simp [TypesCode.Entity.listMethods])) (by decide)
        (s := { t with vars := (t!"text", .str u) :: s.vars }) (a := s0.structs.length) (by
          rw [List.lookup_cons]
          simp only [List.mem_cons, List.not_mem_nil, or_false] at hxx
          rcases hxx with rfl | rfl <;> simpa using hxs)
        hev (fs := [(t!"href", .str l.href), (t!"link", .bool l.link), (t!"items", y)]) (by rw [hst]; exact hfs) rfl
      rw [execBlock_next this, execBlock]
    rcases text_cases (P := P) (zero := zero) (Dt := Dt) (limit := limit) (k + 1) pkg hb with ⟨u, q, hq, hlt, he⟩ | ⟨hq, he⟩
    · refine ⟨some ({ l with link := u == n ++ t!"Link" }, q), (Settles.const _).congr fun f => by rw [hstep, hq]; rfl,
        ?_, _, [(t!"text", .str u)], hrun he rfl rfl, rfl, rfl, ?_⟩
      · intro a' rest he'
        cases he'
        exact Nat.le_of_lt hlt
      · refine LinkMem.put (l := { l with link := u == n ++ t!"Link" })
          (hg.trans ⟨fun _ _ h => h, fun _ _ h => h, fun _ _ h => h⟩) hfs ?_
        exact holds_same (s := s) ⟨rfl, rfl, rfl⟩ hh
    · exact ⟨none, (Settles.const _).congr fun f => by rw [hstep, hq]; rfl, by simp, _, [(t!"text", .str [])],
        s.user.input, hrun he rfl rfl, rfl, Nat.le_refl _, rfl,
        LinkSafe.put (hg.trans ⟨fun _ _ h => h, fun _ _ h => h, fun _ _ h => h⟩) hfs⟩
  rw [cases_miss (Ne.symm h1)]
  by_cases h2 : key = t!"href"
  · rw [cases_hit h2.symm]
    have hstep : ∀ f, linkStep Dt S ty n f l key s.user.input =
        (GoJson.readString s.user.input).map fun p => ({ l with href := p.1 }, p.2) := by
      intro f
      rw [linkStep, if_neg h1, if_pos h2]
    have hrun : ∀ {u : Text} {t : State Val Library}, readString.eval (world P zero Dt limit (k + 1) pkg) s =
        .ok (.str u, t) → t.structs = s.structs →
        execBlock (world P zero Dt limit (k + 1) pkg) names [.invoke typ (.var x) t!"SetHREF" [readString]] s =
        .ok (.next, write t s0.structs.length
          [(t!"href", .str u), (t!"link", .bool l.link), (t!"items", y)]) := by
      intro u t he hst
      have := exec_setter (names := names) (zero := zero) (Dt := Dt) (limit := limit) (k := k) (x := x) hw ho hrt
        (hset 2 (by simp [TypesCode.Entity.listMethods])) (by decide) hxs
        he (fs := [(t!"href", .str l.href), (t!"link", .bool l.link), (t!"items", y)]) (by rw [hst]; exact hfs) rfl
      rw [execBlock_next this, execBlock]
    rcases text_cases (P := P) (zero := zero) (Dt := Dt) (limit := limit) (k + 1) pkg hb with ⟨u, q, hq, hlt, he⟩ | ⟨hq, he⟩
    · refine ⟨some ({ l with href := u }, q), (Settles.const _).congr fun f => by rw [hstep, hq]; rfl,
        ?_, _, [], hrun he rfl, rfl, rfl, ?_⟩
      · intro a' rest he'
        cases he'
        exact Nat.le_of_lt hlt
      · refine LinkMem.put (l := { l with href := u })
          (hg.trans ⟨fun _ _ h => h, fun _ _ h => h, fun _ _ h => h⟩) hfs ?_
        exact holds_same (s := s) ⟨rfl, rfl, rfl⟩ hh
    · exact ⟨none, (Settles.const _).congr fun f => by rw [hstep, hq]; rfl, by simp, _, [],
        s.user.input, hrun he rfl, rfl, Nat.le_refl _, rfl,
        LinkSafe.put (hg.trans ⟨fun _ _ h => h, fun _ _ h => h, fun _ _ h => h⟩) hfs⟩
  rw [cases_miss (Ne.symm h2)]
  by_cases h3 : key = t!"items"
  · rw [cases_hit h3.symm]
    have hstep : ∀ f, linkStep Dt S ty n f l key s.user.input =
        (readVal Dt S f ty false s.user.input).map fun p => ({ l with items := p.1 }, p.2) := by
      intro f
      rw [linkStep, if_neg h1, if_neg h2, if_pos h3]
    have hit : s.vars.lookup t!"iterator" = some h := by
      rw [hv, List.lookup_cons]
      simpa using hi
    have hrun : ∀ {v : Value Val} {t : State Val Library}, (world P zero Dt limit (k + 1) pkg).apply r [h] s =
        .ok ([v], t) → Grows s t →
        execBlock (world P zero Dt limit (k + 1) pkg) names
          [.invoke typ (.var x) t!"SetItems" [.apply r [.var t!"iterator"]]] s =
        .ok (.next, write t s0.structs.length
          [(t!"href", .str l.href), (t!"link", .bool l.link), (t!"items", v)]) := by
      intro v t he hst
      have hev : (Expr.apply r [.var t!"iterator"]).eval (world P zero Dt limit (k + 1) pkg) s = .ok (v, t) := by
        rw [Expr.eval, args_one (eval_var hit), bind_ok]
        dsimp only
        rw [he]
        rfl
      have := exec_setter (names := names) (zero := zero) (Dt := Dt) (limit := limit) (k := k) (x := x) hw ho hrt
        (hset 3 (by simp [TypesCode.Entity.listMethods])) (by decide) hxs
        hev (fs := [(t!"href", .str l.href), (t!"link", .bool l.link), (t!"items", y)]) (hst.structs _ _ hfs) rfl
      rw [execBlock_next this, execBlock]
    obtain ⟨o, hsays, hob, hshort⟩ := read_list (k := k) (h := h) (s := s) (N := N - 1) hw
      (fun M hM => hIH M (by omega)) hflat (by omega) (by omega) (by omega) hS hr
    simp only [Says, hb] at hsays
    cases o with
    | none =>
      obtain ⟨t, v, rest, he, hvt, hgt, hut⟩ := hob
      exact ⟨none, (hsays.1.map (Option.map fun p => ({ l with items := p.1 }, p.2))).congr fun f => hstep f, by simp, _,
        [], rest, hrun he hgt, hvt, hshort t v rest he hut, hut,
        LinkSafe.put (hg.trans hgt) (hgt.structs _ _ hfs)⟩
    | some p =>
      obtain ⟨v', rest⟩ := p
      obtain ⟨t, v, he, hvt, hgt, hut, hold⟩ := hob
      refine ⟨some ({ l with items := v' }, rest),
        (hsays.1.map (Option.map fun p => ({ l with items := p.1 }, p.2))).congr fun f => hstep f, ?_, _, [],
        hrun he hgt, hvt, hut, ?_⟩
      · intro a' rest' he'
        cases he'
        exact Nat.le_of_lt (hsays.2 _ _ rfl)
      · refine LinkMem.put (l := { l with items := v' }) (hg.trans hgt) (hgt.structs _ _ hfs) ?_
        refine Holds.move (s := t) (t := t) (BuildersRun.Move.change fun p hp _ => ⟨fun hvs => ?_, ?_⟩) ty v' v hold
        · exact hp (hg.valid p hvs)
        · rintro rfl
          exact hp (List.getElem?_eq_some_iff.mp hfs).1
  rw [cases_miss (Ne.symm h3), execCases]
  obtain ⟨o, h4, h5, h6⟩ := turns_ignore (P := P) (zero := zero) (Dt := Dt) (limit := limit) (names := names) (k := k + 1)
    (pkg := pkg) (s := s) (Inv := LinkMem S U s0 ty) (Safe := LinkSafe s0) (a := l) (fun _ _ h => h.safe)
    (fun _ _ _ hs h => LinkMem.grow h hs.grows) hb hIs
  exact ⟨o, h4.congr fun f => by rw [linkStep, if_neg h1, if_neg h2, if_neg h3], h5, h6⟩

/-- Lists that are links. -/
theorem reads_link (hw : Whole P zero S U J L) {N k : Nat} {pkg typ wr r x n : Text} {ty el : TypeId}
    {s : State Val Library} {h : Value Val}
    (hIH : ∀ M, M < N → FormReads P zero Dt limit S U J L M) (hflat : Flat S) (hNk : N < k) (hNl : N < limit)
    (hN : s.user.input.length ≤ N) (hS : S ty = .list n el) (ho : isObject (S el) = true) (hn : n = (U el).entity.list)
    (hrt : resolve pkg typ = ((U el).pkg, (U el).entity.list))
    (hr : resolve pkg r = ((L ty).pkg, (L ty).listing.functions.read)) (hxx : x ∈ [t!"value", t!"item"])
    (hi : s.vars.lookup t!"iterator" = some h) (hk : Known s.vars) :
    ∃ o, Says s.user (fun f => readVal Dt S f ty true s.user.input) o ∧
      Got S U s x ty (execBlock (world P zero Dt limit k pkg) names ((Form.linkList typ wr r).read x) s) o := by
  have hxi : (t!"iterator" == x) = false ∧ x ∈ known := by
    simp only [List.mem_cons, List.not_mem_nil, or_false] at hxx
    rcases hxx with rfl | rfl <;> simp [known]
  generalize ht0 : ({ s with
    structs := s.structs ++ [[(t!"href", .str []), (t!"link", .bool false), (t!"items", .nil)]]
    vars := (x, .pointer s.structs.length) :: s.vars } : State Val Library) = t0
  have hl := link_declared hw ho
  have hdecl : ∀ i ∈ (U el).entity.listKinds, i.decl ∈ P (U el).pkg := fun i hi =>
    hl.2 _ (List.mem_map.mpr ⟨i, by simp [TypesCode.Entity.items, hi], rfl⟩)
  have hz := hw.base.zeros (U el).pkg
  have hslice : zero (U el).pkg ('[' :: ']' :: '*' :: (U el).entity.object) = .nil := hz.slice _
  have hdef : (Stmt.define x (.address typ)).exec (world P zero Dt limit k pkg) names s = .ok (.next, t0) := by
    rw [Stmt.exec, Expr.eval, alloc_new k hrt hl.1
      (hdecl _ (List.getElem_mem (n := 3) (by simp [TypesCode.Entity.listKinds]))) s, bind_ok]
    simp only [List.map_cons, List.map_nil, hz.string, hz.bool, List.cons_append, List.nil_append, hslice]
    rw [← ht0]
  have hg0 : Grows s t0 := by
    rw [← ht0]
    refine ⟨fun a ys h => ?_, fun _ _ h => h, fun _ _ h => h⟩
    dsimp only
    rw [List.getElem?_append_left (List.getElem?_eq_some_iff.mp h).1]
    exact h
  have hu0 : t0.user = s.user := by rw [← ht0]
  have hv0 : t0.vars = (x, .pointer s.structs.length) :: s.vars := by rw [← ht0]
  have hM : LinkMem S U s ty {} t0 := by
    refine ⟨.nil, hg0, by rw [← ht0]; simp, ?_⟩
    simp [Holds, value]
  obtain ⟨o, hsays, hres⟩ := loop_keys (P := P) (zero := zero) (Dt := Dt) (limit := limit) (names := names) (k := k)
    (pkg := pkg) (x := t!"field")
    (body := [.switch (.var t!"field") [
        .case t!"kind" [
          .define t!"text" readString,
          .invoke typ (.var x) t!"SetLink" [.eq (.var t!"text") (.var (typ ++ t!"LinkKind"))]],
        .case t!"href" [.invoke typ (.var x) t!"SetHREF" [readString]],
        .case t!"items" [.invoke typ (.var x) t!"SetItems" [.apply r [.var t!"iterator"]]],
        .default [.perform t!"iterator.ReadAny" []]]])
    (model := fun f l r => readLink Dt S f ty n l r) (step := linkStep Dt S ty n)
    (Inv := LinkMem S U s ty) (Safe := LinkSafe s) (N := N)
    (fun f l r => by
      rw [readLink_step]
      cases GoJson.readObject r with
      | none => rfl
      | some p =>
        dsimp only
        split
        · rfl
        · cases linkStep Dt S ty n f l p.1 p.2 <;> rfl)
    (fun _ _ h => h.safe) (fun _ _ _ hs h => LinkMem.grow h hs.grows)
    (fun _ _ hs h => ⟨h.1.trans hs.grows, by rw [hs.structs]; exact h.2⟩)
    t0.vars
    (fun l key t _ hb hN' hI hv => step_link (names := names) hw hIH hflat hNk hNl hS ho hn hrt hr hxx
      (by rw [hv0, List.lookup_cons, hxi.1]; exact hi) (by rw [hv0]; exact hk.cons hxi.2 _)
      (by rw [hv0]; simp) l key t hb hN' hI hv)
    limit {} t0 (by rw [hu0]; omega) (by rw [hu0]; exact hN) hM rfl
  have hexec : ∀ {t : State Val Library}, loopWhile (fun s => .ok (.bool true, s))
      (fun s => (execBlock (world P zero Dt limit k pkg) names (nextField t!"field" ++ [.switch (.var t!"field") [
        .case t!"kind" [
          .define t!"text" readString,
          .invoke typ (.var x) t!"SetLink" [.eq (.var t!"text") (.var (typ ++ t!"LinkKind"))]],
        .case t!"href" [.invoke typ (.var x) t!"SetHREF" [readString]],
        .case t!"items" [.invoke typ (.var x) t!"SetItems" [.apply r [.var t!"iterator"]]],
        .default [.perform t!"iterator.ReadAny" []]]]) s).bind
          fun r => .ok (leave s r)) limit t0 = .ok (.next, t) →
      execBlock (world P zero Dt limit k pkg) names ((Form.linkList typ wr r).read x) s = .ok (.next, t) := by
    intro t ht
    rw [Form.read, execBlock_next hdef, execBlock, Stmt.exec, world_limit, ht, bind_ok]
    dsimp only
    rw [execBlock]
  rw [hu0] at hsays
  have hfresh : Fresh x [(x, (Value.pointer s.structs.length : Value Val))] := by
    intro p hp
    simp only [List.mem_singleton] at hp
    simp [hp]
  have hq : ∀ f, readVal Dt S (f + 1) ty true s.user.input =
      (readLink Dt S f ty n {} s.user.input).map fun a => (a.1.val, a.2) := by
    intro f
    rw [readVal, hS]
    rfl
  refine ⟨_, hsays.step Link.val hq, ?_⟩
  cases o with
  | none =>
    obtain ⟨t, rest, ht, htv, hle, htu, hg, -⟩ := hres
    rw [hu0] at hle htu
    exact ⟨t, .pointer s.structs.length, [(x, .pointer s.structs.length)], rest, hexec ht, by simp [htv, hv0], hfresh,
      by simp, hg, hle, htu⟩
  | some p =>
    obtain ⟨l, rest⟩ := p
    obtain ⟨t, ht, htv, htu, y, hg, hfs, hh⟩ := hres
    rw [hu0] at htu
    refine ⟨t, .pointer s.structs.length, [(x, .pointer s.structs.length)], hexec ht, by simp [htv, hv0], hfresh,
      by simp, hg, htu, ?_⟩
    rw [Link.val, Holds]
    refine ⟨_, y, rfl, ?_, hfs, ?_⟩
    · intro hvs
      exact absurd hvs (Nat.lt_irrefl _)
    · exact Holds.move (s := t) (t := t) (BuildersRun.Move.change fun l hl _ => hl.1) ty _ y hh

end Verif.JsonRun
