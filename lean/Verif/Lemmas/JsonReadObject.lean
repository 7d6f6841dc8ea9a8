import Verif.Lemmas.JsonReadLinks

/-!
# Lemmas about running the generated code that reads JSON: objects
-/

namespace Verif.JsonRun

open GoJson (Val Schema Shape AttrShape DateParser readVal readFields findCase Obj newObj)
open GoProgram hiding given
open TypesRun (Legal value)
open TypesCode (dot)
open BuildersRun (Program Code resolve fieldsOf isObject Holds HoldsFields HoldsItems HoldsEntries execBlock_append
  execBlock_next eval_var eval_dot Valid write write_get write_write Put assign_field exec_assign lookup_mem fieldNames
  names_nodup zero_lookup entityField_mem)
open JsonCode (Form Entity Listing Functions Member nextField readString setBit)

variable {P : Program} {zero : Text → Text → Value Val} {Dt : DateParser} {limit : Nat} {S : Schema}
  {U : TypeId → Code} {J : TypeId → Entity} {L : TypeId → ListCode} {names : List Text}

/-! ## Fields -/

theorem holdsFields_lookup {D : Value Val → Prop} {t : State Val Library} {fs fs' : List (Text × Value Val)} :
    ∀ {as : List (AttrShape × Text)} {vs : List Val}, (∀ f ∈ as.map Prod.snd, fs'.lookup f = fs.lookup f) →
      HoldsFields S U D t fs as vs → HoldsFields S U D t fs' as vs
  | [], [], _, _ => by
    rw [HoldsFields]
    trivial
  | (a, f) :: as, v :: vs, hl, h => by
    rw [HoldsFields] at h ⊢
    obtain ⟨⟨x, hx, hv⟩, hr⟩ := h
    exact ⟨⟨x, by rw [hl f (by simp)]; exact hx, hv⟩, holdsFields_lookup (fun g hg => hl g (by simp [hg])) hr⟩
  | [], _ :: _, _, h => by simp [HoldsFields] at h
  | _ :: _, [], _, h => by simp [HoldsFields] at h

theorem holdsFields_set {D : Value Val → Prop} {t : State Val Library} {fs fs' : List (Text × Value Val)} {a : AttrShape}
    {f : Text} {v : Val} {y : Value Val} (hsame : fs'.lookup f = some y) (hv : Holds S U D t a.typ v y) :
    ∀ {as : List (AttrShape × Text)} {vs : List Val}, (as.map Prod.snd).Nodup →
      (∀ g ∈ as.map Prod.snd, g ≠ f → fs'.lookup g = fs.lookup g) → HoldsFields S U D t fs as vs →
      ∀ i, as[i]? = some (a, f) → HoldsFields S U D t fs' as (vs.set i v)
  | [], [], _, _, _, i, hi => by simp at hi
  | (b, g) :: as, w :: vs, hn, ho, h, i, hi => by
    rw [List.map_cons, List.nodup_cons] at hn
    rw [HoldsFields] at h
    obtain ⟨⟨x, hx, hw⟩, hr⟩ := h
    cases i with
    | zero =>
      simp at hi
      obtain ⟨rfl, rfl⟩ := hi
      rw [List.set_cons_zero, HoldsFields]
      refine ⟨⟨y, hsame, hv⟩, holdsFields_lookup (fun k hk => ?_) hr⟩
      exact ho k (by simp [hk]) fun e => hn.1 (e ▸ hk)
    | succ i =>
      have hm : f ∈ as.map Prod.snd :=
        List.mem_map.mpr ⟨(a, f), List.mem_of_getElem? (by simpa using hi), rfl⟩
      rw [List.set_cons_succ, HoldsFields]
      refine ⟨⟨x, ?_, hw⟩, holdsFields_set hsame hv hn.2 (fun k hk => ho k (by simp [hk])) hr i (by simpa using hi)⟩
      rw [ho g (by simp) fun e => hn.1 (e ▸ hm)]
      exact hx
  | [], _ :: _, _, _, h, _, _ => by simp [HoldsFields] at h
  | _ :: _, [], _, _, h, _, _ => by simp [HoldsFields] at h

/-- The memory while an object is read. -/
def ObjMem (S : Schema) (U : TypeId → Code) (s : State Val Library) (ty : TypeId) (o : Obj)
    (t : State Val Library) : Prop :=
  ∃ fs, Grows s t ∧ t.structs[s.structs.length]? = some fs ∧
    fs.map Prod.fst = (U ty).entity.fields.map Prod.fst ∧ fs.lookup t!"bitmap_" = some (.int o.bitmap) ∧
    ((U ty).builder.isClass = true →
      fs.lookup t!"id" = some (.str o.id) ∧ fs.lookup t!"href" = some (.str o.href)) ∧
    HoldsFields S U (fun p => ¬ Valid s p ∧ p ≠ .pointer s.structs.length) t fs (fieldNames S U ty) o.fields

/-- The same if there is an error. -/
def ObjSafe (U : TypeId → Code) (s : State Val Library) (ty : TypeId) (t : State Val Library) : Prop :=
  Grows s t ∧ ∃ fs, t.structs[s.structs.length]? = some fs ∧
    fs.map Prod.fst = (U ty).entity.fields.map Prod.fst ∧ ∃ n : Nat, fs.lookup t!"bitmap_" = some (.int n)

theorem ObjMem.safe {s t : State Val Library} {ty : TypeId} {o : Obj} (h : ObjMem S U s ty o t) : ObjSafe U s ty t := by
  obtain ⟨fs, hg, hs, hk, hb, -⟩ := h
  exact ⟨hg, fs, hs, hk, _, hb⟩

theorem ObjMem.grow {s t t' : State Val Library} {ty : TypeId} {o : Obj} (h : ObjMem S U s ty o t) (hg : Grows t t') :
    ObjMem S U s ty o t' := by
  obtain ⟨fs, hg', hs, hk, hb, hc, hh⟩ := h
  exact ⟨fs, hg'.trans hg, hg.structs _ _ hs, hk, hb, hc,
    HoldsFields.move (s := t) (t := t') (hg.move fun _ h _ => h) _ _ _ hh⟩

theorem ObjSafe.grow {s t t' : State Val Library} {ty : TypeId} (h : ObjSafe U s ty t) (hg : Grows t t') :
    ObjSafe U s ty t' := by
  obtain ⟨hg', fs, hs, h⟩ := h
  exact ⟨hg'.trans hg, fs, hg.structs _ _ hs, h⟩

theorem ObjMem.put {s t : State Val Library} {ty : TypeId} {fs fs' : List (Text × Value Val)} (o : Obj)
    (hg : Grows s t) (hs : t.structs[s.structs.length]? = some fs)
    (hk : fs'.map Prod.fst = (U ty).entity.fields.map Prod.fst) (hb : fs'.lookup t!"bitmap_" = some (.int o.bitmap))
    (hc : (U ty).builder.isClass = true →
      fs'.lookup t!"id" = some (.str o.id) ∧ fs'.lookup t!"href" = some (.str o.href))
    (hh : HoldsFields S U (fun p => ¬ Valid s p ∧ p ≠ .pointer s.structs.length) t fs' (fieldNames S U ty) o.fields) :
    ObjMem S U s ty o (write t s.structs.length fs') :=
  ⟨fs', grows_write hg _, write_get _ hs, hk, hb, hc,
    HoldsFields.move (s := t) (t := write t s.structs.length fs') (move_write t s.structs.length _) _ _ _ hh⟩

theorem ObjSafe.put {s t : State Val Library} {ty : TypeId} {fs fs' : List (Text × Value Val)} {n : Nat}
    (hg : Grows s t) (hs : t.structs[s.structs.length]? = some fs)
    (hk : fs'.map Prod.fst = (U ty).entity.fields.map Prod.fst) (hb : fs'.lookup t!"bitmap_" = some (.int n)) :
    ObjSafe U s ty (write t s.structs.length fs') :=
  ⟨grows_write hg _, fs', write_get _ hs, hk, n, hb⟩

/-! ## Statements -/

theorem exec_setBit {w : World Val Library} (bit : Nat) {s : State Val Library} {a : Nat}
    {fs : List (Text × Value Val)} {n : Nat} (hx : s.vars.lookup t!"object" = some (.pointer a))
    (hs : s.structs[a]? = some fs) (hf : fs.lookup t!"bitmap_" = some (.int n)) :
    ∃ fs', Put t!"bitmap_" (.int (n ||| 2 ^ bit : Nat)) fs fs' ∧
      (setBit bit).exec w names s = .ok (.next, write s a fs') := by
  obtain ⟨fs', h1, h2⟩ := assign_field w (.int (n ||| 2 ^ bit : Nat)) hx hs hf
  refine ⟨fs', h1, ?_⟩
  simp only [setBit, Stmt.exec, eval_dot hx hs hf, Res.bind, Expr.eval]
  rw [TypesRun.bits_eq]
  change (assign w (.int (n ||| 2 ^ bit : Nat)) (dot t!"object" t!"bitmap_") s).bind _ = _
  rw [h2]
  rfl

/-- Changes a field and its bit. -/
theorem exec_field {w : World Val Library} {f : Text} {e : Expr} (bit : Nat) {s t : State Val Library} {a : Nat}
    {fs : List (Text × Value Val)} {old v : Value Val} {n : Nat} (he : e.eval w s = .ok (v, t))
    (hx : t.vars.lookup t!"object" = some (.pointer a)) (hs : t.structs[a]? = some fs)
    (hf : fs.lookup f = some old) (hb : fs.lookup t!"bitmap_" = some (.int n)) (hne : f ≠ t!"bitmap_") :
    ∃ fs', fs'.map Prod.fst = fs.map Prod.fst ∧ fs'.lookup f = some v ∧
      fs'.lookup t!"bitmap_" = some (.int (n ||| 2 ^ bit : Nat)) ∧
      (∀ g, g ≠ f → g ≠ t!"bitmap_" → fs'.lookup g = fs.lookup g) ∧
      execBlock w names [.assign (dot t!"object" f) e, setBit bit] s = .ok (.next, write t a fs') := by
  obtain ⟨fs1, h1, h2⟩ := assign_field w v hx hs hf
  obtain ⟨fs2, h3, h4⟩ := exec_setBit (names := names) (w := w) bit (s := write t a fs1) hx (write_get fs1 hs)
    (by rw [h1.other _ (Ne.symm hne)]; exact hb)
  refine ⟨fs2, h3.keys.trans h1.keys, ?_, h3.same, fun g hg hg' => ?_, ?_⟩
  · rw [h3.other _ hne]
    exact h1.same
  · rw [h3.other _ hg', h1.other _ hg]
  · rw [execBlock_next (exec_assign he h2), execBlock_next h4, execBlock, write_write]

theorem kind_known {s : State Val Library} (hk : Known s.vars) :
    ∀ u v, (u, v) ∈ s.vars → u = [] ∨ (t!"Kind").reverse ≠ u.reverse.take 4 := by
  have h : ∀ c ∈ known, c = [] ∨ (t!"Kind").reverse ≠ c.reverse.take 4 := by decide
  exact fun u v hm => h u (hk (u, v) hm)

/-! ## The cases of the attributes -/

/-- The statements of the case of an attribute. -/
def memberBody (m : Member) : List Stmt :=
  m.form.read t!"value" ++ [.assign (dot t!"object" m.field) (.var t!"value"), setBit m.bit]

theorem cases_members {w : World Val Library} {key : Text} {tail : List Stmt} {s : State Val Library} :
    ∀ (as : List AttrShape) (ms : List Member) (pos : Nat), ms.length = as.length →
      (∀ (i : Nat) (a : AttrShape) (m : Member), as[i]? = some a → ms[i]? = some m → m.tag = a.tag) →
      (findCase key pos as = none ∧
        execCases w names key (ms.map Member.read ++ tail) s = execCases w names key tail s) ∨
      ∃ (i : Nat) (a : AttrShape) (m : Member), findCase key pos as = some (pos + i, a) ∧ as[i]? = some a ∧
        ms[i]? = some m ∧ execCases w names key (ms.map Member.read ++ tail) s = execBlock w names (memberBody m) s
  | [], [], _, _, _ => .inl ⟨rfl, rfl⟩
  | a :: as, m :: ms, pos, hl, ht => by
    have h0 := ht 0 a m rfl rfl
    rw [findCase, List.map_cons, List.cons_append, Member.read, execCases]
    by_cases hk : a.tag = key
    · refine .inr ⟨0, a, m, ?_, rfl, rfl, ?_⟩
      · rw [if_pos hk]
        rfl
      · rw [if_pos (h0.trans hk)]
        rfl
    · rw [if_neg hk, if_neg (fun e => hk (h0.symm.trans e))]
      rcases cases_members (w := w) (key := key) (tail := tail) (s := s) as ms (pos + 1) (by simpa using hl)
        (fun i a' m' h1 h2 => ht (i + 1) a' m' (by simpa using h1) (by simpa using h2)) with ⟨h1, h2⟩ | ⟨i, a', m', h1, h2, h3, h4⟩
      · exact .inl ⟨h1, h2⟩
      · exact .inr ⟨i + 1, a', m', by rw [h1]; congr 2; omega, by simpa using h2, by simpa using h3, h4⟩
  | [], _ :: _, _, hl, _ => by simp at hl
  | _ :: _, [], _, hl, _ => by simp at hl

/-- What is done for a field. -/
def objStep (Dt : DateParser) (S : Schema) (isClass : Bool) (name : Text) (as : List AttrShape) (f : Nat) (o : Obj)
    (key : Text) (r : List Tok) : Option (Obj × List Tok) :=
  if isClass && key == t!"kind" then
    (GoJson.readString r).map fun p =>
      (if p.1 = name ++ t!"Link" then { o with bitmap := o.bitmap ||| 1 } else o, p.2)
  else if isClass && key == t!"id" then
    (GoJson.readString r).map fun p => ({ o with id := p.1, bitmap := o.bitmap ||| 2 }, p.2)
  else if isClass && key == t!"href" then
    (GoJson.readString r).map fun p => ({ o with href := p.1, bitmap := o.bitmap ||| 4 }, p.2)
  else
    match findCase key 0 as with
    | some (i, a) => (readVal Dt S f a.typ a.link r).map fun p =>
        ({ o with fields := o.fields.set i p.1, bitmap := o.bitmap ||| 2 ^ a.bit }, p.2)
    | none => (GoJson.parseVal f r).map fun p => (o, p.2)

theorem readFields_step (isClass : Bool) (name : Text) (as : List AttrShape) (f : Nat) (o : Obj) (r : List Tok) :
    readFields Dt S (f + 1) isClass name as o r =
      match GoJson.readObject r with
      | none => none
      | some (key, r) =>
        if key = [] then some (o, r)
        else
          match objStep Dt S isClass name as f o key r with
          | none => none
          | some (o, r) => readFields Dt S f isClass name as o r := by
  rw [readFields]
  cases GoJson.readObject r with
  | none => rfl
  | some p =>
    obtain ⟨key, r⟩ := p
    dsimp only [objStep]
    split
    · rfl
    · split
      · cases GoJson.readString r <;> rfl
      · split
        · cases GoJson.readString r <;> rfl
        · split
          · cases GoJson.readString r <;> rfl
          · cases findCase key 0 as with
            | none => cases GoJson.parseVal f r <;> rfl
            | some q =>
              dsimp only
              cases readVal Dt S f q.2.typ q.2.link r <;> rfl

/-! ## One field -/

/-- The cases of the fields of an object. -/
def objCases (e : Entity) : List Stmt :=
  (if e.isClass then e.readIdentity else []) ++ e.members.map Member.read ++
    [.default [.perform t!"iterator.ReadAny" []]]

theorem entity_names {c : Bool} {as : List AttrShape} {u : Code} (h : BuildersRun.Linked P zero S U c as u) :
    t!"bitmap_" ∈ u.entity.fields.map Prod.fst ∧
    (c = true → t!"id" ∈ u.entity.fields.map Prod.fst ∧ t!"href" ∈ u.entity.fields.map Prod.fst) ∧
    ∀ (i : Nat) m, u.builder.members[i]? = some m → m.field ∈ u.entity.fields.map Prod.fst := by
  refine ⟨by simp [TypesCode.Entity.fields], fun hc => ?_, fun i m hm => ?_⟩
  · simp [TypesCode.Entity.fields, h.entityClass, hc]
  · have hi : i < as.length := by
      rw [← h.members]
      exact (List.getElem?_eq_some_iff.mp hm).1
    have hi' : i < u.entity.members.length := by
      rw [h.entityMembers]
      exact hi
    have hmt := h.attributes i as[i] m _ (List.getElem?_eq_getElem hi) hm (List.getElem?_eq_getElem hi')
    rw [← hmt.field]
    exact List.mem_map.mpr ⟨_, entityField_mem _ _ (List.getElem_mem hi'), rfl⟩

theorem fieldNames_eq {ty : TypeId} {c : Bool} {n : Text} {as : List AttrShape} (hS : S ty = .struct c n as) :
    fieldNames S U ty = as.zip ((U ty).builder.members.map (·.field)) := by
  simp [fieldNames, hS]

theorem step_object (hw : Whole P zero S U J L) {N k : Nat} {ty : TypeId} {c : Bool} {n : Text} {as : List AttrShape}
    {s0 : State Val Library} {z h : Value Val} (hIH : ∀ M, M < N → FormReads P zero Dt limit S U J L M) (hNk : N ≤ k)
    (hS : S ty = .struct c n as) (o : Obj) (key : Text) (s : State Val Library)
    (hb : s.user.failed = false) (hN : s.user.input.length < N) (hI : ObjMem S U s0 ty o s)
    (hv : s.vars = (t!"field", .str key) :: (t!"object", .pointer s0.structs.length) :: given z h) :
    ∃ r, Settles (fun f => objStep Dt S c n as f o key s.user.input) r ∧
      (∀ a' rest, r = some (a', rest) → rest.length ≤ s.user.input.length) ∧
      Turns (ObjMem S U s0 ty) (ObjSafe U s0 ty) s s.vars (execBlock (world P zero Dt limit k (U ty).pkg) names
        [.switch (.var t!"field") (objCases (J ty))] s) r := by
  have hl := hw.base.linked ty _ _ _ hS
  have hj := hw.objects ty _ _ _ hS
  have hen := entity_names hl
  have hnm := names_nodup (U ty).builder hl.nodup
  have hfn := fieldNames_eq (U := U) hS
  have hsnd : (fieldNames S U ty).map Prod.snd = (U ty).builder.members.map (·.field) := by
    rw [hfn, List.map_snd_zip]
    simp [hl.members]
  have hxs : s.vars.lookup t!"object" = some (.pointer s0.structs.length) := by
    rw [hv]
    rfl
  have hit : s.vars.lookup t!"iterator" = some h := by
    rw [hv]
    rfl
  have hks : Known s.vars := by
    rw [hv]
    exact ((known_given z h).cons (by decide) _).cons (by decide) _
  have hIs := hI
  obtain ⟨fs, hg, hfs, hkeys, hbit, hid, hh⟩ := hI
  suffices H : ∃ r, Settles (fun f => objStep Dt S c n as f o key s.user.input) r ∧
      (∀ a' rest, r = some (a', rest) → rest.length ≤ s.user.input.length) ∧
      Turns (ObjMem S U s0 ty) (ObjSafe U s0 ty) s s.vars (execCases (world P zero Dt limit k (U ty).pkg) names key
        (objCases (J ty)) s) r by
    obtain ⟨r, h1, h2, h3⟩ := H
    refine ⟨r, h1, h2, turns_switch (fun _ _ _ hs h => ObjMem.grow h hs.grows)
      (fun _ _ hs h => ObjSafe.grow h hs.grows) ?_ h3⟩
    rw [hv]
    simp
  have hold : ∀ f, f ∈ (U ty).entity.fields.map Prod.fst → ∃ v, fs.lookup f = some v := fun f hf =>
    lookup_mem f fs (by rw [hkeys]; exact hf)
  have hsg : ∀ u : Library, Grows s0 { s with user := u } := fun u =>
    hg.trans ⟨fun _ _ h => h, fun _ _ h => h, fun _ _ h => h⟩
  have hsf : ∀ (u : Library) vars fs', (∀ f ∈ (fieldNames S U ty).map Prod.snd, fs'.lookup f = fs.lookup f) →
      HoldsFields S U (fun p => ¬ Valid s0 p ∧ p ≠ .pointer s0.structs.length) { s with user := u, vars := vars } fs'
        (fieldNames S U ty) o.fields := fun u vars fs' hl =>
    holdsFields_lookup hl (HoldsFields.move (s := s) (t := { s with user := u, vars := vars })
      (Grows.move (s := s) (t := { s with user := u, vars := vars })
        ⟨fun _ _ h => h, fun _ _ h => h, fun _ _ h => h⟩ fun _ h _ => h) _ _ _ hh)
  have hrest : c = false ∨ (key ≠ t!"kind" ∧ key ≠ t!"id" ∧ key ≠ t!"href") →
      ∃ r, Settles (fun f => objStep Dt S c n as f o key s.user.input) r ∧
      (∀ a' rest, r = some (a', rest) → rest.length ≤ s.user.input.length) ∧
      Turns (ObjMem S U s0 ty) (ObjSafe U s0 ty) s s.vars (execCases (world P zero Dt limit k (U ty).pkg) names key
        ((J ty).members.map Member.read ++ [.default [.perform t!"iterator.ReadAny" []]]) s) r := by
    intro hnc
    have hstep : ∀ f, objStep Dt S c n as f o key s.user.input =
        match findCase key 0 as with
        | some (i, a) => (readVal Dt S f a.typ a.link s.user.input).map fun p =>
            ({ o with fields := o.fields.set i p.1, bitmap := o.bitmap ||| 2 ^ a.bit }, p.2)
        | none => (GoJson.parseVal f s.user.input).map fun p => (o, p.2) := by
      intro f
      unfold objStep
      rcases hnc with rfl | ⟨h1, h2, h3⟩
      · simp
      · simp [h1, h2, h3]
    rcases cases_members (w := world P zero Dt limit k (U ty).pkg) (names := names) (key := key)
      (tail := [.default [.perform t!"iterator.ReadAny" []]]) (s := s) as (J ty).members 0 hj.members
      (fun i a m h1 h2 => by
        have hi : i < (U ty).builder.members.length := by
          rw [hl.members]
          exact (List.getElem?_eq_some_iff.mp h1).1
        exact (hj.attributes i a m _ h1 h2 (List.getElem?_eq_getElem hi)).tag) with ⟨h1, h2⟩ | ⟨i, a, m, h1, h2, h3, h4⟩
    · rw [h2, execCases]
      obtain ⟨r, h4, h5, h6⟩ := turns_ignore (P := P) (zero := zero) (Dt := Dt) (limit := limit) (names := names) (k := k)
        (pkg := (U ty).pkg) (s := s) (Inv := ObjMem S U s0 ty) (Safe := ObjSafe U s0 ty) (a := o) (fun _ _ h => h.safe)
        (fun _ _ _ hs h => ObjMem.grow h hs.grows) hb hIs
      exact ⟨r, h4.congr fun f => by rw [hstep, h1], h5, h6⟩
    · rw [h4]
      rw [Nat.zero_add] at h1
      have hi : i < (U ty).builder.members.length := by
        rw [hl.members]
        exact (List.getElem?_eq_some_iff.mp h2).1
      obtain ⟨f, hf⟩ : ∃ f, (U ty).builder.members[i]? = some f := ⟨_, List.getElem?_eq_getElem hi⟩
      have hmt := hj.attributes i a m f h2 h3 hf
      have hfm : f.field ∈ (U ty).builder.members.map (·.field) :=
        List.mem_map.mpr ⟨f, List.mem_of_getElem? hf, rfl⟩
      have hne : f.field ≠ t!"bitmap_" := fun e => hnm.2.1 (e ▸ hfm)
      have hni : (U ty).builder.isClass = true → t!"id" ≠ f.field ∧ t!"href" ≠ f.field := fun hc =>
        ⟨fun e => (hnm.2.2 hc).1 (e ▸ hfm), fun e => (hnm.2.2 hc).2 (e ▸ hfm)⟩
      obtain ⟨old, hol⟩ := hold _ (hen.2.2 i f hf)
      have hnth : (fieldNames S U ty)[i]? = some (a, f.field) := by
        rw [hfn, List.getElem?_zip_eq_some]
        exact ⟨h2, by rw [List.getElem?_map, hf]; rfl⟩
      obtain ⟨r, hsays, hgot⟩ := hIH (N - 1) (by omega) m.form a.typ a.link (U ty).pkg k s t!"value" names h (by omega)
        (by omega) hmt.form (by simp) (fun _ _ => rfl) hit hks
      simp only [Says, hb] at hsays
      have hrun : ∀ {t : State Val Library} {y : Value Val} {pre : List (Text × Value Val)},
          execBlock (world P zero Dt limit k (U ty).pkg) names (m.form.read t!"value") s = .ok (.next, t) →
          t.vars = pre ++ s.vars → Fresh t!"value" pre → pre.lookup t!"value" = some y → Grows s t →
          ∃ fs', fs'.map Prod.fst = fs.map Prod.fst ∧ fs'.lookup f.field = some y ∧
            fs'.lookup t!"bitmap_" = some (.int (o.bitmap ||| 2 ^ a.bit : Nat)) ∧
            (∀ g, g ≠ f.field → g ≠ t!"bitmap_" → fs'.lookup g = fs.lookup g) ∧
            execBlock (world P zero Dt limit k (U ty).pkg) names (memberBody m) s =
              .ok (.next, write t s0.structs.length fs') := by
        intro t y pre he htv hfr hy hgt
        obtain ⟨fs', g1, g2, g3, g4, g5⟩ := exec_field (names := names) (w := world P zero Dt limit k (U ty).pkg) m.bit
          (f := m.field) (e := .var t!"value") (s := t) (t := t) (v := y) (a := s0.structs.length) (fs := fs)
          (eval_var (by rw [htv]; exact lookup_pre hy)) (by rw [htv, hfr.lookup (by decide)]; exact hxs)
          (hgt.structs _ _ hfs) (by rw [hmt.field]; exact hol) hbit (by rw [hmt.field]; exact hne)
        rw [hmt.field] at g2 g4
        rw [hmt.bit] at g3
        exact ⟨fs', g1, g2, g3, g4, by rw [memberBody, execBlock_append _ _ _ _ _ _ he, g5]⟩
      cases r with
      | none =>
        obtain ⟨t, y, pre, rest, he, htv, hfr, hy, hgt, hle, hut⟩ := hgot
        obtain ⟨fs', g1, g2, g3, g4, g5⟩ := hrun he htv hfr hy hgt
        refine ⟨none, (hsays.1.map (Option.map fun p =>
          ({ o with fields := o.fields.set i p.1, bitmap := o.bitmap ||| 2 ^ a.bit }, p.2))).congr fun f => ?_, by simp, _,
          pre, rest, g5, htv, hle, hut, ObjSafe.put (hg.trans hgt) (hgt.structs _ _ hfs) (g1.trans hkeys) g3⟩
        rw [hstep, h1]
      | some p =>
        obtain ⟨v', rest⟩ := p
        obtain ⟨t, y, pre, he, htv, hfr, hy, hgt, hut, hhold⟩ := hgot
        obtain ⟨fs', g1, g2, g3, g4, g5⟩ := hrun he htv hfr hy hgt
        refine ⟨some ({ o with fields := o.fields.set i v', bitmap := o.bitmap ||| 2 ^ a.bit }, rest),
          (hsays.1.map (Option.map fun p =>
          ({ o with fields := o.fields.set i p.1, bitmap := o.bitmap ||| 2 ^ a.bit }, p.2))).congr fun f => ?_, ?_, _,
          pre, g5, htv, hut, ObjMem.put _ (hg.trans hgt) (hgt.structs _ _ hfs) (g1.trans hkeys) g3 (fun hc => ?_) ?_⟩
        · rw [hstep, h1]
        · intro a' rest' he'
          cases he'
          exact Nat.le_of_lt (hsays.2 _ _ rfl)
        · rw [g4 _ (hni hc).1 (by decide), g4 _ (hni hc).2 (by decide)]
          exact hid hc
        · refine holdsFields_set (a := a) (f := f.field) (fs := fs) g2 ?_ (by rw [hsnd]; exact hnm.1) (fun g hgm hgn => ?_) ?_ i hnth
          · refine Holds.move (s := t) (t := t) (BuildersRun.Move.change fun p hp _ => ⟨fun hvs => ?_, ?_⟩) _ _ _ hhold
            · exact hp (hg.valid p hvs)
            · rintro rfl
              exact hp (List.getElem?_eq_some_iff.mp hfs).1
          · refine g4 g hgn fun e => hnm.2.1 ?_
            rw [← hsnd, ← e]
            exact hgm
          · exact HoldsFields.move (s := s) (t := t) (hgt.move fun _ h _ => h) _ _ _ hh
  cases c with
  | false =>
    have : objCases (J ty) = (J ty).members.map Member.read ++ [.default [.perform t!"iterator.ReadAny" []]] := by
      simp [objCases, hj.isClass]
    rw [this]
    exact hrest (.inl rfl)
  | true =>
    have : objCases (J ty) = (J ty).readIdentity ++ ((J ty).members.map Member.read ++
        [.default [.perform t!"iterator.ReadAny" []]]) := by
      simp [objCases, hj.isClass]
    rw [this, Entity.readIdentity]
    simp only [List.cons_append, List.nil_append]
    have hcl := hl.isClass
    have hno : ∀ f ∈ (fieldNames S U ty).map Prod.snd, f ≠ t!"id" ∧ f ≠ t!"href" ∧ f ≠ t!"bitmap_" := by
      intro f hf
      rw [hsnd] at hf
      exact ⟨fun e => (hnm.2.2 hcl).1 (e ▸ hf), fun e => (hnm.2.2 hcl).2 (e ▸ hf), fun e => hnm.2.1 (e ▸ hf)⟩
    by_cases h1 : key = t!"kind"
    · rw [cases_hit h1.symm]
      have hstep : ∀ f, objStep Dt S true n as f o key s.user.input =
          (GoJson.readString s.user.input).map fun p =>
            (if p.1 = n ++ t!"Link" then { o with bitmap := o.bitmap ||| 1 } else o, p.2) := by
        intro f
        simp [objStep, h1]
      have hrun : ∀ {u : Text} {l : Library}, readString.eval (world P zero Dt limit k (U ty).pkg) s =
          .ok (.str u, { s with user := l }) →
          ∃ t, execBlock (world P zero Dt limit k (U ty).pkg) names [
            .define t!"value" readString,
            .branch (.eq (.var t!"value") (.var ((J ty).object ++ t!"LinkKind"))) [setBit 0] []] s = .ok (.next, t) ∧
            t.vars = [(t!"value", .str u)] ++ s.vars ∧ t.user = l ∧
            ObjMem S U s0 ty (if u = n ++ t!"Link" then { o with bitmap := o.bitmap ||| 1 } else o) t := by
        intro u l he
        rw [execBlock_next (exec_define he)]
        have hev : (Expr.eq (.var t!"value") (.var ((J ty).object ++ t!"LinkKind"))).eval
            (world P zero Dt limit k (U ty).pkg) { s with user := l, vars := (t!"value", .str u) :: s.vars } =
            .ok (.bool (u == n ++ t!"Link"), { s with user := l, vars := (t!"value", .str u) :: s.vars }) := by
          rw [Expr.eval, eval_var (v := .str u) (by simp), bind_ok]
          dsimp only
          rw [(eval_kind hw hS (kind_known (hks.cons (by decide) _))).2, bind_ok]
          rfl
        obtain ⟨fs', g1, g2⟩ := exec_setBit (names := names) (w := world P zero Dt limit k (U ty).pkg) 0
          (s := { s with user := l, vars := (t!"value", .str u) :: s.vars }) (a := s0.structs.length)
          (by rw [List.lookup_cons]; simpa using hxs) hfs hbit
        by_cases hu : u = n ++ t!"Link"
        · refine ⟨write { s with user := l, vars := (t!"value", .str u) :: s.vars } s0.structs.length fs', ?_, rfl, rfl, ?_⟩
          · rw [execBlock, Stmt.exec, hev, bind_ok]
            dsimp only
            rw [show (u == n ++ t!"Link") = true from beq_iff_eq.mpr hu]
            dsimp only
            rw [execBlock_next g2, execBlock, bind_ok]
            generalize hst : write { s with user := l, vars := (t!"value", .str u) :: s.vars } s0.structs.length fs' = st
            rw [leave_same (by rw [← hst]; rfl), bind_ok]
            dsimp only
            rw [execBlock]
          · rw [if_pos hu]
            refine ObjMem.put _ (hg.trans ⟨fun _ _ h => h, fun _ _ h => h, fun _ _ h => h⟩) hfs (g1.keys.trans hkeys) g1.same (fun hc => ?_)
              (hsf _ _ _ fun f hf => g1.other f (hno f hf).2.2)
            rw [g1.other _ (by decide), g1.other _ (by decide)]
            exact hid hc
        · refine ⟨{ s with user := l, vars := (t!"value", .str u) :: s.vars }, ?_, rfl, rfl, ?_⟩
          · rw [execBlock, Stmt.exec, hev, bind_ok]
            dsimp only
            rw [show (u == n ++ t!"Link") = false from beq_eq_false_iff_ne.mpr hu]
            dsimp only
            rw [execBlock, bind_ok, leave_same rfl, bind_ok]
            dsimp only
            rw [execBlock]
          · rw [if_neg hu]
            exact hIs.grow ⟨fun _ _ h => h, fun _ _ h => h, fun _ _ h => h⟩
      rcases text_cases (P := P) (zero := zero) (Dt := Dt) (limit := limit) k (U ty).pkg hb with ⟨u, q, hq, hlt, he⟩ | ⟨hq, he⟩
      · obtain ⟨t, g1, g2, g3, g4⟩ := hrun he
        refine ⟨some (_, q), (Settles.const _).congr fun f => by rw [hstep, hq]; rfl, ?_, t, _, g1, g2, g3, g4⟩
        intro a' rest he'
        cases he'
        exact Nat.le_of_lt hlt
      · obtain ⟨t, g1, g2, g3, g4⟩ := hrun he
        exact ⟨none, (Settles.const _).congr fun f => by rw [hstep, hq]; rfl, by simp, t, _, s.user.input, g1, g2,
          Nat.le_refl _, g3, g4.safe⟩
    rw [cases_miss (Ne.symm h1)]
    by_cases h2 : key = t!"id"
    · rw [cases_hit h2.symm]
      have hstep : ∀ f, objStep Dt S true n as f o key s.user.input =
          (GoJson.readString s.user.input).map fun p => ({ o with id := p.1, bitmap := o.bitmap ||| 2 }, p.2) := by
        intro f
        simp [objStep, h2]
      have hrun : ∀ {u : Text} {l : Library}, readString.eval (world P zero Dt limit k (U ty).pkg) s =
          .ok (.str u, { s with user := l }) →
          ∃ t, execBlock (world P zero Dt limit k (U ty).pkg) names
            [.assign (dot t!"object" t!"id") readString, setBit 1] s = .ok (.next, t) ∧
            t.vars = [] ++ s.vars ∧ t.user = l ∧
            ObjMem S U s0 ty { o with id := u, bitmap := o.bitmap ||| 2 } t := by
        intro u l he
        obtain ⟨old, hol⟩ := hold _ (hen.2.1 rfl).1
        obtain ⟨fs', g1, g2, g3, g4, g5⟩ := exec_field (names := names) 1 he hxs hfs hol hbit (by decide)
        refine ⟨_, g5, rfl, rfl, ObjMem.put _ (hsg l) hfs (g1.trans hkeys) g3 (fun hc => ⟨g2, ?_⟩)
          (hsf _ _ _ fun f hf => g4 f (hno f hf).1 (hno f hf).2.2)⟩
        rw [g4 _ (by decide) (by decide)]
        exact (hid hc).2
      rcases text_cases (P := P) (zero := zero) (Dt := Dt) (limit := limit) k (U ty).pkg hb with ⟨u, q, hq, hlt, he⟩ | ⟨hq, he⟩
      · obtain ⟨t, g1, g2, g3, g4⟩ := hrun he
        refine ⟨some (_, q), (Settles.const _).congr fun f => by rw [hstep, hq]; rfl, ?_, t, _, g1, g2, g3, g4⟩
        intro a' rest he'
        cases he'
        exact Nat.le_of_lt hlt
      · obtain ⟨t, g1, g2, g3, g4⟩ := hrun he
        exact ⟨none, (Settles.const _).congr fun f => by rw [hstep, hq]; rfl, by simp, t, _, s.user.input, g1, g2,
          Nat.le_refl _, g3, g4.safe⟩
    rw [cases_miss (Ne.symm h2)]
    by_cases h3 : key = t!"href"
    · rw [cases_hit h3.symm]
      have hstep : ∀ f, objStep Dt S true n as f o key s.user.input =
          (GoJson.readString s.user.input).map fun p => ({ o with href := p.1, bitmap := o.bitmap ||| 4 }, p.2) := by
        intro f
        simp [objStep, h3]
      have hrun : ∀ {u : Text} {l : Library}, readString.eval (world P zero Dt limit k (U ty).pkg) s =
          .ok (.str u, { s with user := l }) →
          ∃ t, execBlock (world P zero Dt limit k (U ty).pkg) names
            [.assign (dot t!"object" t!"href") readString, setBit 2] s = .ok (.next, t) ∧
            t.vars = [] ++ s.vars ∧ t.user = l ∧
            ObjMem S U s0 ty { o with href := u, bitmap := o.bitmap ||| 4 } t := by
        intro u l he
        obtain ⟨old, hol⟩ := hold _ (hen.2.1 rfl).2
        obtain ⟨fs', g1, g2, g3, g4, g5⟩ := exec_field (names := names) 2 he hxs hfs hol hbit (by decide)
        refine ⟨_, g5, rfl, rfl, ObjMem.put _ (hsg l) hfs (g1.trans hkeys) g3 (fun hc => ⟨?_, g2⟩)
          (hsf _ _ _ fun f hf => g4 f (hno f hf).2.1 (hno f hf).2.2)⟩
        rw [g4 _ (by decide) (by decide)]
        exact (hid hc).1
      rcases text_cases (P := P) (zero := zero) (Dt := Dt) (limit := limit) k (U ty).pkg hb with ⟨u, q, hq, hlt, he⟩ | ⟨hq, he⟩
      · obtain ⟨t, g1, g2, g3, g4⟩ := hrun he
        refine ⟨some (_, q), (Settles.const _).congr fun f => by rw [hstep, hq]; rfl, ?_, t, _, g1, g2, g3, g4⟩
        intro a' rest he'
        cases he'
        exact Nat.le_of_lt hlt
      · obtain ⟨t, g1, g2, g3, g4⟩ := hrun he
        exact ⟨none, (Settles.const _).congr fun f => by rw [hstep, hq]; rfl, by simp, t, _, s.user.input, g1, g2,
          Nat.le_refl _, g3, g4.safe⟩
    rw [cases_miss (Ne.symm h3)]
    exact hrest (.inr ⟨h1, h2, h3⟩)

end Verif.JsonRun
