import Verif.Lemmas.JsonWriteList

/-!
# Running the generated functions that write lists that are links and objects
-/

namespace Verif.JsonRun

open GoJson (Val Schema Shape AttrShape DateParser writeVal writeFields writeItems writeAll writeEntries sortKeys
  insertKey writeHeader)
open GoProgram
open TypesRun (Legal value)
open TypesCode (dot bitSet)
open BuildersRun (Program Code resolve fieldsOf isObject Holds HoldsFields HoldsItems HoldsEntries execBlock_append
  execBlock_append_stop execBlock_next execBlock_panic eval_var eval_dot eval_dot_nil exec_range)
open JsonCode (Form Entity Listing Functions Member)
open GoBuilder (typed typedFields typedItems typedEntries)

variable {P : Program} {zero : Text → Text → Value Val} {Dt : DateParser} {limit : Nat} {S : Schema}
  {U : TypeId → Code} {J : TypeId → Entity} {L : TypeId → ListCode} {names : List Text}

/-- A statement that calls a function that writes. -/
theorem exec_apply {w : World Val Library} {f : Text} {args : List Expr} {vs : List (Value Val)}
    {s : State Val Library} {o : Option (List Tok)} (ha : evalArgs w args s = .ok (vs, s))
    (h : Writes s (w.apply f vs s) o) : Wrote s s.vars ((Stmt.apply f args).exec w names s) o := by
  rw [Stmt.exec, ha, bind_ok]
  cases o with
  | none =>
    have h : w.apply f vs s = .panic := h
    dsimp only
    rw [h]
    rfl
  | some ts =>
    obtain ⟨arrays, h⟩ := h
    refine ⟨arrays, ?_⟩
    dsimp only
    rw [h]
    rfl

theorem link_declared (hw : Whole P zero S U J L) {el : TypeId} (ho : isObject (S el) = true) :
    Legal (P (U el).pkg) ∧ ∀ d ∈ (U el).declarations, d ∈ P (U el).pkg := by
  cases hS : S el <;> simp [hS, isObject] at ho
  have := hw.base.linked el _ _ _ hS
  exact ⟨this.legal, this.declared⟩

theorem list_method (hw : Whole P zero S U J L) {el : TypeId} (ho : isObject (S el) = true) {i : TypesCode.Item}
    (hi : i ∈ (U el).entity.listMethods) : i.decl ∈ P (U el).pkg := by
  refine (link_declared hw ho).2 _ (List.mem_map.mpr ⟨i, ?_, rfl⟩)
  simp [TypesCode.Entity.items, hi]

/-- The items of a list. -/
theorem eval_items (hw : Whole P zero S U J L) {el : TypeId} {pkg typ : Text} {fuel : Nat} {s : State Val Library}
    {e : Expr} {a : Nat} {href link items : Value Val} (ho : isObject (S el) = true)
    (hr : resolve pkg typ = ((U el).pkg, (U el).entity.list))
    (he : e.eval (world P zero Dt limit (fuel + 1) pkg) s = .ok (.pointer a, s))
    (hs : s.structs[a]? = some [(t!"href", href), (t!"link", link), (t!"items", items)]) :
    (Expr.method typ e t!"Items" []).eval (world P zero Dt limit (fuel + 1) pkg) s = .ok (items, s) := by
  have hm := list_method hw ho (i := (U el).entity.listMethods[4]'(by simp [TypesCode.Entity.listMethods]))
    (List.getElem_mem _)
  have := methods_eq (P := P) (zero := zero) (Dt := Dt) (limit := limit) fuel (.pointer a) [] s hr
    (link_declared hw ho).1 hm rfl
  rw [Expr.eval, he, bind_ok]
  dsimp only
  rw [evalArgs, bind_ok]
  dsimp only
  rw [this]
  simp [Func.call, execBlock, Stmt.exec, TypesCode.isNil, Expr.eval, List.lookup, Res.bind, equal, Res.ofOption,
    leave, evalArgs, TypesCode.dot, State.field, hs, single]

theorem write_link (hw : Whole P zero S U J L) {ty el : TypeId} {n : Text} {pkg typ t r : Text} {fuel : Nat}
    {s : State Val Library} {x h : Value Val} {v : Val} {D : Value Val → Prop} {e : Expr} (hS : S ty = .list n el)
    (ho : isObject (S el) = true) (hrt : resolve pkg typ = ((U el).pkg, (U el).entity.list))
    (hr : resolve pkg t = ((L ty).pkg, (L ty).listing.functions.write))
    (hIH : ∀ l h items, v = .linkList l h (.list items) → ∀ v ∈ items,
      FormWrites P zero Dt limit S U J L v ∧ sizeOf v ≤ fuel)
    (ht : typed S ty true v = true) (hn : v ≠ .nil) (hh : Holds S U D s ty v x)
    (hs : s.vars.lookup t!"stream" = some h) (he : Reads (world P zero Dt limit (fuel + 1) pkg) e x s) :
    Wrote s s.vars (execBlock (world P zero Dt limit (fuel + 1) pkg) names ((Form.linkList typ t r).write e) s)
      (writeVal S ty true v) := by
  obtain ⟨l, href, items, rfl, hti, hIH'⟩ : ∃ l href items, v = .linkList l href items ∧
      typed S ty false items = true ∧ ∀ is, items = .list is → ∀ v ∈ is,
        FormWrites P zero Dt limit S U J L v ∧ sizeOf v ≤ fuel := by
    rcases BuildersRun.typed_link hS ht with rfl | ⟨l, href, -, rfl | ⟨items, rfl, hti⟩⟩
    · exact absurd rfl hn
    · exact ⟨l, href, .nil, rfl, by simp [typed, hS], fun _ h => by cases h⟩
    · exact ⟨l, href, .list items, rfl, by simp [typed, hS, hti], fun is h v hv => by
        cases h
        exact hIH l href items rfl v hv⟩
  rw [Holds] at hh
  obtain ⟨a, y, rfl, hD, hfs, hy⟩ := hh
  rw [writeVal, hS, Form.write]
  dsimp only
  rw [if_pos rfl]
  generalize hq : writeVal S ty false items = o
  refine Wrote.cons (ts := [.objectStart]) (v := s.vars)
    (o := o.map fun ts => .str t!"items" :: .colon :: (ts ++ [.objectEnd])) (performs ⟨_, rfl, rfl⟩ rfl) ?_
    (by cases o <;> rfl)
  intro arrays
  refine Wrote.cons (ts := [.str t!"items", .colon]) (v := s.vars)
    (o := o.map (· ++ [.objectEnd])) (performs (vs := [.str t!"items"]) ⟨_, rfl, rfl⟩ (args_one (by rw [Expr.eval]))) ?_
    (by cases o <;> rfl)
  intro arrays'
  rw [after_after]
  generalize arrays ++ arrays' = arrays
  generalize [Tok.objectStart] ++ [Tok.str t!"items", Tok.colon] = ts
  have hev : (Expr.method typ e t!"Items" []).eval (world P zero Dt limit (fuel + 1) pkg) (after s arrays ts s.vars) =
      .ok (y, after s arrays ts s.vars) :=
    eval_items hw ho hrt ((he.after arrays ts).self) hfs
  have hap : Wrote _ _ ((Stmt.apply t [.method typ e t!"Items" [], .var t!"stream"]).exec
      (world P zero Dt limit (fuel + 1) pkg) names (after s arrays ts s.vars)) o := exec_apply (vs := [y, h])
    (args_two hev (eval_var hs)) (hq ▸ write_list hw hS hr hIH' hti (holds_after hy arrays ts s.vars))
  cases o with
  | none => exact execBlock_panic hap
  | some us =>
    refine Wrote.cons (o := some [.objectEnd]) hap (fun arrays => ?_) rfl
    exact Wrote.one (performs ⟨_, rfl, rfl⟩ rfl)

/-! ## Objects -/

/-- The variables of the function that writes objects. -/
def base (x h : Value Val) : List (Text × Value Val) := [([], .nil), (t!"object", x), (t!"stream", h)]

/-- The same with the counter. -/
def counted (n : Nat) (x h : Value Val) : List (Text × Value Val) := (t!"count", .int n) :: base x h

theorem exec_increment {w : World Val Library} {s : State Val Library} {vars vars' : List (Text × Value Val)} {n : Nat}
    {c : Text} (hl : vars.lookup c = some (.int n)) (hu : update c (.int (n + 1 : Nat)) vars = some vars')
    (hs : s.vars = vars) : Wrote s vars' ((Stmt.increment c).exec w names s) (some []) := by
  refine ⟨[], ?_⟩
  have hu' : update c (.int ((n : Int) + 1)) vars = some vars' := by
    rw [← hu]; rfl
  simp [Stmt.exec, hs, hl, assign, Res.ofOption, Res.bind, hu', after, wrote]

theorem kind_ne (t u : Text) (h : (t!"Kind").reverse ≠ u.reverse.take 4) : t ++ t!"Kind" ≠ u := by
  rintro rfl
  apply h
  rw [List.reverse_append]
  rfl

theorem resolve_kind {pkg t : Text} (h : '.' ∉ t) (k : Text) (hk : '.' ∉ k) : resolve pkg (t ++ k) = (pkg, t ++ k) :=
  BuildersRun.resolve_simple pkg _ (by simp [h, hk])

/-- The constants that contain the kinds of objects. -/
theorem eval_kind (hw : Whole P zero S U J L) {ty : TypeId} {n : Text} {as : List AttrShape} {fuel : Nat}
    {s : State Val Library} (hS : S ty = .struct true n as)
    (hk : ∀ u v, (u, v) ∈ s.vars → u = [] ∨ (t!"Kind").reverse ≠ u.reverse.take 4) :
    (Expr.var ((J ty).object ++ t!"Kind")).eval (world P zero Dt limit fuel (U ty).pkg) s = .ok (.str n, s) ∧
    (Expr.var ((J ty).object ++ t!"LinkKind")).eval (world P zero Dt limit fuel (U ty).pkg) s =
      .ok (.str (n ++ t!"Link"), s) := by
  have hl := hw.base.linked ty _ _ _ hS
  have hj := hw.objects ty _ _ _ hS
  have hdot : '.' ∉ (J ty).object := by
    rw [hj.object, hl.entity]
    exact hl.simple
  have hdecl : ∀ i ∈ (U ty).entity.kinds, i.decl ∈ P (U ty).pkg := fun i hi =>
    hl.declared _ (List.mem_map.mpr ⟨i, by simp [TypesCode.Entity.items, hl.entityClass, hi], rfl⟩)
  have hno : ∀ t : Text, s.vars.lookup (t ++ t!"Kind") = none := by
    intro t
    rw [List.lookup_eq_none_iff]
    intro p hp
    rw [bne_iff_ne]
    rcases hk p.1 p.2 hp with h | h
    · rw [h]
      simp
    · exact kind_ne t p.1 h
  have hrfc : ∀ t : Text, t ++ t!"Kind" ≠ t!"time.RFC3339" := fun t => kind_ne t _ (by decide)
  have hname : (U ty).entity.object = n := by rw [← hj.object, hj.name]
  constructor
  · rw [Expr.eval, hno]
    dsimp only
    rw [world_consts, constants, if_neg (hrfc _), resolve_kind hdot _ (by decide), hj.object,
      TypesRun.constant_eq _ _ (U ty).entity.object hl.legal (hdecl _ (List.getElem_mem (n := 0) (by simp [TypesCode.Entity.kinds]))),
      hname]
  · have he : (J ty).object ++ t!"LinkKind" = ((J ty).object ++ t!"Link") ++ t!"Kind" := by
      rw [List.append_assoc]; rfl
    rw [Expr.eval, he, hno, ← he]
    dsimp only
    rw [world_consts, constants, if_neg (he ▸ hrfc _), resolve_kind hdot _ (by decide), hj.object,
      TypesRun.constant_eq _ _ ((U ty).entity.object ++ t!"Link") hl.legal
        (hdecl _ (List.getElem_mem (n := 1) (by simp [TypesCode.Entity.kinds]))), hname]

theorem branch_panic {w : World Val Library} {e : Expr} {yes no : List Stmt} {s : State Val Library}
    (h : e.eval w s = .panic) : (Stmt.branch e yes no).exec w names s = .panic := by
  rw [Stmt.exec, h]
  rfl

theorem bit_nil {w : World Val Library} {s : State Val Library} {x : Text} {bit : Nat}
    (hx : s.vars.lookup x = some .nil) : (bitSet x bit).eval w s = .panic := by
  rw [bitSet, Expr.eval, Expr.eval, eval_dot_nil hx]
  rfl

theorem write_name {fuel : Nat} {pkg k : Text} {s : State Val Library} :
    Wrote s s.vars ((Stmt.perform t!"stream.WriteObjectField" [.str k]).exec (world P zero Dt limit fuel pkg) names s)
      (some [.str k, .colon]) :=
  performs (vs := [.str k]) ⟨_, rfl, rfl⟩ (args_one (by rw [Expr.eval]))

/-- One of the optional fields of the identity of an object. -/
theorem write_part {fuel : Nat} {pkg : Text} {s : State Val Library} {a n : Nat} {fs : List (Text × Value Val)}
    {h : Value Val} {bitmap bit : Nat} {k t : Text} {last : Bool} (hvars : s.vars = counted n (.pointer a) h)
    (hs : s.structs[a]? = some fs) (hb : fs.lookup t!"bitmap_" = some (.int bitmap))
    (hk : fs.lookup k = some (.str t)) :
    Wrote s (counted (if bitmap.testBit bit then (if last then n else n + 1) else n) (.pointer a) h)
      ((Stmt.branch (bitSet t!"object" bit) ([
        JsonCode.comma,
        .perform t!"stream.WriteObjectField" [.str k],
        .perform t!"stream.WriteString" [dot t!"object" k]] ++ if last then [] else [.increment t!"count"]) []).exec
        (world P zero Dt limit fuel pkg) names s)
      (some (if bitmap.testBit bit then GoJson.more n ++ [.str k, .colon, .str t] else [])) := by
  have hobj : s.vars.lookup t!"object" = some (.pointer a) := by rw [hvars]; rfl
  refine Wrote.branch (b := bitmap.testBit bit)
    ((TypesRun.eval_present _ t!"object" bit s _ hobj).2 a fs bitmap rfl hs hb).2 (by rw [hvars]; rfl) ⟨[], ?_⟩
  rw [List.nil_append]
  cases bitmap.testBit bit with
  | false =>
    simp only [Bool.false_eq_true, if_false]
    rw [← hvars]
    exact Wrote.nil s
  | true =>
    simp only [if_true]
    refine Wrote.cons (ts := GoJson.more n) (v := s.vars) (o := some [.str k, .colon, .str t])
      (write_more (by rw [hvars]; rfl)) (fun arrays => ?_) rfl
    refine Wrote.cons (ts := [.str k, .colon]) (v := s.vars) (o := some [.str t]) write_name (fun arrays' => ?_) rfl
    rw [after_after]
    refine Wrote.cons (ts := [.str t]) (v := s.vars) (o := some []) ?_ (fun arrays'' => ?_) rfl
    · exact performs (vs := [.str t]) ⟨_, rfl, rfl⟩ (args_one (eval_dot hobj hs hk))
    · rw [after_after]
      cases last with
      | true =>
        simp only [if_true]
        rw [← hvars]
        exact Wrote.nil _
      | false =>
        simp only [if_false, Bool.false_eq_true]
        exact Wrote.one (exec_increment (vars := counted n (.pointer a) h) rfl rfl (by rw [after_vars, hvars]))

theorem write_identity (hw : Whole P zero S U J L) {ty : TypeId} {n : Text} {as : List AttrShape} {fuel : Nat}
    {s : State Val Library} {a : Nat} {fs : List (Text × Value Val)} {h : Value Val} {bitmap : Nat} {id href : Text}
    (hS : S ty = .struct true n as) (hvars : s.vars = counted 0 (.pointer a) h)
    (hs : s.structs[a]? = some fs) (hb : fs.lookup t!"bitmap_" = some (.int bitmap))
    (hid : fs.lookup t!"id" = some (.str id)) (hhref : fs.lookup t!"href" = some (.str href)) :
    Wrote s (counted (writeHeader n (!as.isEmpty) bitmap id href).2 (.pointer a) h)
      (execBlock (world P zero Dt limit fuel (U ty).pkg) names (J ty).writeIdentity s)
      (some (writeHeader n (!as.isEmpty) bitmap id href).1) := by
  have hj := hw.objects ty _ _ _ hS
  have hlast : (J ty).members.isEmpty = as.isEmpty := by
    have := hj.members
    rw [Bool.eq_iff_iff, List.isEmpty_iff_length_eq_zero, List.isEmpty_iff_length_eq_zero, this]
  have hobj : s.vars.lookup t!"object" = some (.pointer a) := by rw [hvars]; rfl
  have hkinds : ∀ t : State Val Library, t.vars = s.vars → ∀ u v, (u, v) ∈ t.vars → u = [] ∨
      (t!"Kind").reverse ≠ u.reverse.take 4 := by
    intro t ht u v hu
    rw [ht, hvars] at hu
    simp [counted, base] at hu
    rcases hu with ⟨rfl, -⟩ | ⟨rfl, -⟩ | ⟨rfl, -⟩ | ⟨rfl, -⟩ <;> decide
  have split : writeHeader n (!as.isEmpty) bitmap id href =
      ([.str t!"kind", .colon] ++ ([.str (if bitmap.testBit 0 then n ++ t!"Link" else n)] ++
        ((if bitmap.testBit 1 then GoJson.more 1 ++ [.str t!"id", .colon, .str id] else []) ++
        (if bitmap.testBit 2 then GoJson.more (if bitmap.testBit 1 then 2 else 1) ++
          [.str t!"href", .colon, .str href] else []))),
       if bitmap.testBit 2 then (if as.isEmpty then (if bitmap.testBit 1 then 2 else 1) else
          (if bitmap.testBit 1 then 2 else 1) + 1) else (if bitmap.testBit 1 then 2 else 1)) := by
    unfold writeHeader
    cases bitmap.testBit 0 <;> cases bitmap.testBit 1 <;> cases bitmap.testBit 2 <;> cases as.isEmpty <;> simp
  rw [split]
  dsimp only
  refine Wrote.cons (v := s.vars) (o := some _) write_name (fun A => ?_) rfl
  refine Wrote.cons (v := s.vars) (o := some _) (ts := [.str (if bitmap.testBit 0 then n ++ t!"Link" else n)]) ?_
    (fun A' => ?_) rfl
  · refine Wrote.branch (b := bitmap.testBit 0)
      ((TypesRun.eval_present _ t!"object" 0 (after s A _ s.vars) _ hobj).2 a fs bitmap rfl hs hb).2 rfl ⟨[], ?_⟩
    rw [List.nil_append]
    have hk := eval_kind (zero := zero) (Dt := Dt) (limit := limit) (fuel := fuel) hw hS
      (s := after s A [.str t!"kind", .colon] s.vars) (hkinds _ rfl)
    cases bitmap.testBit 0 with
    | true =>
      simp only [if_true]
      exact Wrote.one (performs (vs := [.str (n ++ t!"Link")]) ⟨_, rfl, rfl⟩ (args_one hk.2))
    | false =>
      simp only [if_false, Bool.false_eq_true]
      exact Wrote.one (performs (vs := [.str n]) ⟨_, rfl, rfl⟩ (args_one hk.1))
  rw [after_after]
  generalize A ++ A' = A
  generalize ([Tok.str t!"kind", Tok.colon] ++ _) = ts
  refine Wrote.cons (ts := []) (v := counted 1 (.pointer a) h) (o := some _)
    (exec_increment (vars := counted 0 (.pointer a) h) rfl rfl (by rw [after_vars, hvars])) (fun A' => ?_) rfl
  rw [after_after]
  generalize A ++ A' = A
  generalize ts ++ _ = ts
  refine Wrote.cons (v := counted (if bitmap.testBit 1 then 2 else 1) (.pointer a) h) (o := some _)
    (ts := if bitmap.testBit 1 then GoJson.more 1 ++ [.str t!"id", .colon, .str id] else []) ?_ (fun A' => ?_) rfl
  · exact write_part (last := false) (by rw [after_vars]) hs hb hid
  rw [after_after]
  generalize A ++ A' = A
  generalize ts ++ _ = ts
  generalize (if bitmap.testBit 1 then 2 else 1) = c
  refine Wrote.one ?_
  have := write_part (names := names) (P := P) (zero := zero) (Dt := Dt) (limit := limit) (fuel := fuel) (pkg := (U ty).pkg)
    (n := c) (h := h) (bit := 2)
    (s := after s A ts (counted c (.pointer a) h)) (last := as.isEmpty) rfl hs hb hhref
  rw [← hlast] at this ⊢
  exact this

/-! ## Attributes -/

theorem and_eval {w : World Val Library} {s : State Val Library} {e f : Expr} {a b : Bool}
    (he : e.eval w s = .ok (.bool a, s)) (hf : f.eval w s = .ok (.bool b, s)) :
    (Expr.and e f).eval w s = .ok (.bool (a && b), s) := by
  rw [Expr.eval, he, bind_ok]
  cases a <;> simp [hf]

theorem holds_nil {D : Value Val → Prop} {s : State Val Library} {ty : TypeId} {link : Bool} {v : Val} {x : Value Val}
    (hs : (S ty).isScalar = false) (ht : typed S ty link v = true) (hh : Holds S U D s ty v x) :
    equal x .nil = some v.isNil := by
  cases v with
  | nil =>
    have : x = .nil := by simpa [Holds, value] using hh
    subst this
    rfl
  | obj b i hr fs =>
    rw [Holds] at hh
    obtain ⟨a, fs, rfl, -⟩ := hh
    rfl
  | list items =>
    rw [Holds] at hh
    obtain ⟨a, fs, rfl, -⟩ := hh
    rfl
  | linkList l hr items =>
    rw [Holds] at hh
    obtain ⟨a, fs, rfl, -⟩ := hh
    rfl
  | map entries =>
    rw [Holds] at hh
    obtain ⟨a, fs, rfl, -⟩ := hh
    rfl
  | _ => cases hS : S ty <;> simp [hS, typed, GoBuilder.scalarFits, Shape.isScalar] at hs ht

theorem eval_presence {pkg : Text} {fuel : Nat} {D : Value Val → Prop} {s : State Val Library} {at' : AttrShape}
    {m : Member} {a : Nat} {fs : List (Text × Value Val)} {v : Val} {x : Value Val} {bitmap : Nat}
    (hobj : s.vars.lookup t!"object" = some (.pointer a)) (hs : s.structs[a]? = some fs)
    (hb : fs.lookup t!"bitmap_" = some (.int bitmap)) (hbit : m.bit = at'.bit)
    (hsc : m.scalar = (S at'.typ).isScalar) (hx : fs.lookup m.field = some x)
    (ht : typed S at'.typ at'.link v = true) (hh : Holds S U D s at'.typ v x) :
    (if m.scalar then bitSet t!"object" m.bit
      else .and (bitSet t!"object" m.bit) (.ne (dot t!"object" m.field) .nil)).eval
        (world P zero Dt limit fuel pkg) s = .ok (.bool (GoJson.present S bitmap at' v), s) := by
  have hbs := ((TypesRun.eval_present (world P zero Dt limit fuel pkg) t!"object" m.bit s _ hobj).2 a fs bitmap rfl hs hb).2
  rw [GoJson.present, hsc]
  cases hS : (S at'.typ).isScalar with
  | true => simp only [if_true]; rw [hbs, hbit]
  | false =>
    simp only [if_false, Bool.false_eq_true]
    rw [and_eval hbs (b := !v.isNil), hbit]
    rw [Expr.eval, eval_dot hobj hs hx, bind_ok]
    dsimp only
    rw [Expr.eval, bind_ok]
    dsimp only
    rw [holds_nil hS ht hh]
    rfl

/-- The variables when the attributes are written. -/
def inside (b : Bool) (n : Nat) (x h : Value Val) : List (Text × Value Val) := (t!"present_", .bool b) :: counted n x h

theorem write_member {pkg : Text} {fuel : Nat} {D : Value Val → Prop} {s : State Val Library} {at' : AttrShape}
    {m : Member} {f : BuildersCode.Member} {a n : Nat} {fs : List (Text × Value Val)} {v : Val} {x h : Value Val}
    {b last : Bool} {bitmap : Nat} (hvars : s.vars = inside b n (.pointer a) h) (hs : s.structs[a]? = some fs)
    (hb : fs.lookup t!"bitmap_" = some (.int bitmap)) (hm : Matches S U J L pkg at' m f)
    (hx : fs.lookup f.field = some x) (ht : typed S at'.typ at'.link v = true) (hh : Holds S U D s at'.typ v x)
    (hIH : FormWrites P zero Dt limit S U J L v) (hf : sizeOf v ≤ fuel) :
    Wrote s (inside (GoJson.present S bitmap at' v)
        (if GoJson.present S bitmap at' v then (if last then n else n + 1) else n) (.pointer a) h)
      (execBlock (world P zero Dt limit fuel pkg) names (m.write last) s)
      (if GoJson.present S bitmap at' v then
        (writeVal S at'.typ at'.link v).map fun ts => GoJson.more n ++ (.str at'.tag :: .colon :: ts) else some []) := by
  have hobj : s.vars.lookup t!"object" = some (.pointer a) := by rw [hvars]; rfl
  have hx' : fs.lookup m.field = some x := by rw [hm.field]; exact hx
  have hp := eval_presence (P := P) (zero := zero) (Dt := Dt) (limit := limit) (pkg := pkg) (fuel := fuel) hobj hs hb
    hm.bit hm.scalar hx' ht hh
  have hlink : GoJson.present S bitmap at' v = true → at'.link = true → v ≠ .nil := by
    rintro hp hl rfl
    rw [GoJson.present] at hp
    have hns : (S at'.typ).isScalar = true := by
      cases hS : (S at'.typ).isScalar with
      | true => rfl
      | false => simp [hS, Val.isNil] at hp
    cases hS : S at'.typ <;> simp [hS, Shape.isScalar] at hns <;> simp [typed, hS, GoBuilder.scalarFits] at ht
  rw [Member.write]
  generalize hc : (if m.scalar then bitSet t!"object" m.bit
      else .and (bitSet t!"object" m.bit) (.ne (dot t!"object" m.field) .nil)) = cond at hp ⊢
  generalize hpr : GoJson.present S bitmap at' v = p at hp hlink ⊢
  refine Wrote.cons (ts := []) (v := inside p n (.pointer a) h) ?_ (fun A => ?_) (o := _) (by
    rw [show (fun x : List Tok => [] ++ x) = id from rfl, Option.map_id]; rfl)
  · refine ⟨[], ?_⟩
    rw [Stmt.exec, hp, bind_ok]
    dsimp only
    rw [assign, hvars]
    simp [inside, update, Res.ofOption, Res.bind, after, wrote]
  refine Wrote.one (Wrote.branch (b := p) (eval_var rfl) ?_ ⟨[], ?_⟩)
  · cases p <;> cases last <;> rfl
  rw [List.nil_append]
  cases p with
  | false =>
    simp only [Bool.false_eq_true, if_false]
    exact Wrote.nil _
  | true =>
    simp only [if_true]
    generalize hq : writeVal S at'.typ at'.link v = o
    refine Wrote.cons (ts := GoJson.more n) (v := inside true n (.pointer a) h)
      (o := o.map fun ts => .str at'.tag :: .colon :: ts) (write_more rfl) (fun A' => ?_)
      (by cases o <;> rfl)
    rw [after_after]
    refine Wrote.cons (ts := [.str at'.tag, .colon]) (v := inside true n (.pointer a) h) (o := o)
      (by rw [hm.tag]; exact write_name) (fun A'' => ?_) (by cases o <;> rfl)
    rw [after_after]
    generalize A ++ A' ++ A'' = A
    generalize [] ++ _ ++ _ = ts
    have hform := hIH m.form at'.typ at'.link pkg fuel (after s A ts (inside true n (.pointer a) h)) x
      (dot t!"object" m.field) names h D hf hm.form ht (hlink rfl) (holds_after hh _ _ _) rfl rfl (by
        intro t hst hvt
        exact eval_dot (by rw [hvt _ (by decide)]; rfl) (by rw [hst]; exact hs) hx')
    rw [hq, after_vars] at hform
    cases o with
    | none => exact panic_append hform
    | some us =>
      refine Wrote.append hform (o := some []) (fun A' => ?_) (by simp)
      rw [after_after]
      cases last with
      | true =>
        simp only [if_true]
        exact Wrote.nil _
      | false =>
        simp only [if_false, Bool.false_eq_true]
        exact Wrote.one (exec_increment (vars := inside true n (.pointer a) h) rfl rfl rfl)

theorem write_members {pkg : Text} {fuel : Nat} {D : Value Val → Prop} {a : Nat} {fs : List (Text × Value Val)}
    {h : Value Val} {bitmap : Nat} (hb : fs.lookup t!"bitmap_" = some (.int bitmap)) :
    ∀ (as : List AttrShape) (ms : List Member) (bs : List BuildersCode.Member) (vs : List Val) (n : Nat) (b : Bool)
      (s : State Val Library), ms.length = as.length → bs.length = as.length →
      (∀ (i : Nat) (a : AttrShape) (m : JsonCode.Member) (f : BuildersCode.Member),
        as[i]? = some a → ms[i]? = some m → bs[i]? = some f → Matches S U J L pkg a m f) →
      s.vars = inside b n (.pointer a) h → s.structs[a]? = some fs →
      typedFields S as vs = true → HoldsFields S U D s fs (as.zip (bs.map (·.field))) vs →
      (∀ v ∈ vs, FormWrites P zero Dt limit S U J L v ∧ sizeOf v ≤ fuel) →
      Ends s (execBlock (world P zero Dt limit fuel pkg) names (JsonCode.writeMembers ms) s)
        (writeFields S bitmap n as vs)
  | [], [], [], [], n, b, s, _, _, _, _, _, _, _, _ => by
    rw [writeFields]
    exact (Wrote.nil s).ends
  | at' :: as, m :: ms, f :: bs, v :: vs, n, b, s, hms, hbs, hm, hvars, hs, ht, hh, hi => by
    simp only [typedFields, Bool.and_eq_true] at ht
    simp only [List.map_cons, List.zip_cons_cons, HoldsFields] at hh
    obtain ⟨⟨x, hx, hhx⟩, hh⟩ := hh
    simp only [List.length_cons, Nat.add_right_cancel_iff] at hms hbs
    have hone := write_member (names := names) (last := ms.isEmpty) hvars hs hb (hm 0 at' m f rfl rfl rfl) hx ht.1 hhx
      (hi v (by simp)).1 (hi v (by simp)).2
    have hlast : ms.isEmpty = as.isEmpty := by
      rw [Bool.eq_iff_iff, List.isEmpty_iff_length_eq_zero, List.isEmpty_iff_length_eq_zero, hms]
    have hrest : ∀ (b : Bool) (n : Nat) (A : List (List (Value Val))) (ts : List Tok),
        Ends (after s A ts (inside b n (.pointer a) h))
          (execBlock (world P zero Dt limit fuel pkg) names (JsonCode.writeMembers ms)
            (after s A ts (inside b n (.pointer a) h))) (writeFields S bitmap n as vs) := fun b n A ts =>
      write_members hb as ms bs vs n b _ hms hbs
        (fun i a m f h1 h2 h3 => hm (i + 1) a m f (by simpa using h1) (by simpa using h2) (by simpa using h3)) rfl hs
        ht.2 (fields_after hh _ _ _) fun v hv => hi v (by simp [hv])
    rw [JsonCode.writeMembers, writeFields]
    cases hp : GoJson.present S bitmap at' v with
    | false =>
      simp only [hp, Bool.false_eq_true, if_false] at hone ⊢
      refine Ends.append hone (fun A => hrest _ _ A _) ?_
      cases writeFields S bitmap n as vs <;> rfl
    | true =>
      simp only [hp, if_true] at hone ⊢
      cases hwv : writeVal S at'.typ at'.link v with
      | none =>
        rw [hwv] at hone
        exact panic_append hone
      | some ts =>
        rw [hwv] at hone
        refine Ends.append hone (fun A => hrest _ _ A _) ?_
        rw [hlast]
        dsimp only
        cases writeFields S bitmap (if as.isEmpty then n else n + 1) as vs <;> simp
  | [], _ :: _, _, _, _, _, _, hms, _, _, _, _, _, _, _ => by simp at hms
  | _ :: _, [], _, _, _, _, _, hms, _, _, _, _, _, _, _ => by simp at hms
  | [], _, _ :: _, _, _, _, _, _, hbs, _, _, _, _, _, _ => by simp at hbs
  | _ :: _, _, [], _, _, _, _, _, hbs, _, _, _, _, _, _ => by simp at hbs
  | [], _, _, _ :: _, _, _, _, _, _, _, _, _, ht, _, _ => by simp [typedFields] at ht
  | _ :: _, _, _, [], _, _, _, _, _, _, _, _, ht, _, _ => by simp [typedFields] at ht

/-! ## The function -/

/-- The function that writes objects. -/
def objectWriter (e : Entity) : Func :=
  match e.writeFunc with
  | .func f => f
  | _ => { name := [], results := [], body := [] }

theorem write_object (hw : Whole P zero S U J L) {ty : TypeId} {pkg t : Text} {fuel : Nat}
    {s : State Val Library} {x h : Value Val} {v : Val} {D : Value Val → Prop} (ho : isObject (S ty) = true)
    (hr : resolve pkg t = ((U ty).pkg, (J ty).functions.write)) {link : Bool}
    (hIH : ∀ b i hr fs, v = .obj b i hr fs → ∀ v ∈ fs, FormWrites P zero Dt limit S U J L v ∧ sizeOf v ≤ fuel)
    (ht : typed S ty link v = true) (hh : Holds S U D s ty v x) :
    Writes s ((world P zero Dt limit (fuel + 1) pkg).apply t [x, h] s) (writeVal S ty link v) := by
  obtain ⟨c, n, as, hS⟩ : ∃ c n as, S ty = .struct c n as := by
    cases hS : S ty <;> simp [hS, isObject] at ho
    exact ⟨_, _, _, rfl⟩
  have hl := hw.base.linked ty _ _ _ hS
  have hj := hw.objects ty _ _ _ hS
  have hmem : .func (objectWriter (J ty)) ∈ P (U ty).pkg :=
    hj.declared _ (by simp [Entity.items]; exact .inr (.inl rfl))
  rw [apply_eq (f := objectWriter (J ty)) fuel [x, h] s hr hl.legal hmem rfl]
  refine call_writes rfl ?_
  generalize hs0 : ({ s with vars := _ } : State Val Library) = s0
  have hvars : s0.vars = base x h := by rw [← hs0]; rfl
  have hh0 : Holds S U D s0 ty v x := by
    have := holds_after hh [] [] (base x h)
    rw [← hs0]
    simpa [after, wrote, objectWriter, Entity.writeFunc, base] using this
  have hlast : (J ty).members.isEmpty = as.isEmpty := by
    rw [Bool.eq_iff_iff, List.isEmpty_iff_length_eq_zero, List.isEmpty_iff_length_eq_zero, hj.members]
  change Ends s0 (execBlock _ [] (.define t!"count" (.int 0) :: .perform t!"stream.WriteObjectStart" [] ::
      ((if (J ty).isClass then (J ty).writeIdentity else []) ++
      (if (J ty).members.isEmpty then [] else .var t!"present_" t!"bool" :: JsonCode.writeMembers (J ty).members) ++
      [.perform t!"stream.WriteObjectEnd" []])) s0) _
  rw [hj.isClass, hlast]
  have first : ∀ o q : Option (List Tok), q = o.map (.objectStart :: ·) → (∀ A, Ends (after s0 A [.objectStart] (counted 0 x h))
      (execBlock (world P zero Dt limit fuel (U ty).pkg) [] ((if c then (J ty).writeIdentity else []) ++
        (if as.isEmpty then [] else .var t!"present_" t!"bool" :: JsonCode.writeMembers (J ty).members) ++
        [.perform t!"stream.WriteObjectEnd" []]) (after s0 A [.objectStart] (counted 0 x h))) o) →
      Ends s0 (execBlock (world P zero Dt limit fuel (U ty).pkg) [] (.define t!"count" (.int 0) ::
        .perform t!"stream.WriteObjectStart" [] :: ((if c then (J ty).writeIdentity else []) ++
        (if as.isEmpty then [] else .var t!"present_" t!"bool" :: JsonCode.writeMembers (J ty).members) ++
        [.perform t!"stream.WriteObjectEnd" []])) s0) q := by
    intro o q hq hk
    refine Ends.cons (ts := []) (v := counted 0 x h) (o := q) ?_ (fun A => ?_) (by cases q <;> rfl)
    · refine ⟨[], ?_⟩
      rw [Stmt.exec, Expr.eval, bind_ok]
      simp [after, wrote, counted, hvars]
    · refine Ends.cons (ts := [.objectStart]) (v := counted 0 x h) (o := o) (performs ⟨_, rfl, rfl⟩ rfl)
        (fun A' => ?_) (by rw [hq]; cases o <;> rfl)
      rw [after_after]
      exact hk _
  have last : ∀ s : State Val Library, Ends s (execBlock (world P zero Dt limit fuel (U ty).pkg) []
      [.perform t!"stream.WriteObjectEnd" []] s) (some [.objectEnd]) := fun s =>
    Wrote.ends (vars := s.vars) (Wrote.one (performs ⟨_, rfl, rfl⟩ rfl))
  rcases BuildersRun.typed_object hS ht with rfl | ⟨bitmap, id, href, vs, rfl, htf⟩
  · have hx : x = .nil := by simpa [Holds, value] using hh0
    subst hx
    cases c with
    | true =>
      refine first none _ (by rw [writeVal, hS]; rfl) fun A => ?_
      rw [if_pos rfl, List.append_assoc]
      refine panic_append ?_
      have : Wrote (after s0 A [.objectStart] (counted 0 .nil h)) (counted 0 .nil h)
          (execBlock (world P zero Dt limit fuel (U ty).pkg) [] (J ty).writeIdentity
            (after s0 A [.objectStart] (counted 0 .nil h))) none :=
        Wrote.cons (o := none) write_name (fun A' => execBlock_panic (branch_panic (bit_nil rfl))) rfl
      exact this
    | false =>
      cases as with
      | nil =>
        refine first (some [.objectEnd]) _ (by rw [writeVal, hS]; rfl) fun A => ?_
        exact last _
      | cons at' as =>
        refine first none _ (by rw [writeVal, hS]; rfl) fun A => ?_
        rw [if_neg (by simp), if_neg (by simp), List.nil_append]
        refine panic_append ?_
        have hmm := hj.members
        cases hms : (J ty).members with
        | nil => rw [hms] at hmm; simp at hmm
        | cons m ms =>
          rw [execBlock_next (w := world P zero Dt limit fuel (U ty).pkg) (s := after s0 A [.objectStart] (counted 0 .nil h))
            (by rw [Stmt.exec])]
          rw [JsonCode.writeMembers]
          refine panic_append ?_
          rw [Member.write]
          refine execBlock_panic ?_
          rw [Stmt.exec]
          have hp : (if m.scalar then bitSet t!"object" m.bit
              else .and (bitSet t!"object" m.bit) (.ne (dot t!"object" m.field) .nil)).eval
                (world P zero Dt limit fuel (U ty).pkg)
                { after s0 A [.objectStart] (counted 0 .nil h) with
                  vars := (t!"present_", (world P zero Dt limit fuel (U ty).pkg).zero t!"bool") ::
                    (after s0 A [.objectStart] (counted 0 .nil h)).vars } = .panic := by
            cases m.scalar with
            | true => exact bit_nil rfl
            | false =>
              simp only [if_false, Bool.false_eq_true]
              rw [Expr.eval, bit_nil rfl]
              rfl
          rw [hp]
          rfl
  · rw [Holds] at hh0
    obtain ⟨a, fs, rfl, -, hfs, hnames, hb, hid, hhf⟩ := hh0
    rw [BuildersRun.fieldNames, hS] at hhf
    have hIH' := hIH bitmap id href vs rfl
    -- The attributes:
    have members : ∀ (A : List (List (Value Val))) (ts : List Tok) (n : Nat),
        Ends (after s0 A ts (counted n (.pointer a) h)) (execBlock (world P zero Dt limit fuel (U ty).pkg) []
          ((if as.isEmpty then [] else .var t!"present_" t!"bool" :: JsonCode.writeMembers (J ty).members) ++
            [.perform t!"stream.WriteObjectEnd" []]) (after s0 A ts (counted n (.pointer a) h)))
          ((writeFields S bitmap n as vs).map (· ++ [.objectEnd])) := by
      intro A ts n
      cases hE : as.isEmpty with
      | true =>
        rw [if_pos rfl, List.nil_append]
        rw [List.isEmpty_iff] at hE
        subst hE
        cases vs with
        | cons _ _ => simp [typedFields] at htf
        | nil =>
          rw [writeFields]
          exact last _
      | false =>
        rw [if_neg (by simp), List.cons_append]
        have hz : (world P zero Dt limit fuel (U ty).pkg).zero t!"bool" = .bool false := by
          rw [world_zero, (hw.base.zeros _).bool]
        refine Ends.cons (ts := []) (v := inside false n (.pointer a) h)
          (o := (writeFields S bitmap n as vs).map (· ++ [.objectEnd])) ?_ (fun A' => ?_)
          (by cases writeFields S bitmap n as vs <;> rfl)
        · refine ⟨[], ?_⟩
          rw [Stmt.exec, hz]
          simp [after, wrote, inside]
        · rw [after_after]
          have := write_members (names := []) (P := P) (zero := zero) (Dt := Dt) (limit := limit) (fuel := fuel)
            (pkg := (U ty).pkg) (D := D) hb as (J ty).members
            (U ty).builder.members vs n false (after s0 (A ++ A') (ts ++ []) (inside false n (.pointer a) h))
            hj.members hl.members hj.attributes rfl hfs htf (fields_after hhf _ _ _) hIH'
          cases hwf : writeFields S bitmap n as vs with
          | none =>
            rw [hwf] at this
            exact panic_append this
          | some us =>
            rw [hwf] at this
            exact Ends.append' this (o := some [.objectEnd]) (fun A v => last _) rfl
    rw [writeVal, hS]
    dsimp only
    cases c with
    | false =>
      refine first ((writeFields S bitmap 0 as vs).map (· ++ [.objectEnd])) _
        (by cases hwf : writeFields S bitmap 0 as vs <;> simp [hwf]) fun A => ?_
      exact members A _ 0
    | true =>
      simp only [if_true]
      refine first ((writeFields S bitmap (writeHeader n (!as.isEmpty) bitmap id href).2 as vs).map
        ((writeHeader n (!as.isEmpty) bitmap id href).1 ++ · ++ [.objectEnd])) _
        (by cases hwf : writeFields S bitmap (writeHeader n (!as.isEmpty) bitmap id href).2 as vs <;> simp [hwf]) fun A => ?_
      have hident := write_identity (names := []) (zero := zero) (Dt := Dt) (limit := limit) (fuel := fuel) (h := h)
        (s := after s0 A [.objectStart] (counted 0 (.pointer a) h)) hw hS rfl hfs hb (hid hl.isClass).1 (hid hl.isClass).2
      rw [if_pos rfl, List.append_assoc]
      refine Ends.append hident
        (o := (writeFields S bitmap (writeHeader n (!as.isEmpty) bitmap id href).2 as vs).map (· ++ [.objectEnd]))
        (fun A' => ?_) ?_
      · rw [after_after]
        exact members _ _ _
      · cases writeFields S bitmap (writeHeader n (!as.isEmpty) bitmap id href).2 as vs <;> simp

/-! ## All values -/

theorem formWrites' (hw : Whole P zero S U J L) :
    ∀ (N : Nat) (v : Val), sizeOf v < N → FormWrites P zero Dt limit S U J L v
  | 0, _, hN => by omega
  | N + 1, v, hN => by
    have IH := formWrites' hw N
    intro form ty link pkg fuel s x e names h D hf hF ht hlink hh hs hrfc hr
    obtain ⟨k, rfl⟩ : ∃ k, fuel = k + 1 := by
      cases fuel with
      | zero => cases v <;> simp at hf
      | succ k => exact ⟨k, rfl⟩
    have objs : ∀ b i hr fs, v = .obj b i hr fs → ∀ w ∈ fs, FormWrites P zero Dt limit S U J L w ∧ sizeOf w ≤ k := by
      rintro b i hr fs rfl w hw'
      have h1 := List.sizeOf_lt_of_mem hw'
      have h2 : sizeOf (Val.obj b i hr fs) = 1 + sizeOf b + sizeOf i + sizeOf hr + sizeOf fs := by simp
      exact ⟨IH w (by omega), by omega⟩
    have lists : ∀ fs, v = .list fs → ∀ w ∈ fs, FormWrites P zero Dt limit S U J L w ∧ sizeOf w ≤ k := by
      rintro fs rfl w hw'
      have h1 := List.sizeOf_lt_of_mem hw'
      have h2 : sizeOf (Val.list fs) = 1 + sizeOf fs := by simp
      exact ⟨IH w (by omega), by omega⟩
    have links : ∀ l hr fs, v = .linkList l hr (.list fs) → ∀ w ∈ fs,
        FormWrites P zero Dt limit S U J L w ∧ sizeOf w ≤ k := by
      rintro l hr fs rfl w hw'
      have h1 := List.sizeOf_lt_of_mem hw'
      have h2 : sizeOf (Val.linkList l hr (.list fs)) = 1 + sizeOf l + sizeOf hr + (1 + sizeOf fs) := by simp
      exact ⟨IH w (by omega), by omega⟩
    have maps : ∀ fs, v = .map fs → ∀ e ∈ fs, FormWrites P zero Dt limit S U J L e.2 := by
      rintro fs rfl w hw'
      have h1 := BuildersRun.size_entry hw'
      have h2 : sizeOf (Val.map fs) = 1 + sizeOf fs := by simp
      exact IH w.2 (by omega)
    have scalar : (S ty).isScalar = true → Wrote s s.vars
        (execBlock (world P zero Dt limit (k + 1) pkg) names (form.write e) s) (writeVal S ty link v) := fun hsc =>
      write_scalar form hF hsc ht hh hr hrfc
    cases form with
    | object w r =>
      exact Wrote.one (exec_apply (vs := [x, h]) (args_two hr.self (eval_var hs)) (write_object hw hF.1 hF.2.1 objs ht hh))
    | list w r =>
      obtain ⟨n, el, hS, rfl, h1, h2⟩ := hF
      exact Wrote.one (exec_apply (vs := [x, h]) (args_two hr.self (eval_var hs)) (write_list hw hS h1 lists ht hh))
    | linkList typ w r =>
      obtain ⟨n, el, hS, rfl, ho, -, h1, h2, h3⟩ := hF
      exact write_link hw hS ho h1 h2 links ht (hlink rfl) hh hs hr
    | map typ el form =>
      obtain ⟨elem, hS, hF⟩ := hF
      rcases BuildersRun.typed_entries hS ht with rfl | ⟨entries, rfl, hte⟩
      · have hx : x = .nil := by simpa [Holds, value] using hh
        subst hx
        rw [writeVal, hS]
        dsimp only
        rw [Form.write]
        refine Wrote.one (Wrote.branch (b := false) ?_ rfl ⟨[], ?_⟩)
        · rw [Expr.eval, hr.self, bind_ok]
          dsimp only
          rw [Expr.eval, bind_ok]
          rfl
        · exact Wrote.one (performs ⟨_, rfl, rfl⟩ rfl)
      · exact write_map hS hF hte hf (maps entries rfl) hh hr hs hrfc
    | _ =>
      refine scalar ?_
      simp only [Fits] at hF
      rw [hF]
      rfl

theorem formWrites (hw : Whole P zero S U J L) (v : Val) : FormWrites P zero Dt limit S U J L v :=
  formWrites' hw (sizeOf v + 1) v (Nat.lt_succ_self _)

/-- Calls of the functions that write objects. -/
theorem call_object (hw : Whole P zero S U J L) {ty : TypeId} {pkg t : Text} {fuel : Nat}
    {s : State Val Library} {x h : Value Val} {v : Val} {D : Value Val → Prop} (ho : isObject (S ty) = true)
    (hr : resolve pkg t = ((U ty).pkg, (J ty).functions.write)) {link : Bool} (hf : sizeOf v ≤ fuel)
    (ht : typed S ty link v = true) (hh : Holds S U D s ty v x) :
    Writes s ((world P zero Dt limit fuel pkg).apply t [x, h] s) (writeVal S ty link v) := by
  obtain ⟨k, rfl⟩ : ∃ k, fuel = k + 1 := by
    cases fuel with
    | zero => cases v <;> simp at hf
    | succ k => exact ⟨k, rfl⟩
  refine write_object hw ho hr ?_ ht hh
  rintro b i hr fs rfl w hw'
  have h1 := List.sizeOf_lt_of_mem hw'
  have h2 : sizeOf (Val.obj b i hr fs) = 1 + sizeOf b + sizeOf i + sizeOf hr + sizeOf fs := by simp
  exact ⟨formWrites hw w, by omega⟩

/-- Calls of the functions that write lists. -/
theorem call_list (hw : Whole P zero S U J L) {ty el : TypeId} {n : Text} {pkg t : Text} {fuel : Nat}
    {s : State Val Library} {x h : Value Val} {v : Val} {D : Value Val → Prop} (hS : S ty = .list n el)
    (hr : resolve pkg t = ((L ty).pkg, (L ty).listing.functions.write)) (hf : sizeOf v ≤ fuel)
    (ht : typed S ty false v = true) (hh : Holds S U D s ty v x) :
    Writes s ((world P zero Dt limit fuel pkg).apply t [x, h] s) (writeVal S ty false v) := by
  obtain ⟨k, rfl⟩ : ∃ k, fuel = k + 1 := by
    cases fuel with
    | zero => cases v <;> simp at hf
    | succ k => exact ⟨k, rfl⟩
  refine write_list hw hS hr ?_ ht hh
  rintro fs rfl w hw'
  have h1 := List.sizeOf_lt_of_mem hw'
  have h2 : sizeOf (Val.list fs) = 1 + sizeOf fs := by simp
  exact ⟨formWrites hw w, by omega⟩

/-! ## The functions that create streams -/

theorem call_marshal {fs : Functions} {y typ q : Text} {x w : Value Val} {fuel : Nat} {s : State Val Library} {f : Func}
    {o : Option (List Tok)} (hy : y ∈ [t!"object", t!"list"]) (hf : JsonCode.marshalFunc fs y typ = .func f)
    (h : ∀ s' : State Val Library, s'.structs = s.structs → s'.arrays = s.arrays → s'.maps = s.maps →
      Writes s' ((world P zero Dt limit fuel q).apply fs.write [x, .other .nil] s') o) :
    Sends s (f.call (world P zero Dt limit fuel q) .nil [x, w] s) o := by
  rw [JsonCode.marshalFunc] at hf
  injection hf with hf
  subst hf
  rw [Func.call]
  dsimp only
  generalize hs0 : ({ s with vars := _ } : State Val Library) = s0
  have h0 : s0.structs = s.structs ∧ s0.arrays = s.arrays ∧ s0.maps = s.maps ∧ s0.user = s.user := by
    rw [← hs0]; exact ⟨rfl, rfl, rfl, rfl⟩
  have hw0 : s0.vars.lookup t!"writer" = some w := by
    rw [← hs0]
    simp only [List.mem_cons, List.not_mem_nil, or_false] at hy
    rcases hy with rfl | rfl <;> rfl
  have hx0 : s0.vars.lookup y = some x := by
    rw [← hs0]
    simp only [List.mem_cons, List.not_mem_nil, or_false] at hy
    rcases hy with rfl | rfl <;> rfl
  have hys : y ≠ t!"stream" := by
    simp only [List.mem_cons, List.not_mem_nil, or_false] at hy
    rcases hy with rfl | rfl <;> decide
  generalize hs1 : ({ s0 with vars := (t!"stream", .other .nil) :: s0.vars, user := { s0.user with out := [] } } :
    State Val Library) = s1
  have hd : (Stmt.define t!"stream" (.call t!"helpers.NewStream" [.var t!"writer"])).exec (world P zero Dt limit fuel q)
      [[]] s0 = .ok (.next, s1) := by
    rw [← hs1, Stmt.exec, Expr.eval, args_one (eval_var hw0), bind_ok]
    dsimp only
    rw [world_funcs]
    rfl
  rw [show (List.map Prod.fst [(([] : Text), t!"error")]) = [[]] from rfl, execBlock_next hd]
  have ha : evalArgs (world P zero Dt limit fuel q) [.var y, .var t!"stream"] s1 = .ok ([x, .other .nil], s1) := by
    refine args_two (eval_var ?_) (eval_var ?_)
    · rw [← hs1]
      have : (y == t!"stream") = false := by simpa using hys
      simp only [List.lookup_cons, this]
      exact hx0
    · rw [← hs1]
      rfl
  have hk := h s1 (by rw [← hs1]; exact h0.1) (by rw [← hs1]; exact h0.2.1) (by rw [← hs1]; exact h0.2.2.1)
  have he := exec_apply (names := [[]]) ha hk
  have hu : s1.user = { s.user with out := [] } := by rw [← hs1, h0.2.2.2]
  cases o with
  | none =>
    have he : Stmt.exec _ _ _ s1 = .panic := he
    rw [execBlock_panic he]
    rfl
  | some ts =>
    obtain ⟨A, he⟩ := he
    refine ⟨A, ?_⟩
    rw [execBlock_next he]
    generalize hs2 : after s1 A ts s1.vars = s2
    have h2 : s2.structs = s.structs ∧ s2.arrays = s.arrays ++ A ∧ s2.maps = s.maps ∧
        s2.user = { s.user with out := ts } := by
      rw [← hs2, after, wrote]
      refine ⟨by rw [← hs1]; exact h0.1, ?_, by rw [← hs1]; exact h0.2.2.1, by simp [hu]⟩
      dsimp only
      rw [show s1.arrays = s.arrays by rw [← hs1]; exact h0.2.1]
    generalize hs3 : ({ s2 with
      vars := (t!"err", errorOf s.user.broken) :: s2.vars
      user := { s.user with out := [], sent := if s.user.broken then s.user.sent else s.user.sent ++ ts } } :
      State Val Library) = s3
    have hfl : (Stmt.define t!"err" (.call t!"stream.Flush" [])).exec (world P zero Dt limit fuel q) [[]] s2 =
        .ok (.next, s3) := by
      rw [← hs3, Stmt.exec, Expr.eval, evalArgs, bind_ok]
      dsimp only
      rw [world_funcs]
      simp [table, List.lookup, Res.bind, h2.2.2.2]
    rw [execBlock_next hfl]
    have hend : { s3 with vars := s.vars } = { s with
        arrays := s.arrays ++ A
        user := { s.user with out := [], sent := if s.user.broken then s.user.sent else s.user.sent ++ ts } } := by
      rw [← hs3]
      simp only [h2.1, h2.2.1, h2.2.2.1]
    have herr : (TypesCode.notNil t!"err").eval (world P zero Dt limit fuel q) s3 = .ok (.bool s.user.broken, s3) := by
      rw [TypesCode.notNil, Expr.eval, eval_var (v := errorOf s.user.broken) (by rw [← hs3]; rfl), bind_ok]
      dsimp only
      rw [Expr.eval, bind_ok, errorOf]
      cases s.user.broken <;> rfl
    cases hb : s.user.broken with
    | true =>
      have : (Stmt.branch (TypesCode.notNil t!"err") [.ret [.var t!"err"]] []).exec (world P zero Dt limit fuel q) [[]]
          s3 = .ok (.ret [errorOf s.user.broken], s3) := by
        rw [Stmt.exec, herr, hb, bind_ok]
        dsimp only
        rw [execBlock, Stmt.exec, args_one (eval_var (v := errorOf s.user.broken) (by rw [← hs3]; rfl)), bind_ok]
        dsimp only
        rw [bind_ok]
        dsimp only
        rw [bind_ok, leave_same rfl, hb]
      rw [execBlock, this, bind_ok]
      dsimp only
      rw [bind_ok]
      dsimp only
      rw [hend]
      simp [hb]
    | false =>
      have : (Stmt.branch (TypesCode.notNil t!"err") [.ret [.var t!"err"]] []).exec (world P zero Dt limit fuel q) [[]]
          s3 = .ok (.next, s3) := by
        rw [Stmt.exec, herr, hb, bind_ok]
        dsimp only
        rw [execBlock, bind_ok, leave_same rfl]
      rw [execBlock_next this, execBlock, Stmt.exec]
      have hr : (Expr.read t!"stream.Error").eval (world P zero Dt limit fuel q) s3 = .ok (errorOf s.user.broken, s3) := by
        rw [Expr.eval, given, world_funcs, ← hs3]
        rfl
      rw [args_one hr, bind_ok]
      dsimp only
      rw [bind_ok]
      dsimp only
      rw [bind_ok]
      dsimp only
      rw [hend]
      simp [hb]

end Verif.JsonRun
