import Verif.Lemmas.TypesRun
import Verif.Props.TypesCode

/-!
# C90: what the generated types do

Running the methods that the files of the types contain, in any memory, gives the results that the model of
the generated types says.
-/

namespace Verif.TypesRun

open GoJson (Val)
open GoProgram TypesCode

variable {σ : Type}

/-! ## Objects -/

theorem lookup_kind (x : Text) (r z : Value Val) (a b : Text) (ha : a.length < b.length) :
    List.lookup (x ++ b) [(a, r), ([], z)] = none := by
  have h1 : (x ++ b == a) = false := by
    rw [beq_eq_false_iff_ne]
    intro h
    have := congrArg List.length h
    simp at this
    omega
  have h2 : (x ++ b == ([] : Text)) = false := by
    rw [beq_eq_false_iff_ne]
    intro h
    have := congrArg List.length h
    simp at this
    simp [this.2] at ha
  simp [List.lookup, h1, h2]

/-- The methods that the objects of all classes have. -/
theorem c90_class (e : Entity) (hl : Legal (programOf e)) (hc : e.isClass = true)
    (zero : Text → Value Val) (hz : zero t!"string" = .str [])
    (funcs : Text → Option (List (Value Val) → σ → Value Val × σ))
    (s : State Val σ) (r : Value Val) (o : Val) (ho : IsObject e s r o) :
    let run := fun name => call (programOf e) zero funcs e.object name r [] s
    run t!"Kind" = .ok ([.str (GoTypes.kind e.object o)], s) ∧
    run t!"Link" = .ok ([.bool (GoTypes.link o)], s) ∧
    run t!"ID" = .ok ([.str (GoTypes.id o)], s) ∧
    run t!"GetID" = .ok ([.str (GoTypes.getID o).1, .bool (GoTypes.getID o).2], s) ∧
    run t!"HREF" = .ok ([.str (GoTypes.href o)], s) ∧
    run t!"GetHREF" = .ok ([.str (GoTypes.getHREF o).1, .bool (GoTypes.getHREF o).2], s) := by
  have mem : ∀ i, (h : i < e.identity.length) → e.identity[i].decl ∈ programOf e :=
    fun i h => mem_identity hc (List.getElem_mem h)
  have consts : ∀ i, (h : i < e.kinds.length) → e.kinds[i].decl ∈ programOf e :=
    fun i h => mem_kinds hc (List.getElem_mem h)
  refine ⟨?_, ?_, ?_, ?_, ?_, ?_⟩
  · refine (call_eq _ zero funcs _ r [] s hl (mem 0 (by simp [Entity.identity]))).trans ?_
    have k0 := constant_eq _ _ _ hl (consts 0 (by simp [Entity.kinds]))
    have k1 := constant_eq _ _ _ hl (consts 1 (by simp [Entity.kinds]))
    have k2 := constant_eq _ _ _ hl (consts 2 (by simp [Entity.kinds]))
    have l0 := lookup_kind e.object r (zero t!"string") t!"o" t!"Kind" (by decide)
    have l1 := lookup_kind e.object r (zero t!"string") t!"o" t!"LinkKind" (by decide)
    have l2 := lookup_kind e.object r (zero t!"string") t!"o" t!"NilKind" (by decide)
    simp only [Func.call, execBlock, Stmt.exec, evalArgs, List.map_cons, List.map_nil, List.zip_nil_right,
      List.nil_append, isNil, Expr.eval, List.lookup_cons_self]
    cases ho with
    | nil => simp [Res.bind, equal, Res.ofOption, leave, Expr.eval, l2, k2, GoTypes.kind, Val.isNil]
    | @obj a bitmap id href values fields hs hk hb hi hv hf =>
      have he := ((eval_present { consts := constant (programOf e), zero := zero, funcs := funcs } t!"o" 0
        { s with vars := [(t!"o", .pointer a), ([], zero t!"string")] } (.pointer a) rfl).2 a fields bitmap rfl hs
          hb).2
      simp only [Res.bind, equal, Res.ofOption, leave, GoTypes.kind, Val.isNil, List.length_cons, List.length_nil,
        Nat.sub_self, List.drop_zero, he, GoTypes.hasBit]
      by_cases hbt : bitmap.testBit 0 = true
      · simp [hbt, l1, k1]
      · rw [Bool.not_eq_true] at hbt
        simp [hbt, l0, k0]
  · refine (call_eq _ zero funcs _ r [] s hl (mem 1 (by simp [Entity.identity]))).trans ?_
    simp only [Func.call, execBlock, Stmt.exec, evalArgs, List.map_cons, List.map_nil, List.zip_nil_right,
      List.nil_append]
    rw [ho.present _ t!"o" 0 { s with vars := [(t!"o", r), ([], zero t!"bool")] } rfl rfl]
    rfl
  · have := run_getter zero funcs hl (mem 2 (by simp [Entity.identity])) r s (GoTypes.hasBit 1 o) (.str [])
      (.str (GoTypes.id o)) (fun w t => ho.present w t!"o" 1 t) (fun _ t => rfl) (fun hb => by
        obtain ⟨a, bitmap, id, href, values, rfl, rfl, -, h, -⟩ := ho.field 1 hb
        rw [(h hc).1]
        change bitmap.testBit 1 = true at hb
        simp [GoTypes.id, hb])
    refine this.trans ?_
    cases ho with
    | nil => rfl
    | @obj a bitmap id href values fields hs hk hb hi hv hf =>
      simp only [GoTypes.id, GoTypes.hasBit]
      by_cases hbt : bitmap.testBit 1 = true <;> simp [hbt]
  · have := run_getterOk zero funcs hl (mem 3 (by simp [Entity.identity])) r s (GoTypes.hasBit 1 o)
      (.str (GoTypes.getID o).1) (by decide) (by decide) (fun w t => ho.present w t!"o" 1 t) (fun hb => by
        obtain ⟨a, bitmap, id, href, values, rfl, rfl, -, h, -⟩ := ho.field 1 hb
        rw [(h hc).1]
        change bitmap.testBit 1 = true at hb
        simp [GoTypes.getID, hb])
    refine this.trans ?_
    rw [hz]
    cases ho with
    | nil => rfl
    | @obj a bitmap id href values fields hs hk hb hi hv hf =>
      simp only [GoTypes.getID, GoTypes.hasBit]
      by_cases hbt : bitmap.testBit 1 = true <;> simp [hbt]
  · have := run_getter zero funcs hl (mem 4 (by simp [Entity.identity])) r s (GoTypes.hasBit 2 o) (.str [])
      (.str (GoTypes.href o)) (fun w t => ho.present w t!"o" 2 t) (fun _ t => rfl) (fun hb => by
        obtain ⟨a, bitmap, id, href, values, rfl, rfl, -, h, -⟩ := ho.field 2 hb
        rw [(h hc).2]
        change bitmap.testBit 2 = true at hb
        simp [GoTypes.href, hb])
    refine this.trans ?_
    cases ho with
    | nil => rfl
    | @obj a bitmap id href values fields hs hk hb hi hv hf =>
      simp only [GoTypes.href, GoTypes.hasBit]
      by_cases hbt : bitmap.testBit 2 = true <;> simp [hbt]
  · have := run_getterOk zero funcs hl (mem 5 (by simp [Entity.identity])) r s (GoTypes.hasBit 2 o)
      (.str (GoTypes.getHREF o).1) (by decide) (by decide) (fun w t => ho.present w t!"o" 2 t) (fun hb => by
        obtain ⟨a, bitmap, id, href, values, rfl, rfl, -, h, -⟩ := ho.field 2 hb
        rw [(h hc).2]
        change bitmap.testBit 2 = true at hb
        simp [GoTypes.getHREF, hb])
    refine this.trans ?_
    rw [hz]
    cases ho with
    | nil => rfl
    | @obj a bitmap id href values fields hs hk hb hi hv hf =>
      simp only [GoTypes.getHREF, GoTypes.hasBit]
      by_cases hbt : bitmap.testBit 2 = true <;> simp [hbt]

theorem clear_one (n : Nat) : n - Nat.land n 1 = n / 2 * 2 := by
  have : Nat.land n 1 = n % 2 := Nat.and_one_is_mod n
  omega

/-- The method that tells if an object is empty. -/
theorem c90_empty (e : Entity) (hl : Legal (programOf e)) (zero : Text → Value Val)
    (funcs : Text → Option (List (Value Val) → σ → Value Val × σ))
    (s : State Val σ) (r : Value Val) (o : Val) (ho : IsObject e s r o) :
    call (programOf e) zero funcs e.object t!"Empty" r [] s =
      .ok ([.bool (GoTypes.empty e.isClass o)], s) := by
  refine (call_eq _ zero funcs _ r [] s hl (mem_empty e)).trans ?_
  simp only [Func.call, execBlock, Stmt.exec, evalArgs, List.map_cons, List.map_nil, List.zip_nil_right,
    List.nil_append, isNil, Expr.eval, List.lookup_cons_self]
  cases ho with
  | nil => rfl
  | @obj a bitmap id href values fields hs hk hb hi hv hf =>
    simp only [Res.bind, equal, Res.ofOption]
    cases hc : e.isClass with
    | true =>
      simp only [if_true, Expr.eval, dot, List.lookup_cons_self, Res.bind, State.field, hs, hb, Option.bind_some,
        GoTypes.empty]
      rw [show bits (fun x y => x - x.land y) (Value.int (bitmap : Nat) : Value Val) (.int 1) =
        .ok (.int (bitmap - bitmap.land 1 : Nat)) from rfl, clear_one]
      simp only [equal, Res.ofOption]
      congr 4
      rw [Bool.eq_iff_iff]
      simp
      omega
    | false =>
      simp only [Expr.eval, dot, List.lookup_cons_self, Res.bind, State.field, hs, hb, Option.bind_some,
        GoTypes.empty]
      simp only [equal, Res.ofOption, Bool.false_eq_true, if_false, Expr.eval, dot, List.lookup_cons_self, Res.bind, State.field, hs, hb, Option.bind_some]
      congr 4
      rw [Bool.eq_iff_iff]
      simp

theorem SameKind.zero {t : GoRef.Typ} {sh : GoJson.Shape} (h : SameKind t sh) (w : World Val σ)
    (hf : w.zero t!"float64" = value (GoJson.zero .float))
    (hd : w.zero t!"time.Time" = value (GoJson.zero .date)) (s : State Val σ) :
    (zeroOf t).eval w s = .ok (value (GoJson.zero sh), s) := by
  cases h <;> simp [zeroOf, Expr.eval, hf, hd, GoJson.zero, value]

/-- The methods of the attributes. -/
theorem c90_getters (x : Context) (c : TypeCell) (hl : Legal (programOf (entityOf x c)))
    (S : GoJson.Schema) (hS : ∀ a ∈ c.attributes, SameKind (x.typeOf a.typ) (S a.typ))
    (zero : Text → Value Val) (hz : Zeros zero x c S)
    (funcs : Text → Option (List (Value Val) → σ → Value Val × σ))
    (s : State Val σ) (r : Value Val) (o : Val) (ho : IsObject (entityOf x c) s r o)
    (i : Nat) (a : Attribute) (ha : c.attributes[i]? = some a) :
    let run := fun name => call (programOf (entityOf x c)) zero funcs (Go.nameOf c.annotations c.name) name r [] s
    let attr := GoJson.attrShape c i a
    run (Go.nameOf a.annotations a.name) = .ok ([value (GoTypes.get S i attr o)], s) ∧
    run (t!"Get" ++ Go.nameOf a.annotations a.name) =
      .ok ([value (GoTypes.getOk S i attr o).1, .bool (GoTypes.getOk S i attr o).2], s) := by
  obtain ⟨hi, rfl⟩ := List.getElem?_eq_some_iff.mp ha
  have hm : (entityOf x c).members[i]? = some (memberOf x c i c.attributes[i]) := by
    simp [entityOf, ha]
  have hmem : memberOf x c i c.attributes[i] ∈ (entityOf x c).members := List.mem_of_getElem? hm
  have hbit : Bitmap.bitIndex c i = (if c.kind = .class then 3 else 0) + i := by
    rw [bitIndex_eq c i hi]
    rfl
  have mem : ∀ j, (h : j < ((entityOf x c).getters (memberOf x c i c.attributes[i])).length) →
      ((entityOf x c).getters (memberOf x c i c.attributes[i]))[j].decl ∈ programOf (entityOf x c) :=
    fun j h => mem_getters hmem (List.getElem_mem h)
  have hk := hS c.attributes[i] (List.getElem_mem hi)
  have hg := hz.getters c.attributes[i] (List.getElem_mem hi)
  have field : GoTypes.hasBit ((if c.kind = .class then 3 else 0) + i) o = true →
      s.field (Go.privateName c.attributes[i].name) r = .ok (value (GoTypes.get S i (GoJson.attrShape c i c.attributes[i]) o)) := by
    intro hb
    obtain ⟨a, bitmap, id, href, values, rfl, rfl, hlen, -, h⟩ := ho.field _ hb
    have hv : i < values.length := by
      rw [hlen]
      simpa [entityOf] using hi
    refine (h i _ values[i] hm (List.getElem?_eq_getElem hv)).trans ?_
    change bitmap.testBit _ = true at hb
    simp [GoTypes.get, GoJson.attrShape, hbit, hb, hv]
  refine ⟨?_, ?_⟩
  · refine (run_getter zero funcs hl (mem 0 (by simp [Entity.getters])) r s
      (GoTypes.hasBit ((if c.kind = .class then 3 else 0) + i) o) (value (GoJson.zero (S c.attributes[i].typ)))
      (value (GoTypes.get S i (GoJson.attrShape c i c.attributes[i]) o)) (fun w t => ho.present w t!"o" _ t)
      (fun _ t => hk.zero _ hz.float hz.date t) field).trans ?_
    cases ho with
    | nil => rfl
    | @obj a bitmap id href values fields hs hk hb hi hv hf =>
      simp only [GoTypes.get, GoTypes.hasBit, GoJson.attrShape, hbit]
      by_cases hbt : bitmap.testBit ((if c.kind = .class then 3 else 0) + i) = true <;> simp [hbt]
  · refine (run_getterOk zero funcs hl (mem 1 (by simp [Entity.getters])) r s
      (GoTypes.hasBit ((if c.kind = .class then 3 else 0) + i) o)
      (value (GoTypes.get S i (GoJson.attrShape c i c.attributes[i]) o)) (by decide) (by decide)
      (fun w t => ho.present w t!"o" _ t) field).trans ?_
    change Res.ok ([if _ then _ else zero (GoRef.emit x.pkg (GoRef.getterType x.base (x.attr c.attributes[i]))), _], s) = _
    rw [hg]
    cases ho with
    | nil => rfl
    | @obj a bitmap id href values fields hs hk hb hi hv hf =>
      simp only [GoTypes.get, GoTypes.getOk, GoTypes.hasBit, GoJson.attrShape, hbit]
      by_cases hbt : bitmap.testBit ((if c.kind = .class then 3 else 0) + i) = true <;> simp [hbt]

/-! ## Lists -/

/-- The methods that the lists of objects of all classes have. -/
theorem c90_class_list (e : Entity) (hl : Legal (programOf e)) (hc : e.isClass = true)
    (zero : Text → Value Val) (hz : zero t!"string" = .str [])
    (funcs : Text → Option (List (Value Val) → σ → Value Val × σ))
    (s : State Val σ) (r : Value Val) (l : Option GoTypes.ObjectList) (hr : IsList s r l) :
    let run := fun name => call (programOf e) zero funcs (e.object ++ t!"List") name r [] s
    run t!"Kind" = .ok ([.str (GoTypes.ObjectList.kind (e.object ++ t!"List") l)], s) ∧
    run t!"Link" = .ok ([.bool (GoTypes.ObjectList.isLink l)], s) ∧
    run t!"HREF" = .ok ([.str (GoTypes.ObjectList.address l)], s) ∧
    run t!"GetHREF" =
      .ok ([.str (GoTypes.ObjectList.getAddress l).1, .bool (GoTypes.ObjectList.getAddress l).2], s) := by
  have mem : ∀ i, (h : i < e.listIdentity.length) → e.listIdentity[i].decl ∈ programOf e :=
    fun i h => mem_listIdentity hc (List.getElem_mem h)
  have consts : ∀ i, (h : i < e.listKinds.length) → e.listKinds[i].decl ∈ programOf e :=
    fun i h => mem_listKinds (List.getElem_mem h)
  refine ⟨?_, ?_, ?_, ?_⟩
  · refine (call_eq _ zero funcs _ r [] s hl (mem 0 (by simp [Entity.listIdentity]))).trans ?_
    have k0 := constant_eq _ _ _ hl (consts 0 (by simp [Entity.listKinds]))
    have k1 := constant_eq _ _ _ hl (consts 1 (by simp [Entity.listKinds]))
    have k2 := constant_eq _ _ _ hl (consts 2 (by simp [Entity.listKinds]))
    have l0 := lookup_kind e.list r (zero t!"string") t!"l" t!"Kind" (by decide)
    have l1 := lookup_kind e.list r (zero t!"string") t!"l" t!"LinkKind" (by decide)
    have l2 := lookup_kind e.list r (zero t!"string") t!"l" t!"NilKind" (by decide)
    rw [show e.object ++ t!"List" = e.list from rfl]
    simp only [Func.call, execBlock, Stmt.exec, evalArgs, List.map_cons, List.map_nil, List.zip_nil_right,
      List.nil_append, dot, Expr.eval]
    rw [(hr.notNil _ t!"l" { s with vars := [(t!"l", r), ([], zero t!"string")] } rfl).2]
    cases l with
    | none => simp [Res.bind, leave, Expr.eval, l2, k2, GoTypes.ObjectList.kind]
    | some l =>
      obtain ⟨a, items, rfl, -, -, hf⟩ := hr.field
      have hf := (hf { s with vars := [(t!"l", .pointer a), ([], zero t!"string")] } rfl).2.1
      simp only [Res.bind, leave, Option.isNone_some, List.length_cons, List.length_nil,
        Nat.sub_self, List.drop_zero, List.lookup_cons_self, hf]
      by_cases hb : l.link = true
      · simp [hb, l1, k1, GoTypes.ObjectList.kind]
      · rw [Bool.not_eq_true] at hb
        simp [hb, l0, k0, GoTypes.ObjectList.kind]
  · refine (call_eq _ zero funcs _ r [] s hl (mem 1 (by simp [Entity.listIdentity]))).trans ?_
    simp only [Func.call, execBlock, Stmt.exec, evalArgs, List.map_cons, List.map_nil, List.zip_nil_right,
      List.nil_append, dot, Expr.eval]
    rw [(hr.notNil _ t!"l" { s with vars := [(t!"l", r), ([], zero t!"bool")] } rfl).1]
    cases l with
    | none => rfl
    | some l =>
      obtain ⟨a, items, rfl, -, -, hf⟩ := hr.field
      have hf := (hf { s with vars := [(t!"l", .pointer a), ([], zero t!"bool")] } rfl).2.1
      simp [Res.bind, hf, GoTypes.ObjectList.isLink]
  · refine (run_getter zero funcs hl (mem 2 (by simp [Entity.listIdentity])) r s l.isSome (.str [])
      (.str (GoTypes.ObjectList.address l)) (fun w t _ hx => (hr.notNil w t!"l" t hx).1) (fun _ t => rfl)
      (fun hb => ?_)).trans ?_
    · obtain ⟨l, rfl⟩ := Option.isSome_iff_exists.mp hb
      obtain ⟨a, items, rfl, -, -, hf⟩ := hr.field
      exact (hf s rfl).1
    · cases l <;> rfl
  · refine (run_getterOk zero funcs hl (mem 3 (by simp [Entity.listIdentity])) r s
      (GoTypes.ObjectList.getAddress l).2 (.str (GoTypes.ObjectList.address l)) (by decide) (by decide)
      (fun w t ht hx => ?_) (fun hb => ?_)).trans ?_
    · rw [Expr.eval, (hr.notNil w t!"l" t hx).1]
      cases l with
      | none => rfl
      | some l =>
        obtain ⟨a, items, rfl, -, -, hf⟩ := hr.field
        simp only [Res.bind, Option.isSome_some, Expr.eval, dot, hx, (hf t ht).1, equal, Res.ofOption,
          GoTypes.ObjectList.getAddress]
        by_cases he : l.href = [] <;> simp [he]
    · cases l with
      | none => cases hb
      | some l =>
        obtain ⟨a, items, rfl, -, -, hf⟩ := hr.field
        exact (hf s rfl).1
    · rw [hz]
      cases l with
      | none => rfl
      | some l =>
        simp only [GoTypes.ObjectList.getAddress, GoTypes.ObjectList.address]
        by_cases he : l.href = [] <;> simp [he]

/-- The methods of lists that don't change anything. -/
theorem c90_list (e : Entity) (hl : Legal (programOf e)) (zero : Text → Value Val)
    (funcs : Text → Option (List (Value Val) → σ → Value Val × σ))
    (s : State Val σ) (r : Value Val) (l : Option GoTypes.ObjectList) (hr : IsList s r l) :
    let run := fun name args => call (programOf e) zero funcs (e.object ++ t!"List") name r args s
    run t!"Len" [] = .ok ([.int (GoTypes.ObjectList.len l)], s) ∧
    run t!"Empty" [] = .ok ([.bool (GoTypes.ObjectList.empty l)], s) ∧
    (∃ v, run t!"Items" [] = .ok ([v], s) ∧ IsSlice s v (GoTypes.ObjectList.getItems l)) ∧
    ∀ i, run t!"Get" [.int i] = .ok ([value (GoTypes.ObjectList.get i l)], s) := by
  have mem : ∀ i, (h : i < e.listMethods.length) → e.listMethods[i].decl ∈ programOf e :=
    fun i h => mem_listMethods (List.getElem_mem h)
  refine ⟨?_, ?_, ?_, fun i => ?_⟩
  · refine (call_eq _ zero funcs _ r [] s hl (mem 0 (by simp [Entity.listMethods]))).trans ?_
    simp only [Func.call, execBlock, Stmt.exec, evalArgs, List.map_cons, List.map_nil, List.zip_nil_right,
      List.nil_append, dot, Expr.eval]
    rw [(hr.notNil _ t!"l" { s with vars := [(t!"l", r), ([], zero t!"int")] } rfl).2]
    cases l with
    | none => rfl
    | some l =>
      obtain ⟨a, items, rfl, hi, -, hf⟩ := hr.field
      have hf := (hf { s with vars := [(t!"l", .pointer a), ([], zero t!"int")] } rfl).2.2
      have hi := hi.elements { s with vars := [(t!"l", .pointer a), ([], zero t!"int")] } rfl
      simp [Res.bind, leave, hf, hi, Res.ofOption, GoTypes.ObjectList.len, GoTypes.ObjectList.elements]
  · refine (call_eq _ zero funcs _ r [] s hl (mem 5 (by simp [Entity.listMethods]))).trans ?_
    simp only [Func.call, execBlock, Stmt.exec, evalArgs, List.map_cons, List.map_nil, List.zip_nil_right,
      List.nil_append, dot, Expr.eval]
    rw [(hr.notNil _ t!"l" { s with vars := [(t!"l", r), ([], zero t!"bool")] } rfl).2]
    cases l with
    | none => rfl
    | some l =>
      obtain ⟨a, items, rfl, hi, -, hf⟩ := hr.field
      have hf := (hf { s with vars := [(t!"l", .pointer a), ([], zero t!"bool")] } rfl).2.2
      have hi := hi.elements { s with vars := [(t!"l", .pointer a), ([], zero t!"bool")] } rfl
      simp [Res.bind, hf, hi, Res.ofOption, GoTypes.ObjectList.empty, GoTypes.ObjectList.elements, equal]
      rw [Bool.eq_iff_iff]
      simp
  · have hd := call_eq _ zero funcs _ r [] s hl (mem 4 (by simp [Entity.listMethods]))
    cases l with
    | none =>
      refine ⟨.nil, hd.trans ?_, .nil⟩
      simp only [Func.call, execBlock, Stmt.exec, evalArgs, List.map_cons, List.map_nil, List.zip_nil_right,
        List.nil_append, dot, Expr.eval]
      rw [(hr.notNil _ t!"l" { s with vars := [(t!"l", r), ([], zero (t!"[]*" ++ e.object))] } rfl).2]
      rfl
    | some l =>
      obtain ⟨a, items, rfl, hi, -, hf⟩ := hr.field
      refine ⟨items, hd.trans ?_, hi⟩
      have hf := (hf { s with vars := [(t!"l", .pointer a), ([], zero (t!"[]*" ++ e.object))] } rfl).2.2
      simp only [Func.call, execBlock, Stmt.exec, evalArgs, List.map_cons, List.map_nil, List.zip_nil_right,
        List.nil_append, dot, Expr.eval]
      rw [(hr.notNil _ t!"l" { s with vars := [(t!"l", .pointer a), ([], zero (t!"[]*" ++ e.object))] } rfl).2]
      simp only [Res.bind, leave, Option.isNone_some, List.length_cons, List.length_nil,
        Nat.sub_self, List.drop_zero, List.lookup_cons_self, hf]
  · refine (call_eq _ zero funcs _ r [.int i] s hl (mem 6 (by simp [Entity.listMethods]))).trans ?_
    simp only [Func.call, execBlock, Stmt.exec, evalArgs, List.map_cons, List.map_nil, List.zip_cons_cons,
      List.zip_nil_right, List.cons_append, List.nil_append, dot, Expr.eval]
    rw [(hr.notNil _ t!"l" { s with vars := [(t!"l", r), (t!"i", .int i), ([], zero ('*' :: e.object))] } rfl).2]
    cases l with
    | none => rfl
    | some l =>
      obtain ⟨a, items, rfl, hi, -, hf⟩ := hr.field
      have hf := (hf { s with vars := [(t!"l", .pointer a), (t!"i", .int i), ([], zero ('*' :: e.object))] } rfl).2.2
      have hi := hi.elements { s with vars := [(t!"l", .pointer a), (t!"i", .int i), ([], zero ('*' :: e.object))] } rfl
      have hv : ∀ b : Text × Value Val, List.lookup t!"i" [(t!"l", .pointer a), (t!"i", .int i), b] = some (.int i) :=
        fun _ => rfl
      simp only [Res.bind, Option.isNone_some, hv, GoProgram.compare]
      change _ = Res.ok ([value (if i < 0 ∨ i ≥ (l.items.getD []).length then Val.nil else
        (l.items.getD []).getD i.toNat .nil)], s)
      by_cases h0 : i < 0
      · simp [h0, leave, value]
      · by_cases h1 : i ≥ (l.items.getD []).length
        · simp [h0, h1, hf, hi, Res.ofOption, leave, value]
        · obtain ⟨n, rfl⟩ := Int.eq_ofNat_of_zero_le (Int.not_lt.mp h0)
          have h2 : n < (l.items.getD []).length := by omega
          have he : element ((l.items.getD []).map value) (.int (n : Nat)) =
              .ok (value ((l.items.getD []).getD n .nil)) := by
            refine (element.eq_1 _ n).trans ?_
            simp [h2]
          simp [h0, h1, hf, hi, hv, he, Res.ofOption, leave]

/-- The methods of lists that change a field: they panic for nil, and otherwise they only change the list
that the pointer points to. -/
theorem c90_setters (e : Entity) (hl : Legal (programOf e)) (zero : Text → Value Val)
    (funcs : Text → Option (List (Value Val) → σ → Value Val × σ))
    (s : State Val σ) (r : Value Val) (l : Option GoTypes.ObjectList) (hr : IsList s r l) :
    let run := fun name args => call (programOf e) zero funcs (e.object ++ t!"List") name r args s
    (l = none → ∀ v, run t!"SetLink" [v] = .panic ∧ run t!"SetHREF" [v] = .panic ∧
      run t!"SetItems" [v] = .panic) ∧
    (l ≠ none →
      (∀ b, ∃ t, run t!"SetLink" [.bool b] = .ok ([], t) ∧ Changed s t r ∧
        IsList t r (GoTypes.ObjectList.setLink b l)) ∧
      (∀ h, ∃ t, run t!"SetHREF" [.str h] = .ok ([], t) ∧ Changed s t r ∧
        IsList t r (GoTypes.ObjectList.setHREF h l)) ∧
      ∀ v items, IsSlice s v items → ∃ t, run t!"SetItems" [v] = .ok ([], t) ∧ Changed s t r ∧
        IsList t r (GoTypes.ObjectList.setItems items l)) := by
  have mem : ∀ i, (h : i < e.listMethods.length) → e.listMethods[i].decl ∈ programOf e :=
    fun i h => mem_listMethods (List.getElem_mem h)
  have d1 := fun v => call_eq _ zero funcs _ r [v] s hl (mem 1 (by simp [Entity.listMethods]))
  have d2 := fun v => call_eq _ zero funcs _ r [v] s hl (mem 2 (by simp [Entity.listMethods]))
  have d3 := fun v => call_eq _ zero funcs _ r [v] s hl (mem 3 (by simp [Entity.listMethods]))
  refine ⟨?_, ?_⟩
  · rintro rfl v
    cases hr
    exact ⟨(d1 v).trans rfl, (d2 v).trans rfl, (d3 v).trans rfl⟩
  · intro hn
    cases hr with
    | nil => exact absurd rfl hn
    | @list a l items hs hi =>
      have hlt : a < s.structs.length := (List.getElem?_eq_some_iff.mp hs).1
      have hch : ∀ fs, Changed s { s with structs := s.structs.set a fs } (.pointer a) := by
        intro fs
        refine ⟨rfl, rfl, rfl, by simp, fun b hb => ?_⟩
        have : a ≠ b := fun h => hb (by rw [h])
        simp [this]
      refine ⟨fun b => ?_, fun h => ?_, fun v items' hv => ?_⟩
      · refine ⟨_, (d1 _).trans ?_, hch [(t!"href", .str l.href), (t!"link", .bool b), (t!"items", items)],
          show IsList _ _ (some { l with link := b }) from .list (by simp [hlt]) (hi.mono fun _ _ => rfl)⟩
        simp [Func.call, execBlock, Stmt.exec, dot, Expr.eval, assign, Res.bind, hs, update, Res.ofOption,
          List.lookup]
      · refine ⟨_, (d2 _).trans ?_, hch [(t!"href", .str h), (t!"link", .bool l.link), (t!"items", items)],
          show IsList _ _ (some { l with href := h }) from .list (by simp [hlt]) (hi.mono fun _ _ => rfl)⟩
        simp [Func.call, execBlock, Stmt.exec, dot, Expr.eval, assign, Res.bind, hs, update, Res.ofOption,
          List.lookup]
      · refine ⟨_, (d3 _).trans ?_, hch [(t!"href", .str l.href), (t!"link", .bool l.link), (t!"items", v)],
          show IsList _ _ (some { l with items := items' }) from
            .list (by simp [hlt]) (hv.mono fun _ _ => rfl)⟩
        simp [Func.call, execBlock, Stmt.exec, dot, Expr.eval, assign, Res.bind, hs, update, Res.ofOption,
          List.lookup]

/-- The method that returns a slice: it is a new array with the items, so the caller can put anything in it
without changing the list, nor anything else that was in memory. -/
theorem c90_slice (e : Entity) (hl : Legal (programOf e)) (zero : Text → Value Val)
    (funcs : Text → Option (List (Value Val) → σ → Value Val × σ))
    (s : State Val σ) (r : Value Val) (l : Option GoTypes.ObjectList) (hr : IsList s r l) :
    ∃ t, call (programOf e) zero funcs (e.object ++ t!"List") t!"Slice" r [] s =
        .ok ([.slice s.arrays.length], t) ∧
      t = { s with arrays := s.arrays ++ [(GoTypes.ObjectList.slice l).map value] } ∧
      IsSlice t (.slice s.arrays.length) (some (GoTypes.ObjectList.slice l)) ∧
      ∀ new, IsList { t with arrays := t.arrays.set s.arrays.length new } r l := by
  have hd := call_eq _ zero funcs _ r [] s hl (mem_listMethods (i := e.listMethods[7]'(by simp [Entity.listMethods]))
    (List.getElem_mem _))
  refine ⟨_, hd.trans ?_, rfl, .slice (by simp), fun new => ?_⟩
  · rw [Func.call]
    simp only [List.map_cons, List.map_nil, List.zip_nil_right, List.nil_append]
    rw [execBlock, Stmt.exec]
    simp only [Res.bind]
    rw [execBlock, Stmt.exec, (hr.notNil _ t!"l" { s with vars := [(t!"slice", zero (t!"[]*" ++ e.object)),
      (t!"l", r), ([], zero (t!"[]*" ++ e.object))] } rfl).2]
    cases l with
    | none =>
      simp [Res.bind, Expr.eval, execBlock, Stmt.exec, evalArgs, assign, update, Res.ofOption, leave,
        GoTypes.ObjectList.slice, List.lookup]
    | some l =>
      have hr' : IsList { s with vars := [(t!"slice", zero (t!"[]*" ++ e.object)),
        (t!"l", r), ([], zero (t!"[]*" ++ e.object))] } r (some l) := by
        cases hr with
        | list hs hi => exact .list hs (hi.mono fun _ _ => rfl)
      simp only [Res.bind, Option.isNone_some]
      rw [exec_slice _ _ _ _ _ _ _ l hr' rfl]
      simp [Res.bind, execBlock, Stmt.exec, evalArgs, Expr.eval, leave, GoTypes.ObjectList.slice,
        GoTypes.ObjectList.elements]
  · cases hr with
    | nil => exact .nil
    | @list a l items hs hi =>
      refine .list hs (hi.mono fun b hb => ?_)
      simp [List.getElem?_append_left hb, hb]

theorem loop_each (body : Nat → Value Val → State Val σ → Res (Flow Val × State Val σ))
    (f : Nat → Val → σ → Bool × σ)
    (hb : ∀ k v (s : State Val σ), body k (value v) s =
      .ok (if (f k v s.user).1 then .next else .stop, { s with user := (f k v s.user).2 })) :
    ∀ (k : Nat) (items : List Val) (s : State Val σ),
      loop body k (items.map value) s =
        .ok (.next, { s with user := GoTypes.ObjectList.rangeLoop f s.user k items })
  | _, [], _ => rfl
  | k, v :: items, s => by
    rw [List.map_cons, loop, hb, GoTypes.ObjectList.rangeLoop]
    rcases f k v s.user with ⟨b, u⟩
    cases b with
    | true => exact loop_each body f hb (k + 1) items _
    | false => rfl

theorem eachLoop_eq (f : Val → σ → Bool × σ) : ∀ (items : List Val) (u : σ) (k : Nat),
    GoTypes.ObjectList.eachLoop f u items = GoTypes.ObjectList.rangeLoop (fun _ => f) u k items
  | [], _, _ => rfl
  | v :: items, u, k => by
    rw [GoTypes.ObjectList.eachLoop, GoTypes.ObjectList.rangeLoop]
    rcases f v u with ⟨b, u'⟩
    cases b with
    | true => exact eachLoop_eq f items u' (k + 1)
    | false => rfl

/-- The methods that run a function for each item of the list, till it returns false. The function can
change anything except the list. -/
theorem c90_loops (e : Entity) (hl : Legal (programOf e)) (zero : Text → Value Val)
    (s : State Val σ) (r : Value Val) (l : Option GoTypes.ObjectList) (hr : IsList s r l)
    (g : List (Value Val) → σ → Value Val × σ) (arg : Value Val) :
    let run := fun name =>
      call (programOf e) zero (fun x => if x = t!"f" then some g else none) (e.object ++ t!"List") name r [arg] s
    (∀ f : Val → σ → Bool × σ, (∀ v u, g [value v] u = (.bool (f v u).1, (f v u).2)) →
      run t!"Each" = .ok ([], { s with user := GoTypes.ObjectList.each f s.user l })) ∧
    ∀ f : Nat → Val → σ → Bool × σ,
      (∀ i v u, g [.int (i : Nat), value v] u = (.bool (f i v u).1, (f i v u).2)) →
      run t!"Range" = .ok ([], { s with user := GoTypes.ObjectList.range f s.user l }) := by
  have mem : ∀ i, (h : i < e.listMethods.length) → e.listMethods[i].decl ∈ programOf e :=
    fun i h => mem_listMethods (List.getElem_mem h)
  refine ⟨fun f hg => ?_, fun f hg => ?_⟩
  · refine (call_eq _ zero _ _ r [arg] s hl (mem 8 (by simp [Entity.listMethods]))).trans ?_
    rw [Func.call]
    simp only [List.map_cons, List.map_nil, List.zip_cons_cons, List.zip_nil_right, List.nil_append,
      List.append_nil]
    rw [execBlock, Stmt.exec, (hr.notNil _ t!"l" { s with vars := [(t!"l", r), (t!"f", arg)] } rfl).2]
    cases l with
    | none =>
      simp [Res.bind, execBlock, Stmt.exec, Res.ofOption, leave, GoTypes.ObjectList.each]
    | some l =>
      obtain ⟨a, items, rfl, hi, -, hf⟩ := hr.field
      have hf := (hf { s with vars := [(t!"l", .pointer a), (t!"f", arg)] } rfl).2.2
      have hi := hi.elements { s with vars := [(t!"l", .pointer a), (t!"f", arg)] } rfl
      simp only [Res.bind, Option.isNone_some, execBlock, leave, List.length_cons, List.length_nil,
        Nat.sub_self, List.drop_zero]
      rw [Stmt.exec]
      simp only [dot, Expr.eval, List.lookup_cons_self, Res.bind, hf, hi, Res.ofOption]
      rw [loop_each _ (fun _ => f)]
      · rw [GoTypes.ObjectList.each, eachLoop_eq f _ _ 0]
        rfl
      · intro k v t
        have h2 : t.vars.length + 1 + 1 - t.vars.length = 2 := by omega
        simp only [execBlock, Stmt.exec, Expr.eval, evalArgs, List.lookup, beq_self_eq_true, Res.bind, if_true,
          hg]
        by_cases hb : (f v t.user).1 = true
        · simp [hb, leave, h2]
        · rw [Bool.not_eq_true] at hb
          simp [hb, leave, h2]
  · refine (call_eq _ zero _ _ r [arg] s hl (mem 9 (by simp [Entity.listMethods]))).trans ?_
    rw [Func.call]
    simp only [List.map_cons, List.map_nil, List.zip_cons_cons, List.zip_nil_right, List.nil_append,
      List.append_nil]
    rw [execBlock, Stmt.exec, (hr.notNil _ t!"l" { s with vars := [(t!"l", r), (t!"f", arg)] } rfl).2]
    cases l with
    | none =>
      simp [Res.bind, execBlock, Stmt.exec, Res.ofOption, leave, GoTypes.ObjectList.range]
    | some l =>
      obtain ⟨a, items, rfl, hi, -, hf⟩ := hr.field
      have hf := (hf { s with vars := [(t!"l", .pointer a), (t!"f", arg)] } rfl).2.2
      have hi := hi.elements { s with vars := [(t!"l", .pointer a), (t!"f", arg)] } rfl
      simp only [Res.bind, Option.isNone_some, execBlock, leave, List.length_cons, List.length_nil,
        Nat.sub_self, List.drop_zero]
      rw [Stmt.exec]
      simp only [dot, Expr.eval, List.lookup_cons_self, Res.bind, hf, hi, Res.ofOption]
      rw [loop_each _ f]
      · rfl
      · intro k v t
        have h2 : t.vars.length + 1 + 1 - t.vars.length = 2 := by omega
        simp only [execBlock, Stmt.exec, Expr.eval, evalArgs, List.lookup, beq_self_eq_true, Res.bind, if_true,
          show (t!"index" == t!"item") = false from rfl, hg]
        by_cases hb : (f k v t.user).1 = true
        · simp [hb, leave, h2]
        · rw [Bool.not_eq_true] at hb
          simp [hb, leave, h2]

/-! ## Metadata -/

theorem metadata_legal : Legal metadataProgram := by
  unfold Legal
  decide

/-- The methods of the metadata. -/
theorem c90_metadata (zero : Text → Value Val) (hz : zero t!"string" = .str [])
    (funcs : Text → Option (List (Value Val) → σ → Value Val × σ))
    (s : State Val σ) (r : Value Val) (m : Option GoTypes.Metadata) (hm : IsMetadata s r m) :
    let run := fun name => call metadataProgram zero funcs t!"Metadata" name r [] s
    run t!"ServerVersion" = .ok ([.str (GoTypes.Metadata.getVersion m)], s) ∧
    run t!"GetServerVersion" =
      .ok ([.str (GoTypes.Metadata.getVersionOk m).1, .bool (GoTypes.Metadata.getVersionOk m).2], s) := by
  have mem : ∀ i, (h : i < metadataProgram.length) → metadataProgram[i] ∈ metadataProgram :=
    fun i h => List.getElem_mem h
  have hp : ∀ (w : World Val σ) (t : State Val σ), t.structs = s.structs → t.vars.lookup t!"m" = some r →
      (present t!"m" 0).eval w t = .ok (.bool (GoTypes.Metadata.getVersionOk m).2, t) := by
    intro w t ht hx
    obtain ⟨h1, h2⟩ := eval_present w t!"m" 0 t r hx
    cases hm with
    | nil => exact h1 rfl
    | @metadata a m hs =>
      refine (h2 a _ m.bitmap rfl (by rw [ht]; exact hs) rfl).1.trans ?_
      simp only [GoTypes.Metadata.getVersionOk]
      by_cases hb : m.bitmap.testBit 0 = true <;> simp [hb]
  have hf : (GoTypes.Metadata.getVersionOk m).2 = true →
      s.field t!"serverVersion" r = .ok (.str (GoTypes.Metadata.getVersionOk m).1) := by
    intro h
    cases hm with
    | nil => cases h
    | @metadata a m hs =>
      simp only [GoTypes.Metadata.getVersionOk] at h ⊢
      by_cases hb : m.bitmap.testBit 0 = true
      · simp [hb, State.field, hs, List.lookup]
      · simp [hb] at h
  refine ⟨(run_getter zero funcs metadata_legal (mem 1 (by decide)) r s _ (.str []) _ hp (fun _ _ => rfl) hf).trans ?_,
    (run_getterOk zero funcs metadata_legal (mem 2 (by decide)) r s _ _ (by decide) (by decide) hp hf).trans ?_⟩
  · cases m with
    | none => rfl
    | some m =>
      simp only [GoTypes.Metadata.getVersionOk, GoTypes.Metadata.getVersion]
      by_cases hb : m.bitmap.testBit 0 = true <;> simp [hb]
  · rw [hz]
    cases m with
    | none => rfl
    | some m =>
      simp only [GoTypes.Metadata.getVersionOk]
      by_cases hb : m.bitmap.testBit 0 = true <;> simp [hb]

/-! ## Examples -/

/-- The zero values of the types of the example. -/
def exampleZero : Text → Value Val := fun t =>
  if t = t!"bool" then .bool false
  else if t = t!"string" then .str []
  else if t = t!"float64" then value (GoJson.zero .float)
  else if t = t!"time.Time" then value (GoJson.zero .date)
  else .nil

/-- The shapes of the types of the example. -/
def exampleSchema : GoJson.Schema
  | 0 => .boolean
  | 1 => .date
  | _ => .struct true t!"Cluster" []

/-- A memory with an object that has an identifier and two attributes, and a link, and a list with both. -/
def exampleState : State Val Nat :=
  { structs := [
      [(t!"bitmap_", .int 26), (t!"id", .str t!"123"), (t!"href", .str []),
        (t!"creationTimestamp", value (.date { text := t!"2023-01-01T00:00:00Z" })), (t!"parent", .nil),
        (t!"managed", .bool true)],
      [(t!"href", .str t!"/clusters"), (t!"link", .bool false), (t!"items", .slice 0)]]
    arrays := [[value (.obj 26 t!"123" [] []), .nil]]
    user := 0 }

/-- The object of the example. -/
def exampleObject : Val :=
  .obj 26 t!"123" [] [.bool true, .date { text := t!"2023-01-01T00:00:00Z" }, .nil]

theorem example_legal : Legal (programOf (entityOf exampleContext exampleClass)) := by
  unfold Legal
  decide +kernel

theorem example_object :
    IsObject (entityOf exampleContext exampleClass) exampleState (.pointer 0) exampleObject := by
  refine .obj (fields := exampleState.structs[0]) rfl (by decide +kernel) rfl
    (fun _ => ⟨rfl, rfl⟩) (by decide +kernel) ?_
  intro i m v hm hv
  match i with
  | 0 => cases hm; cases hv; rfl
  | 1 => cases hm; cases hv; rfl
  | 2 => cases hm; cases hv; rfl
  | n + 3 => cases hv

theorem example_zeros : Zeros exampleZero exampleContext exampleClass exampleSchema := by
  refine ⟨rfl, rfl, rfl, rfl, ?_⟩
  intro a ha
  simp only [exampleClass, List.mem_cons, List.not_mem_nil, or_false] at ha
  rcases ha with rfl | rfl | rfl <;> rfl

theorem example_kinds : ∀ a ∈ exampleClass.attributes, SameKind (exampleContext.typeOf a.typ) (exampleSchema a.typ) := by
  intro a ha
  simp only [exampleClass, List.mem_cons, List.not_mem_nil, or_false] at ha
  rcases ha with rfl | rfl | rfl <;> constructor

example : call (programOf (entityOf exampleContext exampleClass)) exampleZero (fun _ => none) t!"Cluster"
    t!"Kind" (.pointer 0) [] exampleState = .ok ([.str t!"Cluster"], exampleState) :=
  (c90_class _ example_legal rfl exampleZero rfl (fun _ => none) exampleState _ _ example_object).1

example : call (programOf (entityOf exampleContext exampleClass)) exampleZero (fun _ => none) t!"Cluster"
    t!"GetManaged" (.pointer 0) [] exampleState = .ok ([.bool true, .bool true], exampleState) :=
  (c90_getters exampleContext exampleClass example_legal exampleSchema example_kinds exampleZero example_zeros
    (fun _ => none) exampleState _ _ example_object 0 _ rfl).2

example : IsList exampleState (.pointer 1)
    (some { href := t!"/clusters", link := false, items := some [.obj 26 t!"123" [] [], .nil] }) :=
  .list rfl (.slice rfl)

example : IsMetadata (σ := Nat)
    { structs := [[(t!"bitmap_", .int 1), (t!"serverVersion", .str t!"1.2")]], user := 0 } (.pointer 0)
    (some { bitmap := 1, serverVersion := t!"1.2" }) :=
  .metadata rfl

end Verif.TypesRun
