import Verif.Spec.TypesRun

/-!
# Lemmas about running the generated types
-/

namespace Verif.TypesRun

open GoJson (Val)
open GoProgram TypesCode

variable {σ : Type}

theorem method_eq : ∀ (p : List Declaration) (f : Func), Legal p → .func f ∈ p →
    method p f.typ f.name = some f
  | [], _, _, h => by cases h
  | d :: p, f, hl, h => by
    have hl' : Legal p := by
      unfold Legal at hl
      rw [List.flatMap_cons, List.nodup_append] at hl
      exact hl.2.1
    have hd : ∀ x ∈ introduced d, (x.1, x.2) ∉ p.flatMap introduced := by
      intro x hx hx'
      unfold Legal at hl
      rw [List.flatMap_cons, List.nodup_append] at hl
      exact hl.2.2 x hx x hx' rfl
    rw [method, List.findSome?_cons]
    rcases List.mem_cons.mp h with rfl | h'
    · simp
    · have hm : (f.typ, f.name) ∈ p.flatMap introduced :=
        List.mem_flatMap.mpr ⟨_, h', by simp [introduced]⟩
      have ih := method_eq p f hl' h'
      rw [method] at ih
      cases d with
      | func g =>
        have : ¬ (g.typ = f.typ ∧ g.name = f.name) := by
          rintro ⟨h1, h2⟩
          refine hd (g.typ, g.name) (by simp [introduced]) ?_
          rw [h1, h2]
          exact hm
        simp only [this, if_false]
        exact ih
      | _ => exact ih

theorem constant_eq : ∀ (p : List Declaration) (x v : Text), Legal p → .const x v ∈ p →
    constant p x = some v
  | [], _, _, _, h => by cases h
  | d :: p, x, v, hl, h => by
    have hl' : Legal p := by
      unfold Legal at hl
      rw [List.flatMap_cons, List.nodup_append] at hl
      exact hl.2.1
    have hd : ∀ x ∈ introduced d, (x.1, x.2) ∉ p.flatMap introduced := by
      intro x hx hx'
      unfold Legal at hl
      rw [List.flatMap_cons, List.nodup_append] at hl
      exact hl.2.2 x hx x hx' rfl
    rw [constant, List.findSome?_cons]
    rcases List.mem_cons.mp h with rfl | h'
    · simp
    · have hm : (([] : Text), x) ∈ p.flatMap introduced :=
        List.mem_flatMap.mpr ⟨_, h', by simp [introduced]⟩
      have ih := constant_eq p x v hl' h'
      rw [constant] at ih
      cases d with
      | const y w =>
        have : ¬ y = x := by
          rintro rfl
          exact hd ([], y) (by simp [introduced]) hm
        simp only [this, if_false]
        exact ih
      | _ => exact ih

theorem call_eq (p : List Declaration) (zero : Text → Value Val)
    (funcs : Text → Option (List (Value Val) → σ → Value Val × σ)) (f : Func)
    (r : Value Val) (args : List (Value Val)) (s : State Val σ) (hl : Legal p) (hf : .func f ∈ p) :
    call p zero funcs f.typ f.name r args s =
      f.call { consts := constant p, zero := zero, funcs := funcs } r args s := by
  rw [call, method_eq p f hl hf]

/-! ## Conditions -/

theorem land_bit (n bit : Nat) : (Nat.land n (2 ^ bit) = 0) ↔ n.testBit bit = false := by
  constructor
  · intro h
    have := congrArg (fun m => Nat.testBit m bit) h
    change Nat.testBit (n &&& 2 ^ bit) bit = Nat.testBit 0 bit at this
    rw [Nat.testBit_and, Nat.testBit_two_pow_self] at this
    simpa using this
  · intro h
    change n &&& 2 ^ bit = 0
    apply Nat.eq_of_testBit_eq
    intro i
    rw [Nat.testBit_and, Nat.testBit_two_pow]
    by_cases hi : bit = i
    · subst hi
      simp [h]
    · simp [hi]

theorem bits_eq (f : Nat → Nat → Nat) (a b : Nat) :
    bits f (.int a : Value Val) (.int b) = .ok (.int (f a b)) := rfl

theorem eval_present (w : World Val σ) (x : Text) (bit : Nat) (s : State Val σ) (r : Value Val)
    (hx : s.vars.lookup x = some r) :
    (r = .nil → (present x bit).eval w s = .ok (.bool false, s)) ∧
    (∀ a fields bitmap, r = .pointer a → s.structs[a]? = some fields →
      fields.lookup t!"bitmap_" = some (.int (bitmap : Nat)) →
      (present x bit).eval w s = .ok (.bool (bitmap.testBit bit), s) ∧
      (bitSet x bit).eval w s = .ok (.bool (bitmap.testBit bit), s)) := by
  refine ⟨?_, ?_⟩
  · rintro rfl
    simp [present, notNil, Expr.eval, hx, Res.bind, equal, Res.ofOption]
  · rintro a fields bitmap rfl hs hb
    have h2 : (bitSet x bit).eval w s = .ok (.bool (bitmap.testBit bit), s) := by
      simp only [bitSet, dot, Expr.eval, hx, Res.bind, State.field, hs, hb, Option.bind_some, bits_eq,
        equal, Res.ofOption]
      congr 3
      cases hc : bitmap.testBit bit with
      | false =>
        have := (land_bit bitmap bit).mpr hc
        simp
        exact this
      | true =>
        have : Nat.land bitmap (2 ^ bit) ≠ 0 := fun h => by
          rw [(land_bit bitmap bit).mp h] at hc
          cases hc
        simp
        omega
    refine ⟨?_, h2⟩
    rw [present, Expr.eval, notNil, Expr.eval]
    simp only [Expr.eval, hx, Res.bind, equal, Res.ofOption]
    exact h2

theorem call_getter (w : World Val σ) (x typ name result : Text) (condition : Expr) (field : Text) (zero : Expr)
    (r : Value Val) (s : State Val σ) (b : Bool) (z v : Value Val)
    (hc : ∀ t : State Val σ, t.structs = s.structs → t.vars.lookup x = some r →
      condition.eval w t = .ok (.bool b, t))
    (hz : b = false → ∀ t, zero.eval w t = .ok (z, t))
    (hv : b = true → s.field field r = .ok v) (f : Func)
    (hf : getter x typ name result condition field zero = .func f) :
    f.call w r [] s = .ok ([if b then v else z], s) := by
  cases hf
  simp only [Func.call, execBlock, Stmt.exec, evalArgs, List.map_cons, List.map_nil, List.zip_nil_right,
    List.nil_append]
  rw [hc { s with vars := [(x, r), ([], w.zero result)] } rfl (by simp)]
  cases b with
  | false =>
    simp only [Res.bind, execBlock, leave, Stmt.exec, evalArgs]
    rw [hz rfl]
    simp
  | true =>
    have := hv rfl
    simp only [Res.bind, execBlock, leave, Stmt.exec, evalArgs, dot, Expr.eval, List.lookup_cons_self]
    have : State.field ({ s with vars := [(x, r), ([], w.zero result)] } : State Val σ) field r = .ok v := by
      rw [← this]
      cases r <;> rfl
    rw [this]
    simp

theorem call_getterOk (w : World Val σ) (x typ name result : Text) (condition : Expr) (field : Text)
    (r : Value Val) (s : State Val σ) (b : Bool) (v : Value Val) (hx : x ≠ t!"value") (hx' : x ≠ t!"ok")
    (hc : ∀ t : State Val σ, t.structs = s.structs → t.vars.lookup x = some r →
      condition.eval w t = .ok (.bool b, t))
    (hv : b = true → s.field field r = .ok v) (f : Func)
    (hf : getterOk x typ name result condition field = .func f) :
    f.call w r [] s = .ok ([if b then v else w.zero result, .bool b], s) := by
  cases hf
  simp only [Func.call, execBlock, Stmt.exec, List.map_cons, List.map_nil, List.zip_nil_right,
    List.nil_append]
  rw [hc { s with vars := [(x, r), (t!"value", w.zero result), (t!"ok", w.zero t!"bool")] } rfl (by simp)]
  have h1 : (t!"value" : Text) ≠ t!"ok" := by decide
  have h2 : ((t!"value" : Text) == x) = false := beq_eq_false_iff_ne.mpr hx.symm
  have h3 : ((t!"ok" : Text) == x) = false := beq_eq_false_iff_ne.mpr hx'.symm
  cases b with
  | false =>
    simp [Res.bind, execBlock, leave, Stmt.exec, assign, update, Res.ofOption, hx, hx', h1, Expr.eval,
      List.lookup, h2, h3]
  | true =>
    have := hv rfl
    have : ∀ vars, State.field ({ s with vars := vars } : State Val σ) field r = .ok v := by
      intro vars
      rw [← this]
      cases r <;> rfl
    simp [Res.bind, execBlock, leave, Stmt.exec, assign, update, Res.ofOption, hx, hx', h1, Expr.eval,
      List.lookup, dot, this, h2, h3]

theorem run_getter {p : List Declaration} (zero : Text → Value Val)
    (funcs : Text → Option (List (Value Val) → σ → Value Val × σ)) {x typ name result : Text}
    {condition : Expr} {field : Text} {e : Expr} (hl : Legal p)
    (hm : getter x typ name result condition field e ∈ p) (r : Value Val) (s : State Val σ) (b : Bool)
    (z v : Value Val)
    (hc : ∀ (w : World Val σ) (t : State Val σ), t.structs = s.structs → t.vars.lookup x = some r →
      condition.eval w t = .ok (.bool b, t))
    (hz : b = false → ∀ t, e.eval { consts := constant p, zero := zero, funcs := funcs } t = .ok (z, t))
    (hv : b = true → s.field field r = .ok v) :
    call p zero funcs typ name r [] s = .ok ([if b then v else z], s) :=
  (call_eq p zero funcs _ r [] s hl hm).trans
    (call_getter _ x typ name result condition field e r s b z v (fun t => hc _ t) hz hv _ rfl)

theorem run_getterOk {p : List Declaration} (zero : Text → Value Val)
    (funcs : Text → Option (List (Value Val) → σ → Value Val × σ)) {x typ name result : Text}
    {condition : Expr} {field : Text} (hl : Legal p)
    (hm : getterOk x typ name result condition field ∈ p) (r : Value Val) (s : State Val σ) (b : Bool)
    (v : Value Val) (hx : x ≠ t!"value") (hx' : x ≠ t!"ok")
    (hc : ∀ (w : World Val σ) (t : State Val σ), t.structs = s.structs → t.vars.lookup x = some r →
      condition.eval w t = .ok (.bool b, t))
    (hv : b = true → s.field field r = .ok v) :
    call p zero funcs typ name r [] s = .ok ([if b then v else zero result, .bool b], s) :=
  (call_eq p zero funcs _ r [] s hl hm).trans
    (call_getterOk _ x typ name result condition field r s b v hx hx' (fun t => hc _ t) hv _ rfl)

/-! ## Objects -/

theorem IsObject.present {e : Entity} {s : State Val σ} {r : Value Val} {o : Val} (ho : IsObject e s r o)
    (w : World Val σ) (x : Text) (bit : Nat) (t : State Val σ) (ht : t.structs = s.structs)
    (hx : t.vars.lookup x = some r) :
    (present x bit).eval w t = .ok (.bool (GoTypes.hasBit bit o), t) := by
  obtain ⟨h1, h2⟩ := eval_present w x bit t r hx
  cases ho with
  | nil => exact h1 rfl
  | obj hs hk hb hc hv hf => exact (h2 _ _ _ rfl (by rw [ht]; exact hs) hb).1

theorem IsObject.field {e : Entity} {s : State Val σ} {r : Value Val} {o : Val} (ho : IsObject e s r o)
    (bit : Nat) (hb : GoTypes.hasBit bit o = true) : ∃ a bitmap id href values,
    r = .pointer a ∧ o = .obj bitmap id href values ∧ values.length = e.members.length ∧
    (e.isClass = true → s.field t!"id" r = .ok (.str id) ∧ s.field t!"href" r = .ok (.str href)) ∧
    ∀ (i : Nat) (m : Member) (v : Val), e.members[i]? = some m → values[i]? = some v →
      s.field m.field r = .ok (value v) := by
  cases ho with
  | nil => cases hb
  | obj hs hk hb hc hv hf =>
    refine ⟨_, _, _, _, _, rfl, rfl, hv, ?_, ?_⟩
    · intro h
      simp [State.field, hs, hc h]
    · intro i m v hm hv
      simp [State.field, hs, hf i m v hm hv]

theorem mem_identity {e : Entity} (hc : e.isClass = true) {i : Item} (hi : i ∈ e.identity) :
    i.decl ∈ programOf e :=
  List.mem_map.mpr ⟨i, by simp [Entity.items, hc, hi], rfl⟩

theorem mem_kinds {e : Entity} (hc : e.isClass = true) {i : Item} (hi : i ∈ e.kinds) :
    i.decl ∈ programOf e :=
  List.mem_map.mpr ⟨i, by simp [Entity.items, hc, hi], rfl⟩

theorem mem_getters {e : Entity} {m : Member} (hm : m ∈ e.members) {i : Item} (hi : i ∈ e.getters m) :
    i.decl ∈ programOf e :=
  List.mem_map.mpr ⟨i, by
    have : i ∈ e.members.flatMap e.getters := List.mem_flatMap.mpr ⟨m, hm, hi⟩
    simp only [Entity.items, List.mem_append]
    simp [this], rfl⟩

theorem mem_empty (e : Entity) : e.empty.decl ∈ programOf e :=
  List.mem_map.mpr ⟨e.empty, by simp [Entity.items], rfl⟩

theorem mem_listKinds {e : Entity} {i : Item} (hi : i ∈ e.listKinds) : i.decl ∈ programOf e :=
  List.mem_map.mpr ⟨i, by simp [Entity.items, hi], rfl⟩

theorem mem_listIdentity {e : Entity} (hc : e.isClass = true) {i : Item} (hi : i ∈ e.listIdentity) :
    i.decl ∈ programOf e :=
  List.mem_map.mpr ⟨i, by simp [Entity.items, hc, hi], rfl⟩

theorem mem_listMethods {e : Entity} {i : Item} (hi : i ∈ e.listMethods) : i.decl ∈ programOf e :=
  List.mem_map.mpr ⟨i, by simp [Entity.items, hi], rfl⟩

/-! ## Lists -/

theorem IsList.notNil {s : State Val σ} {r : Value Val} {l : Option GoTypes.ObjectList} (hr : IsList s r l)
    (w : World Val σ) (x : Text) (t : State Val σ) (hx : t.vars.lookup x = some r) :
    (notNil x).eval w t = .ok (.bool l.isSome, t) ∧ (isNil x).eval w t = .ok (.bool l.isNone, t) := by
  cases hr <;>
    simp [TypesCode.notNil, isNil, Expr.eval, hx, Res.bind, equal, Res.ofOption]

theorem IsList.field {s : State Val σ} {r : Value Val} {l : GoTypes.ObjectList} (hr : IsList s r (some l)) :
    ∃ a items, r = .pointer a ∧ IsSlice s items l.items ∧
      s.structs[a]? = some [(t!"href", .str l.href), (t!"link", .bool l.link), (t!"items", items)] ∧
      ∀ t : State Val σ, t.structs = s.structs →
        t.field t!"href" r = .ok (.str l.href) ∧ t.field t!"link" r = .ok (.bool l.link) ∧
        t.field t!"items" r = .ok items := by
  cases hr with
  | @list a l items hs hi =>
    refine ⟨a, items, rfl, hi, hs, fun t ht => ?_⟩
    simp only [State.field, ht, hs]
    exact ⟨rfl, rfl, rfl⟩

theorem IsSlice.elements {s : State Val σ} {v : Value Val} {items : Option (List Val)}
    (h : IsSlice s v items) (t : State Val σ) (ht : t.arrays = s.arrays) :
    t.elements v = some ((items.getD []).map value) := by
  cases h with
  | nil => rfl
  | slice h => simp [State.elements, ht, h]

theorem IsSlice.mono {s t : State Val σ} {v : Value Val} {items : Option (List Val)} (h : IsSlice s v items)
    (ht : ∀ a, a < s.arrays.length → t.arrays[a]? = s.arrays[a]?) : IsSlice t v items := by
  cases h with
  | nil => exact .nil
  | slice h => exact .slice (by rw [ht _ (List.getElem?_eq_some_iff.mp h).1]; exact h)

theorem eval_make (w : World Val σ) (typ : Text) (e : Expr) (s : State Val σ) (n : Nat)
    (h : e.eval w s = .ok (.int n, s)) :
    (Expr.make typ e).eval w s =
      .ok (.slice s.arrays.length, { s with arrays := s.arrays ++ [List.replicate n .nil] }) := by
  rw [Expr.eval, h]
  rfl

theorem exec_slice (w : World Val σ) (results : List Text) (typ : Text) (s : State Val σ) (r z y : Value Val)
    (l : GoTypes.ObjectList) (hr : IsList s r (some l))
    (hv : s.vars = [(t!"slice", z), (t!"l", r), ([], y)]) :
    execBlock w results
      [.assign (.var t!"slice") (.make typ (.len (dot t!"l" t!"items"))),
        .copy (.var t!"slice") (dot t!"l" t!"items")] s =
    .ok (.next, { s with
      arrays := s.arrays ++ [(l.items.getD []).map value]
      vars := [(t!"slice", .slice s.arrays.length), (t!"l", r), ([], y)] }) := by
  obtain ⟨a, items, rfl, hi, -, hf⟩ := hr.field
  have hd : ∀ t : State Val σ, t.structs = s.structs → t.vars.lookup t!"l" = some (.pointer a) →
      (dot t!"l" t!"items").eval w t = .ok (items, t) := by
    intro t ht hx
    simp [dot, Expr.eval, hx, Res.bind, (hf t ht).2.2]
  have hlen : (Expr.len (dot t!"l" t!"items")).eval w s = .ok (.int (l.items.getD []).length, s) := by
    rw [Expr.eval, hd s rfl (by rw [hv]; rfl)]
    simp [Res.bind, hi.elements s rfl, Res.ofOption]
  have hmake := eval_make w typ _ s _ hlen
  rw [execBlock, Stmt.exec, hmake]
  simp only [Res.bind, assign, hv, update, if_true, Res.ofOption]
  rw [execBlock, Stmt.exec, Expr.eval]
  simp only [List.lookup_cons_self, Res.bind]
  rw [hd { s with
      arrays := s.arrays ++ [List.replicate (l.items.getD []).length Value.nil]
      vars := [(t!"slice", .slice s.arrays.length), (t!"l", .pointer a), ([], y)] } rfl rfl]
  have hm : IsSlice { s with
      arrays := s.arrays ++ [List.replicate (l.items.getD []).length Value.nil]
      vars := [(t!"slice", .slice s.arrays.length), (t!"l", .pointer a), ([], y)] } items l.items :=
    hi.mono fun b hb => by simp [List.getElem?_append_left hb]
  have he := hm.elements _ rfl
  simp [he, Res.ofOption, execBlock]
  exact List.take_of_length_le (by simp)

end Verif.TypesRun
