import Verif.Lemmas.BuildersExec

/-!
# Lemmas about running the generated builders: constructors and setters
-/

namespace Verif.BuildersRun

open GoJson (Val Schema Shape AttrShape)
open GoBuilder (BVal Cell Mem)
open GoProgram
open TypesCode (dot)
open TypesRun (Legal value)
open BuildersCode (setBit clearBit fluent)

variable {σ : Type} {S : Schema} {U : TypeId → Code} {P : Program} {zero : Text → Text → Value Val}

/-! ## Declarations -/

section

variable {c : Bool} {as : List AttrShape} {u : Code} (h : Linked P zero S U c as u)

include h

theorem Linked.builderItem {i : TypesCode.Item} (hi : i ∈ u.builder.items) : i.decl ∈ P u.pkg :=
  h.declared _ (List.mem_map.mpr ⟨i, by simp [hi], rfl⟩)

theorem Linked.listItem {i : TypesCode.Item} (hi : i ∈ u.list.items) : i.decl ∈ P u.pkg :=
  h.declared _ (List.mem_map.mpr ⟨i, by simp [hi], rfl⟩)

theorem Linked.entityItem {i : TypesCode.Item} (hi : i ∈ u.entity.items) : i.decl ∈ P u.pkg :=
  h.declared _ (List.mem_map.mpr ⟨i, by simp [hi], rfl⟩)

theorem Linked.identityItem (hc : c = true) (i : Nat) (hi : i < 3) :
    (u.builder.identity[i]'(by simpa [BuildersCode.Builder.identity] using hi)).decl ∈ P u.pkg := by
  refine h.builderItem (i := u.builder.identity[i]'(by simpa [BuildersCode.Builder.identity] using hi)) ?_
  simp only [BuildersCode.Builder.items, h.isClass, hc, if_true, List.mem_append]
  exact .inl (.inl (.inl (.inr (List.getElem_mem _))))

theorem Linked.struct : .struct 2 u.builder.builder u.builder.fields ∈ P u.pkg :=
  h.builderItem (i := u.builder.struct) (by simp [BuildersCode.Builder.items])

theorem Linked.entityStruct : .struct 2 u.builder.object u.entity.fields ∈ P u.pkg := by
  have := h.entityItem (i := u.entity.struct) (by simp [TypesCode.Entity.items])
  rw [← h.entity]
  exact this

theorem Linked.nodup : (u.builder.fields.map Prod.fst).Nodup := nodup_fields _ _ _ _ h.legal h.struct

theorem Linked.entityNodup : (u.entity.fields.map Prod.fst).Nodup :=
  nodup_fields _ _ _ _ h.legal h.entityStruct

theorem Linked.builderName : '.' ∉ u.builder.builder := by
  simp [BuildersCode.Builder.builder, h.simple]

theorem Linked.ctorName : '.' ∉ u.builder.ctor := by
  simp [BuildersCode.Builder.ctor, h.simple]

end

theorem zero_lookup (fields : List (Text × Nat × Text)) (z : Text → Value Val)
    (hn : (fields.map Prod.fst).Nodup) {x t : Text} {g : Nat} (hm : (x, g, t) ∈ fields) :
    (fields.map fun f => (f.1, z f.2.2)).lookup x = some (z t) := by
  apply lookup_of_mem
  · rw [List.map_map]
    exact hn
  · exact List.mem_map.mpr ⟨_, hm, rfl⟩

theorem member_field {α : Type} (ms : List α) (p : α → Bool) (q : α → Text × Nat × Text) (m : α) (hm : m ∈ ms) :
    q m ∈ (ms.filter (!p ·)).map q ++ (ms.filter p).map q := by
  rw [List.mem_append]
  cases hp : p m with
  | true => exact .inr (List.mem_map.mpr ⟨m, List.mem_filter.mpr ⟨hm, hp⟩, rfl⟩)
  | false => exact .inl (List.mem_map.mpr ⟨m, List.mem_filter.mpr ⟨hm, by simp [hp]⟩, rfl⟩)

theorem field_mem (e : BuildersCode.Builder) (m : BuildersCode.Member) (hm : m ∈ e.members) :
    (m.field, 1, m.fieldType) ∈ e.fields := by
  have := member_field e.members (·.boolean) (fun m => (m.field, 1, m.fieldType)) m hm
  rw [List.mem_append] at this
  simp only [BuildersCode.Builder.fields, List.mem_cons, List.mem_append]
  exact .inr (this.elim (fun h => .inl (.inr h)) .inr)

theorem entityField_mem (e : TypesCode.Entity) (m : TypesCode.Member) (hm : m ∈ e.members) :
    (m.field, 1, m.fieldType) ∈ e.fields := by
  have := member_field e.members (·.boolean) (fun m => (m.field, 1, m.fieldType)) m hm
  rw [List.mem_append] at this
  simp only [TypesCode.Entity.fields, List.mem_cons, List.mem_append]
  exact .inr (this.elim (fun h => .inl (.inr h)) .inr)

/-- The names of the fields of the attributes are different, and different of the other names. -/
theorem names_nodup (e : BuildersCode.Builder) (hn : (e.fields.map Prod.fst).Nodup) :
    (e.members.map (·.field)).Nodup ∧ t!"bitmap_" ∉ e.members.map (·.field) ∧
      (e.isClass = true → t!"id" ∉ e.members.map (·.field) ∧ t!"href" ∉ e.members.map (·.field)) := by
  have hp : ((e.members.filter (!·.boolean)).map (·.field) ++ (e.members.filter (·.boolean)).map (·.field)).Perm
      (e.members.map (·.field)) := by
    rw [← List.map_append]
    apply List.Perm.map
    have := List.filter_append_perm (fun m : BuildersCode.Member => !m.boolean) e.members
    simpa using this
  have he : e.fields.map Prod.fst = t!"bitmap_" :: ((if e.isClass then [t!"id", t!"href"] else []) ++
      ((e.members.filter (!·.boolean)).map (·.field) ++ (e.members.filter (·.boolean)).map (·.field))) := by
    simp only [BuildersCode.Builder.fields]
    cases e.isClass <;> simp [Function.comp_def]
  rw [he, List.nodup_cons, List.nodup_append] at hn
  obtain ⟨h1, h2, h3, h4⟩ := hn
  refine ⟨hp.nodup_iff.mp h3, fun hb => h1 ?_, fun hc => ?_⟩
  · exact List.mem_append_right _ (hp.mem_iff.mpr hb)
  · simp only [hc, if_true] at h4
    refine ⟨fun hb => ?_, fun hb => ?_⟩
    · exact h4 t!"id" (by simp) t!"id" (hp.mem_iff.mpr hb) rfl
    · exact h4 t!"href" (by simp) t!"href" (hp.mem_iff.mpr hb) rfl

/-! ## Fields of builders -/

theorem StoresItems.length {ρ : List (Value Val)} {D : Value Val → Prop} {s : State Val σ} :
    ∀ {vs : List BVal} {xs : List (Value Val)}, StoresItems ρ D s vs xs → xs.length = vs.length
  | [], [], _ => rfl
  | _ :: _, _ :: _, h => by
    rw [StoresItems] at h
    simp [StoresItems.length h.2]
  | [], _ :: _, h => by simp [StoresItems] at h
  | _ :: _, [], h => by simp [StoresItems] at h

theorem StoresFields.length {ρ : List (Value Val)} {D : Value Val → Prop} {s : State Val σ}
    {fs : List (Text × Value Val)} : ∀ {names : List Text} {vs : List BVal}, StoresFields ρ D s fs names vs →
    vs.length = names.length
  | [], [], _ => rfl
  | _ :: _, _ :: _, h => by simp [StoresFields.length h.2]
  | [], _ :: _, h => h.elim
  | _ :: _, [], h => h.elim

theorem StoresFields.get {ρ : List (Value Val)} {D : Value Val → Prop} {s : State Val σ}
    {fs : List (Text × Value Val)} : ∀ {names : List Text} {vs : List BVal}, StoresFields ρ D s fs names vs →
    ∀ (i : Nat) f, names[i]? = some f → ∃ v x, vs[i]? = some v ∧ fs.lookup f = some x ∧ Stores ρ D s v x
  | [], [], _, i, f, hf => by simp at hf
  | g :: names, v :: vs, h, i, f, hf => by
    cases i with
    | zero =>
      simp at hf
      subst hf
      obtain ⟨⟨x, hx, hv⟩, -⟩ := h
      exact ⟨v, x, rfl, hx, hv⟩
    | succ i => exact StoresFields.get h.2 i f (by simpa using hf)
  | [], _ :: _, h, _, _, _ => h.elim
  | _ :: _, [], h, _, _, _ => h.elim

theorem StoresFields.set {ρ : List (Value Val)} {D : Value Val → Prop} {s : State Val σ}
    {fs fs' : List (Text × Value Val)} {f : Text} {y : Value Val} {v : BVal} (hp : Put f y fs fs')
    (hv : Stores ρ D s v y) : ∀ {names : List Text} {vs : List BVal}, names.Nodup →
    StoresFields ρ D s fs names vs → ∀ (i : Nat), names[i]? = some f →
      StoresFields ρ D s fs' names (vs.set i v)
  | [], [], _, _, i, hf => by simp at hf
  | g :: names, w :: vs, hn, h, i, hf => by
    rw [List.nodup_cons] at hn
    cases i with
    | zero =>
      simp at hf
      subst hf
      exact ⟨⟨y, hp.same, hv⟩, h.2.move (fun _ _ h hs => ⟨h, hs⟩) (List.prefix_refl _) _ _
        (fun k hk => hp.other k fun e => hn.1 (e ▸ hk))⟩
    | succ i =>
      have hm : f ∈ names := List.mem_of_getElem? (by simpa using hf)
      obtain ⟨⟨x, hx, hw⟩, hr⟩ := h
      refine ⟨⟨x, (hp.other g fun e => hn.1 (e ▸ hm)).trans hx, hw⟩, ?_⟩
      exact StoresFields.set hp hv hn.2 hr i (by simpa using hf)
  | [], _ :: _, _, h, _, _ => h.elim
  | _ :: _, [], _, h, _, _ => h.elim

theorem StoresFields.put {ρ : List (Value Val)} {D : Value Val → Prop} {s : State Val σ}
    {fs fs' : List (Text × Value Val)} {f : Text} {y : Value Val} (hp : Put f y fs fs')
    {names : List Text} {vs : List BVal} (hn : f ∉ names) (h : StoresFields ρ D s fs names vs) :
    StoresFields ρ D s fs' names vs :=
  h.move (fun _ _ h hs => ⟨h, hs⟩) (List.prefix_refl _) _ _ fun g hg => hp.other g fun e => hn (e ▸ hg)

theorem storesFields_of {ρ : List (Value Val)} {D : Value Val → Prop} {s : State Val σ}
    {fs : List (Text × Value Val)} : ∀ {names : List Text} {vs : List BVal}, vs.length = names.length →
    (∀ (i : Nat) f v, names[i]? = some f → vs[i]? = some v → ∃ x, fs.lookup f = some x ∧ Stores ρ D s v x) →
    StoresFields ρ D s fs names vs
  | [], [], _, _ => trivial
  | f :: names, v :: vs, hl, h =>
    ⟨h 0 f v rfl rfl, storesFields_of (by simpa using hl) fun i g w hg hw => h (i + 1) g w hg hw⟩
  | [], _ :: _, hl, _ => by simp at hl
  | _ :: _, [], hl, _ => by simp at hl

theorem value_zero_nil (sh : Shape) (h : sh.isScalar = false) : value (GoJson.zero sh) = .nil := by
  cases sh <;> simp [Shape.isScalar] at h <;> rfl

/-- The fields of a new builder. -/
theorem stores_new {c : Bool} {as : List AttrShape} {u : Code} (h : Linked P zero S U c as u)
    (ρ : List (Value Val)) (D : Value Val → Prop) (s : State Val σ) :
    StoresFields ρ D s (u.builder.fields.map fun f => (f.1, zero u.pkg f.2.2))
      (u.builder.members.map (·.field)) (as.map (GoBuilder.zeroField S)) := by
  apply storesFields_of
  · simp [h.members]
  · intro i f v hf hv
    rw [List.getElem?_map, Option.map_eq_some_iff] at hf hv
    obtain ⟨m, hm, rfl⟩ := hf
    obtain ⟨a, ha, rfl⟩ := hv
    have hi : i < u.entity.members.length := by
      rw [h.entityMembers]
      exact (List.getElem?_eq_some_iff.mp ha).1
    have hx := h.attributes i a m _ ha hm (List.getElem?_eq_getElem hi)
    refine ⟨zero u.pkg m.fieldType, zero_lookup _ _ h.nodup (field_mem _ _ (List.mem_of_getElem? hm)), ?_⟩
    rw [hx.builderZero, GoBuilder.zeroField]
    cases hs : (S a.typ).isScalar with
    | true => simp [Stores]
    | false => simp [Stores, value_zero_nil _ hs]

theorem valid_push (s : State Val σ) (fs : List (Text × Value Val)) :
    Valid ({ s with structs := s.structs ++ [fs] } : State Val σ) (.pointer s.structs.length) := by
  simp [Valid]

theorem frame_push (D : Value Val → Prop) (s : State Val σ) (fs : List (Text × Value Val)) :
    Frame D s { s with structs := s.structs ++ [fs] } := by
  refine ⟨fun a gs _ h => ?_, fun _ _ _ h => h, fun _ _ _ h => h, fun l hl => ?_, rfl, rfl⟩
  · rw [List.getElem?_append_left (List.getElem?_eq_some_iff.mp h).1]
    exact h
  · cases l <;> simp [Valid] at hl ⊢ <;> omega

theorem push_get (s : State Val σ) (fs : List (Text × Value Val)) :
    ({ s with structs := s.structs ++ [fs] } : State Val σ).structs[s.structs.length]? = some fs := by
  simp

theorem fresh_not_mem {ρ : List (Value Val)} {D : Value Val → Prop} {s : State Val σ} {mem : Mem}
    (hm : Memory U ρ D s mem) {x : Value Val} (hx : ¬ Valid s x) : x ∉ ρ :=
  fun h => hx (hm.valid x h)

/-- A new builder of objects. -/
theorem stores_newBuilder {ty : TypeId} {c : Bool} {n : Text} {as : List AttrShape} (hS : S ty = .struct c n as)
    (hw : Whole P zero S U) (ρ : List (Value Val)) (D : Value Val → Prop) (s : State Val σ) (a : Nat)
    (hs : s.structs[a]? = some ((U ty).builder.fields.map fun f => (f.1, zero (U ty).pkg f.2.2))) :
    StoresCell U ρ D s (GoBuilder.newBuilder S ty as) (.pointer a) := by
  have h := hw.linked ty c n as hS
  refine ⟨a, _, rfl, hs, by simp, ?_, fun hc => ⟨?_, ?_⟩, stores_new h ρ D s⟩
  · rw [zero_lookup _ _ h.nodup (t := (U ty).builder.bitmap) (g := 1)
      (by simp [BuildersCode.Builder.fields]), h.bitmap]
    rfl
  · rw [zero_lookup _ _ h.nodup (t := t!"string") (g := 3) (by simp [BuildersCode.Builder.fields, hc]),
      (hw.zeros _).string]
  · rw [zero_lookup _ _ h.nodup (t := t!"string") (g := 1) (by simp [BuildersCode.Builder.fields, hc]),
      (hw.zeros _).string]

/-- Calling the constructor of a builder of objects. -/
theorem call_new {c : Bool} {as : List AttrShape} {u : Code} (h : Linked P zero S U c as u) (fuel : Nat)
    (pkg ctor : Text) (hr : resolve pkg ctor = (u.pkg, u.builder.ctor)) (s : State Val σ) :
    (world P zero (fuel + 1) pkg).constructors ctor s = .ok ([.pointer s.structs.length],
      { s with structs := s.structs ++ [u.builder.fields.map fun f => (f.1, zero u.pkg f.2.2)] }) := by
  have hd := h.builderItem (i := u.builder.new) (by simp [BuildersCode.Builder.items])
  rw [constructors_eq P zero fuel pkg ctor u.pkg _ s hr h.legal hd rfl]
  simp only [Func.call, execBlock, Stmt.exec, evalArgs, Expr.eval, List.map_cons, List.map_nil, List.zip_nil_right,
    List.nil_append, alloc_eq P zero fuel u.pkg 2 _ _ h.legal h.struct h.builderName, Res.bind]

/-- Calling the constructor of a builder of lists. -/
theorem call_newList {c : Bool} {as : List AttrShape} {u : Code} (h : Linked P zero S U c as u)
    (hz : Zeros zero u.pkg) (fuel : Nat) (pkg ctor : Text) (hr : resolve pkg ctor = (u.pkg, t!"New" ++ u.list.list))
    (s : State Val σ) :
    (world P zero (fuel + 1) pkg).constructors ctor s = .ok ([.pointer s.structs.length],
      { s with structs := s.structs ++ [[(t!"items", .nil)]] }) := by
  have mem : ∀ i, (hi : i < u.list.items.length) → u.list.items[i].decl ∈ P u.pkg :=
    fun i hi => h.listItem (List.getElem_mem hi)
  have hb : '.' ∉ u.list.builder := by
    simp [BuildersCode.ListBuilder.builder, h.list, h.simple]
  rw [constructors_eq P zero fuel pkg ctor u.pkg _ s hr h.legal (mem 1 (by simp [BuildersCode.ListBuilder.items])) rfl]
  have := alloc_eq P zero fuel u.pkg 2 _ _ h.legal (mem 0 (by simp [BuildersCode.ListBuilder.items])) hb
    { s with vars := [([], .nil), ([], zero u.pkg (t!"*" ++ u.list.builder))] }
  simp only [Func.call, execBlock, Stmt.exec, evalArgs, Expr.eval, List.map_cons, List.map_nil, List.zip_nil_right,
    List.nil_append, world_zero, Res.bind]
  rw [this]
  simp only [BuildersCode.ListBuilder.slice, List.map_cons, List.map_nil]
  rw [show (t!"[]*" ++ u.list.element.builder) = t!"[]" ++ (t!"*" ++ u.list.element.builder) from rfl, hz.slice]

/-! ## Methods that return the builder -/

theorem call_fluent (w : World Val σ) (typ name : Text) (params : List (Text × Text)) (body : List Stmt) (f : Func)
    (hf : fluent typ name params body = .func f) (r : Value Val) (args : List (Value Val)) (s t : State Val σ)
    (hb : execBlock w [[]] body { s with vars := (t!"b", r) :: ((params.map Prod.fst).zip args ++
      [([], w.zero (t!"*" ++ typ))]) } = .ok (.next, t))
    (hv : t.vars.lookup t!"b" = some r) : f.call w r args s = .ok ([r], { t with vars := s.vars }) := by
  cases hf
  simp only [Func.call, List.map_cons, List.map_nil]
  rw [execBlock_append w _ _ _ _ _ hb]
  simp only [execBlock, Stmt.exec, evalArgs, eval_var hv, Res.bind]

theorem method_fluent {c : Bool} {as : List AttrShape} {u : Code} (h : Linked P zero S U c as u) (fuel : Nat)
    (pkg typ tx name : Text) (params : List (Text × Text)) (body : List Stmt)
    (hd : fluent typ name params body ∈ P u.pkg) (hr : resolve pkg tx = (u.pkg, typ))
    (r : Value Val) (args : List (Value Val)) (s t : State Val σ)
    (hb : execBlock (world P zero fuel u.pkg) [[]] body { s with vars := (t!"b", r) :: ((params.map Prod.fst).zip args ++
      [([], zero u.pkg (t!"*" ++ typ))]) } = .ok (.next, t))
    (hv : t.vars.lookup t!"b" = some r) :
    (world P zero (fuel + 1) pkg).methods tx name r args s = .ok ([r], { t with vars := s.vars }) := by
  have := methods_eq P zero fuel pkg tx u.pkg typ _ r args s hr h.legal hd rfl
  rw [show (world P zero (fuel + 1) pkg).methods tx name r args s = _ from this]
  apply call_fluent (world P zero fuel u.pkg) typ name params body _ rfl r args s t _ hv
  rw [world_zero]
  exact hb

theorem leave_same (s t : State Val σ) (flow : Flow Val) (h : t.vars = s.vars) : leave s (flow, t) = (flow, t) := by
  cases t
  cases h
  simp [leave]

theorem equal_ref {ρ : List (Value Val)} {D : Value Val → Prop} {s : State Val σ} {mem : Mem}
    (hm : Memory U ρ D s mem) {r : Nat} {x : Value Val} (hx : ρ[r]? = some x) : equal x .nil = some false := by
  have := hm.valid x (List.mem_of_getElem? hx)
  cases x <;> simp [Valid] at this <;> rfl

/-- Changes in a structure and new arrays. -/
def writeNew (s : State Val σ) (a : Nat) (fs : List (Text × Value Val)) (extra : List (List (Value Val))) :
    State Val σ :=
  { s with structs := s.structs.set a fs, arrays := s.arrays ++ extra }

theorem writeNew_nil (s : State Val σ) (a : Nat) (fs : List (Text × Value Val)) :
    writeNew s a fs [] = write s a fs := by
  simp [writeNew, write]

theorem frame_writeNew (s : State Val σ) (a : Nat) (fs : List (Text × Value Val))
    (extra : List (List (Value Val))) : Frame (· ≠ .pointer a) s (writeNew s a fs extra) := by
  refine ⟨fun b gs hb h => ?_, fun b xs _ h => ?_, fun _ _ _ h => h, fun l hl => ?_, rfl, rfl⟩
  · have : a ≠ b := by
      rintro rfl
      exact hb rfl
    simp [writeNew, List.getElem?_set_ne this, h]
  · simp only [writeNew]
    rw [List.getElem?_append_left (List.getElem?_eq_some_iff.mp h).1]
    exact h
  · cases l <;> simp [Valid, writeNew] at hl ⊢ <;> omega

theorem keep_writeNew (s : State Val σ) (a : Nat) (fs : List (Text × Value Val))
    (extra : List (List (Value Val))) :
    Keep (fun _ => True) (fun _ => True) s (writeNew s a fs extra) :=
  fun b xs _ h => ⟨trivial, (frame_writeNew s a fs extra).arrays b xs (by simp) h⟩

/-- A change in a builder. -/
theorem does_write {ρ : List (Value Val)} {s : State Val σ} {mem : Mem} (hm : Memory U ρ (fun _ => True) s mem)
    {r a : Nat} (hr : ρ[r]? = some (.pointer a)) (fs : List (Text × Value Val)) (extra : List (List (Value Val)))
    (cell : Cell) (hc : StoresCell U ρ (fun _ => True) (writeNew s a fs extra) cell (.pointer a)) :
    Does U ρ (.pointer a) s (.ok ([.pointer a], writeNew s a fs extra)) (mem.set r cell) := by
  have hf := frame_writeNew s a fs extra
  refine ⟨ρ, _, rfl, hf, List.prefix_refl _, Memory.replace hr ?_ cell hc⟩
  refine hm.move (fun b xs _ hs => ⟨by simp, hf.arrays b xs (by simp) hs⟩) hf.valid
    (fun b gs hd hs => hf.structs b gs hd.2 hs) (fun b m hd hs => hf.maps b m hd.2 hs) (fun _ _ _ => trivial)

/-- The builder after setting a field. -/
theorem stores_set {ty : TypeId} {c : Bool} {as : List AttrShape} (h : Linked P zero S U c as (U ty))
    {ρ : List (Value Val)} {s s' : State Val σ} {bitmap' : Nat} {id href : Text} {fields : List BVal}
    {a : Nat} {fs fs1 fs2 : List (Text × Value Val)}
    (hk : fs.map Prod.fst = (U ty).builder.fields.map Prod.fst)
    (hc : (U ty).builder.isClass = true →
        fs.lookup t!"id" = some (.str id) ∧ fs.lookup t!"href" = some (.str href))
    (hf : StoresFields ρ (fun _ => True) s fs ((U ty).builder.members.map (·.field)) fields)
    {i : Nat} {m : BuildersCode.Member} (hi : (U ty).builder.members[i]? = some m)
    {v : BVal} {y : Value Val} (h1 : Put m.field y fs fs1) (h2 : Put t!"bitmap_" (.int bitmap') fs1 fs2)
    (hs : s'.structs[a]? = some fs2) (hkeep : Keep (fun _ => True) (fun _ => True) s s')
    (hv : Stores ρ (fun _ => True) s' v y) :
    StoresCell U ρ (fun _ => True) s' (.builder ty bitmap' id href (fields.set i v)) (.pointer a) := by
  obtain ⟨n1, n2, n3⟩ := names_nodup _ h.nodup
  have hmem : m.field ∈ (U ty).builder.members.map (·.field) :=
    List.mem_map.mpr ⟨m, List.mem_of_getElem? hi, rfl⟩
  refine ⟨a, fs2, rfl, hs, by rw [h2.keys, h1.keys, hk], h2.same, fun hcl => ?_, ?_⟩
  · obtain ⟨c1, c2⟩ := hc hcl
    rw [h2.other t!"id" (by decide), h2.other t!"href" (by decide),
      h1.other t!"id" (fun e => (n3 hcl).1 (e ▸ hmem)), h1.other t!"href" (fun e => (n3 hcl).2 (e ▸ hmem))]
    exact ⟨c1, c2⟩
  · have hf' := hf.move hkeep (List.prefix_refl ρ) _ _ (fun _ _ => rfl)
    exact (StoresFields.set h1 hv n1 hf' i (by simp [hi])).put h2 n2

section

variable (w : World Val σ) (results : List Text) {s : State Val σ} {a : Nat} {fs : List (Text × Value Val)}
  {n : Nat} {f : Text} {old : Value Val} (hx : s.vars.lookup t!"b" = some (.pointer a))
  (hs : s.structs[a]? = some fs) (hf : fs.lookup f = some old) (hn : f ≠ t!"bitmap_")
  (hb : fs.lookup t!"bitmap_" = some (.int n))

include hx hs hf hn hb

theorem exec_plain (bit : Nat) {y : Value Val} (hy : s.vars.lookup t!"value" = some y) :
    ∃ fs1 fs2, Put f y fs fs1 ∧ Put t!"bitmap_" (.int (n ||| 2 ^ bit : Nat)) fs1 fs2 ∧
      execBlock w results [.assign (dot t!"b" f) (.var t!"value"), setBit bit] s = .ok (.next, write s a fs2) := by
  obtain ⟨fs1, h1, e1⟩ := assign_field w y hx hs hf
  obtain ⟨fs2, h2, e2⟩ := exec_setBit w results bit (s := write s a fs1) hx (write_get fs1 hs)
    ((h1.other _ (Ne.symm hn)).trans hb)
  refine ⟨fs1, fs2, h1, h2, ?_⟩
  rw [execBlock_next (exec_assign (eval_var hy) e1), execBlock_next e2, write_write]
  rfl

theorem exec_nullable (bit : Nat) {y : Value Val} (hy : s.vars.lookup t!"value" = some y) {q : Bool}
    (hq : equal y .nil = some q) :
    ∃ fs1 fs2, Put f y fs fs1 ∧
      Put t!"bitmap_" (.int (if q then GoBuilder.clearBit n bit else n ||| 2 ^ bit : Nat)) fs1 fs2 ∧
      execBlock w results [.assign (dot t!"b" f) (.var t!"value"),
        .branch (.ne (.var t!"value") .nil) [setBit bit] [clearBit bit]] s = .ok (.next, write s a fs2) := by
  obtain ⟨fs1, h1, e1⟩ := assign_field w y hx hs hf
  have hv1 : (write s a fs1).vars.lookup t!"value" = some y := hy
  cases q with
  | false =>
    obtain ⟨fs2, h2, e2⟩ := exec_setBit w results bit (s := write s a fs1) hx (write_get fs1 hs)
      ((h1.other _ (Ne.symm hn)).trans hb)
    refine ⟨fs1, fs2, h1, h2, ?_⟩
    rw [execBlock_next (exec_assign (eval_var hy) e1)]
    simp only [execBlock, Stmt.exec, Expr.eval, hv1, Res.bind, hq, Res.ofOption, Bool.not_false, e2, write_write]
    rw [leave_same _ _ _ (by rfl)]
  | true =>
    obtain ⟨fs2, h2, e2⟩ := exec_clearBit w results bit (s := write s a fs1) hx (write_get fs1 hs)
      ((h1.other _ (Ne.symm hn)).trans hb)
    refine ⟨fs1, fs2, h1, h2, ?_⟩
    rw [execBlock_next (exec_assign (eval_var hy) e1)]
    simp only [execBlock, Stmt.exec, Expr.eval, hv1, Res.bind, hq, Res.ofOption, Bool.not_true, e2, write_write]
    rw [leave_same _ _ _ (by rfl)]

omit hn hb in
theorem exec_copySlice (typ : Text) (rest : List Stmt) {y : Value Val} (hy : s.vars.lookup t!"values" = some y)
    {xs : List (Value Val)} (he : s.elements y = some xs) :
    ∃ fs1, Put f (.slice s.arrays.length) fs fs1 ∧
      execBlock w results (.assign (dot t!"b" f) (.make typ (.len (.var t!"values"))) ::
        .copy (dot t!"b" f) (.var t!"values") :: rest) s = execBlock w results rest (writeNew s a fs1 [xs]) := by
  let s1 : State Val σ := { s with arrays := s.arrays ++ [List.replicate xs.length .nil] }
  obtain ⟨fs1, h1, e1⟩ := assign_field w (s := s1) (.slice s.arrays.length) hx hs hf
  refine ⟨fs1, h1, ?_⟩
  have hmake : (Expr.make typ (.len (.var t!"values"))).eval w s = .ok (.slice s.arrays.length, s1) := by
    simp only [Expr.eval, hy, Res.bind, he, Res.ofOption]
    rfl
  have hy1 : (write s1 a fs1).vars.lookup t!"values" = some y := hy
  have he1 : (write s1 a fs1).elements y = some xs := by
    cases y with
    | slice b =>
      simp only [State.elements] at he
      simp only [State.elements, write, s1]
      rw [List.getElem?_append_left (List.getElem?_eq_some_iff.mp he).1]
      exact he
    | _ => simpa [State.elements, write, s1] using he
  have hd : (dot t!"b" f).eval w (write s1 a fs1) = .ok (.slice s.arrays.length, write s1 a fs1) :=
    eval_dot (s := write s1 a fs1) (fs := fs1) hx (write_get (s := s1) fs1 hs) h1.same
  rw [execBlock_next (exec_assign hmake e1)]
  apply execBlock_next
  simp only [Stmt.exec, hd, Res.bind, Expr.eval, hy1, he1, Res.ofOption]
  have : (write s1 a fs1).arrays[s.arrays.length]? = some (List.replicate xs.length .nil) := by
    simp [write, s1]
  simp only [this]
  simp [write, s1, writeNew]

theorem exec_copySetter (bit : Nat) (typ : Text) {y : Value Val} (hy : s.vars.lookup t!"values" = some y)
    {xs : List (Value Val)} (he : s.elements y = some xs) :
    ∃ fs1 fs2, Put f (.slice s.arrays.length) fs fs1 ∧ Put t!"bitmap_" (.int (n ||| 2 ^ bit : Nat)) fs1 fs2 ∧
      execBlock w results [.assign (dot t!"b" f) (.make typ (.len (.var t!"values"))),
        .copy (dot t!"b" f) (.var t!"values"), setBit bit] s = .ok (.next, writeNew s a fs2 [xs]) := by
  obtain ⟨fs1, h1, e1⟩ := exec_copySlice w results hx hs hf typ [setBit bit] hy he
  obtain ⟨fs2, h2, e2⟩ := exec_setBit w results bit (s := writeNew s a fs1 [xs]) hx (write_get fs1 hs)
    ((h1.other _ (Ne.symm hn)).trans hb)
  refine ⟨fs1, fs2, h1, h2, ?_⟩
  rw [e1, execBlock_next e2]
  simp [execBlock, write, writeNew]

end

/-- The cell of a class after setting its identifier or address. -/
theorem exec_identity {ty : TypeId} {c : Bool} {as : List AttrShape} (h : Linked P zero S U c as (U ty))
    {ρ : List (Value Val)} {s : State Val σ} {mem : Mem} (hm : Memory U ρ (fun _ => True) s mem) {r : Nat}
    {x : Value Val} (hx : ρ[r]? = some x) {bitmap : Nat} {id href : Text} {fields : List BVal}
    (hr : mem[r]? = some (.builder ty bitmap id href fields)) (hc : (U ty).builder.isClass = true) (fuel : Nat)
    (bit : Nat) (field name typ : Text) (t id' href' : Text)
    (hi : (field = t!"id" ∧ id' = t ∧ href' = href) ∨ (field = t!"href" ∧ href' = t ∧ id' = id))
    (hd : fluent (U ty).builder.builder name [(t!"value", typ)]
      [.assign (dot t!"b" field) (.var t!"value"), setBit bit] ∈ P (U ty).pkg) :
    Does U ρ x s (call P zero (fuel + 1) (U ty).pkg (U ty).builder.builder name x [.str t] s)
      (mem.set r (.builder ty (bitmap ||| 2 ^ bit) id' href' fields)) := by
  obtain ⟨n1, n2, n3⟩ := names_nodup _ h.nodup
  obtain ⟨a, fs, rfl, hs, hk, hb, hcl, hf⟩ := hm.cells r _ x hr hx trivial
  obtain ⟨hid, hhref⟩ := hcl hc
  have hfield : ∃ old, fs.lookup field = some old := by
    rcases hi with ⟨rfl, -⟩ | ⟨rfl, -⟩
    · exact ⟨_, hid⟩
    · exact ⟨_, hhref⟩
  have hne : field ≠ t!"bitmap_" := by
    rcases hi with ⟨rfl, -⟩ | ⟨rfl, -⟩ <;> decide
  have hnot : field ∉ (U ty).builder.members.map (·.field) := by
    rcases hi with ⟨rfl, -⟩ | ⟨rfl, -⟩
    · exact (n3 hc).1
    · exact (n3 hc).2
  obtain ⟨old, hold⟩ := hfield
  let V : List (Text × Value Val) := [(t!"b", .pointer a), (t!"value", .str t),
    ([], zero (U ty).pkg (t!"*" ++ (U ty).builder.builder))]
  obtain ⟨fs1, fs2, h1, h2, e⟩ := exec_plain (world P zero fuel (U ty).pkg) [[]] (s := { s with vars := V })
    (a := a) (fs := fs) (n := bitmap) (f := field) (old := old) rfl hs hold hne hb bit (y := .str t) rfl
  have hcall := method_fluent h fuel (U ty).pkg _ (U ty).builder.builder name _ _ hd
    (resolve_simple _ _ h.builderName) (.pointer a) [.str t] s _ e rfl
  rw [call, hcall]
  change Does U ρ _ s (.ok ([.pointer a], write s a fs2)) _
  rw [← writeNew_nil]
  apply does_write hm hx
  refine ⟨a, fs2, rfl, by rw [writeNew_nil]; exact write_get fs2 hs, by rw [h2.keys, h1.keys, hk], h2.same,
    fun _ => ?_, ?_⟩
  · rw [h2.other t!"id" (by decide), h2.other t!"href" (by decide)]
    rcases hi with ⟨rfl, rfl, rfl⟩ | ⟨rfl, rfl, rfl⟩
    · exact ⟨h1.same, (h1.other _ (by decide)).trans hhref⟩
    · exact ⟨(h1.other _ (by decide)).trans hid, h1.same⟩
  · exact ((hf.move (keep_writeNew s a fs2 []) (List.prefix_refl ρ) _ _ (fun _ _ => rfl)).put h1 hnot).put h2 n2

/-- What is copied by `make` and `copy`. -/
theorem stores_copySlice {mem : Mem} {ρ : List (Value Val)} {s : State Val σ} {v : BVal} {y : Value Val}
    (hv : Stores ρ (fun _ => True) s v y) {ty : TypeId} (hfit : GoBuilder.fits S mem ty false v = true)
    (hS : ∃ n e, S ty = .list n e) :
    ∃ xs items, s.elements y = some xs ∧ GoBuilder.copySlice v = .list items ∧
      StoresItems ρ (fun _ => True) s items xs := by
  obtain ⟨n, e, hS⟩ := hS
  cases v with
  | nil =>
    rw [Stores] at hv
    subst hv
    exact ⟨[], [], rfl, rfl, by simp [StoresItems]⟩
  | list items =>
    rw [Stores] at hv
    obtain ⟨a, xs, rfl, -, hs, hi⟩ := hv
    exact ⟨xs, items, hs, rfl, hi⟩
  | scalar v => simp [GoBuilder.fits, hS, GoBuilder.elementFits, GoBuilder.scalarFits] at hfit
  | ref q =>
    simp only [GoBuilder.fits, hS] at hfit
    split at hfit <;> simp at hfit

theorem stores_slice {ρ : List (Value Val)} {s : State Val σ} {a : Nat} {fs : List (Text × Value Val)}
    {xs : List (Value Val)} {items : List BVal} (hi : StoresItems ρ (fun _ => True) s items xs) :
    Stores ρ (fun _ => True) (writeNew s a fs [xs]) (.list items) (.slice s.arrays.length) := by
  rw [Stores]
  exact ⟨_, xs, rfl, trivial, by simp [writeNew],
    StoresItems.move (keep_writeNew s a fs [xs]) (List.prefix_refl ρ) _ _ hi⟩

theorem call_setter {ty : TypeId} {c : Bool} {as : List AttrShape} (h : Linked P zero S U c as (U ty))
    {ρ : List (Value Val)} {s : State Val σ} {mem : Mem} (hm : Memory U ρ (fun _ => True) s mem) {r : Nat}
    {x : Value Val} (hx : ρ[r]? = some x) {bitmap : Nat} {id href : Text} {fields : List BVal}
    (hr : mem[r]? = some (.builder ty bitmap id href fields)) {i : Nat} {m : BuildersCode.Member}
    (hi : (U ty).builder.members[i]? = some m) {at_ : AttrShape} {f : TypesCode.Member}
    (hat : Matches S U zero (U ty).pkg at_ m f) {v : BVal} {y : Value Val}
    (hv : Stores ρ (fun _ => True) s v y) (hfit : GoBuilder.fits S mem at_.typ at_.link v = true)
    (hd : (U ty).builder.setterDecl m ∈ P (U ty).pkg) (fuel : Nat) :
    Does U ρ x s (call P zero (fuel + 1) (U ty).pkg (U ty).builder.builder m.setter x [y] s)
      (mem.set r (.builder ty (GoBuilder.setBitmap S at_ v bitmap) id href
        (fields.set i (GoBuilder.stored S at_ v)))) := by
  obtain ⟨n1, n2, n3⟩ := names_nodup _ h.nodup
  obtain ⟨a, fs, rfl, hs, hk, hb, hcl, hf⟩ := hm.cells r _ x hr hx trivial
  have hmem : m.field ∈ (U ty).builder.members.map (·.field) :=
    List.mem_map.mpr ⟨m, List.mem_of_getElem? hi, rfl⟩
  have hne : m.field ≠ t!"bitmap_" := fun e => n2 (e ▸ hmem)
  obtain ⟨_, old, -, hold, -⟩ := hf.get i m.field (by simp [hi])
  have hres := resolve_simple (U ty).pkg _ h.builderName
  -- The setters of attributes that are always present.
  have plain : BuildersCode.plainSetter (U ty).builder m ∈ P (U ty).pkg →
      GoBuilder.stored S at_ v = v → GoBuilder.setBitmap S at_ v bitmap = bitmap ||| 2 ^ at_.bit →
      Does U ρ (.pointer a) s (call P zero (fuel + 1) (U ty).pkg (U ty).builder.builder m.setter (.pointer a) [y] s)
        (mem.set r (.builder ty (GoBuilder.setBitmap S at_ v bitmap) id href
          (fields.set i (GoBuilder.stored S at_ v)))) := by
    intro hd h1 h2
    rw [h1, h2]
    let V : List (Text × Value Val) := [(t!"b", .pointer a), (t!"value", y),
      ([], zero (U ty).pkg (t!"*" ++ (U ty).builder.builder))]
    obtain ⟨fs1, fs2, h1, h2, e⟩ := exec_plain (world P zero fuel (U ty).pkg) [[]] (s := { s with vars := V })
      (a := a) (fs := fs) (n := bitmap) (f := m.field) (old := old) rfl hs hold hne hb m.bit (y := y) rfl
    have hcall := method_fluent h fuel (U ty).pkg _ (U ty).builder.builder m.setter _ _ hd hres (.pointer a) [y] s _ e rfl
    rw [call, hcall]
    change Does U ρ _ s (.ok ([.pointer a], write s a fs2)) _
    rw [← writeNew_nil]
    apply does_write hm hx
    rw [← hat.bit]
    exact stores_set h hk hcl hf hi h1 h2 (write_get fs2 hs) (keep_writeNew s a fs2 [])
      (Stores.move (keep_writeNew s a fs2 []) (List.prefix_refl ρ) _ _ hv)
  -- The setters of attributes that can be nil.
  have nullable : BuildersCode.nullableSetter (U ty).builder m ∈ P (U ty).pkg →
      (∀ n e, S at_.typ ≠ .list n e) → (S at_.typ).isScalar = false → (v = .nil ∨ ∃ q, v = .ref q) →
      Does U ρ (.pointer a) s (call P zero (fuel + 1) (U ty).pkg (U ty).builder.builder m.setter (.pointer a) [y] s)
        (mem.set r (.builder ty (GoBuilder.setBitmap S at_ v bitmap) id href
          (fields.set i (GoBuilder.stored S at_ v)))) := by
    intro hd hl hsc hcase
    have h1 : GoBuilder.stored S at_ v = v := by
      unfold GoBuilder.stored
      cases hS : S at_.typ <;> simp
      exact absurd hS (hl _ _)
    have h2 : GoBuilder.setBitmap S at_ v bitmap =
        if v.isNil then GoBuilder.clearBit bitmap at_.bit else bitmap ||| 2 ^ at_.bit := by
      unfold GoBuilder.setBitmap
      cases hS : S at_.typ <;> simp [hS, Shape.isScalar] at hsc ⊢ <;> first | exact absurd hS (hl _ _) | skip
      all_goals cases v.isNil <;> simp
    have hq : equal y .nil = some v.isNil := by
      rcases hcase with rfl | ⟨q, rfl⟩
      · rw [Stores] at hv
        subst hv
        rfl
      · rw [Stores] at hv
        exact equal_ref hm hv
    rw [h1, h2]
    let V : List (Text × Value Val) := [(t!"b", .pointer a), (t!"value", y),
      ([], zero (U ty).pkg (t!"*" ++ (U ty).builder.builder))]
    obtain ⟨fs1, fs2, h1, h2, e⟩ := exec_nullable (world P zero fuel (U ty).pkg) [[]] (s := { s with vars := V })
      (a := a) (fs := fs) (n := bitmap) (f := m.field) (old := old) rfl hs hold hne hb m.bit (y := y) rfl hq
    have hcall := method_fluent h fuel (U ty).pkg _ (U ty).builder.builder m.setter _ _ hd hres (.pointer a) [y] s _ e rfl
    rw [call, hcall]
    change Does U ρ _ s (.ok ([.pointer a], write s a fs2)) _
    rw [← writeNew_nil]
    apply does_write hm hx
    rw [← hat.bit]
    exact stores_set h hk hcl hf hi h1 h2 (write_get fs2 hs) (keep_writeNew s a fs2 [])
      (Stores.move (keep_writeNew s a fs2 []) (List.prefix_refl ρ) _ _ hv)
  -- The setters of attributes that are copied.
  have copied : ∀ element n e, BuildersCode.copySetter (U ty).builder m element ∈ P (U ty).pkg →
      S at_.typ = .list n e → at_.link = false →
      Does U ρ (.pointer a) s (call P zero (fuel + 1) (U ty).pkg (U ty).builder.builder m.setter (.pointer a) [y] s)
        (mem.set r (.builder ty (GoBuilder.setBitmap S at_ v bitmap) id href
          (fields.set i (GoBuilder.stored S at_ v)))) := by
    intro element n e hd hS hlink
    rw [hlink] at hfit
    obtain ⟨xs, items, hxs, hcopy, hst⟩ := stores_copySlice hv hfit ⟨n, e, hS⟩
    have h1 : GoBuilder.stored S at_ v = .list items := by
      simp only [GoBuilder.stored, hS, hlink]
      exact hcopy
    have h2 : GoBuilder.setBitmap S at_ v bitmap = bitmap ||| 2 ^ at_.bit := by
      simp only [GoBuilder.setBitmap, hS]
    rw [h1, h2]
    let V : List (Text × Value Val) := [(t!"b", .pointer a), (t!"values", y),
      ([], zero (U ty).pkg (t!"*" ++ (U ty).builder.builder))]
    obtain ⟨fs1, fs2, h1, h2, e⟩ := exec_copySetter (world P zero fuel (U ty).pkg) [[]] (s := { s with vars := V })
      (a := a) (fs := fs) (n := bitmap) (f := m.field) (old := old) rfl hs hold hne hb m.bit (t!"[]" ++ element)
      (y := y) rfl (xs := xs) hxs
    have hcall := method_fluent h fuel (U ty).pkg _ (U ty).builder.builder m.setter _ _ hd hres (.pointer a) [y] s _ e rfl
    rw [call, hcall]
    change Does U ρ _ s (.ok ([.pointer a], writeNew s a fs2 [xs])) _
    apply does_write hm hx
    rw [← hat.bit]
    exact stores_set h hk hcl hf hi h1 h2 (write_get fs2 hs) (keep_writeNew s a fs2 [xs]) (stores_slice hst)
  have hform := hat.form
  unfold BuildersCode.Builder.setterDecl at hd
  cases hfm : m.form <;> rw [hfm] at hform hd <;> simp only [Fits] at hform hd
  · apply plain hd
    · unfold GoBuilder.stored
      cases hS : S at_.typ <;> simp [hS, Shape.isScalar] at hform ⊢
    · unfold GoBuilder.setBitmap
      cases hS : S at_.typ <;> simp [hS, Shape.isScalar] at hform ⊢
  · cases hS : S at_.typ <;> simp [hS, isObject] at hform
    refine nullable hd (by simp [hS]) (by simp [hS, Shape.isScalar]) ?_
    cases v <;> simp [GoBuilder.fits, GoBuilder.elementFits, GoBuilder.scalarFits, hS] at hfit ⊢
  · obtain ⟨n, e, hS, hl, -⟩ := hform
    apply plain hd
    · simp [GoBuilder.stored, hS, hl]
    · simp [GoBuilder.setBitmap, hS]
  · obtain ⟨n, e, hS, hl, -⟩ := hform
    exact copied _ n e hd hS hl
  · obtain ⟨n, e, hS, hl, -⟩ := hform
    exact copied _ n e hd hS hl
  · obtain ⟨n, e, hS, hl, -⟩ := hform
    exact copied _ n e hd hS hl
  all_goals
    obtain ⟨e, hS, -⟩ := hform
    refine nullable hd (by simp [hS]) (by simp [hS, Shape.isScalar]) ?_
    cases v <;> simp [GoBuilder.fits, GoBuilder.elementFits, GoBuilder.scalarFits, hS] at hfit ⊢

end Verif.BuildersRun
