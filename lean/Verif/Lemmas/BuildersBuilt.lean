import Verif.Lemmas.BuildersBuild

/-!
# Lemmas about running the generated builders

What the methods `Build` of the builders of objects and lists do.
-/

namespace Verif.BuildersRun

open GoJson (Val Schema Shape AttrShape)
open GoBuilder (BVal Cell Mem)
open GoProgram
open TypesRun (Legal value)
open TypesCode (dot)
open BuildersCode (buildInto)

variable {σ : Type} {S : Schema} {U : TypeId → Code} {P : Program} {zero : Text → Text → Value Val}

theorem get_prefix {α : Type} {l l' : List α} (h : l <+: l') {i : Nat} {x : α} (hx : l[i]? = some x) :
    l'[i]? = some x := by
  obtain ⟨t, rfl⟩ := h
  rw [List.getElem?_append_left (List.getElem?_eq_some_iff.mp hx).1]
  exact hx

/-! ## The attributes of an object -/

/-- What building the attributes of an object does. -/
def MembersBuilt (S : Schema) (U : TypeId → Code) (o : Nat) (as : List AttrShape) (names : List Text)
    (fo : List (Text × Value Val)) (t : State Val σ) (res : Res (Flow Val × State Val σ)) : Run (List Val) → Prop
  | .done vs => ∃ fo' t', res = .ok (.next, t') ∧ Frame (fun l => Valid t l ∧ l ≠ .pointer o) t t' ∧
      t'.structs[o]? = some fo' ∧ fo'.map Prod.fst = fo.map Prod.fst ∧
      (∀ f, f ∉ names → fo'.lookup f = fo.lookup f) ∧
      HoldsFields S U (fun l => ¬ Valid t l) t' fo' (as.zip names) vs
  | .panic => res = .panic
  | .outOfFuel => True

theorem Memory.keep {ρ : List (Value Val)} {s t : State Val σ} {mem : Mem} {o : Nat}
    (h : Memory U ρ (fun _ => True) s mem) (hf : Frame (fun l => Valid s l ∧ l ≠ .pointer o) s t)
    (ho : .pointer o ∉ ρ) : Memory U ρ (fun _ => True) t mem := by
  have hn : ¬ Valid s .nil := fun h => h
  exact (h.shift hf ho .nil hn).full (fresh_not_mem h hn)

theorem exec_members {w : World Val σ} {names : List Text} {pkg : Text} {ρ : List (Value Val)} {mem : Mem}
    {B : GoBuilder.Ref → Run Val} (hB : BuildsObjects S U w pkg ρ mem B) (hL : BuildsLists S U w pkg ρ mem B)
    (hmo : GoBuilder.MemOk S mem) {a o : Nat} {fb : List (Text × Value Val)} (hao : a ≠ o) (ho : .pointer o ∉ ρ) :
    ∀ (as : List AttrShape) (ms : List BuildersCode.Member) (fields : List BVal) (t : State Val σ)
      (fo : List (Text × Value Val)),
      (∀ (i : Nat) at_ m, as[i]? = some at_ → ms[i]? = some m → ∃ g, Matches S U zero pkg at_ m g) →
      GoBuilder.FieldsOk S mem as fields → StoresFields ρ (fun _ => True) t fb (ms.map (·.field)) fields →
      (ms.map (·.field)).Nodup → t.vars.lookup t!"b" = some (.pointer a) → t.structs[a]? = some fb →
      t.vars.lookup t!"object" = some (.pointer o) → t.structs[o]? = some fo →
      (∀ (i : Nat) at_ m, as[i]? = some at_ → ms[i]? = some m →
        fo.lookup m.field = some (value (GoJson.zero (S at_.typ)))) →
      t.vars.lookup t!"err" = some .nil → Memory U ρ (fun _ => True) t mem →
      MembersBuilt S U o as (ms.map (·.field)) fo t (execBlock w names (ms.flatMap BuildersCode.Member.build) t)
        (GoBuilder.buildFields B S mem as fields)
  | [], [], [], t, fo, _, _, _, _, _, _, _, hso, _, _, _ =>
    ⟨fo, t, rfl, Frame.refl _ _, hso, rfl, fun _ _ => rfl, by simp [HoldsFields]⟩
  | at_ :: as, m :: ms, bv :: fields, t, fo, hat, hok, hst, hnd, hx, hs, hxo, hso, hfo, herr, hm => by
    obtain ⟨⟨y, hy, hsy⟩, hst'⟩ := hst
    obtain ⟨g, hg⟩ := hat 0 at_ m rfl rfl
    have h1 := exec_member (names := names) hB hL hmo hg hx hs hy hxo hso (hfo 0 at_ m rfl rfl) hao herr hm ho hok.1 hsy
    rw [List.map_cons, List.nodup_cons] at hnd
    rw [GoBuilder.buildFields, List.flatMap_cons]
    cases hR : GoBuilder.buildField B S mem at_.typ at_.link bv with
    | outOfFuel => trivial
    | panic =>
      rw [hR] at h1
      exact execBlock_append_stop w names .panic (fun _ => by simp) _ _ _ h1
    | done v =>
      rw [hR] at h1
      obtain ⟨fo1, z, t1, he1, hf1, hso1, hp1, hz⟩ := h1
      rw [execBlock_append w names _ _ _ _ he1, done_bind]
      have hs1 : t1.structs[a]? = some fb :=
        hf1.structs a fb ⟨(List.getElem?_eq_some_iff.mp hs).1, by simp [hao]⟩ hs
      have ih := exec_members hB hL hmo hao ho as ms fields t1 fo1
        (fun i a' m' h1 h2 => hat (i + 1) a' m' (by simpa using h1) (by simpa using h2)) hok.2
        (StoresFields.move (D := fun _ => True) (D' := fun _ => True) (s := t)
          (fun b xs _ hb => ⟨trivial, hf1.arrays b xs ⟨(List.getElem?_eq_some_iff.mp hb).1, by simp⟩ hb⟩)
          (List.prefix_refl ρ) _ _ (fun _ _ => rfl) hst') hnd.2
        (by rw [hf1.vars]; exact hx) hs1 (by rw [hf1.vars]; exact hxo) hso1
        (fun i a' m' h1 h2 => by
          rw [hp1.other m'.field]
          · exact hfo (i + 1) a' m' (by simpa using h1) (by simpa using h2)
          · intro e
            exact hnd.1 (List.mem_map.mpr ⟨m', List.mem_of_getElem? h2, e⟩))
        (by rw [hf1.vars]; exact herr) (hm.keep hf1 ho) (names := names)
      cases hR2 : GoBuilder.buildFields B S mem as fields with
      | outOfFuel => trivial
      | panic =>
        rw [hR2] at ih
        exact ih
      | done vs =>
        rw [hR2] at ih
        obtain ⟨fo', t', he', hf', hso', hk', hother, hh⟩ := ih
        refine ⟨fo', t', he', hf1.ext_trans hf', hso', hk'.trans hp1.keys, fun f hf => ?_, ?_⟩
        · rw [List.map_cons, List.mem_cons, not_or] at hf
          rw [hother f hf.2, hp1.other f hf.1]
        · have hov : Valid t (.pointer o) := (List.getElem?_eq_some_iff.mp hso).1
          rw [List.map_cons, List.zip_cons_cons, HoldsFields]
          refine ⟨⟨z, by rw [hother _ hnd.1]; exact hp1.same, ?_⟩, ?_⟩
          · exact Holds.move (hf'.moves fun l hl _ e => hl (e ▸ hov)) _ _ _ hz
          · exact HoldsFields.move (Move.change fun l hl _ hv => hl (hf1.valid l hv)) _ _ _ hh
  | [], [], _ :: _, _, _, _, hok, _, _, _, _, _, _, _, _, _ => hok.elim
  | [], _ :: _, [], _, _, _, _, hst, _, _, _, _, _, _, _, _ => hst.elim
  | [], _ :: _, _ :: _, _, _, _, hok, _, _, _, _, _, _, _, _, _ => hok.elim
  | _ :: _, _, [], _, _, _, hok, _, _, _, _, _, _, _, _, _ => hok.elim
  | _ :: _, [], _ :: _, _, _, _, _, hst, _, _, _, _, _, _, _, _ => hst.elim

/-! ## The builders of objects -/

theorem exec_copyField {w : World Val σ} {names : List Text} {t : State Val σ} {a o : Nat}
    {fb fo : List (Text × Value Val)} {f : Text} {v old : Value Val} (hx : t.vars.lookup t!"b" = some (.pointer a))
    (hs : t.structs[a]? = some fb) (hf : fb.lookup f = some v)
    (hxo : t.vars.lookup t!"object" = some (.pointer o)) (hso : t.structs[o]? = some fo)
    (hfo : fo.lookup f = some old) :
    ∃ fo', Put f v fo fo' ∧
      (Stmt.assign (dot t!"object" f) (dot t!"b" f)).exec w names t = .ok (.next, write t o fo') := by
  obtain ⟨fo', hp, he⟩ := assign_field w v hxo hso hfo
  exact ⟨fo', hp, exec_assign (eval_dot hx hs hf) he⟩

/-- The state after the first statement of `Build`. -/
def started (s : State Val σ) (x : Value Val) (fo : List (Text × Value Val)) : State Val σ :=
  { s with
    structs := s.structs ++ [fo]
    vars := [(t!"b", x), (t!"object", .pointer s.structs.length), (t!"err", .nil)] }

theorem started_write (s : State Val σ) (x : Value Val) (fo fo' : List (Text × Value Val)) :
    write (started s x fo) s.structs.length fo' = started s x fo' := by
  simp [write, started]

/-- The part of `Build` before the attributes. -/
theorem exec_base {w : World Val σ} {names : List Text} {u : Code} {c : Bool} {as : List AttrShape}
    (h : Linked P zero S U c as u) (hz : Zeros zero u.pkg) {s : State Val σ} {a : Nat} {fb : List (Text × Value Val)}
    {bitmap : Nat} {id href : Text} (hs : s.structs[a]? = some fb)
    (hbm : fb.lookup t!"bitmap_" = some (.int bitmap))
    (hid : u.builder.isClass = true → fb.lookup t!"id" = some (.str id) ∧ fb.lookup t!"href" = some (.str href))
    (rest : List Stmt) :
    ∃ fo, execBlock w names (u.builder.ifClass [
            .assign (dot t!"object" t!"id") (dot t!"b" t!"id"),
            .assign (dot t!"object" t!"href") (dot t!"b" t!"href")] ++
          (.assign (dot t!"object" t!"bitmap_") (dot t!"b" t!"bitmap_") :: rest))
          (started s (.pointer a) (u.entity.fields.map fun f => (f.1, zero u.pkg f.2.2))) =
        execBlock w names rest (started s (.pointer a) fo) ∧
      fo.map Prod.fst = u.entity.fields.map Prod.fst ∧ fo.lookup t!"bitmap_" = some (.int bitmap) ∧
      (c = true → fo.lookup t!"id" = some (.str id) ∧ fo.lookup t!"href" = some (.str href)) ∧
      ∀ f, f ≠ t!"bitmap_" → (c = true → f ≠ t!"id" ∧ f ≠ t!"href") →
        fo.lookup f = (u.entity.fields.map fun f => (f.1, zero u.pkg f.2.2)).lookup f := by
  have hz0 : (u.entity.fields.map fun f => (f.1, zero u.pkg f.2.2)).lookup t!"bitmap_" = some (.int 0) := by
    rw [zero_lookup _ _ h.entityNodup (t := u.entity.bitmap) (g := 1) (by simp [TypesCode.Entity.fields]),
      h.entityBitmap]
  have hkeys : (u.entity.fields.map fun f => (f.1, zero u.pkg f.2.2)).map Prod.fst = u.entity.fields.map Prod.fst := by
    simp
  have hal : a < s.structs.length := (List.getElem?_eq_some_iff.mp hs).1
  have hA : ∀ fo : List (Text × Value Val), (started s (.pointer a) fo).structs[a]? = some fb := fun fo => by
    simp only [started]
    rw [List.getElem?_append_left hal]
    exact hs
  have hO : ∀ fo : List (Text × Value Val),
      (started s (.pointer a) fo).structs[s.structs.length]? = some fo := fun fo => by simp [started]
  generalize hfo : (u.entity.fields.map fun f => (f.1, zero u.pkg f.2.2)) = fo0 at hz0 hkeys
  cases hc : c with
  | false =>
    obtain ⟨fo1, hp1, he1⟩ := exec_copyField (w := w) (names := names) (t := started s (.pointer a) fo0) rfl (hA _) hbm
      rfl (hO _) hz0
    refine ⟨fo1, ?_, hp1.keys.trans hkeys, hp1.same, (fun h => by cases h), fun f hf _ => hp1.other f hf⟩
    rw [BuildersCode.Builder.ifClass, h.isClass, hc]
    rw [started_write] at he1
    exact execBlock_next he1
  | true =>
    have hcl : u.builder.isClass = true := h.isClass.trans hc
    obtain ⟨hidv, hhrefv⟩ := hid hcl
    have hz1 : fo0.lookup t!"id" = some (.str []) := by
      rw [← hfo, zero_lookup _ _ h.entityNodup (t := t!"string") (g := 3)
        (by simp [TypesCode.Entity.fields, h.entityClass, hc]), hz.string]
    have hz2 : fo0.lookup t!"href" = some (.str []) := by
      rw [← hfo, zero_lookup _ _ h.entityNodup (t := t!"string") (g := 1)
        (by simp [TypesCode.Entity.fields, h.entityClass, hc]), hz.string]
    obtain ⟨fo1, hp1, he1⟩ := exec_copyField (w := w) (names := names) (t := started s (.pointer a) fo0) rfl (hA _) hidv
      rfl (hO _) hz1
    rw [started_write] at he1
    obtain ⟨fo2, hp2, he2⟩ := exec_copyField (w := w) (names := names) (t := started s (.pointer a) fo1) rfl (hA _)
      hhrefv rfl (hO _) ((hp1.other _ (by decide)).trans hz2)
    rw [started_write] at he2
    obtain ⟨fo3, hp3, he3⟩ := exec_copyField (w := w) (names := names) (t := started s (.pointer a) fo2) rfl (hA _)
      hbm rfl (hO _) (((hp2.other _ (by decide)).trans (hp1.other _ (by decide))).trans hz0)
    rw [started_write] at he3
    refine ⟨fo3, ?_, hp3.keys.trans (hp2.keys.trans (hp1.keys.trans hkeys)), hp3.same, fun _ => ⟨?_, ?_⟩,
      fun f hf hf' => ?_⟩
    · rw [BuildersCode.Builder.ifClass, hcl]
      change execBlock w names (_ :: _ :: _ :: rest) _ = _
      rw [execBlock_next he1, execBlock_next he2, execBlock_next he3]
    · rw [hp3.other _ (by decide), hp2.other _ (by decide)]
      exact hp1.same
    · rw [hp3.other _ (by decide)]
      exact hp2.same
    · rw [hp3.other _ hf, hp2.other _ (hf' rfl).2, hp1.other _ (hf' rfl).1]

/-- The first statement of `Build`. -/
theorem exec_start {u : Code} {c : Bool} {as : List AttrShape} (h : Linked P zero S U c as u) (fuel : Nat)
    (names : List Text) (s : State Val σ) (x : Value Val) :
    (Stmt.assign (.var t!"object") (.new u.builder.object)).exec (world P zero fuel u.pkg) names
      { s with vars := [(t!"b", x), (t!"object", .nil), (t!"err", .nil)] } =
      .ok (.next, started s x (u.entity.fields.map fun f => (f.1, zero u.pkg f.2.2))) := by
  have ha := alloc_eq P zero fuel u.pkg 2 _ _ h.legal h.entityStruct h.simple
    { s with vars := [(t!"b", x), (t!"object", .nil), (t!"err", .nil)] }
  have he : (Expr.new u.builder.object).eval (world P zero fuel u.pkg)
      { s with vars := [(t!"b", x), (t!"object", .nil), (t!"err", .nil)] } = _ := ha
  refine exec_assign he ?_
  rfl

theorem frame_started (s : State Val σ) (x : Value Val) (fo : List (Text × Value Val)) :
    Frame (Valid s) { s with vars := (started s x fo).vars } (started s x fo) :=
  frame_push _ { s with vars := (started s x fo).vars } fo

/-- Calling `Build` of a nil pointer. -/
theorem object_nil {u : Code} {c : Bool} {as : List AttrShape} (hz : Zeros zero u.pkg) (h : Linked P zero S U c as u)
    (fuel : Nat) {pkg tx : Text} (hr : resolve pkg tx = (u.pkg, u.builder.builder)) (s : State Val σ) :
    (world P zero (fuel + 1) pkg).methods tx t!"Build" .nil [] s = .panic := by
  have hd := h.builderItem (i := u.builder.build) (by simp [BuildersCode.Builder.items])
  have hcall := methods_eq P zero fuel pkg tx u.pkg u.builder.builder _ .nil [] s hr h.legal hd rfl
  rw [show (world P zero (fuel + 1) pkg).methods tx t!"Build" .nil [] s = _ from hcall]
  have hvars : ([(t!"b", .nil)] ++ ([(t!"object", t!"*" ++ u.builder.object), (t!"err", t!"error")].map
      fun r : Text × Text => (r.1, (world P zero fuel u.pkg : World Val σ).zero r.2))) =
      [(t!"b", .nil), (t!"object", .nil), (t!"err", .nil)] := by
    have hp : zero u.pkg ('*' :: u.builder.object) = .nil := hz.pointer _
    simp [world_zero, hp, hz.error]
  have hstart := exec_start h fuel [t!"object", t!"err"] s .nil
  rw [Func.call]
  change ((execBlock (world P zero fuel u.pkg) [t!"object", t!"err"] (_ :: _)
    { s with vars := [(t!"b", .nil)] ++ _ }).bind _) = _
  rw [hvars, execBlock_next hstart]
  have hp : ∀ f target rest, execBlock (world P zero fuel u.pkg) [t!"object", t!"err"]
      (.assign target (dot t!"b" f) :: rest)
      (started s .nil (u.entity.fields.map fun f => (f.1, zero u.pkg f.2.2))) = .panic := by
    intro f target rest
    apply execBlock_panic
    simp only [Stmt.exec]
    rw [eval_dot_nil rfl]
    rfl
  rw [BuildersCode.Builder.ifClass]
  cases u.builder.isClass with
  | true => exact congrArg (Res.bind · _) (hp _ _ _)
  | false => exact congrArg (Res.bind · _) (hp _ _ _)

theorem object_builds (hw : Whole P zero S U) {ρ : List (Value Val)} {mem : Mem} (hmo : GoBuilder.MemOk S mem)
    {n fuel : Nat}
    (hB : ∀ q, BuildsObjects S U (world P zero fuel q : World Val σ) q ρ mem (GoBuilder.build S mem n))
    (hL : ∀ q, BuildsLists S U (world P zero fuel q : World Val σ) q ρ mem (GoBuilder.build S mem n)) (pkg : Text) :
    BuildsObjects S U (world P zero (fuel + 1) pkg : World Val σ) pkg ρ mem (GoBuilder.build S mem (n + 1)) := by
  intro tx e bv y s hr ho hok hst hm
  obtain ⟨c, nm, as, hS⟩ := isObject_iff.mp ho
  have h := hw.linked e c nm as hS
  have hz := hw.zeros (U e).pkg
  rcases GoBuilder.elementFits_cases hok with ⟨h', -⟩ | ⟨-, rfl | ⟨r, rfl⟩⟩
  · simp [hS, Shape.isScalar] at h'
  · rw [Stores] at hst
    subst hst
    exact object_nil hz h fuel hr s
  have hd := h.builderItem (i := (U e).builder.build) (by simp [BuildersCode.Builder.items])
  have hcall := methods_eq P zero fuel pkg tx (U e).pkg (U e).builder.builder _ y [] s hr h.legal hd rfl
  rw [show (world P zero (fuel + 1) pkg).methods tx t!"Build" y [] s = _ from hcall]
  have hvars : ([(t!"b", y)] ++ ([(t!"object", t!"*" ++ (U e).builder.object), (t!"err", t!"error")].map
      fun r : Text × Text => (r.1, (world P zero fuel (U e).pkg : World Val σ).zero r.2))) =
      [(t!"b", y), (t!"object", .nil), (t!"err", .nil)] := by
    have hp : zero (U e).pkg ('*' :: (U e).builder.object) = .nil := hz.pointer _
    simp [world_zero, hp, hz.error]
  have hstart := exec_start h fuel [t!"object", t!"err"] s y
  rw [Func.call]
  change BuildsTo S U ((execBlock (world P zero fuel (U e).pkg) [t!"object", t!"err"] (_ :: _)
    { s with vars := [(t!"b", y)] ++ _ }).bind _) s e _
  rw [hvars, execBlock_next hstart]
  rw [Stores] at hst
  have hcell : ∃ bitmap id href fields, mem[r]? = some (.builder e bitmap id href fields) := by
    unfold GoBuilder.elementFits at hok
    simp only [hS] at hok
    split at hok
    · rename_i t' b i h' f hr'
      simp only [beq_iff_eq] at hok
      subst hok
      exact ⟨b, i, h', f, hr'⟩
    · cases hok
  obtain ⟨bitmap, id, href, fields, hcell⟩ := hcell
  obtain ⟨a, fb, rfl, hs, hkb, hbm, hid, hfs⟩ := hm.cells r _ _ hcell hst trivial
  obtain ⟨fo, hexec, hkeys, hbmo, hido, hother⟩ := exec_base (w := world P zero fuel (U e).pkg)
    (names := [t!"object", t!"err"]) h hz hs hbm hid ((U e).builder.members.flatMap BuildersCode.Member.build ++ [.ret []])
  rw [hexec]
  have hfr := frame_started s (.pointer a) fo
  have hal : a < s.structs.length := (List.getElem?_eq_some_iff.mp hs).1
  have hov : ¬ Valid s (.pointer s.structs.length) := by simp [Valid]
  have hnm := names_nodup (U e).builder h.nodup
  obtain ⟨c', nm', as', hS', hfo⟩ := hmo.get hcell
  rw [hS] at hS'
  simp only [Shape.struct.injEq] at hS'
  obtain ⟨rfl, rfl, rfl⟩ := hS'
  have hmem : Memory U ρ (fun _ => True) (started s (.pointer a) fo) mem := by
    refine (hm.setVars (started s (.pointer a) fo).vars).extend (hfr.mono fun l _ hl => ?_)
    exact valid_vars.mp hl.1
  have hms := exec_members (w := world P zero fuel (U e).pkg) (names := [t!"object", t!"err"]) (zero := zero)
    (hB (U e).pkg) (hL (U e).pkg) hmo
    (a := a) (o := s.structs.length) (fb := fb) (by omega) (fresh_not_mem hm hov) as (U e).builder.members fields
    (started s (.pointer a) fo) fo
    (fun i at_ m hi hj => by
      have hlt : i < (U e).entity.members.length := by
        rw [h.entityMembers]
        exact (List.getElem?_eq_some_iff.mp hi).1
      exact ⟨_, h.attributes i at_ m _ hi hj (List.getElem?_eq_getElem hlt)⟩)
    hfo
    (StoresFields.move (D := fun _ => True) (D' := fun _ => True) (s := s) (t := started s (.pointer a) fo) (fun b xs _ hb => ⟨trivial, hb⟩)
        (List.prefix_refl ρ) _ _ (fun _ _ => rfl) hfs)
    hnm.1 rfl (by simp only [started]; rw [List.getElem?_append_left hal]; exact hs) rfl (by simp [started])
    (fun i at_ m hi hj => by
      have hlt : i < (U e).entity.members.length := by
        rw [h.entityMembers]
        exact (List.getElem?_eq_some_iff.mp hi).1
      have hmt := h.attributes i at_ m _ hi hj (List.getElem?_eq_getElem hlt)
      have hmm : m.field ∈ (U e).builder.members.map (·.field) :=
        List.mem_map.mpr ⟨m, List.mem_of_getElem? hj, rfl⟩
      rw [hother]
      · rw [← hmt.field, zero_lookup _ _ h.entityNodup (entityField_mem _ _ (List.getElem_mem hlt)), hmt.objectZero]
      · intro e'
        exact hnm.2.1 (e' ▸ hmm)
      · intro hc
        have := hnm.2.2 (h.isClass.trans hc)
        exact ⟨fun e' => this.1 (e' ▸ hmm), fun e' => this.2 (e' ▸ hmm)⟩)
    rfl hmem
  simp only [GoBuilder.buildRef, GoBuilder.build, hcell, hS]
  cases hR : GoBuilder.buildFields (GoBuilder.build S mem n) S mem as fields with
  | outOfFuel => trivial
  | panic =>
    rw [hR] at hms
    change _ = Res.panic
    rw [execBlock_append_stop _ _ .panic (fun _ => by simp) _ _ _ hms]
    rfl
  | done vs =>
    rw [hR] at hms
    obtain ⟨fo', t', he', hf', hso', hk', hoth, hh⟩ := hms
    rw [execBlock_append _ _ _ _ _ _ he']
    have hret : execBlock (world P zero fuel (U e).pkg) [t!"object", t!"err"] [.ret []] t' =
        .ok (.ret [.pointer s.structs.length, .nil], t') := by
      simp only [execBlock, Stmt.exec, hf'.vars, started]
      rfl
    rw [hret, done_bind]
    refine ⟨_, _, rfl, ?_, ?_⟩
    · have h1 : Frame (Valid s) { s with vars := (started s (.pointer a) fo).vars } t' :=
        hfr.trans (hf'.mono fun l _ hl => ⟨hfr.valid l (valid_vars.mpr hl), fun e' => hov (e' ▸ hl)⟩)
      exact h1.setVars
    · rw [Holds]
      refine ⟨_, fo', rfl, hov, hso', hk'.trans hkeys, ?_, ?_, ?_⟩
      · rw [hoth _ hnm.2.1]
        exact hbmo
      · intro hcl
        have hc : c = true := h.isClass.symm.trans hcl
        have := hnm.2.2 hcl
        rw [hoth _ this.1, hoth _ this.2]
        simp only [hc, if_true]
        exact hido hc
      · have hfn : fieldNames S U e = as.zip ((U e).builder.members.map (·.field)) := by
          simp [fieldNames, hS]
        rw [hfn]
        refine HoldsFields.move (move_vars (s := t') (D := fun l => ¬ Valid (started s (.pointer a) fo) l) ?_) _ _ _ hh
        exact fun l hl hv => hl (hfr.valid l (valid_vars.mpr hv))

/-! ## The builders of lists -/

theorem fits_items {mem : Mem} {ty e : TypeId} {n : Text} {items : BVal} (hS : S ty = .list n e)
    (h : GoBuilder.fits S mem ty false items = true) : items = .nil ∨
      ∃ xs, items = .list xs ∧ ∀ x ∈ xs, GoBuilder.elementFits S mem e x = true := by
  have := fieldOk_list (a := { tag := [], bit := 0, typ := ty, link := false }) (.inl h) hS
  rcases this with h | ⟨h, -⟩ | ⟨-, xs, h⟩
  · exact .inl h
  · cases h
  · exact .inr ⟨xs, h⟩

/-- A new array, with some variables. -/
def withArray (s : State Val σ) (V : List (Text × Value Val)) (xs : List (Value Val)) : State Val σ :=
  { s with arrays := s.arrays ++ [xs], vars := V }

theorem frame_withArray (s : State Val σ) (V : List (Text × Value Val)) (xs : List (Value Val)) :
    Frame (Valid s) { s with vars := V } (withArray s V xs) := by
  refine ⟨fun _ _ _ h => h, fun b ys hb h => ?_, fun _ _ _ h => h, fun l hl => ?_, rfl, rfl⟩
  · simp only [withArray]
    rw [List.getElem?_append_left (List.getElem?_eq_some_iff.mp h).1]
    exact h
  · cases l <;> simp [Valid, withArray] at hl ⊢ <;> omega

theorem exec_define {w : World Val σ} {names : List Text} {x : Text} {e : Expr} {s t : State Val σ} {v : Value Val}
    (he : e.eval w s = .ok (v, t)) :
    (Stmt.define x e).exec w names s = .ok (.next, { t with vars := (x, v) :: t.vars }) := by
  simp only [Stmt.exec, he, Res.bind]

theorem list_builds (hw : Whole P zero S U) {ρ : List (Value Val)} {mem : Mem} (hmo : GoBuilder.MemOk S mem)
    {B : GoBuilder.Ref → Run Val} {fuel : Nat}
    (hB : ∀ q, BuildsObjects S U (world P zero fuel q : World Val σ) q ρ mem B) (pkg : Text) :
    BuildsLists S U (world P zero (fuel + 1) pkg : World Val σ) pkg ρ mem B := by
  intro tx ty n e r items x s hr hS ho hcell hst hm
  obtain ⟨c, nm, as, hSe⟩ := isObject_iff.mp ho
  have h := hw.linked e c nm as hSe
  have hz := hw.zeros (U e).pkg
  have hd := h.listItem (List.getElem_mem (l := (U e).list.items) (n := 5) (by simp [BuildersCode.ListBuilder.items]))
  have hcall := methods_eq P zero fuel pkg tx (U e).pkg (U e).list.builder _ x [] s hr h.legal hd rfl
  rw [show (world P zero (fuel + 1) pkg).methods tx t!"Build" x [] s = _ from hcall]
  obtain ⟨a, y, rfl, hs, hsy⟩ := hm.cells r _ _ hcell hst trivial
  have hcok := (hmo.get hcell).2
  have hvars : ([(t!"b", .pointer a)] ++ ([(t!"list", t!"*" ++ (U e).list.list), (t!"err", t!"error")].map
      fun r : Text × Text => (r.1, (world P zero fuel (U e).pkg : World Val σ).zero r.2))) =
      [(t!"b", .pointer a), (t!"list", .nil), (t!"err", .nil)] := by
    have hp : zero (U e).pkg ('*' :: (U e).list.list) = .nil := hz.pointer _
    simp [world_zero, hp, hz.error]
  rw [Func.call]
  change BuildsTo S U ((execBlock (world P zero fuel (U e).pkg) [t!"list", t!"err"]
    [ .define t!"items" (.make (t!"[]*" ++ (U e).list.object) (.len (dot t!"b" t!"items"))),
      .range t!"i" t!"item" (dot t!"b" t!"items")
        (buildInto (.index (.var t!"items") (.var t!"i")) (U e).list.element.builder (.var t!"item")),
      .assign (.var t!"list") (.new (U e).list.list),
      .assign (dot t!"list" t!"items") (.var t!"items"),
      .ret []]
    { s with vars := [(t!"b", .pointer a)] ++ _ }).bind _) s ty _
  rw [hvars]
  generalize hw' : (world P zero fuel (U e).pkg : World Val σ) = w
  have hBw : BuildsObjects S U w (U e).pkg ρ mem B := hw' ▸ hB (U e).pkg
  -- the items
  obtain ⟨bs, xs, hxs, hit, hbs, hbi⟩ : ∃ (bs : List BVal) (xs : List (Value Val)), s.elements y = some xs ∧
      StoresItems ρ (fun _ => True) s bs xs ∧ (∀ b ∈ bs, GoBuilder.elementFits S mem e b = true) ∧
      GoBuilder.buildItems B items = (GoBuilder.mapRun (GoBuilder.buildRef B) bs).bind fun items =>
        .done (.linkList false [] (.list items)) := by
    rcases fits_items hS hcok with rfl | ⟨bs, rfl, hbs⟩
    · rw [Stores] at hsy
      subst hsy
      exact ⟨[], [], rfl, by simp [StoresItems], by simp, rfl⟩
    · rw [Stores] at hsy
      obtain ⟨b, xs, rfl, -, hb, hit⟩ := hsy
      exact ⟨bs, xs, hb, hit, hbs, rfl⟩
  rw [hbi]
  -- the new array
  have hev : (Expr.make (t!"[]*" ++ (U e).list.object) (.len (dot t!"b" t!"items"))).eval w
      { s with vars := [(t!"b", .pointer a), (t!"list", .nil), (t!"err", .nil)] } =
      .ok (.slice s.arrays.length,
        withArray s [(t!"b", .pointer a), (t!"list", .nil), (t!"err", .nil)] (List.replicate xs.length .nil)) := by
    have h1 := eval_dot (w := w) (s := { s with vars := [(t!"b", .pointer a), (t!"list", .nil), (t!"err", .nil)] })
      (x := t!"b") (f := t!"items") rfl hs rfl
    have h2 : State.elements { s with vars := [(t!"b", .pointer a), (t!"list", .nil), (t!"err", .nil)] } y = some xs := by
      rw [← hxs]
      rfl
    simp only [Expr.eval, h1, Res.bind, h2, Res.ofOption]
    rfl
  have hV : ({ withArray s [(t!"b", .pointer a), (t!"list", .nil), (t!"err", .nil)] (List.replicate xs.length .nil) with
      vars := (t!"items", .slice s.arrays.length) :: [(t!"b", .pointer a), (t!"list", .nil), (t!"err", .nil)] } :
        State Val σ) =
      withArray s [(t!"items", .slice s.arrays.length), (t!"b", .pointer a), (t!"list", .nil), (t!"err", .nil)]
        (List.replicate xs.length .nil) := rfl
  rw [execBlock_next (exec_define hev)]
  change BuildsTo S U ((execBlock w _ _ ({ withArray s _ _ with vars := _ :: [_, _, _] })).bind _) s ty _
  rw [hV]
  have hfr := frame_withArray s
    [(t!"items", .slice s.arrays.length), (t!"b", .pointer a), (t!"list", .nil), (t!"err", .nil)]
    (List.replicate xs.length .nil)
  have h4 : (withArray s
      [(t!"items", .slice s.arrays.length), (t!"b", .pointer a), (t!"list", .nil), (t!"err", .nil)]
      (List.replicate xs.length .nil)).arrays[s.arrays.length]? = some (List.replicate xs.length .nil) := by
    simp [withArray]
  have hs2 : (withArray s
      [(t!"items", .slice s.arrays.length), (t!"b", .pointer a), (t!"list", .nil), (t!"err", .nil)]
      (List.replicate xs.length .nil)).structs[a]? = some [(t!"items", y)] := hs
  have hel : (withArray s
      [(t!"items", .slice s.arrays.length), (t!"b", .pointer a), (t!"list", .nil), (t!"err", .nil)]
      (List.replicate xs.length .nil)).elements y = some xs := by
    cases y with
    | slice b =>
      simp only [withArray, State.elements] at hxs ⊢
      rw [List.getElem?_append_left (List.getElem?_eq_some_iff.mp hxs).1]
      exact hxs
    | _ => exact hxs
  have hvs : (withArray s
      [(t!"items", .slice s.arrays.length), (t!"b", .pointer a), (t!"list", .nil), (t!"err", .nil)]
      (List.replicate xs.length .nil)).vars =
      [(t!"items", .slice s.arrays.length), (t!"b", .pointer a), (t!"list", .nil), (t!"err", .nil)] := rfl
  generalize withArray s
      [(t!"items", .slice s.arrays.length), (t!"b", .pointer a), (t!"list", .nil), (t!"err", .nil)]
      (List.replicate xs.length .nil) = t2 at hfr h4 hs2 hel hvs
  have hinv : ¬ Valid s (.slice s.arrays.length) := by simp [Valid]
  have hfv : Frame (fun l => Valid { s with vars :=
      [(t!"items", .slice s.arrays.length), (t!"b", .pointer a), (t!"list", .nil), (t!"err", .nil)] } l ∧
      l ≠ .pointer s.structs.length) { s with vars :=
      [(t!"items", .slice s.arrays.length), (t!"b", .pointer a), (t!"list", .nil), (t!"err", .nil)] } t2 :=
    hfr.mono fun l _ hl => valid_vars.mp hl.1
  have hnot : .slice s.arrays.length ∉ ρ := fresh_not_mem hm hinv
  have hres : resolve (U e).pkg (U e).list.element.builder = ((U e).pkg, (U e).builder.builder) := by
    have heq : (U e).list.element.builder = (U e).builder.builder := by
      simp [BuildersCode.ListBuilder.element, BuildersCode.Builder.builder, h.list]
    rw [heq]
    exact resolve_simple _ _ h.builderName
  have hloop := loop_array (S := S) (U := U) (ρ := ρ) (mem := mem) (GoBuilder.buildRef B) e
    (fun bv => GoBuilder.elementFits S mem e bv = true) s.arrays.length
    (fun k v s => (execBlock w [t!"list", t!"err"]
      (buildInto (.index (.var t!"items") (.var t!"i")) (U e).list.element.builder (.var t!"item"))
      { s with vars := (t!"item", v) :: (t!"i", .int k) :: s.vars }).bind fun r => .ok (leave s r))
    (fun u => u.vars = t2.vars)
    (fun u u' hu hfr => hfr.vars.trans hu)
    (by
      intro k bv y u ys hbv hbs hbm hu hys hk
      have hlook : ∀ z, z ≠ t!"item" → z ≠ t!"i" →
          (inner u t!"item" y t!"i" (.int k)).vars.lookup z = t2.vars.lookup z := by
        intro z h1 h2
        simp only [inner, hu]
        rw [List.lookup, beq_eq_false_iff_ne.mpr h1, List.lookup, beq_eq_false_iff_ne.mpr h2]
      refine array_step rfl rfl ?_ (hBw _ e bv y _ hres ho hbv ?_ ?_) ?_ hys hk
      · rw [hlook _ (by decide) (by decide), hvs]
        rfl
      · exact Stores.move (keep_vars u _) (List.prefix_refl ρ) _ _ hbs
      · exact (hbm.full hnot).setVars _
      · intro t1 hfr
        apply eval_var
        rw [hfr.vars, hlook _ (by decide) (by decide), hvs]
        rfl)
    bs xs t2 [] hbs
    (StoresItems.move (keep_shift hfv (.slice s.arrays.length) hinv) (List.prefix_refl ρ) _ _
      (StoresItems.move (keep_vars s _) (List.prefix_refl ρ) _ _ hit))
    ((hm.setVars _).shift hfv (fresh_not_mem hm (by simp [Valid])) (.slice s.arrays.length) hinv) rfl
    (by rw [h4, hit.length]; rfl)
  have hrange := exec_range (w := w) (names := [t!"list", t!"err"]) (i := t!"i") (v := t!"item")
    (body := buildInto (.index (.var t!"items") (.var t!"i")) (U e).list.element.builder (.var t!"item"))
    (eval_dot (w := w) (s := t2) (x := t!"b") (f := t!"items") (by rw [hvs]; rfl) hs2 rfl) (xs := xs) hel
  cases hR : GoBuilder.mapRun (GoBuilder.buildRef B) bs with
  | outOfFuel => trivial
  | panic =>
    rw [hR] at hloop
    rw [execBlock_panic (hrange.trans hloop)]
    rfl
  | done vs =>
    rw [hR] at hloop
    obtain ⟨post, t', he', hf', hb', hh⟩ := hloop
    rw [execBlock_next (hrange.trans he'), done_bind]
    have hvt : t'.vars = _ := hf'.vars.trans hvs
    have hlist : '.' ∉ (U e).list.list := by simp [BuildersCode.ListBuilder.list, h.list, h.simple]
    have hdecl : .struct 1 (U e).list.list [(t!"href", 2, t!"string"), (t!"link", 2, t!"bool"),
        (t!"items", 1, t!"[]*" ++ (U e).entity.object)] ∈ P (U e).pkg := by
      have h1 := h.entityItem (i := (U e).entity.listKinds[3]'(by simp [TypesCode.Entity.listKinds]))
        (by simp [TypesCode.Entity.items])
      have h2 : (U e).list.list = (U e).entity.list := by
        simp [BuildersCode.ListBuilder.list, TypesCode.Entity.list, h.list, h.entity]
      rw [h2]
      exact h1
    have hal := alloc_eq P zero fuel (U e).pkg 1 _ _ h.legal hdecl hlist t'
    rw [hw'] at hal
    have hslice : zero (U e).pkg ('[' :: ']' :: '*' :: (U e).entity.object) = .nil := hz.slice _
    simp only [List.map_cons, List.map_nil, hz.string, hz.bool, List.cons_append, List.nil_append, hslice] at hal
    have hnew : (Stmt.assign (.var t!"list") (.new (U e).list.list)).exec w [t!"list", t!"err"] t' =
        .ok (.next, { t' with
          structs := t'.structs ++ [[(t!"href", .str []), (t!"link", .bool false), (t!"items", .nil)]]
          vars := [(t!"items", .slice s.arrays.length), (t!"b", .pointer a), (t!"list", .pointer t'.structs.length),
            (t!"err", .nil)] }) := by
      refine exec_assign hal ?_
      simp only [assign, hvt]
      rfl
    have hset : (Stmt.assign (dot t!"list" t!"items") (.var t!"items")).exec w [t!"list", t!"err"] { t' with
          structs := t'.structs ++ [[(t!"href", .str []), (t!"link", .bool false), (t!"items", .nil)]]
          vars := [(t!"items", .slice s.arrays.length), (t!"b", .pointer a), (t!"list", .pointer t'.structs.length),
            (t!"err", .nil)] } =
        .ok (.next, { t' with
          structs := t'.structs ++
            [[(t!"href", .str []), (t!"link", .bool false), (t!"items", .slice s.arrays.length)]]
          vars := [(t!"items", .slice s.arrays.length), (t!"b", .pointer a), (t!"list", .pointer t'.structs.length),
            (t!"err", .nil)] }) := by
      refine exec_assign (eval_var rfl) ?_
      simp only [assign, dot]
      rw [eval_var rfl]
      simp [Res.bind, Res.ofOption, update]
    rw [execBlock_next hnew, execBlock_next hset]
    have hst' : Frame (Valid s) s { t' with
        structs := t'.structs ++
          [[(t!"href", .str []), (t!"link", .bool false), (t!"items", .slice s.arrays.length)]]
        vars := s.vars } := by
      have h1 := hfr.trans (hf'.mono fun l _ hl => ⟨hfr.valid l (valid_vars.mpr hl), fun e' => hinv (e' ▸ hl)⟩)
      exact (h1.trans (frame_push _ t' _)).setVars
    refine ⟨.pointer t'.structs.length, _, rfl, hst', ?_⟩
    have hpv : ¬ Valid s (.pointer t'.structs.length) := by
      intro hv
      have h1 := hf'.valid _ (hfr.valid _ (valid_vars.mpr hv))
      simp [Valid] at h1
    rw [Holds]
    refine ⟨_, .slice s.arrays.length, rfl, hpv, by simp, ?_⟩
    rw [Holds]
    refine ⟨_, post, rfl, hinv, by simpa using hb', ?_⟩
    rw [show elementOf S ty = e by simp [elementOf, hS]]
    have hh1 := HoldsItems.move (D' := fun l => ¬ Valid s l)
      (Move.change fun l hl _ hv => hl (hfr.valid l (valid_vars.mpr hv))) _ _ _ hh
    have hh2 := HoldsItems.move ((frame_push (fun l => ¬ Valid s l) t'
      [(t!"href", .str []), (t!"link", .bool false), (t!"items", .slice s.arrays.length)]).move) _ _ _ hh1
    exact HoldsItems.move (move_vars (s := { t' with structs := t'.structs ++
      [[(t!"href", .str []), (t!"link", .bool false), (t!"items", .slice s.arrays.length)]] }) fun _ h => h) _ _ _ hh2

/-! ## Any number of calls -/

theorem builds (hw : Whole P zero S U) {ρ : List (Value Val)} {mem : Mem} (hmo : GoBuilder.MemOk S mem) :
    ∀ n fuel, 2 * n < fuel → ∀ pkg,
      BuildsObjects S U (world P zero fuel pkg : World Val σ) pkg ρ mem (GoBuilder.build S mem n)
  | 0, 0, h, _ => absurd h (by omega)
  | 0, fuel + 1, _, pkg => by
    intro tx e bv y s hr ho hok hst hm
    obtain ⟨c, nm, as, hS⟩ := isObject_iff.mp ho
    rcases GoBuilder.elementFits_cases hok with ⟨h', -⟩ | ⟨-, rfl | ⟨r, rfl⟩⟩
    · simp [hS, Shape.isScalar] at h'
    · rw [Stores] at hst
      subst hst
      exact object_nil (hw.zeros _) (hw.linked e c nm as hS) fuel hr s
    · trivial
  | n + 1, 0, h, _ => absurd h (by omega)
  | n + 1, 1, h, _ => absurd h (by omega)
  | n + 1, fuel + 2, h, pkg =>
    object_builds hw hmo (builds hw hmo n (fuel + 1) (by omega))
      (list_builds hw hmo (builds hw hmo n fuel (by omega))) pkg

end Verif.BuildersRun
