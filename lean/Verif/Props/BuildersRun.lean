import Verif.Lemmas.BuildersBuilt

/-!
# C92: running the generated builders

Running the code that is written in the files of the builders does what the model of the builders says, for
programs with any number of packages that contain the files of the types and builders. What the files
contain is the property C91, and what the builders of the model do is in the properties C30 to C37.
-/

namespace Verif.BuildersRun

open GoJson (Val Schema Shape AttrShape)
open GoBuilder (BVal Cell Mem)
open GoProgram
open TypesCode (dot)
open TypesRun (Legal value)
open BuildersCode (setBit clearBit fluent)

variable {σ : Type} {S : Schema} {U : TypeId → Code} {P : Program} {zero : Text → Text → Value Val}

/-! ## Constructors -/

/-- Calling the constructor of the builders of a type creates a builder. -/
theorem c92_new (hw : Whole P zero S U) {ρ : List (Value Val)} {s : State Val σ} {mem mem' : Mem}
    (hm : Memory U ρ (fun _ => True) s mem) (ty : TypeId) (he : GoBuilder.exec S mem (.new ty) = some mem')
    (fuel : Nat) :
    Creates U ρ s (construct P zero (fuel + 1) (U ty).pkg (U ty).builder.ctor s) mem' := by
  cases hS : S ty with
  | struct c n as =>
    simp only [GoBuilder.exec, hS, Option.some.injEq] at he
    subst he
    have h := hw.linked ty c n as hS
    refine ⟨_, _, call_new h fuel _ _ (resolve_simple _ _ h.ctorName) s, by simp [Valid], frame_push _ s _, ?_⟩
    apply (hm.frame (frame_push _ s _)).push
    · exact valid_push s _
    · exact fresh_not_mem hm (by simp [Valid])
    · exact stores_newBuilder hS hw _ _ _ _ (push_get s _)
  | _ => simp [GoBuilder.exec, hS] at he

/-- Calling the constructor of the builders of the lists of a type creates a builder. -/
theorem c92_newList (hw : Whole P zero S U) {ρ : List (Value Val)} {s : State Val σ} {mem mem' : Mem}
    (hm : Memory U ρ (fun _ => True) s mem) {ty e : TypeId} {name : Text} (hS : S ty = .list name e)
    (he : GoBuilder.exec S mem (.newList ty) = some mem') (fuel : Nat) :
    Creates U ρ s (construct P zero (fuel + 1) (U e).pkg (t!"New" ++ (U e).list.list) s) mem' := by
  cases hE : S e with
  | struct c n as =>
    simp only [GoBuilder.exec, hS, hE, Option.some.injEq] at he
    subst he
    have h := hw.linked e c n as hE
    have hr : resolve (U e).pkg (t!"New" ++ (U e).list.list) = ((U e).pkg, t!"New" ++ (U e).list.list) :=
      resolve_simple _ _ (by simp [BuildersCode.ListBuilder.list, h.list, h.simple])
    refine ⟨_, _, call_newList h (hw.zeros _) fuel _ _ hr s, by simp [Valid], frame_push _ s _, ?_⟩
    apply (hm.frame (frame_push _ s _)).push
    · exact valid_push s _
    · exact fresh_not_mem hm (by simp [Valid])
    · exact ⟨_, .nil, rfl, push_get s _, by simp [Stores]⟩
  | _ => simp [GoBuilder.exec, hS, hE] at he

/-! ## Setters -/

/-- `Link` sets the bit of the links. -/
theorem c92_link (hw : Whole P zero S U) {ρ : List (Value Val)} {s : State Val σ} {mem mem' : Mem}
    (hm : Memory U ρ (fun _ => True) s mem) {r : Nat} {x : Value Val} (hx : ρ[r]? = some x)
    {ty : TypeId} {bitmap : Nat} {id href : Text} {fields : List BVal}
    (hr : mem[r]? = some (.builder ty bitmap id href fields)) (b : Bool)
    (he : GoBuilder.exec S mem (.link r b) = some mem') (fuel : Nat) :
    Does U ρ x s (call P zero (fuel + 1) (U ty).pkg (U ty).builder.builder t!"Link" x [.bool b] s) mem' := by
  simp only [GoBuilder.exec, hr] at he
  split at he
  · rename_i n as hS
    cases he
    have h := hw.linked ty true n as hS
    obtain ⟨n1, n2, n3⟩ := names_nodup _ h.nodup
    obtain ⟨a, fs, rfl, hs, hk, hb, hcl, hf⟩ := hm.cells r _ x hr hx trivial
    let V : List (Text × Value Val) := [(t!"b", .pointer a), (t!"value", .bool b),
      ([], zero (U ty).pkg (t!"*" ++ (U ty).builder.builder))]
    obtain ⟨fs1, h1, e⟩ := exec_setBit (world P zero fuel (U ty).pkg) [[]] 0 (s := { s with vars := V })
      (a := a) (fs := fs) (n := bitmap) rfl hs hb
    have e' : execBlock (world P zero fuel (U ty).pkg) [[]] [setBit 0] { s with vars := V } =
        .ok (.next, write { s with vars := V } a fs1) := by
      rw [execBlock_next e]
      rfl
    have hd : fluent (U ty).builder.builder t!"Link" [(t!"value", t!"bool")] [setBit 0] ∈ P (U ty).pkg :=
      h.identityItem rfl 0 (by decide)
    have hcall := method_fluent h fuel (U ty).pkg _ (U ty).builder.builder t!"Link" _ _ hd
      (resolve_simple _ _ h.builderName) (.pointer a) [.bool b] s _ e' rfl
    rw [call, hcall]
    change Does U ρ _ s (.ok ([.pointer a], write s a fs1)) _
    rw [← writeNew_nil]
    apply does_write hm hx
    refine ⟨a, fs1, rfl, by rw [writeNew_nil]; exact write_get fs1 hs, by rw [h1.keys, hk], h1.same,
      fun hc => ?_, ?_⟩
    · rw [h1.other t!"id" (by decide), h1.other t!"href" (by decide)]
      exact hcl hc
    · exact (hf.move (keep_writeNew s a fs1 []) (List.prefix_refl ρ) _ _ (fun _ _ => rfl)).put h1 n2
  · cases he

/-- `ID` sets the identifier. -/
theorem c92_id (hw : Whole P zero S U) {ρ : List (Value Val)} {s : State Val σ} {mem mem' : Mem}
    (hm : Memory U ρ (fun _ => True) s mem) {r : Nat} {x : Value Val} (hx : ρ[r]? = some x)
    {ty : TypeId} {bitmap : Nat} {id href : Text} {fields : List BVal}
    (hr : mem[r]? = some (.builder ty bitmap id href fields)) (t : Text)
    (he : GoBuilder.exec S mem (.id r t) = some mem') (fuel : Nat) :
    Does U ρ x s (call P zero (fuel + 1) (U ty).pkg (U ty).builder.builder t!"ID" x [.str t] s) mem' := by
  simp only [GoBuilder.exec, hr] at he
  split at he
  · rename_i n as hS
    cases he
    have h := hw.linked ty true n as hS
    refine exec_identity h hm hx hr h.isClass fuel 1 t!"id" t!"ID" t!"string" t t href (.inl ⟨rfl, rfl, rfl⟩) ?_
    exact h.identityItem rfl 1 (by decide)
  · cases he

/-- `HREF` sets the address. -/
theorem c92_href (hw : Whole P zero S U) {ρ : List (Value Val)} {s : State Val σ} {mem mem' : Mem}
    (hm : Memory U ρ (fun _ => True) s mem) {r : Nat} {x : Value Val} (hx : ρ[r]? = some x)
    {ty : TypeId} {bitmap : Nat} {id href : Text} {fields : List BVal}
    (hr : mem[r]? = some (.builder ty bitmap id href fields)) (t : Text)
    (he : GoBuilder.exec S mem (.href r t) = some mem') (fuel : Nat) :
    Does U ρ x s (call P zero (fuel + 1) (U ty).pkg (U ty).builder.builder t!"HREF" x [.str t] s) mem' := by
  simp only [GoBuilder.exec, hr] at he
  split at he
  · rename_i n as hS
    cases he
    have h := hw.linked ty true n as hS
    refine exec_identity h hm hx hr h.isClass fuel 2 t!"href" t!"HREF" t!"string" t id t (.inr ⟨rfl, rfl, rfl⟩) ?_
    exact h.identityItem rfl 2 (by decide)
  · cases he

/-- The setters of the attributes set the attributes. -/
theorem c92_set (hw : Whole P zero S U) {ρ : List (Value Val)} {s : State Val σ} {mem mem' : Mem}
    (hm : Memory U ρ (fun _ => True) s mem) {r : Nat} {x : Value Val} (hx : ρ[r]? = some x)
    {ty : TypeId} {bitmap : Nat} {id href : Text} {fields : List BVal}
    (hr : mem[r]? = some (.builder ty bitmap id href fields)) {i : Nat} {m : BuildersCode.Member}
    (hi : (U ty).builder.members[i]? = some m) {v : BVal} {y : Value Val} (hv : Stores ρ (fun _ => True) s v y)
    (he : GoBuilder.exec S mem (.set r i v) = some mem') (fuel : Nat) :
    Does U ρ x s (call P zero (fuel + 1) (U ty).pkg (U ty).builder.builder m.setter x [y] s) mem' := by
  simp only [GoBuilder.exec, hr] at he
  split at he
  · rename_i c n as hS
    split at he
    · rename_i at_ ha
      split at he
      · rename_i hfit
        cases he
        have h := hw.linked ty c n as hS
        have hlt : i < (U ty).entity.members.length := by
          rw [h.entityMembers]
          exact (List.getElem?_eq_some_iff.mp ha).1
        have hat := h.attributes i at_ m _ ha hi (List.getElem?_eq_getElem hlt)
        have hd : (U ty).builder.setterDecl m ∈ P (U ty).pkg :=
          h.builderItem (i := (U ty).builder.setter m) (by
            have := List.mem_of_getElem? hi
            simp only [BuildersCode.Builder.items, List.mem_append, List.mem_map]
            exact .inl (.inr ⟨m, this, rfl⟩))
        exact call_setter h hm hx hr hi hat hv hfit hd fuel
      · cases he
    · cases he
  · cases he

/-- `Items` sets the items of a builder of lists. -/
theorem c92_items (hw : Whole P zero S U) {ρ : List (Value Val)} {s : State Val σ} {mem mem' : Mem}
    (hm : Memory U ρ (fun _ => True) s mem) {r : Nat} {x : Value Val} (hx : ρ[r]? = some x)
    {ty : TypeId} {items : BVal} (hr : mem[r]? = some (.listBuilder ty items))
    {name : Text} {e : TypeId} (hS : S ty = .list name e) (ho : isObject (S e) = true) {v : BVal} {y : Value Val} (hv : Stores ρ (fun _ => True) s v y)
    (he : GoBuilder.exec S mem (.items r v) = some mem') (fuel : Nat) :
    Does U ρ x s (call P zero (fuel + 1) (U e).pkg (U e).list.builder
      t!"Items" x [y] s) mem' := by
  simp only [GoBuilder.exec, hr] at he
  split at he
  · rename_i hfit
    cases he
    cases hE : S e with
    | struct c n as =>
      have h := hw.linked _ c n as hE
      revert h
      generalize U e = u
      intro h
      obtain ⟨a, z, rfl, hs, -⟩ := hm.cells r _ x hr hx trivial
      obtain ⟨xs, items', hxs, hcopy, hst⟩ := stores_copySlice hv hfit ⟨_, _, hS⟩
      rw [hcopy]
      let V : List (Text × Value Val) := [(t!"b", .pointer a), (t!"values", y),
        ([], zero u.pkg (t!"*" ++ u.list.builder))]
      obtain ⟨fs1, h1, e1⟩ := exec_copySlice (world P zero fuel u.pkg) [[]] (s := { s with vars := V })
        (a := a) (f := t!"items") (old := z) rfl hs (by simp) u.list.slice [] (y := y) rfl (xs := xs) hxs
      have hfs : fs1 = [(t!"items", .slice s.arrays.length)] := by
        have hk := h1.keys
        have hsame := h1.same
        match fs1, hk with
        | [(k, w)], hk =>
          simp at hk
          subst hk
          simp at hsame
          simp [hsame]
      have hd := h.listItem (i := u.list.items[2]'(by simp [BuildersCode.ListBuilder.items]))
        (by simp [BuildersCode.ListBuilder.items])
      have hcall := method_fluent h fuel u.pkg u.list.builder u.list.builder t!"Items" _ _ hd
        (resolve_simple _ _ (by simp [BuildersCode.ListBuilder.builder, h.list, h.simple])) (.pointer a) [y] s _ e1 rfl
      rw [call, hcall]
      change Does U ρ _ s (.ok ([.pointer a], writeNew s a fs1 [xs])) _
      apply does_write hm hx
      refine ⟨a, .slice s.arrays.length, rfl, ?_, ?_⟩
      · rw [← hfs]
        exact write_get fs1 hs
      · exact stores_slice hst
    | _ => simp [hE, isObject] at ho
  · cases he

/-! ## Empty -/

/-- `Empty` of the builders of objects: the nil builder is empty. -/
theorem c92_empty (hw : Whole P zero S U) {ρ : List (Value Val)} {s : State Val σ} {mem : Mem}
    (hm : Memory U ρ (fun _ => True) s mem) {ty : TypeId} {c : Bool} {n : Text} {as : List AttrShape}
    (hS : S ty = .struct c n as) (fuel : Nat) :
    (∀ (r : Nat) x cell bitmap id href fields, cell = .builder ty bitmap id href fields → mem[r]? = some cell → ρ[r]? = some x →
      call P zero (fuel + 1) (U ty).pkg (U ty).builder.builder t!"Empty" x [] s =
        .ok ([.bool (GoBuilder.empty c (some cell))], s)) ∧
    call P zero (fuel + 1) (U ty).pkg (U ty).builder.builder t!"Empty" .nil [] s =
      .ok ([.bool (GoBuilder.empty c none)], s) := by
  have h := hw.linked ty c n as hS
  have hd := h.builderItem (i := (U ty).builder.empty) (by simp [BuildersCode.Builder.items])
  have hcall := fun x => methods_eq P zero fuel (U ty).pkg (U ty).builder.builder (U ty).pkg _ _ x [] s
    (resolve_simple _ _ h.builderName) h.legal hd rfl
  refine ⟨fun r x cell bitmap id href fields hcell hr hx => ?_, ?_⟩
  · subst hcell
    obtain ⟨a, fs, rfl, hs, hk, hb, hcl, hf⟩ := hm.cells r _ x hr hx trivial
    refine (hcall _).trans ?_
    have hdot : (dot t!"b" t!"bitmap_").eval (world P zero fuel (U ty).pkg)
        { s with vars := [(t!"b", .pointer a), ([], zero (U ty).pkg t!"bool")] } = .ok (.int bitmap,
        { s with vars := [(t!"b", .pointer a), ([], zero (U ty).pkg t!"bool")] }) :=
      eval_dot (a := a) (fs := fs) rfl hs hb
    have hv : List.lookup t!"b" [(t!"b", (.pointer a : Value Val)), ([], zero (U ty).pkg t!"bool")] =
      some (.pointer a) := rfl
    rw [h.isClass]
    cases c
    · simp only [Func.call, execBlock, Stmt.exec, evalArgs, Expr.eval, TypesCode.isNil, List.map_cons, List.map_nil,
        List.zip_nil_right, List.nil_append, world_zero, Res.bind, hv, equal, Res.ofOption, Bool.false_eq_true, if_false, hdot,
        GoBuilder.empty]
      congr 4
      rw [Bool.eq_iff_iff]
      simp
    · simp only [Func.call, execBlock, Stmt.exec, evalArgs, Expr.eval, TypesCode.isNil, List.map_cons, List.map_nil,
        List.zip_nil_right, List.nil_append, world_zero, Res.bind, hv, equal, Res.ofOption, Bool.false_eq_true, if_true, hdot,
        GoBuilder.empty]
      have hbits : bits (δ := Val) (fun x y => x - Nat.land x y) (.int bitmap) (.int 1) = .ok (.int (bitmap / 2 * 2 : Nat)) := by
        have : bitmap - Nat.land bitmap 1 = bitmap / 2 * 2 := by
          have h1 : Nat.land bitmap 1 = bitmap % 2 := Nat.and_one_is_mod bitmap
          omega
        rw [← this]
        rfl
      rw [hbits]
      simp only [equal]
      congr 4
      rw [Bool.eq_iff_iff]
      simp
      omega
  · refine (hcall _).trans ?_
    have hv : List.lookup t!"b" [(t!"b", (.nil : Value Val)), ([], zero (U ty).pkg t!"bool")] = some .nil := rfl
    simp only [Func.call, execBlock, Stmt.exec, evalArgs, Expr.eval, TypesCode.isNil, List.map_cons, List.map_nil,
      List.zip_nil_right, List.nil_append, world_zero, Res.bind, hv, equal, Res.ofOption, GoBuilder.empty]

/-- `Empty` of the builders of lists: the nil builder is empty. -/
theorem c92_emptyList (hw : Whole P zero S U) {ρ : List (Value Val)} {s : State Val σ} {mem : Mem}
    (hm : Memory U ρ (fun _ => True) s mem) {e : TypeId} (ho : isObject (S e) = true) (fuel : Nat) :
    (∀ (r : Nat) x cell ty items, cell = .listBuilder ty items → (items = .nil ∨ ∃ l, items = .list l) →
      mem[r]? = some cell → ρ[r]? = some x →
      call P zero (fuel + 1) (U e).pkg (U e).list.builder t!"Empty" x [] s =
        .ok ([.bool (GoBuilder.emptyList (some cell))], s)) ∧
    call P zero (fuel + 1) (U e).pkg (U e).list.builder t!"Empty" .nil [] s =
      .ok ([.bool (GoBuilder.emptyList none)], s) := by
  cases hE : S e with
  | struct c n as =>
    have h := hw.linked _ c n as hE
    have hd := h.listItem (i := (U e).list.items[3]'(by simp [BuildersCode.ListBuilder.items]))
      (by simp [BuildersCode.ListBuilder.items])
    have hcall := fun x => methods_eq P zero fuel (U e).pkg (U e).list.builder (U e).pkg _ _ x [] s
      (resolve_simple _ _ (by simp [BuildersCode.ListBuilder.builder, h.list, h.simple])) h.legal hd rfl
    refine ⟨fun r x cell ty items hcell hi hr hx => ?_, ?_⟩
    · subst hcell
      obtain ⟨a, z, rfl, hs, hst⟩ := hm.cells r _ x hr hx trivial
      refine (hcall _).trans ?_
      have hdot : (dot t!"b" t!"items").eval (world P zero fuel (U e).pkg)
          { s with vars := [(t!"b", .pointer a), ([], zero (U e).pkg t!"bool")] } = .ok (z,
          { s with vars := [(t!"b", .pointer a), ([], zero (U e).pkg t!"bool")] }) :=
        eval_dot (a := a) rfl hs (by simp)
      have hv : List.lookup t!"b" [(t!"b", (.pointer a : Value Val)), ([], zero (U e).pkg t!"bool")] =
        some (.pointer a) := rfl
      rcases hi with rfl | ⟨l, rfl⟩
      · rw [Stores] at hst
        subst hst
        simp only [Func.call, execBlock, Stmt.exec, evalArgs, Expr.eval, TypesCode.isNil, List.map_cons, List.map_nil,
          List.zip_nil_right, List.nil_append, world_zero, Res.bind, hv, equal, Res.ofOption, hdot,
          GoBuilder.emptyList, State.elements]
        rfl
      · rw [Stores] at hst
        obtain ⟨b, xs, rfl, -, hxs, hit⟩ := hst
        simp only [Func.call, execBlock, Stmt.exec, evalArgs, Expr.eval, TypesCode.isNil, List.map_cons, List.map_nil,
          List.zip_nil_right, List.nil_append, world_zero, Res.bind, hv, equal, Res.ofOption, hdot,
          GoBuilder.emptyList, State.elements, hxs, hit.length]
        congr 4
        rw [Bool.eq_iff_iff]
        simp
    · refine (hcall _).trans ?_
      have hv : List.lookup t!"b" [(t!"b", (.nil : Value Val)), ([], zero (U e).pkg t!"bool")] = some .nil := rfl
      simp only [Func.call, execBlock, Stmt.exec, evalArgs, Expr.eval, TypesCode.isNil, List.map_cons, List.map_nil,
        List.zip_nil_right, List.nil_append, world_zero, Res.bind, hv, equal, Res.ofOption, GoBuilder.emptyList]
  | _ => simp [hE, isObject] at ho

/-! ## Build -/

/-- `Build` of the builders of objects creates the object of the model, for builders that have been created and
changed with any calls. -/
theorem c92_build (hw : Whole P zero S U) {ρ : List (Value Val)} {s : State Val σ} {mem : Mem}
    {calls : List GoBuilder.Call} (hmem : GoBuilder.execAll S [] calls = some mem)
    (hm : Memory U ρ (fun _ => True) s mem) {r : Nat} {x : Value Val} (hx : ρ[r]? = some x)
    {ty : TypeId} {bitmap : Nat} {id href : Text} {fields : List BVal}
    (hr : mem[r]? = some (.builder ty bitmap id href fields)) {n fuel : Nat} (hf : 2 * n < fuel) :
    BuildsTo S U (call P zero fuel (U ty).pkg (U ty).builder.builder t!"Build" x [] s) s ty
      (GoBuilder.build S mem n r) := by
  have hmo := GoBuilder.execAll_types S calls [] mem hmem (GoBuilder.MemOk.nil S)
  obtain ⟨c, nm, as, hS, -⟩ := hmo.get hr
  have h := hw.linked ty c nm as hS
  exact builds hw hmo n fuel hf (U ty).pkg _ ty (.ref r) x s (resolve_simple _ _ h.builderName)
    (by simp [hS, isObject]) (by simp [GoBuilder.elementFits, hS, hr]) (by rw [Stores]; exact hx) hm

/-- `Build` of the builders of lists creates the list of the model. -/
theorem c92_buildList (hw : Whole P zero S U) {ρ : List (Value Val)} {s : State Val σ} {mem : Mem}
    {calls : List GoBuilder.Call} (hmem : GoBuilder.execAll S [] calls = some mem)
    (hm : Memory U ρ (fun _ => True) s mem) {r : Nat} {x : Value Val} (hx : ρ[r]? = some x)
    {ty : TypeId} {items : BVal} (hr : mem[r]? = some (.listBuilder ty items)) {name : Text} {e : TypeId}
    (hS : S ty = .list name e) {n fuel : Nat} (hf : 2 * n + 1 < fuel) :
    BuildsTo S U (call P zero fuel (U e).pkg (U e).list.builder t!"Build" x [] s) s ty
      (GoBuilder.buildList S mem n r) := by
  have hmo := GoBuilder.execAll_types S calls [] mem hmem (GoBuilder.MemOk.nil S)
  obtain ⟨⟨nm', e', hS', c, nm, as, hSe⟩, -⟩ := hmo.get hr
  rw [hS] at hS'
  simp only [Shape.list.injEq] at hS'
  obtain ⟨rfl, rfl⟩ := hS'
  have h := hw.linked e c nm as hSe
  simp only [GoBuilder.buildList, hr]
  match fuel, hf with
  | fuel + 1, hf =>
    exact list_builds hw hmo (builds hw hmo n fuel (by omega)) (U e).pkg _ ty name e r items x s
      (resolve_simple _ _ (by simp [BuildersCode.ListBuilder.builder, h.list, h.simple])) hS
      (by simp [hSe, isObject]) hr hx hm

/-! ## A program -/

/-- The builder of the versions, in the package of the clusters. -/
def versionTarget : BuildersCode.Target :=
  { builder := t!"v2.VersionBuilder", ctor := t!"v2.NewVersion", object := t!"v2.Version" }

/-- The builder of the clusters. -/
def clusterTarget : BuildersCode.Target :=
  { builder := t!"ClusterBuilder", ctor := t!"NewCluster", object := t!"Cluster" }

/-- The builder of the lists of clusters. -/
def clustersTarget : BuildersCode.Target :=
  { builder := t!"ClusterListBuilder", ctor := t!"NewClusterList", object := t!"ClusterList" }

/-- The types: 0 is a class, 2 is a struct of another package. -/
def exampleTypes : Schema
  | 0 => .struct true t!"Cluster" [
      { tag := t!"name", typ := 1, bit := 3 },
      { tag := t!"version", typ := 2, bit := 4 },
      { tag := t!"tags", typ := 3, bit := 5 },
      { tag := t!"siblings", typ := 4, link := true, bit := 6 },
      { tag := t!"peers", typ := 4, bit := 7 },
      { tag := t!"labels", typ := 5, bit := 8 },
      { tag := t!"versions", typ := 6, bit := 9 }]
  | 1 => .string
  | 2 => .struct false t!"Version" [{ tag := t!"enabled", typ := 7, bit := 0 }]
  | 3 => .list t!"StringList" 1
  | 4 => .list t!"ClusterList" 0
  | 5 => .map 1
  | 6 => .map 2
  | _ => .boolean

/-- An attribute of the builders. -/
def builderMember (field fieldType setter : Text) (bit : Nat) (boolean : Bool) (form : BuildersCode.Form) :
    BuildersCode.Member :=
  { name := field, typeDoc := [], field := field, fieldType := fieldType, setter := setter, setterType := fieldType
    bit := bit, boolean := boolean, form := form }

/-- An attribute of the types. -/
def typeMember (field fieldType getter : Text) (bit : Nat) (boolean : Bool) (zero : Expr) :
    TypesCode.Member :=
  { name := field, doc := [], field := field, fieldType := fieldType, getter := getter, getterType := fieldType
    bit := bit, zero := zero, boolean := boolean }

/-- The code of the types. -/
def exampleCode (ty : TypeId) : Code :=
  if ty = 0 then
    { pkg := t!"v1"
      entity := { name := t!"Cluster", doc := [], isClass := true, object := t!"Cluster", bitmap := t!"uint32"
                  members := [
                    typeMember t!"name" t!"string" t!"Name" 3 false (.str []),
                    typeMember t!"version" t!"*v2.Version" t!"Version" 4 false .nil,
                    typeMember t!"tags" t!"[]string" t!"Tags" 5 false .nil,
                    typeMember t!"siblings" t!"*ClusterList" t!"Siblings" 6 false .nil,
                    typeMember t!"peers" t!"[]*Cluster" t!"Peers" 7 false .nil,
                    typeMember t!"labels" t!"map[string]string" t!"Labels" 8 false .nil,
                    typeMember t!"versions" t!"map[string]*v2.Version" t!"Versions" 9 false .nil] }
      builder := { name := t!"Cluster", doc := [], isClass := true, object := t!"Cluster", bitmap := t!"uint32"
                   members := [
                    builderMember t!"name" t!"string" t!"Name" 3 false .scalar,
                    builderMember t!"version" t!"*v2.VersionBuilder" t!"Version" 4 false (.object versionTarget),
                    builderMember t!"tags" t!"[]string" t!"Tags" 5 false (.scalars t!"string"),
                    builderMember t!"siblings" t!"*ClusterListBuilder" t!"Siblings" 6 false
                      (.linkList clustersTarget),
                    builderMember t!"peers" t!"[]*ClusterBuilder" t!"Peers" 7 false (.objects clusterTarget),
                    builderMember t!"labels" t!"map[string]string" t!"Labels" 8 false .scalarMap,
                    builderMember t!"versions" t!"map[string]*v2.VersionBuilder" t!"Versions" 9 false
                      (.objectMap versionTarget)] }
      list := { name := t!"Cluster", object := t!"Cluster" } }
  else
    { pkg := t!"v2"
      entity := { name := t!"Version", doc := [], isClass := false, object := t!"Version", bitmap := t!"uint32"
                  members := [typeMember t!"enabled" t!"bool" t!"Enabled" 0 true .false] }
      builder := { name := t!"Version", doc := [], isClass := false, object := t!"Version", bitmap := t!"uint32"
                   members := [builderMember t!"enabled" t!"bool" t!"Enabled" 0 true .scalar] }
      list := { name := t!"Version", object := t!"Version" } }

/-- The program. -/
def exampleProgram : Program := fun pkg =>
  if pkg = t!"v1" then (exampleCode 0).declarations
  else if pkg = t!"v2" then (exampleCode 2).declarations else []

/-- The zero values. -/
def exampleZeros (_ t : Text) : Value Val :=
  if t = t!"bool" then .bool false
  else if t = t!"string" then .str []
  else if t = t!"uint32" then .int 0
  else .nil

theorem example_zeros (pkg : Text) : Zeros exampleZeros pkg := by
  refine ⟨rfl, rfl, rfl, fun t => ?_, fun t => ?_⟩ <;> simp [exampleZeros]

set_option maxRecDepth 20000 in
theorem example_legal0 : Legal (exampleProgram t!"v1") := by
  unfold Legal
  decide +kernel

set_option maxRecDepth 20000 in
theorem example_legal2 : Legal (exampleProgram t!"v2") := by
  unfold Legal
  decide +kernel

theorem example_whole : Whole exampleProgram exampleZeros exampleTypes exampleCode := by
  refine ⟨example_zeros, fun ty c n as h => ?_⟩
  match ty, h with
  | 0, h =>
    cases h
    refine ⟨example_legal0, fun _ h => h, by decide, rfl, rfl, rfl, rfl, rfl, rfl, fun i a m f ha hm hf => ?_,
      rfl, rfl⟩
    match i, ha, hm, hf with
    | 0, ha, hm, hf => cases ha; cases hm; cases hf; exact ⟨rfl, rfl, rfl, rfl, rfl, rfl⟩
    | 1, ha, hm, hf => cases ha; cases hm; cases hf; exact ⟨rfl, ⟨rfl, ⟨rfl, rfl⟩⟩, rfl, rfl, rfl, rfl⟩
    | 2, ha, hm, hf =>
      cases ha; cases hm; cases hf
      exact ⟨rfl, ⟨_, 1, rfl, rfl, rfl⟩, rfl, rfl, rfl, rfl⟩
    | 3, ha, hm, hf =>
      cases ha; cases hm; cases hf
      exact ⟨rfl, ⟨_, 0, rfl, rfl, fun _ => ⟨rfl, rfl⟩⟩, rfl, rfl, rfl, rfl⟩
    | 4, ha, hm, hf =>
      cases ha; cases hm; cases hf
      exact ⟨rfl, ⟨_, 0, rfl, rfl, rfl, ⟨rfl, rfl⟩⟩, rfl, rfl, rfl, rfl⟩
    | 5, ha, hm, hf => cases ha; cases hm; cases hf; exact ⟨rfl, ⟨1, rfl, rfl⟩, rfl, rfl, rfl, rfl⟩
    | 6, ha, hm, hf =>
      cases ha; cases hm; cases hf
      exact ⟨rfl, ⟨2, rfl, rfl, ⟨rfl, rfl⟩⟩, rfl, rfl, rfl, rfl⟩
  | 2, h =>
    cases h
    refine ⟨example_legal2, fun _ h => h, by decide, rfl, rfl, rfl, rfl, rfl, rfl, fun i a m f ha hm hf => ?_,
      rfl, rfl⟩
    match i, ha, hm, hf with
    | 0, ha, hm, hf => cases ha; cases hm; cases hf; exact ⟨rfl, rfl, rfl, rfl, rfl, rfl⟩
  | 1, h => nomatch h
  | 3, h => nomatch h
  | 4, h => nomatch h
  | 5, h => nomatch h
  | 6, h => nomatch h
  | _ + 7, h => nomatch h

theorem example_empty : Memory exampleCode [] (fun _ => True) { user := () } [] :=
  ⟨rfl, by simp, by simp, by simp⟩

/-- A cluster with a version. -/
def exampleCalls : List GoBuilder.Call :=
  [.new 0, .new 2, .set 1 0 (.scalar (.bool true)), .set 0 1 (.ref 1), .id 0 t!"123"]

/-- The hypotheses can be met: the calls can be done one after the other, and then `Build` gives the object. -/
example : ∃ (ρ : List (Value Val)) (s : State Val Unit) (mem : Mem) (x p : Value Val) (t : State Val Unit),
    GoBuilder.execAll exampleTypes [] exampleCalls = some mem ∧ Memory exampleCode ρ (fun _ => True) s mem ∧
    ρ[0]? = some x ∧
    call exampleProgram exampleZeros 5 t!"v1" t!"ClusterBuilder" t!"Build" x [] s = .ok ([p, .nil], t) ∧
    Frame (Valid s) s t ∧
    Holds exampleTypes exampleCode (fun l => ¬ Valid s l) t 0
      (.obj 18 t!"123" [] [.str [], .obj 1 [] [] [.bool true], .nil, .nil, .nil, .nil, .nil]) p := by
  have hw := example_whole
  obtain ⟨x0, s0, -, -, -, m0⟩ := c92_new hw example_empty 0 rfl 0
  obtain ⟨x1, s1, -, -, -, m1⟩ := c92_new hw m0 2 rfl 0
  obtain ⟨ρ2, s2, -, -, p2, m2⟩ := c92_set hw m1 (r := 1) (x := x1) rfl rfl (i := 0) rfl
    (v := .scalar (.bool true)) (y := .bool true) (by simp [Stores, value]) rfl 0
  have r0 : ρ2[0]? = some x0 := get_prefix p2 rfl
  have r1 : ρ2[1]? = some x1 := get_prefix p2 rfl
  obtain ⟨ρ3, s3, -, -, p3, m3⟩ := c92_set hw m2 (r := 0) (x := x0) r0 rfl (i := 1) rfl
    (v := .ref 1) (y := x1) (by rw [Stores]; exact r1) rfl 0
  obtain ⟨ρ4, s4, -, -, p4, m4⟩ := c92_id hw m3 (r := 0) (x := x0)
    (get_prefix p3 r0) rfl t!"123" rfl 0
  have r4 := get_prefix p4 (get_prefix p3 r0)
  have h := c92_build hw (calls := exampleCalls) rfl m4 (r := 0) (x := x0) r4 rfl (n := 2) (fuel := 5) (by decide)
  obtain ⟨p, t, h1, h2, h3⟩ := h
  exact ⟨ρ4, s4, _, x0, p, t, rfl, m4, r4, h1, h2, h3⟩

end Verif.BuildersRun
