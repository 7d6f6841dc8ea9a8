import Verif.Lemmas.BuildersCopied
import Verif.Props.Builders
import Verif.Props.BuildersRun

/-!
# C93: running `Copy` of the generated builders

Running the methods `Copy` that are written in the files of the builders does what the model of the builders
says, and then copying any object and building the copy gives another object that shares nothing with it.
-/

namespace Verif.BuildersRun

open GoJson (Val Schema Shape AttrShape)
open GoBuilder (BVal Cell Mem typed SimpleElements rebuilt Plain)
open GoProgram

variable {σ : Type} {S : Schema} {U : TypeId → Code} {P : Program} {zero : Text → Text → Value Val}

/-- The changes in the position of a builder, when the others are in the memory. -/
private theorem does_copy {ρ δ : List (Value Val)} {s t : State Val σ} {mem : Mem} {r a : Nat} {cell : Cell}
    (hx : ρ[r]? = some (.pointer a)) (hf : Frame (fun l => Valid s l ∧ l ≠ .pointer a) s t)
    (hm : Memory U (ρ ++ δ) (· ≠ .pointer a) t mem)
    (hc : StoresCell U (ρ ++ δ) (· ≠ .pointer a) t cell (.pointer a)) :
    Does U ρ (.pointer a) s (.ok ([.pointer a], t)) (mem.set r cell) := by
  have hp : ρ <+: ρ ++ δ := List.prefix_append _ _
  refine ⟨ρ ++ δ, t, rfl, hf.mono (fun l hv hl => ⟨hv, hl⟩), hp, ?_⟩
  refine Memory.replace (prefix_get hp hx) (hm.change (fun _ hd _ => ⟨trivial, hd⟩) (fun _ _ hd => hd.2)) _ ?_
  exact StoresCell.move (s := t) (fun b xs hd hs => ⟨trivial, hs⟩) (List.prefix_refl _) _ _ (fun _ _ _ h => h)
    (fun _ _ _ h => h) hc

/-- `Copy` of the builders of objects copies any object, that may share memory with other objects and builders
but can't be the builder itself, into any builder. Copying nil does nothing. -/
theorem c93_copy (hw : Whole P zero S U) {ρ : List (Value Val)} {s : State Val σ} {mem mem' : Mem}
    (hm : Memory U ρ (fun _ => True) s mem) {r : Nat} {x : Value Val} (hx : ρ[r]? = some x)
    {ty : TypeId} {bitmap : Nat} {id href : Text} {fields : List BVal}
    (hr : mem[r]? = some (.builder ty bitmap id href fields)) {c : Bool} {nm : Text} {as : List AttrShape}
    (hS : S ty = .struct c nm as) {object : Val} {y : Value Val} (hy : Holds S U (· ≠ x) s ty object y)
    (he : GoBuilder.exec S mem (.copy r object) = some mem') {fuel : Nat} (hf : 2 * sizeOf object + 5 ≤ fuel) :
    Does U ρ x s (call P zero fuel (U ty).pkg (U ty).builder.builder t!"Copy" x [y] s) mem' := by
  simp only [GoBuilder.exec, hr] at he
  split at he
  case isFalse => cases he
  case isTrue ht =>
  have hcell := hm.cells r _ x hr hx trivial
  have hl := hw.linked ty c nm as hS
  obtain rfl | ⟨b, i, h, fs, rfl, htf⟩ := typed_object hS ht
  · simp only [GoBuilder.copy, Option.some.injEq] at he
    subst he
    have hy' : y = .nil := by simpa [Holds, TypesRun.value] using hy
    subst hy'
    match fuel, hf with
    | fuel + 1, _ =>
    rw [call, call_copyNil hl fuel (resolve_simple _ _ hl.builderName) x s]
    exact ⟨ρ, s, rfl, Frame.refl _ s, List.prefix_refl _, hm⟩
  · simp only [GoBuilder.copy, hr, hS, Option.some.injEq] at he
    subst he
    obtain ⟨a, rfl⟩ : ∃ a, x = .pointer a := by
      obtain ⟨a, _, h, _⟩ := hcell
      exact ⟨a, h⟩
    have hsize : sizeOf fs < sizeOf (Val.obj b i h fs) := by
      simp
      omega
    match fuel, hf with
    | fuel + 2, hf =>
    have hva : Valid s (.pointer a) := hm.valid _ (List.mem_of_getElem? hx)
    obtain ⟨t, δ, hres, hfr, -, hm', hc'⟩ := call_copyObject (E := fun l => Valid s l ∧ l ≠ .pointer a) hS hl
      (copies hw (sizeOf fs + 1) (fuel + 1) (by omega))
      (list_copies hw (copies hw (sizeOf fs + 1) fuel (by omega)))
      (resolve_simple _ _ hl.builderName)
      (StoresCell.move (D' := (· ≠ .pointer a)) (s := s) (t := s) (fun b xs hd hs => ⟨by simp, hs⟩)
        (List.prefix_refl _) _ _ (fun _ _ _ h => h) (fun _ _ _ h => h) hcell)
      (fun _ h => h)
      (Holds.move (s := s) (t := s) ⟨fun l h hv => ⟨hv, h⟩, fun _ _ _ h => h, fun _ _ _ h => h,
        fun _ _ _ h => h⟩ ty _ _ hy)
      htf (by omega)
      (hm.change (D' := (· ≠ .pointer a)) (fun _ _ _ => by simp) (fun _ _ _ => trivial))
      (fun l hl h => hl (h ▸ hva)) (fun _ _ h => h)
    rw [call, hres]
    refine does_copy hx hfr hm' (hc' _ _ fun hc => ?_)
    rw [hl.isClass] at hc
    simp [hc]

/-- `Copy` of the builders of lists copies any list into any builder. -/
theorem c93_copyList (hw : Whole P zero S U) {ρ : List (Value Val)} {s : State Val σ} {mem mem' : Mem}
    (hm : Memory U ρ (fun _ => True) s mem) {r : Nat} {x : Value Val} (hx : ρ[r]? = some x)
    {ty : TypeId} {items : BVal} (hr : mem[r]? = some (.listBuilder ty items)) {name : Text} {e : TypeId}
    (hS : S ty = .list name e) (ho : isObject (S e) = true) {list : Val} {y : Value Val}
    (hy : Holds S U (· ≠ x) s ty list y) (he : GoBuilder.exec S mem (.copyList r list) = some mem') {fuel : Nat} (hf : 2 * sizeOf list + 5 ≤ fuel) :
    Does U ρ x s (call P zero fuel (U e).pkg (U e).list.builder t!"Copy" x [y] s) mem' := by
  simp only [GoBuilder.exec, hr] at he
  split at he
  case isFalse => cases he
  case isTrue ht =>
  obtain ⟨a, z, rfl, hs, -⟩ := hm.cells r _ x hr hx trivial
  obtain ⟨c, nm, as, hSe⟩ := isObject_iff.mp ho
  have hl := hw.linked e c nm as hSe
  match fuel, hf with
  | fuel + 1, hf =>
  have hva : Valid s (.pointer a) := hm.valid _ (List.mem_of_getElem? hx)
  obtain ⟨t, δ, hres, hfr, -, hm', hc'⟩ := call_copyList (E := fun l => Valid s l ∧ l ≠ .pointer a) hS ho hw
    (copies hw (sizeOf list + 1) fuel (by omega))
    (pkg := (U e).pkg) (tx := (U e).list.builder)
    (resolve_simple _ _ (by simp [BuildersCode.ListBuilder.builder, hl.list, hl.simple]))
    hs (fun _ h => h)
    (Holds.move (s := s) (t := s) ⟨fun l h hv => ⟨hv, h⟩, fun _ _ _ h => h, fun _ _ _ h => h,
      fun _ _ _ h => h⟩ ty _ _ hy)
    ht (by omega)
    (hm.change (D' := (· ≠ .pointer a)) (fun _ _ _ => by simp) (fun _ _ _ => trivial))
    (fun l hl h => hl (h ▸ hva)) (fun _ _ h => h)
  rw [call, hres]
  have := does_copy hx hfr hm' (hc' ty)
  suffices h : mem' = (copiedItems S e mem list).1.set r (.listBuilder ty (copiedItems S e mem list).2) by
    rw [h]
    exact this
  rcases typed_link hS ht with rfl | ⟨l, h, -, rfl | ⟨items, rfl, -⟩⟩ <;>
    simp only [GoBuilder.copyList, hr, hS, Option.some.injEq] at he <;> subst he <;>
    simp [copiedItems, copyItems_eq]

/-! ## Copying and building -/

/-- Copying any object into a new builder and building it gives an object that uses only new memory, and what
was in the memory doesn't change. The object is equal to the first one except that empty maps are nil, nil elements
of lists and maps are empty objects, and lists that are links have no link flag and no address and always have
items. -/
theorem c93_clone (hw : Whole P zero S U) (hE : SimpleElements S) {s : State Val σ} {ty : TypeId} {c : Bool}
    {nm : Text} {as : List AttrShape} (hS : S ty = .struct c nm as) {object : Val} {y : Value Val}
    (hn : object.isNil = false) (ht : typed S ty false object = true)
    (hy : Holds S U (fun _ => True) s ty object y) :
    ∃ n, ∀ fuel, n ≤ fuel → ∃ x s1 s2 p s3,
      construct P zero fuel (U ty).pkg (U ty).builder.ctor s = .ok ([x], s1) ∧
      call P zero fuel (U ty).pkg (U ty).builder.builder t!"Copy" x [y] s1 = .ok ([x], s2) ∧
      call P zero fuel (U ty).pkg (U ty).builder.builder t!"Build" x [] s2 = .ok ([p, .nil], s3) ∧
      Frame (fun _ => True) s s3 ∧
      Holds S U (fun l => ¬ Valid s l) s3 ty (rebuilt S ty object) p ∧
      (Plain object → Holds S U (fun l => ¬ Valid s l) s3 ty object p) := by
  have hm : Memory U [] (fun _ => True) s [] := ⟨rfl, by simp, by simp, by simp⟩
  have he1 : GoBuilder.exec S [] (.new ty) = some ([] ++ [GoBuilder.newBuilder S ty as]) := by
    simp [GoBuilder.exec, hS]
  have h1 : GoBuilder.execAll S [] [.new ty] = some ([] ++ [GoBuilder.newBuilder S ty as]) := by
    simp [GoBuilder.execAll, he1]
  have hget : ([] ++ [GoBuilder.newBuilder S ty as])[0]? = some (.builder ty 0 [] [] (as.map
      (GoBuilder.zeroField S))) := rfl
  obtain ⟨mem, he2⟩ := (GoBuilder.c42_total S _ _ h1 0 ty _ _ _ _ hget).1 object ht
  have h2 : GoBuilder.execAll S [] [.new ty, .copy 0 object] = some mem := by
    simp only [GoBuilder.execAll, he1, he2]
  obtain ⟨hb, -⟩ := GoBuilder.c42_copy S hE _ _ mem h1 0 ty _ _ _ _ hget object hn he2
  obtain ⟨k, hk⟩ := hb mem rfl (fun _ _ _ => rfl)
  refine ⟨max (2 * k + 1) (2 * sizeOf object + 5), fun fuel hf => ?_⟩
  obtain ⟨fuel, rfl⟩ : ∃ k, fuel = k + 1 := ⟨fuel - 1, by omega⟩
  obtain ⟨x, s1, hc1, hv1, hf1, hm1⟩ := c92_new hw hm ty he1 fuel
  have hy1 : Holds S U (· ≠ x) s1 ty object y :=
    Holds.move ⟨fun l _ hv (h : l = x) => hv1 (h ▸ hv), hf1.structs, hf1.arrays, hf1.maps⟩ ty _ _ hy
  obtain ⟨ρ, s2, hc2, hf2, hp2, hm2⟩ := c93_copy hw hm1 (r := 0) rfl hget hS hy1 he2 (fuel := fuel + 1) (by omega)
  have hr2 : ∃ bitmap id href fields, mem[0]? = some (.builder ty bitmap id href fields) := by
    have hlen : 0 < mem.length := by
      rw [← hm2.length]
      exact Nat.lt_of_lt_of_le (by simp) hp2.length_le
    simp only [GoBuilder.exec, hget, ht, if_true] at he2
    obtain rfl | ⟨b, i, h, fs, rfl, -⟩ := typed_object hS ht
    · simp [Val.isNil] at hn
    · simp only [GoBuilder.copy, hget, hS, Option.some.injEq] at he2
      subst he2
      simp only [List.length_set] at hlen
      exact ⟨_, _, _, _, List.getElem?_set_self hlen⟩
  obtain ⟨bitmap, id, href, fields, hr2⟩ := hr2
  have hb := c92_build hw h2 hm2 (prefix_get hp2 rfl) hr2 (n := k) (fuel := fuel + 1) (by omega)
  rw [hk k (Nat.le_refl k)] at hb
  obtain ⟨p, s3, hc3, hf3, hh⟩ := hb
  have hs2 : Frame (fun _ => True) s s2 :=
    ((hf1.mono (D' := Valid s) (fun _ _ _ => trivial)).trans
      (hf2.mono (fun l _ hl h => hv1 (h ▸ hl)))).mono fun _ h _ => h
  have hh' := Holds.move (S := S) (U := U) (s := s3) (t := s3) (D' := fun l => ¬ Valid s l)
    ⟨fun l h _ hv => h (hs2.valid l hv), fun _ _ _ h => h, fun _ _ _ h => h, fun _ _ _ h => h⟩ ty _ _ hh
  refine ⟨x, s1, s2, p, s3, hc1, hc2, hc3, ?_, hh', fun hp => ?_⟩
  · exact hs2.trans (hf3.mono fun _ h _ => h)
  · rw [(GoBuilder.rebuilt_eq_iff S hE ty false object ht).mpr hp] at hh'
    exact hh'

/-! ## A copy -/

/-- A cluster with a version and a link to a list. -/
def exampleObject : Val :=
  .obj 82 t!"123" [] [.str [], .obj 1 [] [] [.bool true], .nil, .linkList true t!"/x" .nil, .nil, .nil, .nil]

/-- The memory with the cluster. -/
def exampleState : State Val Unit :=
  { user := ()
    structs := [
      [(t!"href", .str t!"/x"), (t!"link", .bool true), (t!"items", .nil)],
      [(t!"bitmap_", .int 1), (t!"enabled", .bool true)],
      [(t!"bitmap_", .int 82), (t!"id", .str t!"123"), (t!"href", .str []), (t!"name", .str []), (t!"version", .pointer 1),
       (t!"tags", .nil), (t!"siblings", .pointer 0), (t!"peers", .nil), (t!"labels", .nil), (t!"versions", .nil)]] }

theorem example_holds : Holds exampleTypes exampleCode (fun _ => True) exampleState 0 exampleObject (.pointer 2) := by
  unfold exampleObject
  rw [Holds]
  refine ⟨2, _, rfl, trivial, rfl, rfl, rfl, fun _ => ⟨rfl, rfl⟩, ?_⟩
  refine ⟨⟨_, rfl, rfl⟩, ⟨_, rfl, ?_⟩, ⟨_, rfl, rfl⟩, ⟨_, rfl, ?_⟩, ⟨_, rfl, rfl⟩, ⟨_, rfl, rfl⟩, ⟨_, rfl, rfl⟩, trivial⟩
  · rw [Holds]
    exact ⟨1, _, rfl, trivial, rfl, rfl, rfl, (fun h => nomatch h), ⟨_, rfl, rfl⟩, trivial⟩
  · rw [Holds]
    exact ⟨0, _, rfl, trivial, rfl, rfl⟩

/-- The hypotheses can be met: the copy of the cluster has the list without the flag and the address. -/
example : ∃ n, ∀ fuel, n ≤ fuel → ∃ x s1 s2 p s3,
    construct exampleProgram exampleZeros fuel t!"v1" t!"NewCluster" exampleState = .ok ([x], s1) ∧
    call exampleProgram exampleZeros fuel t!"v1" t!"ClusterBuilder" t!"Copy" x [.pointer 2] s1 = .ok ([x], s2) ∧
    call exampleProgram exampleZeros fuel t!"v1" t!"ClusterBuilder" t!"Build" x [] s2 = .ok ([p, .nil], s3) ∧
    Holds exampleTypes exampleCode (fun l => ¬ Valid exampleState l) s3 0 (.obj 82 t!"123" [] [.str [],
      .obj 1 [] [] [.bool true], .nil, .linkList false [] (.list []), .nil, .nil, .nil]) p := by
  have hE : SimpleElements exampleTypes := by
    intro ty e h
    match ty, h with
    | 0, .inl ⟨_, h⟩ | 1, .inl ⟨_, h⟩ | 2, .inl ⟨_, h⟩ | 5, .inl ⟨_, h⟩ | 6, .inl ⟨_, h⟩ | _ + 7, .inl ⟨_, h⟩ => cases h
    | 0, .inr h | 1, .inr h | 2, .inr h | 3, .inr h | 4, .inr h | _ + 7, .inr h => cases h
    | 3, .inl ⟨_, h⟩ => cases h; exact .inl rfl
    | 4, .inl ⟨_, h⟩ => cases h; exact .inr ⟨_, _, _, rfl⟩
    | 5, .inr h => cases h; exact .inl rfl
    | 6, .inr h => cases h; exact .inr ⟨_, _, _, rfl⟩
  obtain ⟨n, h⟩ := c93_clone example_whole hE (ty := 0) rfl rfl rfl example_holds
  refine ⟨n, fun fuel hf => ?_⟩
  obtain ⟨x, s1, s2, p, s3, h1, h2, h3, -, h5, -⟩ := h fuel hf
  exact ⟨x, s1, s2, p, s3, h1, h2, h3, h5⟩

end Verif.BuildersRun
