import Verif.Spec.MethodsModelRun
import Verif.Lemmas.JsonModelRun

/-!
# Lemmas about the generated code of the methods of a model
-/

namespace Verif.ModelRun

open GoJson (Val Schema Shape)
open GoProgram
open BuildersRun (Program resolve isObject)
open JsonCode (camel functionsOf formOf)
open MethodsCode (messageOf lastThat itemsOf bodyOf pageFields kindOf pageList)
open MethodsRun (members wholes obtained Linked Calls)
open Whole (HeapOk typeOf typeOf_eq declOf)

theorem lastThat_mem {m : Method} {f : Parameter → Bool} {p : Parameter} (h : p ∈ (lastThat m f).toList) :
    p ∈ m.parameters := by
  have : lastThat m f = some p := by simpa using h
  exact List.mem_reverse.mp (List.mem_of_find?_eq_some this)

theorem bodyOf_mem {m : Method} {p : Parameter} (h : p ∈ (bodyOf m).toList) : p ∈ m.parameters := by
  have : bodyOf m = some p := by simpa using h
  exact List.mem_of_find?_eq_some this

theorem itemsOf_mem {m : Method} {p : Parameter} (h : p ∈ (itemsOf m).toList) : p ∈ m.parameters := lastThat_mem h

theorem pageFields_mem {m : Method} {ns : List Name} {p : Parameter} (h : p ∈ pageFields m ns) : p ∈ m.parameters := by
  simp only [pageFields, List.mem_append] at h
  rcases h with ((h | h) | h) | h
  · exact lastThat_mem h
  · exact lastThat_mem h
  · exact lastThat_mem h
  · exact (List.mem_filter.mp h).1

theorem members_mem {m : Method} {p : Parameter} (h : p ∈ members m) : p ∈ m.parameters := by
  unfold members at h
  split at h <;> first
    | cases h
    | (rcases List.mem_append.mp h with h | h
       · exact pageFields_mem h
       · exact itemsOf_mem h)
    | exact (List.mem_filter.mp h).1

theorem wholes_mem {m : Method} {p : Parameter} (h : p ∈ wholes m) : p ∈ m.parameters := by
  unfold wholes at h
  split at h <;> first
    | exact bodyOf_mem h
    | exact lastThat_mem h
    | (rcases List.mem_append.mp h with h | h
       · exact lastThat_mem h
       · exact lastThat_mem h)
    | cases h

variable {s : Session} {T : TypeCell → Bool} {base : Text} {P : Program}

theorem seen_scalar {id : TypeId} {c : TypeCell} (h : Seen s T id c) :
    (typeOf s id).isScalar = (schemaOf s T id).isScalar := by
  cases h with
  | basic b h1 h2 => rw [h1, h2]; cases b <;> rfl
  | enum hk h1 h2 => rw [h1, h2]; rfl
  | struct hk h1 h2 => rw [h1, h2]; rfl
  | list e u n _ _ _ _ _ h1 h2 => rw [h1, h2]; rfl
  | map e u _ _ _ _ _ h1 h2 => rw [h1, h2]; rfl

theorem seen_anything {id : TypeId} {c : TypeCell} (h : Seen s T id c) :
    typeOf s id = .basic .interface ↔ schemaOf s T id = .interface := by
  cases h with
  | basic b h1 h2 => rw [h1, h2]; cases b <;> simp [basicShape]
  | enum hk h1 h2 => rw [h1, h2]; simp
  | struct hk h1 h2 => rw [h1, h2]; simp
  | list e u n _ _ _ _ _ h1 h2 => rw [h1, h2]; simp
  | map e u _ _ _ _ _ h1 h2 => rw [h1, h2]; simp

theorem object_of (h : HeapOk s.heap) (hu : Usable s T base) {id : TypeId} {c : TypeCell}
    (hc : s.heap[id]? = some c) (hT : T c = true) (hk : c.kind.isStruct = true) : isObject (schemaOf s T id) = true := by
  cases seen h hu hc hT with
  | basic b h1 h2 =>
    have := typeOf_struct h hc hk
    rw [h1] at this
    cases this
  | enum hk' h1 h2 => rw [hk'] at hk; cases hk
  | struct hk h1 h2 => rw [h2]; rfl
  | list e u n hk' => rw [hk'] at hk; cases hk
  | map e u hk' => rw [hk'] at hk; cases hk

/-- The functions of a value that is the whole body. -/
theorem calls_of (h : HeapOk s.heap) (hu : Usable s T base) (hp : Portable s T) {o : Option VersionId} {pkg : Text}
    (hpkg : pkg = GoRef.versionSelector (Whole.ownerOf s o)) {id : TypeId} {c : TypeCell} (hc : s.heap[id]? = some c)
    (hT : T c = true) (ho : c.owner = o) (hk : c.kind.isStruct = true ∨ c.kind = .list) :
    Calls (schemaOf s T) (codeOf s base) (jsonOf s base) (listsOf s base) pkg id (functionsOf (typeOf s id)) := by
  have hpk : packageOf s c = pkg := by rw [hpkg, packageOf, ho]
  obtain ⟨-, d⟩ := hp.names id c hc hT hk
  have hm : ∀ n : Text, '.' ∉ n → resolve pkg (n ++ goName c) = (packageOf s c, n ++ goName c) := fun n hn => by
    rw [resolve_bare pkg (GoRef.dot_append hn d), hpk]
  rcases hk with hk | hk
  · refine .inl ⟨object_of h hu hc hT hk, ?_, ?_⟩
    · rw [codeOf_eq hc, jsonOf_eq hc, typeOf_struct h hc hk]
      show resolve pkg (t!"Marshal" ++ goName c) = (packageOf s c, _)
      rw [hm _ (by decide)]
      simp only [jsonCell, JsonCode.entityOf, context_typ _ hk, functionsOf]
      rfl
    · rw [codeOf_eq hc, jsonOf_eq hc, typeOf_struct h hc hk]
      show resolve pkg (t!"Unmarshal" ++ goName c) = (packageOf s c, _)
      rw [hm _ (by decide)]
      simp only [jsonCell, JsonCode.entityOf, context_typ _ hk, functionsOf]
      rfl
  · cases seen h hu hc hT with
    | basic b h1 h2 =>
      obtain ⟨e, he, -⟩ := (h id c hc).element (.inl hk)
      rw [schemaOf_eq hc hT, hk, he] at h2
      cases b <;> cases h2
    | enum hk' h1 h2 => rw [hk'] at hk; cases hk
    | struct hk' h1 h2 => rw [hk] at hk'; cases hk'
    | list e u n _ _ _ _ _ h1 h2 =>
      refine .inr ⟨n, e, h2, ?_, ?_⟩
      · rw [listsOf_eq hc, h1]
        exact hm _ (by decide)
      · rw [listsOf_eq hc, h1]
        exact hm _ (by decide)
    | map e u hk' => rw [hk'] at hk; cases hk

/-- The type of the structure of the items of a page. -/
theorem items_of (h : HeapOk s.heap) (hu : Usable s T base) (hp : Portable s T) (x : TypesCode.Context)
    {o : Option VersionId} {pkg : Text} (hpkg : pkg = GoRef.versionSelector (Whole.ownerOf s o)) {id : TypeId}
    {c : TypeCell} (hc : s.heap[id]? = some c) (hT : T c = true) (ho : c.owner = o) {n : Text} {e : TypeId}
    (hS : schemaOf s T id = .list n e) :
    match pageList x (typeOf s id) with
    | none => (schemaOf s T e).isScalar = true
    | some typ => isObject (schemaOf s T e) = true ∧ resolve pkg typ = ((codeOf s base e).pkg, (codeOf s base e).entity.list) := by
  have hpk : packageOf s c = pkg := by rw [hpkg, packageOf, ho]
  cases seen h hu hc hT with
  | basic b h1 h2 => rw [h2] at hS; cases b <;> cases hS
  | enum hk h1 h2 => rw [h2] at hS; cases hS
  | struct hk h1 h2 => rw [h2] at hS; cases hS
  | map e u _ _ _ _ _ h1 h2 => rw [h2] at hS; cases hS
  | list e' u n' hk he hl heu heT h1 h2 =>
    rw [h2] at hS
    cases hS
    have hsc := seen_scalar (seen h hu heu heT)
    rw [h1, pageList]
    by_cases hs : (typeOf s e).isScalar = true
    · rw [if_pos hs]
      exact hsc ▸ hs
    · rw [if_neg hs]
      dsimp only
      have hks : u.kind.isStruct = true := by
        obtain ⟨l1, l2⟩ := hp.lists id c hc hT hk e u he heu
        cases seen h hu heu heT with
        | basic b g1 g2 => rw [g1] at hs; cases b <;> exact absurd rfl hs
        | enum hk' g1 g2 => rw [g1] at hs; exact absurd rfl hs
        | struct hk' g1 g2 => exact hk'
        | list e' u' m' hk' => exact absurd hk' l1
        | map e' u' hk' => exact absurd hk' l2
      obtain ⟨-, d3⟩ := hp.names e u heu heT (.inl hks)
      have hue := typeOf_struct h heu hks
      refine ⟨object_of h hu heu heT hks, ?_⟩
      rw [codeOf_eq heu, hue]
      have hdot : '.' ∉ goName u ++ t!"List" := GoRef.dot_append d3 (by decide)
      show resolve pkg (GoRef.emit _ (GoRef.structReference x.base _)) = (packageOf s u, goName u ++ t!"List")
      rw [GoRef.emit_bare _ _ (by exact hdot)]
      show resolve pkg (goName u ++ t!"List") = _
      rw [resolve_bare pkg hdot, ← hpk]
      unfold packageOf
      rw [hp.elements id c hc hT e u he heu]

/-- The code of a method of a version whose parameters have types of that version. -/
theorem method_linked (h : HeapOk s.heap) (hu : Usable s T base) (hp : Portable s T) {w : VersionId} {r : Resource}
    {m : Method} {pkg : Text} (hpkg : pkg = GoRef.versionSelector (Whole.ownerOf s (some w)))
    (hlegal : TypesRun.Legal (P pkg)) (hg : GoodMethod s r m)
    (hd : ∀ i ∈ (messageOf (TypesCode.contextOf s base w) r m).items, i.decl ∈ P pkg)
    (hT : ∀ p ∈ m.parameters, ∃ c, s.heap[p.typ.id]? = some c ∧ c.owner = some w ∧ T c = true) :
    Linked P (schemaOf s T) (codeOf s base) (jsonOf s base) (listsOf s base) (TypesCode.contextOf s base w) r m pkg := by
  have hpre : '.' ∉ MethodsCode.prefixOf r := by
    rw [MethodsCode.prefixOf]
    split
    · simp
    · exact hg.resource
  refine ⟨hlegal, hd, ?_, ?_, fun p hm => ?_, fun p hm => ?_, fun p hm => ?_, fun p hm => ?_, hg.distinct,
    fun p n e hi hS => ?_⟩
  · exact GoRef.dot_append (GoRef.dot_append (GoRef.dot_append (by decide) hpre) hg.name) (by decide)
  · exact GoRef.dot_append (GoRef.dot_append (GoRef.dot_append (by decide) hpre) hg.name) (by decide)
  · obtain ⟨c, hc, ho, ht⟩ := hT p (members_mem hm)
    exact seen_scalar (seen h hu hc ht)
  · obtain ⟨c, hc, ho, ht⟩ := hT p (members_mem hm)
    exact seen_anything (seen h hu hc ht)
  · obtain ⟨c, hc, ho, ht⟩ := hT p (members_mem hm)
    exact json_fits h hu hp _ pkg (some w) hpkg (p.typ.id + 1) p.typ.id c (Nat.lt_succ_self _) hc ht ho false nofun
  · obtain ⟨c, hc, ho, ht⟩ := hT p (wholes_mem hm)
    exact calls_of h hu hp hpkg hc ht ho (hg.bodies p hm c hc)
  · obtain ⟨c, hc, ho, ht⟩ := hT p (itemsOf_mem (by rw [hi]; simp))
    exact items_of h hu hp _ hpkg hc ht ho hS

/-! ## Bodies -/

/-- The method when the kinds of the types of the parameters are known. -/
theorem resolved_kind {heap : Heap} {p : Parameter} {c : TypeCell} (hc : heap[p.typ.id]? = some c) :
    (Reader.resolveParameter heap p).typ.kind = c.kind := by
  rw [Reader.resolveParameter, hc]

theorem resolved_same (heap : Heap) (p : Parameter) : (Reader.resolveParameter heap p).name = p.name ∧
    (Reader.resolveParameter heap p).isIn = p.isIn ∧ (Reader.resolveParameter heap p).isOut = p.isOut := by
  rw [Reader.resolveParameter]
  split <;> exact ⟨rfl, rfl, rfl⟩

/-- The only parameter called `Body` is the one that the rules are about. -/
theorem body_unique {m : Method} (hn : (m.parameters.map (·.name)).Nodup) {p q : Parameter} (hp : p ∈ m.parameters)
    (hq : q ∈ m.parameters) (h : p.name = q.name) : p = q := by
  obtain ⟨i, hi, rfl⟩ := List.getElem_of_mem hp
  obtain ⟨j, hj, rfl⟩ := List.getElem_of_mem hq
  have hij : i = j := by
    rw [List.Nodup, List.pairwise_iff_getElem] at hn
    rcases Nat.lt_trichotomy i j with hl | hl | hl
    · exact absurd (by rw [List.getElem_map, List.getElem_map]; exact h) (hn i j (by simpa using hi) (by simpa using hj) hl)
    · exact hl
    · exact absurd (by rw [List.getElem_map, List.getElem_map]; exact h.symm) (hn j i (by simpa using hj) (by simpa using hi) hl)
  subst hij
  rfl

/-- The parameter that is the body is the one that the rules require. -/
theorem body_is {m : Method} (hn : (m.parameters.map (·.name)).Nodup) {R : Parameter → Prop}
    (h1 : ExactlyOne R m.parameters) (h2 : ∀ p ∈ m.parameters, R p → p.name = Nom.body) {p : Parameter}
    (hp : p ∈ m.parameters) (hb : p.name = Nom.body) : R p := by
  obtain ⟨before, x, after, he, hx, -⟩ := h1
  have hm : x ∈ m.parameters := by rw [he]; simp
  rw [body_unique hn hp hm (hb.trans (h2 x hm hx).symm)]
  exact hx

theorem lastThat_is {m : Method} {f : Parameter → Bool} {p : Parameter} (h : p ∈ (lastThat m f).toList) : f p = true := by
  have : lastThat m f = some p := by simpa using h
  exact List.find?_some this

theorem bodyOf_is {m : Method} {p : Parameter} (h : p ∈ (bodyOf m).toList) : p.name = Nom.body := by
  have : bodyOf m = some p := by simpa using h
  simpa using List.find?_some this

theorem resolved_find (heap : Heap) (l : List Parameter) (f : Parameter → Bool)
    (hf : ∀ p, f (Reader.resolveParameter heap p) = f p) :
    (l.map (Reader.resolveParameter heap)).find? f = (l.find? f).map (Reader.resolveParameter heap) := by
  rw [List.find?_map]
  congr 2
  funext p
  exact hf p

theorem resolved_last (heap : Heap) (m : Method) (f : Parameter → Bool)
    (hf : ∀ p, f (Reader.resolveParameter heap p) = f p) :
    lastThat (resolved heap m) f = (lastThat m f).map (Reader.resolveParameter heap) := by
  rw [lastThat, resolved, ← List.map_reverse, resolved_find heap _ f hf]
  rfl

theorem toList_map {α β : Type} (f : α → β) (o : Option α) : (o.map f).toList = o.toList.map f := by cases o <;> rfl

theorem resolved_wholes (heap : Heap) (m : Method) :
    wholes (resolved heap m) = (wholes m).map (Reader.resolveParameter heap) := by
  have hb : bodyOf (resolved heap m) = (bodyOf m).map (Reader.resolveParameter heap) :=
    resolved_find heap _ _ fun p => by rw [(resolved_same heap p).1]
  have hi : lastThat (resolved heap m) (·.isIn) = _ := resolved_last heap m _ fun p => (resolved_same heap p).2.1
  have ho : lastThat (resolved heap m) (·.isOut) = _ := resolved_last heap m _ fun p => (resolved_same heap p).2.2
  have hs : lastThat (resolved heap m) (·.name == Nom.body) = _ :=
    resolved_last heap m _ fun p => by rw [(resolved_same heap p).1]
  rw [wholes, wholes, show kindOf (resolved heap m) = kindOf m from rfl, hb, hi, ho, hs]
  cases kindOf m <;> simp [toList_map]

end Verif.ModelRun
