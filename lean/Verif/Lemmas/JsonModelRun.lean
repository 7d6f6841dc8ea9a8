import Verif.Spec.JsonModelRun
import Verif.Lemmas.ModelRun
import Verif.Lemmas.FieldTypes
import Verif.Props.JsonCode

/-!
# Lemmas about the generated JSON support of a model
-/

namespace Verif.ModelRun

open GoJson (Val Schema Shape AttrShape)
open GoProgram
open TypesRun (Legal)
open BuildersRun (Program resolve)
open JsonCode (Entity camel)
open JsonRun (ListCode)
open Whole (HeapOk typeOf typeOf_eq declOf)

variable {s : Session} {T : TypeCell → Bool} {base : Text} {P : Program}

theorem jsonOf_eq {id : Nat} {c : TypeCell} (hc : s.heap[id]? = some c) : jsonOf s base id = jsonCell s base c := by
  rw [jsonOf, hc]
  rfl

theorem listsOf_eq {id : Nat} {c : TypeCell} (hc : s.heap[id]? = some c) : listsOf s base id = listCell s base c := by
  rw [listsOf, hc]
  rfl

theorem simple_names {fs : JsonCode.Functions} {x y : Text} (hx : '.' ∉ x) (hy : '.' ∉ y)
    (h1 : fs.marshal = t!"Marshal" ++ x) (h2 : fs.write = t!"Write" ++ y) (h3 : fs.unmarshal = t!"Unmarshal" ++ x)
    (h4 : fs.read = t!"Read" ++ y) : JsonRun.Simple fs := by
  intro n hn
  simp only [List.mem_cons, List.not_mem_nil, or_false] at hn
  rcases hn with rfl | rfl | rfl | rfl
  · rw [h1]; exact GoRef.dot_append (by decide) hx
  · rw [h2]; exact GoRef.dot_append (by decide) hy
  · rw [h3]; exact GoRef.dot_append (by decide) hx
  · rw [h4]; exact GoRef.dot_append (by decide) hy

theorem context_typ (x : TypesCode.Context) {c : TypeCell} (hk : c.kind.isStruct = true) :
    x.typ c = .struct { owner := x.owner, name := c.name, annotations := c.annotations } := by
  rw [TypesCode.Context.typ, if_neg (by cases hk' : c.kind <;> simp_all [TypeCell.isEnum, Kind.isStruct])]

/-- The form of the values of a type is what the type requires, for types of the same version. -/
theorem json_fits (h : HeapOk s.heap) (hu : Usable s T base) (hp : Portable s T) (x : TypesCode.Context) (pkg : Text)
    (o : Option VersionId) (hpkg : pkg = GoRef.versionSelector (Whole.ownerOf s o)) :
    ∀ (n id : Nat) (c : TypeCell), id < n → s.heap[id]? = some c → T c = true → c.owner = o → ∀ link : Bool,
      (link = true → ∀ e u, c.kind = .list → c.element = some e → s.heap[e]? = some u → u.kind.isStruct = true) →
      JsonRun.Fits (schemaOf s T) (codeOf s base) (jsonOf s base) (listsOf s base) pkg id link
        (JsonCode.formOf x link none (typeOf s id)) := by
  intro n
  induction n with
  | zero => intro id c hn; omega
  | succ n ih =>
    intro id c hn hc hT ho link hlink
    have hpk : packageOf s c = pkg := by rw [hpkg, packageOf, ho]
    cases seen h hu hc hT with
    | basic b h1 h2 =>
      rw [h1]
      cases b <;> exact h2
    | enum hk h1 h2 =>
      rw [h1]
      exact h2
    | struct hk h1 h2 =>
      rw [h1]
      obtain ⟨d1, d2⟩ := hp.names id c hc hT (.inl hk)
      refine ⟨by rw [h2]; rfl, ?_, ?_⟩
      · rw [codeOf_eq hc, jsonOf_eq hc]
        show resolve pkg ([] ++ t!"Write" ++ camel c.name) = (packageOf s c, _)
        rw [List.nil_append, resolve_bare pkg (GoRef.dot_append (by decide) d1), hpk]
        simp only [jsonCell, JsonCode.entityOf, context_typ _ hk, JsonCode.functionsOf, TypesCode.nameOf]
      · rw [codeOf_eq hc, jsonOf_eq hc]
        show resolve pkg ([] ++ t!"Read" ++ camel c.name) = (packageOf s c, _)
        rw [List.nil_append, resolve_bare pkg (GoRef.dot_append (by decide) d1), hpk]
        simp only [jsonCell, JsonCode.entityOf, context_typ _ hk, JsonCode.functionsOf, TypesCode.nameOf]
    | list e u m hk he hl heu heT h1 h2 =>
      rw [h1]
      obtain ⟨d1, d2⟩ := hp.names id c hc hT (.inr hk)
      have hwrite : resolve pkg (t!"Write" ++ camel c.name) =
          ((listsOf s base id).pkg, (listsOf s base id).listing.functions.write) := by
        rw [listsOf_eq hc, resolve_bare pkg (GoRef.dot_append (by decide) d1)]
        exact congrArg (·, _) hpk.symm
      have hread : resolve pkg (t!"Read" ++ camel c.name) =
          ((listsOf s base id).pkg, (listsOf s base id).listing.functions.read) := by
        rw [listsOf_eq hc, resolve_bare pkg (GoRef.dot_append (by decide) d1)]
        exact congrArg (·, _) hpk.symm
      have hS : schemaOf s T id = .list (goName u ++ t!"List") e := by
        rw [schemaOf_eq hc hT, hk, he]
        dsimp only
        rw [heu]
        rfl
      cases hlk : link with
      | false => exact ⟨_, e, hS, rfl, hwrite, hread⟩
      | true =>
        have hks := hlink hlk e u hk he heu
        obtain ⟨-, d3⟩ := hp.names e u heu heT (.inl hks)
        have hue := typeOf_struct h heu hks
        refine ⟨_, e, hS, rfl, ?_, ?_, ?_, hwrite, hread⟩
        · cases seen h hu heu heT with
          | basic b g1 g2 => rw [hue] at g1; cases g1
          | enum hk' => rw [hk'] at hks; cases hks
          | struct hk' g1 g2 => rw [g2]; rfl
          | list e' u' m' hk' => rw [hk'] at hks; cases hks
          | map e' u' hk' => rw [hk'] at hks; cases hks
        · rw [codeOf_eq heu]
          rfl
        · rw [codeOf_eq heu, hue]
          have hdot : '.' ∉ goName u ++ t!"List" := GoRef.dot_append d3 (by decide)
          show resolve pkg ([] ++ GoRef.emit _ (GoRef.structReference x.base _)) = (packageOf s u, goName u ++ t!"List")
          rw [List.nil_append, GoRef.emit_bare _ _ (by exact hdot)]
          show resolve pkg (goName u ++ t!"List") = _
          rw [resolve_bare pkg hdot, ← hpk]
          unfold packageOf
          rw [hp.elements id c hc hT e u he heu]
    | map e u hk he hl heu heT h1 h2 =>
      rw [h1]
      exact ⟨e, h2, ih e u (Nat.lt_of_lt_of_le hl (Nat.le_of_lt_succ hn)) heu heT ((hp.elements id c hc hT e u he heu).trans ho) false (by simp)⟩

theorem cell_of_schema {id : TypeId} (hS : schemaOf s T id ≠ .other) : ∃ c, s.heap[id]? = some c ∧ T c = true := by
  rw [schemaOf] at hS
  cases hc : s.heap[id]? with
  | none => rw [hc] at hS; exact absurd rfl hS
  | some c =>
    rw [hc] at hS
    dsimp only at hS
    split at hS
    · exact absurd rfl hS
    · exact ⟨c, rfl, by simpa using ‹¬ T c = false›⟩

/-- The JSON support of the types is part of the program. -/
theorem json_whole (h : HeapOk s.heap) (hu : Usable s T base) (hp : Portable s T) (hP : Contains P s T base)
    (hJ : JsonContains P s T base) :
    JsonRun.Whole P (goZero P) (schemaOf s T) (codeOf s base) (jsonOf s base) (listsOf s base) := by
  refine ⟨whole h hu hP, ?_, ?_⟩
  · intro id isClass n as hS
    obtain ⟨c, hc, hT⟩ := cell_of_schema (s := s) (T := T) (id := id) (by rw [hS]; simp)
    obtain ⟨hk, hS'⟩ : c.kind.isStruct = true ∧
        schemaOf s T id = .struct (c.kind == .class) (goName c) (c.attributes.mapIdx (GoJson.attrShape c)) := by
      cases seen h hu hc hT with
      | basic b h1 h2 => rw [h2] at hS; cases b <;> cases hS
      | enum _ h1 h2 => rw [h2] at hS; cases hS
      | struct hk h1 h2 => exact ⟨hk, h2⟩
      | list e u n _ _ _ _ _ h1 h2 => rw [h2] at hS; cases hS
      | map e u _ _ _ _ _ h1 h2 => rw [h2] at hS; cases hS
    rw [hS'] at hS
    cases hS
    obtain ⟨d1, d2⟩ := hp.names id c hc hT (.inl hk)
    have ht := context_typ (TypesCode.contextOf s base (c.owner.getD 0)) hk
    have hobj : (jsonCell s base c).object = goName c := by
      show GoRef.emit _ (GoRef.structReference _ (TypesCode.Context.typ _ c)) = _
      rw [ht]
      exact GoRef.emit_bare _ _ d2
    refine ⟨?_, ?_, ?_, ?_, ?_, ?_, ?_⟩
    · rw [jsonOf_eq hc, codeOf_eq hc]
      exact hJ.objects id c hc hT hk
    · rw [jsonOf_eq hc]
      exact simple_names (x := goName c) (y := camel c.name) d2 d1
        (by show t!"Marshal" ++ GoRef.Typ.decl (TypesCode.Context.typ _ c) = _; rw [ht]; rfl)
        (by show t!"Write" ++ camel (TypesCode.nameOf (TypesCode.Context.typ _ c)) = _; rw [ht]; rfl)
        (by show t!"Unmarshal" ++ GoRef.Typ.decl (TypesCode.Context.typ _ c) = _; rw [ht]; rfl)
        (by show t!"Read" ++ camel (TypesCode.nameOf (TypesCode.Context.typ _ c)) = _; rw [ht]; rfl)
    · rw [jsonOf_eq hc, codeOf_eq hc, hobj]
      rfl
    · rw [jsonOf_eq hc, hobj]
    · rw [jsonOf_eq hc]
      show decide (c.kind = .class) = (c.kind == .class)
      cases c.kind <;> rfl
    · rw [jsonOf_eq hc]
      show (List.mapIdx _ _).length = _
      simp
    · intro i a m f h1 h2 h3
      rw [jsonOf_eq hc] at h2
      rw [codeOf_eq hc] at h3
      change (List.mapIdx _ _)[i]? = _ at h2
      change (List.mapIdx _ _)[i]? = _ at h3
      rw [List.getElem?_mapIdx] at h1 h2 h3
      cases hat : c.attributes[i]? with
      | none => rw [hat] at h1; cases h1
      | some at' =>
        rw [hat] at h1 h2 h3
        cases h1; cases h2; cases h3
        have ha := List.mem_of_getElem? hat
        have hi := (List.getElem?_eq_some_iff.mp hat).1
        obtain ⟨w, hw, hwT⟩ := hu.types id c hc hT at' ha
        obtain ⟨hlo, hown⟩ := hp.sameVersion id c hc hT at' ha
        refine ⟨rfl, ?_, rfl, ?_, ?_⟩
        · show (if c.kind = .class then 3 else 0) + i = Bitmap.bitIndex c i
          rw [bitIndex_eq c i hi, reservedBits]
        · show (typeOf s at'.typ).isScalar = (schemaOf s T at'.typ).isScalar
          cases seen h hu hw hwT with
          | basic b h1 h2 => rw [h1, h2]; cases b <;> rfl
          | enum _ h1 h2 => rw [h1, h2]; rfl
          | struct hk h1 h2 => rw [h1, h2]; rfl
          | list e u n _ _ _ _ _ h1 h2 => rw [h1, h2]; rfl
          | map e u _ _ _ _ _ h1 h2 => rw [h1, h2]; rfl
        · rw [codeOf_eq hc]
          show JsonRun.Fits _ _ _ _ (packageOf s c) at'.typ at'.link
            (JsonCode.formOf _ at'.link (at'.linkOwner.map _) (typeOf s at'.typ))
          rw [hlo]
          exact json_fits h hu hp _ _ c.owner rfl _ at'.typ w (Nat.lt_succ_self _) hw hwT (hown w hw) at'.link
            fun hlk e u h1 h2 h3 => hp.links id c hc hT at' ha hlk w e u hw h1 h2 h3
  · intro id n e hS
    obtain ⟨c, hc, hT⟩ := cell_of_schema (s := s) (T := T) (id := id) (by rw [hS]; simp)
    cases seen h hu hc hT with
    | basic b h1 h2 => rw [h2] at hS; cases b <;> cases hS
    | enum _ h1 h2 => rw [h2] at hS; cases hS
    | struct hk h1 h2 => rw [h2] at hS; cases hS
    | map e u _ _ _ _ _ h1 h2 => rw [h2] at hS; cases hS
    | list e' u n' hk he hl heu heT h1 h2 =>
      rw [h2] at hS
      cases hS
      obtain ⟨k1, k2⟩ := hp.lists id c hc hT hk e u he heu
      obtain ⟨d1, d2⟩ := hp.names id c hc hT (.inr hk)
      refine ⟨by rw [listsOf_eq hc]; exact hP.legal _, by rw [listsOf_eq hc]; exact hJ.lists id c hc hT hk e u he heu k1 k2,
        by rw [listsOf_eq hc]; exact simple_names (x := goName c) (y := camel c.name) d2 d1 rfl rfl rfl rfl, ?_⟩
      · have : (listCell s base c).listing.form =
            JsonCode.formOf (TypesCode.contextOf s base (c.owner.getD 0)) false none (typeOf s e) := by
          show JsonCode.formOf _ false none (typeOf s (c.element.getD 0)) = _
          rw [he]
          rfl
        rw [listsOf_eq hc, this]
        exact json_fits h hu hp _ _ c.owner rfl _ e u (Nat.lt_succ_self _) heu heT
          (hp.elements id c hc hT e u he heu) false (by simp)

/-- The elements of lists and maps aren't maps. -/
theorem json_flat (h : HeapOk s.heap) (hu : Usable s T base) (hp : Portable s T) : JsonRun.Flat (schemaOf s T) := by
  intro ty e f he
  obtain ⟨u, heu, heT⟩ := cell_of_schema (s := s) (T := T) (id := e) (by rw [he]; simp)
  have hk : u.kind = .map := by
    cases seen h hu heu heT with
    | basic b h1 h2 => rw [h2] at he; cases b <;> cases he
    | enum _ h1 h2 => rw [h2] at he; cases he
    | struct hk h1 h2 => rw [h2] at he; cases he
    | map _ _ hk => exact hk
    | list _ _ _ _ _ _ _ _ h1 h2 => rw [h2] at he; cases he
  refine ⟨fun hS => ?_, fun n hS => ?_⟩
  · obtain ⟨c, hc, hT⟩ := cell_of_schema (s := s) (T := T) (id := ty) (by rw [hS]; simp)
    cases seen h hu hc hT with
    | basic b h1 h2 => rw [h2] at hS; cases b <;> cases hS
    | enum _ h1 h2 => rw [h2] at hS; cases hS
    | struct hk h1 h2 => rw [h2] at hS; cases hS
    | list _ _ _ _ _ _ _ _ h1 h2 => rw [h2] at hS; cases hS
    | map e' u' hk' he' hl heu' heT' h1 h2 =>
      rw [h2] at hS
      cases hS
      exact hp.maps ty c hc hT hk' e u he' heu hk
  · obtain ⟨c, hc, hT⟩ := cell_of_schema (s := s) (T := T) (id := ty) (by rw [hS]; simp)
    cases seen h hu hc hT with
    | basic b h1 h2 => rw [h2] at hS; cases b <;> cases hS
    | enum _ h1 h2 => rw [h2] at hS; cases hS
    | struct hk h1 h2 => rw [h2] at hS; cases hS
    | map _ _ _ _ _ _ _ h1 h2 => rw [h2] at hS; cases hS
    | list e' u' n' hk' he' hl heu' heT' h1 h2 =>
      rw [h2] at hS
      cases hS
      exact (hp.lists ty c hc hT hk' e u he' heu).2 hk

end Verif.ModelRun
