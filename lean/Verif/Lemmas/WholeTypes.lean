import Verif.Lemmas.Whole
import Verif.Spec.Whole
import Verif.Lemmas.ErrorNames

/-! Helper lemmas about the types that the generators see. -/

namespace Verif.Whole

open Reader Session Outcome
open GoRef (Typ)

/-- The declaration of the type of a cell. -/
def declOf (s : Session) (c : TypeCell) : GoRef.Decl :=
  { owner := ownerOf s c.owner, name := c.name, annotations := c.annotations }

theorem typeTree_fuel {s : Session} (h : HeapOk s.heap) :
    ∀ (n : Nat) (id : Nat), id < n → ∀ fuel, id < fuel → typeTree s fuel id = typeTree s (id + 1) id := by
  intro n
  induction n with
  | zero => intro id h; omega
  | succ n ih =>
    intro id hid fuel hf
    cases fuel with
    | zero => omega
    | succ fuel =>
      rw [typeTree, typeTree]
      cases hc : s.heap[id]? with
      | none => rfl
      | some c =>
        dsimp only
        have ok := h id c hc
        cases hk : c.kind <;> try rfl
        all_goals
          obtain ⟨e, he, hl⟩ := ok.element (by simp [hk])
          dsimp only
          rw [he]
          dsimp only
          rw [ih e (by omega) fuel (by omega), ih e (by omega) id (by omega)]

theorem typeOf_eq {s : Session} (h : HeapOk s.heap) {id : TypeId} {c : TypeCell}
    (hc : s.heap[id]? = some c) :
    typeOf s id = match c.kind with
      | .undefined => .basic .interface
      | .scalar => .basic (basicOf c.name)
      | .interface => .basic .interface
      | .enum => .enum (declOf s c)
      | .struct => .struct (declOf s c)
      | .class => .struct (declOf s c)
      | .list => .list (declOf s c) (match c.element with
        | some e => typeOf s e
        | none => .basic .interface)
      | .map => .map (declOf s c) (match c.element with
        | some e => typeOf s e
        | none => .basic .interface) := by
  rw [typeOf, typeTree, hc]
  dsimp only
  have ok := h id c hc
  cases hk : c.kind <;> try rfl
  all_goals
    obtain ⟨e, he, hl⟩ := ok.element (by simp [hk])
    dsimp only
    rw [he]
    dsimp only
    rw [typeTree_fuel h (e + 1) e (by omega) id hl]
    rfl

theorem typeName_basicOf {n : Name} (h : n ∈ scalarNames) : Outcome.typeName (.basic (basicOf n)) = n := by
  simp only [scalarNames, List.mem_cons, List.not_mem_nil, or_false] at h
  rcases h with rfl | rfl | rfl | rfl | rfl | rfl <;> rfl

theorem typeName_typeOf {s : Session} (h : HeapOk s.heap) {id : TypeId} {c : TypeCell}
    (hc : s.heap[id]? = some c) (hk : c.kind ≠ .undefined) :
    Outcome.typeName (typeOf s id) = c.name := by
  rw [typeOf_eq h hc]
  have ok := h id c hc
  cases hk' : c.kind <;> try rfl
  · exact absurd hk' hk
  · exact (ok.interface hk').symm
  · exact typeName_basicOf (ok.scalar hk')

/-- The versions of the model that the generators see. -/
theorem hasVersionInfo {s : Session} (m : ModelGood s) {si : ServiceInfo} {vi : VersionInfo}
    (h : HasVersionInfo (api s) si vi) :
    ∃ l v, s.services.find l.name.toText = some l ∧ l.versions.find v.name.toText = some v ∧
      si.name = l.name ∧ vi = versionInfo s v := by
  obtain ⟨h1, h2⟩ := h
  obtain ⟨l, hl, rfl⟩ := List.mem_map.mp h1
  obtain ⟨v, hv, rfl⟩ := List.mem_map.mp h2
  have hl' := (sortByName_spec _ _).1.mem_iff.mp hl
  obtain ⟨e, he, rfl⟩ := List.mem_map.mp hl'
  have hf := GoMap.find_of_mem m.nodup he
  obtain ⟨h3, h4⟩ := m.named _ _ hf
  have hv' := (sortByName_spec _ _).1.mem_iff.mp hv
  obtain ⟨e2, he2, rfl⟩ := List.mem_map.mp hv'
  have hf2 := GoMap.find_of_mem h4.nodup he2
  obtain ⟨h5, -⟩ := h4.named _ _ hf2
  exact ⟨e.2, e2.2, by rw [h3]; exact hf, by rw [h5]; exact hf2, rfl, rfl⟩

theorem version_info {s : Session} (m : ModelGood s) {a b : Text} {v : LoadedVersion}
    (h : s.version a b = some v) :
    ∃ l, s.services.find a = some l ∧ l.name.toText = a ∧
      HasVersionInfo (api s)
        { name := l.name, versions := (listing LoadedVersion.name l.versions).map (versionInfo s) }
        (versionInfo s v) := by
  unfold Session.version at h
  obtain ⟨l, hl, hv⟩ := Option.bind_eq_some_iff.mp h
  refine ⟨l, hl, (m.named _ _ hl).1, ?_, ?_⟩
  · exact List.mem_map.mpr ⟨l, (sortByName_spec _ _).1.mem_iff.mpr
      (List.mem_map.mpr ⟨_, GoMap.find_some_mem hl, rfl⟩), rfl⟩
  · exact List.mem_map.mpr ⟨v, (sortByName_spec _ _).1.mem_iff.mpr
      (List.mem_map.mpr ⟨_, GoMap.find_some_mem hv, rfl⟩), rfl⟩

theorem nodup_of_text {α : Type} {f : α → Name} {l : List α}
    (h : (l.map fun x => (f x).toText).Nodup) : (l.map f).Nodup := by
  have : (l.map fun x => (f x).toText) = (l.map f).map Name.toText := by
    rw [List.map_map]; rfl
  rw [this] at h
  exact List.Pairwise.of_map Name.toText (fun a b h e => h (congrArg _ e)) h

theorem fromReader {s : Session} (m : ModelGood s) (ok : SessionOk s) (hp : s.problems = [])
    (hd : Defined s) (he : SessionErrors s) : FromReader (api s) := by
  refine ⟨?_, ?_, ?_, ?_, ?_, ?_, ?_, ?_⟩
  · have := listing_keys_nodup LoadedService.name s.services m.nodup fun k l hl => (m.named k l hl).1
    have := nodup_of_text this
    unfold api
    rw [List.map_map]
    exact this
  · intro si hs
    obtain ⟨l, hl, rfl⟩ := List.mem_map.mp hs
    have hl' := (sortByName_spec _ _).1.mem_iff.mp hl
    obtain ⟨e, he, rfl⟩ := List.mem_map.mp hl'
    obtain ⟨-, h4⟩ := m.named _ _ (GoMap.find_of_mem m.nodup he)
    have := nodup_of_text (listing_keys_nodup LoadedVersion.name e.2.versions h4.nodup
      fun k v hv => (h4.named k v hv).1)
    dsimp only
    rw [List.map_map]
    exact this
  · intro si vi hv
    obtain ⟨l, v, h1, h2, -, rfl⟩ := hasVersionInfo m hv
    obtain ⟨-, -, tg⟩ := (m.named _ _ h1).2.named _ _ h2
    have hn : ∀ k id, v.types.find k = some id → (Reader.typeName s.heap id).toText = k := by
      intro k id hf
      obtain ⟨c, hc, h3, -⟩ := tg.named k id hf
      unfold Reader.typeName
      rw [hc]
      exact h3
    have := nodup_of_text (listing_keys_nodup (Reader.typeName s.heap) v.types tg.nodup hn)
    unfold versionInfo
    dsimp only
    rw [List.map_map]
    have he : (listing (Reader.typeName s.heap) v.types).map
        ((fun t : TypeInfo => Outcome.typeName t.typ) ∘ typeInfo s) =
        (listing (Reader.typeName s.heap) v.types).map (Reader.typeName s.heap) := by
      apply List.map_congr_left
      intro id hid
      have hid' := (sortByName_spec _ _).1.mem_iff.mp hid
      obtain ⟨e, he, rfl⟩ := List.mem_map.mp hid'
      have hf := GoMap.find_of_mem tg.nodup he
      obtain ⟨c, hc, -, -⟩ := tg.named _ _ hf
      have hk : c.kind ≠ .undefined := by
        have hv' : s.version l.name.toText v.name.toText = some v := by
          unfold Session.version; rw [h1]; exact h2
        exact hd _ _ v hv' e.1 (View.ofCell s.heap c) (by
          unfold Session.typeView; rw [hf]; simp only [Option.bind_some]; rw [hc]; rfl)
      have hi : (typeInfo s e.2).typ = typeOf s e.2 := by
        unfold typeInfo; rw [hc]
      unfold Reader.typeName
      simp only [Function.comp]
      rw [hi, typeName_typeOf ok.heap hc hk, hc]
    rw [he]
    exact this
  · intro r l hl
    obtain ⟨h1, h2, h3⟩ := ok.graph.locators r l hl
    refine ⟨h1, ?_⟩
    cases ht : l.target with
    | none => exact absurd ht (h3 hp)
    | some t => exact ⟨t, rfl, h2 t ht⟩
  · intro si vi hv r hr
    obtain ⟨l, v, h1, h2, -, rfl⟩ := hasVersionInfo m hv
    have hr' := (sortByName_spec _ _).1.mem_iff.mp hr
    obtain ⟨e, he, rfl⟩ := List.mem_map.mp hr'
    have hv' := ok.versions _ _ _ _ h1 h2
    exact hv'.resources _ _ (GoMap.find_of_mem hv'.nodup he)
  · intro si vi hv
    obtain ⟨l, v, h1, h2, -, rfl⟩ := hasVersionInfo m hv
    have := (ok.versions _ _ _ _ h1 h2).builtins
    exact ⟨this _ (by decide), this _ (by decide), this _ (by decide)⟩
  · rintro si vi r ⟨-, id, -, hg⟩ mm hm p hp
    exact ok.graph.directions r (List.mem_of_getElem? hg) mm hm p hp
  · intro si vi hv
    obtain ⟨l, v, h1, h2, -, rfl⟩ := hasVersionInfo m hv
    exact (he _ (GoMap.find_some_mem h1) _ (GoMap.find_some_mem h2)).2

end Verif.Whole
