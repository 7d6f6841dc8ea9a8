import Verif.Lemmas.OpenApi
import Verif.Lemmas.ClientPaths
import Verif.Lemmas.GoMap
import Verif.Lemmas.ListTypes

/-! Lemmas about the paths of the OpenAPI documents. -/

namespace Verif

namespace OpenApi

theorem absolutePath_eq (v : VersionView) (path : List Locator) :
    absolutePath v.serviceSegment v.versionSegment path = pathKey v path := by
  have e : ∀ l : Locator, locatorTemplate l =
      if l.isVariable then '{' :: Binding.locatorSegment l ++ t!"_id}"
      else Binding.locatorSegment l := by
    intro l
    unfold locatorTemplate
    split
    · simp
    · rfl
  have hm : path.map locatorTemplate = path.map fun l =>
      if l.isVariable then '{' :: Binding.locatorSegment l ++ t!"_id}"
      else Binding.locatorSegment l := List.map_congr_left fun l _ => e l
  unfold absolutePath pathKey
  rw [hm]
  generalize path.map _ = rest
  have := absolute_eq ([v.serviceSegment, v.versionSegment] ++ rest) (by simp)
  unfold absolute at this
  rw [this]
  rfl

/-! ## Sorting -/

theorem insertText_perm (x : Text) : ∀ l : List Text, (insertText x l).Perm (x :: l)
  | [] => by simp [insertText]
  | y :: ys => by
    rw [insertText]
    split
    · exact List.Perm.refl _
    · exact ((insertText_perm x ys).cons y).trans (List.Perm.swap x y ys)

theorem sortTexts_perm (l : List Text) : (sortTexts l).Perm l := by
  have : ∀ (l acc : List Text),
      (l.foldl (fun acc x => insertText x acc) acc).Perm (l.reverse ++ acc) := by
    intro l
    induction l with
    | nil => intro acc; simp
    | cons x xs ih =>
      intro acc
      rw [List.foldl_cons, List.reverse_cons, List.append_assoc]
      exact (ih _).trans ((insertText_perm x acc).append_left xs.reverse)
  have h := this l []
  rw [List.append_nil] at h
  exact h.trans (List.reverse_perm l)

theorem compareText_neg (a b : Text) : compareText a b < 0 ↔ a < b := by
  rw [← compareText_lt]
  rcases compareText_range a b with h | h | h <;> simp [h]

theorem text_lt_trans {a b c : Text} (h1 : a < b) (h2 : b < c) : a < c := List.lt_trans h1 h2

theorem text_lt_of_not {a b : Text} (h : ¬ a < b) (hne : a ≠ b) : b < a := by
  rw [← compareText_neg] at h ⊢
  rw [compareText_swap]
  have hz : compareText a b ≠ 0 := fun e => hne ((compareText_zero a b).1 e)
  rcases compareText_range a b with h' | h' | h' <;> omega

theorem insertText_sorted (x : Text) : ∀ l : List Text, x ∉ l → l.Pairwise (· < ·) →
    (insertText x l).Pairwise (· < ·)
  | [], _, _ => by simp [insertText]
  | y :: ys, hx, hs => by
    simp only [List.mem_cons, not_or] at hx
    have hs' := List.pairwise_cons.1 hs
    rw [insertText]
    split
    · rename_i hlt
      have hlt := (compareText_neg _ _).1 hlt
      refine List.pairwise_cons.2 ⟨?_, hs⟩
      intro z hz
      rcases List.mem_cons.1 hz with rfl | hz
      · exact hlt
      · exact text_lt_trans hlt (hs'.1 z hz)
    · rename_i hlt
      have hlt : y < x := text_lt_of_not (fun h => hlt ((compareText_neg _ _).2 h)) hx.1
      refine List.pairwise_cons.2 ⟨?_, insertText_sorted x ys hx.2 hs'.2⟩
      intro z hz
      rcases List.mem_cons.1 ((insertText_perm x ys).mem_iff.1 hz) with rfl | hz
      · exact hlt
      · exact hs'.1 z hz

theorem sortTexts_sorted (l : List Text) (h : l.Nodup) : (sortTexts l).Pairwise (· < ·) := by
  have : ∀ (l acc : List Text), (l ++ acc).Nodup → acc.Pairwise (· < ·) →
      (l.foldl (fun acc x => insertText x acc) acc).Pairwise (· < ·) := by
    intro l
    induction l with
    | nil => intro acc _ h; exact h
    | cons x xs ih =>
      intro acc hn ha
      rw [List.cons_append, List.nodup_cons, List.mem_append, not_or] at hn
      refine ih _ ?_ (insertText_sorted x acc hn.1.2 ha)
      have hp : (xs ++ insertText x acc).Perm (x :: (xs ++ acc)) :=
        ((insertText_perm x acc).append_left xs).trans List.perm_middle
      rw [hp.nodup_iff, List.nodup_cons, List.mem_append, not_or]
      exact hn
  exact this l [] (by simpa using h) List.Pairwise.nil

/-! ## The index of paths -/

theorem pathIndex_snoc (v : VersionView) (ps : List (List Locator)) (p : List Locator) :
    pathIndex v (ps ++ [p]) = (pathIndex v ps).insert (pathKey v p) p := by
  simp [pathIndex, List.foldl_append, absolutePath_eq]

theorem reverse_induction {α : Type} {P : List α → Prop} (hn : P [])
    (hs : ∀ l a, P l → P (l ++ [a])) (l : List α) : P l := by
  have : ∀ l : List α, P l.reverse := by
    intro l
    induction l with
    | nil => exact hn
    | cons x xs ih => rw [List.reverse_cons]; exact hs _ _ ih
  have h := this l.reverse
  rwa [List.reverse_reverse] at h

theorem pathIndex_nodup (v : VersionView) (ps : List (List Locator)) :
    (pathIndex v ps).keys.Nodup := by
  induction ps using reverse_induction with
  | hn => simp [pathIndex, GoMap.keys]
  | hs l a ih => rw [pathIndex_snoc]; exact nodup_insert ih _ _

theorem pathIndex_complete (v : VersionView) (ps : List (List Locator)) :
    ∀ p ∈ ps, pathKey v p ∈ (pathIndex v ps).keys := by
  induction ps using reverse_induction with
  | hn => simp
  | hs l a ih =>
    intro p hp
    rw [pathIndex_snoc, GoMap.keys_insert]
    rcases List.mem_append.1 hp with hp | hp
    · have := ih p hp
      split
      · exact this
      · exact List.mem_append_left _ this
    · rw [List.mem_singleton.1 hp]
      split
      · assumption
      · simp

theorem pathIndex_find (v : VersionView) (ps : List (List Locator)) :
    ∀ k p, (pathIndex v ps).find k = some p → ∃ before after, ps = before ++ p :: after ∧
      k = pathKey v p ∧ ∀ path ∈ after, pathKey v path ≠ k := by
  induction ps using reverse_induction with
  | hn => simp [pathIndex, GoMap.find]
  | hs l a ih =>
    intro k p h
    rw [pathIndex_snoc, GoMap.find_insert] at h
    split at h
    · rename_i hk
      simp only [Option.some.injEq] at h
      subst h
      exact ⟨l, [], rfl, hk.symm, by simp⟩
    · rename_i hk
      obtain ⟨before, after, rfl, hkey, hafter⟩ := ih k p h
      refine ⟨before, after ++ [a], by simp, hkey, ?_⟩
      intro path hpath
      rcases List.mem_append.1 hpath with hpath | hpath
      · exact hafter path hpath
      · rw [List.mem_singleton.1 hpath]; exact hk

/-- The entries of the index, in the order in which they are generated. -/
def entriesOf (v : VersionView) (ps : List (List Locator)) : List (Text × List Locator) :=
  (sortTexts (pathIndex v ps).keys).map fun k => (k, ((pathIndex v ps).find k).getD [])

theorem entriesOf_spec (v : VersionView) (ps : List (List Locator)) :
    PathEntries v ps (entriesOf v ps) := by
  have hnd := pathIndex_nodup v ps
  refine ⟨?_, ?_, ?_⟩
  · unfold entriesOf
    rw [List.pairwise_map]
    exact sortTexts_sorted _ hnd
  · intro path hp
    have hk := pathIndex_complete v ps path hp
    refine ⟨(pathKey v path, _), List.mem_map.2 ⟨pathKey v path,
      (sortTexts_perm _).mem_iff.2 hk, rfl⟩, rfl⟩
  · intro e he
    obtain ⟨k, hk, rfl⟩ := List.mem_map.1 he
    have hk := (sortTexts_perm _).mem_iff.1 hk
    cases hf : (pathIndex v ps).find k with
    | none => exact absurd hk (GoMap.find_none.1 hf)
    | some p => exact pathIndex_find v ps k p hf

section

variable {v : VersionView} {fuel : Nat}

theorem generateMetadataPath_adds : Adds (generateMetadataPath v) [metadataItem (pathKey v [])] := by
  intro name members outer
  unfold generateMetadataPath metadataItem content reference
  rw [absolutePath_eq]
  outline_simp [Adds.description _ _ _ _, generateDefaultResponse_adds _ _ _]

theorem generatePathEntry_adds {ps : List (List Locator)} {key : Text} {calls : List Call}
    (h : generatePathEntry v fuel (pathIndex v ps) key = .done calls) (hr : reports calls = 0) :
    Adds calls (resourceItems (schemaFn v fuel) key (((pathIndex v ps).find key).getD [])
      (methodsAt v (((pathIndex v ps).find key).getD []))) ∧
    ∀ m ∈ methodsAt v (((pathIndex v ps).find key).getD []), GoodMethod v fuel m := by
  unfold generatePathEntry at h
  generalize ((pathIndex v ps).find key).getD [] = path at *
  cases hl : path.getLast? with
  | none => simp [hl] at h
  | some last =>
    rw [hl] at h
    cases ht : last.target with
    | none => simp [ht, generateResourcePaths] at h
    | some r =>
      simp only [ht] at h
      have e : methodsAt v path = v.graph.methods r := by simp [methodsAt, hl, ht]
      rw [e]
      exact generateResourcePaths_adds h hr

theorem generatePaths_adds {calls : List Call} (h : generatePaths v fuel = .done calls)
    (hr : reports calls = 0) :
    ∃ root ps, v.root = some root ∧ paths v.graph fuel v.root = .done ps ∧
      Adds calls [(t!"paths", .obj (pathItems (schemaFn v fuel) v root (entriesOf v ps)))] ∧
      (∀ m ∈ v.graph.methods root, GoodMethod v fuel m) ∧
      ∀ e ∈ entriesOf v ps, ∀ m ∈ methodsAt v e.2, GoodMethod v fuel m := by
  obtain ⟨ps, hps, h⟩ := bind_done h
  obtain ⟨rt, hrt, h⟩ := bind_done h
  obtain ⟨rest, hrest, h⟩ := bind_done h
  simp only [Run.done.injEq] at h; subst h
  simp only [reports_append] at hr
  cases hroot : v.root with
  | none => simp [hroot, generateResourcePaths] at hrt
  | some root =>
    rw [hroot] at hrt
    rw [absolutePath_eq] at hrt
    have h1 := generateResourcePaths_adds hrt (by omega)
    have h2 := forEach_adds
      (Q := fun k => ∀ m ∈ methodsAt v (((pathIndex v ps).find k).getD []), GoodMethod v fuel m)
      (fun x _ c hc hcr => generatePathEntry_adds hc hcr) hrest (by omega)
    refine ⟨root, ps, rfl, by rw [← hroot]; exact hps, ?_, h1.2, ?_⟩
    · intro name members outer
      have e : pathItems (schemaFn v fuel) v root (entriesOf v ps)
          = [metadataItem (pathKey v [])] ++
            resourceItems (schemaFn v fuel) (pathKey v []) [] (v.graph.methods root) ++
            (sortTexts (pathIndex v ps).keys).flatMap fun k =>
              resourceItems (schemaFn v fuel) k (((pathIndex v ps).find k).getD [])
                (methodsAt v (((pathIndex v ps).find k).getD [])) := by
        simp [pathItems, entriesOf, List.flatMap_map]
      rw [e]
      outline_simp [generateMetadataPath_adds _ _ _, h1.1 _ _ _, h2.1 _ _ _]
    · intro e he m hm
      obtain ⟨k, hk, rfl⟩ := List.mem_map.1 he
      exact h2.2 k hk m hm

theorem generateSpecSource_describes {calls : List Call}
    (h : generateSpecSource v fuel = .done calls) (hr : reports calls = 0) :
    ∃ root ps, v.root = some root ∧ paths v.graph fuel v.root = .done ps ∧
      Describes calls (document (schemaFn v fuel) v root (entriesOf v ps)) ∧
      (∀ m ∈ v.graph.methods root, GoodMethod v fuel m) ∧
      (∀ e ∈ entriesOf v ps, ∀ m ∈ methodsAt v e.2, GoodMethod v fuel m) ∧
      ∀ t ∈ v.types, t.kind = .class ∨ t.kind = .struct → ∀ a ∈ t.attributes, Good v fuel a.typ := by
  obtain ⟨p, hp, h⟩ := bind_done h
  obtain ⟨c, hc, h⟩ := bind_done h
  simp only [Run.done.injEq] at h; subst h
  simp only [reports_append] at hr
  obtain ⟨root, ps, hroot, hps, hadd, hm1, hm2⟩ := generatePaths_adds hp (by omega)
  have h2 := generateComponents_adds hc (by omega)
  refine ⟨root, ps, hroot, hps, ?_, hm1, hm2, h2.2⟩
  unfold Describes document generateInfo generateServers generateSecurity
  outline_simp [hadd _ _ _, h2.1 _ _ _]

end

end OpenApi

end Verif
