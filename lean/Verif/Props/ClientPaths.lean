import Verif.Lemmas.ClientPaths
import Verif.Lemmas.Binding
import Verif.Spec.Names
import Verif.Spec.Binding

/-!
# Paths of the requests (C48)

C48: the path of the request created by following any chain of locators and then a method is the path
given for the service, the segment of the version, the segment or identifier of each locator and the
segment of the action, in order; and it agrees with the template of the OpenAPI specification.

It holds when all these are plain segments; `c48_id_refuted` shows what happens with other
identifiers.
-/

namespace Verif

open GoPath GoClient

/-- C48 for plain segments. The path given by the user is any text that begins with a slash and
doesn't have `.` or `..`; repeated slashes and slashes at the end are ignored. -/
theorem c48_path_partial (base version : Text) (hops : List Hop) (m : Method)
    (hb : base.head? = some '/') (hd : NoDots base) (hv : PlainSegment version)
    (hh : ∀ h ∈ hops, PlainSegment (hopPart h)) (hm : ∀ p ∈ methodParts m, PlainSegment p) :
    methodPath (clientPath (versionPath base version) hops) m
      = absolute (partsOf base ++ [version] ++ hops.map hopPart ++ methodParts m) := by
  have hparts : ∀ p ∈ partsOf base ++ [version], PlainSegment p := by
    intro p hp
    rcases List.mem_append.1 hp with hp | hp
    · have hp := List.mem_filter.1 hp
      refine ⟨by simpa using hp.2, splitOn_no_sep _ _ p hp.1, ?_, ?_⟩
      · intro e; exact hd.1 (e ▸ hp.1)
      · intro e; exact hd.2 (e ▸ hp.1)
    · rw [List.mem_singleton.1 hp]; exact hv
  rw [versionPath, join_rooted _ _ hb hd hv.noDots (by rw [hv.partsOf]; simp), hv.partsOf,
    clientPath_absolute hops _ (by simp) hparts hh, methodPath_absolute m _ (by simp) _ hm]
  intro p hp
  rcases List.mem_append.1 hp with hp | hp
  · exact hparts p hp
  · obtain ⟨h, hh', rfl⟩ := List.mem_map.1 hp
    exact hh h hh'

/-- The same for paths that don't begin with a slash, including the empty one: the result doesn't
begin with a slash either. -/
theorem c48_relative_partial (base version : Text) (hb : base.head? ≠ some '/') (hd : NoDots base)
    (hv : PlainSegment version) :
    versionPath base version = (absolute (partsOf base ++ [version])).tail := by
  unfold versionPath
  rw [join]
  by_cases he : base = []
  · subst he
    have hh : version.head? ≠ some '/' := by
      intro e
      cases version with
      | nil => simp at e
      | cons c cs =>
        simp only [List.head?_cons, Option.some.injEq] at e
        exact hv.2.1 (by simp [e])
    rw [if_pos rfl, join, if_neg hv.1, show joinText t!"/" [version] = version from rfl,
      clean_relative version hh hv.noDots (by rw [hv.partsOf]; simp), hv.partsOf]
    rfl
  · have e : joinText t!"/" [base, version] = base ++ '/' :: version := by simp [joinText]
    rw [if_neg he, e, clean_relative, partsOf_append, hv.partsOf]
    · cases base with
      | nil => exact absurd rfl he
      | cons c cs => simpa using hb
    · exact (noDots_append _ _).2 ⟨hd, hv.noDots⟩
    · rw [partsOf_append, hv.partsOf]; simp

/-- What a locator does with any identifier that doesn't have `.` or `..` as parts: the slashes
separate parts, and the empty ones disappear. -/
theorem c48_id (ps : List Text) (hne : ps ≠ []) (hp : ∀ p ∈ ps, PlainSegment p) (l : Locator)
    (hl : l.isVariable = true) (id : Text) (hd : NoDots id) :
    locatorPath (absolute ps) { locator := l, id := id } = absolute (ps ++ partsOf id) := by
  rw [locatorPath_eq, hopPart, if_pos hl, join_absolute ps hne hp id hd]

/-- An empty identifier, and also `.`, gives the path of the collection. -/
theorem c48_id_same (ps : List Text) (hne : ps ≠ []) (hp : ∀ p ∈ ps, PlainSegment p) (l : Locator)
    (hl : l.isVariable = true) :
    locatorPath (absolute ps) { locator := l, id := [] } = absolute ps ∧
    locatorPath (absolute ps) { locator := l, id := t!"." } = absolute ps := by
  refine ⟨?_, ?_⟩
  · rw [c48_id ps hne hp l hl [] ⟨by simp [splitOn], by simp [splitOn]⟩]
    simp [partsOf, splitOn]
  · rw [locatorPath_eq, hopPart, if_pos hl, join,
      if_neg (by intro e; have := absolute_head ps hne; simp [e] at this)]
    have e : joinText t!"/" [absolute ps, t!"."] = absolute ps ++ '/' :: t!"." := by simp [joinText]
    have hn := noDots_absolute ps hp
    rw [e, clean]
    have hh : (absolute ps ++ '/' :: t!".").head? = some '/' := by
      rw [absolute_eq ps hne]; rfl
    simp only [hh, beq_self_eq_true, splitOn_append_sep, List.foldl_append,
      foldl_cleanStep _ _ _ hn.1 hn.2, if_true, List.append_nil]
    have hf : (splitOn '/' (absolute ps)).filter (fun s => decide (s ≠ [])) = ps :=
      partsOf_absolute ps hp
    rw [hf]
    simp only [splitOn, List.foldl_cons, List.foldl_nil, Char.reduceEq, if_false]
    have : cleanStep true ps.reverse t!"." = ps.reverse := by
      unfold cleanStep
      simp
    rw [this, List.reverse_reverse, if_neg (by simp), absolute_eq ps hne]
    rfl

/-- The identifier `..` gives the parent of the collection. -/
theorem c48_id_parent (ps : List Text) (p : Text) (hne : ps ≠ [])
    (hp : ∀ q ∈ ps ++ [p], PlainSegment q) (l : Locator) (hl : l.isVariable = true) :
    locatorPath (absolute (ps ++ [p])) { locator := l, id := t!".." } = absolute ps := by
  have hne' : ps ++ [p] ≠ [] := by simp
  rw [locatorPath_eq, hopPart, if_pos hl, join,
    if_neg (by intro e; have := absolute_head _ hne'; simp [e] at this)]
  have e : joinText t!"/" [absolute (ps ++ [p]), t!".."] = absolute (ps ++ [p]) ++ '/' :: t!".." := by
    simp [joinText]
  have hn := noDots_absolute _ hp
  rw [e, clean]
  have hh : (absolute (ps ++ [p]) ++ '/' :: t!"..").head? = some '/' := by
    rw [absolute_eq _ hne']; rfl
  simp only [hh, beq_self_eq_true, splitOn_append_sep, List.foldl_append,
    foldl_cleanStep _ _ _ hn.1 hn.2, if_true, List.append_nil]
  have hf : (splitOn '/' (absolute (ps ++ [p]))).filter (fun s => decide (s ≠ [])) = ps ++ [p] :=
    partsOf_absolute _ hp
  rw [hf]
  simp only [splitOn, List.foldl_cons, List.foldl_nil, Char.reduceEq, if_false, List.reverse_append,
    List.reverse_cons, List.reverse_nil, List.nil_append, List.cons_append]
  have : cleanStep true (p :: ps.reverse) t!".." = ps.reverse := by
    unfold cleanStep
    have := (hp p (by simp)).2.2.2
    simp [this]
  rw [this, List.reverse_reverse, if_neg (by simp), absolute_eq ps hne]

/-- C48, the part that is false: different identifiers give the same path, and an identifier can
give the path of another resource. -/
theorem c48_id_refuted :
    let l : Locator := { name := plainName [t!"cluster"], owner := 0, isVariable := true }
    let k : Locator := { name := plainName [t!"status"], owner := 1 }
    clientPath t!"/api/clusters" [{ locator := l, id := t!"123/status" }]
      = clientPath t!"/api/clusters" [{ locator := l, id := t!"123" }, { locator := k }] ∧
    clientPath t!"/api/clusters" [{ locator := l, id := [] }] = t!"/api/clusters" ∧
    clientPath t!"/api/clusters" [{ locator := l, id := t!".." }] = t!"/api" ∧
    clientPath t!"/api/clusters" [{ locator := l, id := t!"../users" }] = t!"/api/users" ∧
    clientPath t!"/" [{ locator := l, id := t!".." }] = t!"/" ∧
    clientPath t!"a" [{ locator := l, id := t!"../../.." }] = t!"../.." ∧
    clientPath t!"a" [{ locator := l, id := t!".." }] = t!"." := by
  decide

/-- Different plain identifiers give different paths: the path of a chain of locators determines the
identifiers. -/
theorem c48_distinct (base : List Text) (hne : base ≠ []) (hb : ∀ p ∈ base, PlainSegment p)
    (hops others : List Hop) (hl : hops.map (fun h => h.locator) = others.map fun h => h.locator)
    (hh : ∀ h ∈ hops, PlainSegment (hopPart h)) (ho : ∀ h ∈ others, PlainSegment (hopPart h))
    (h : clientPath (absolute base) hops = clientPath (absolute base) others) :
    hopIds hops = hopIds others := by
  rw [clientPath_absolute hops base hne hb hh, clientPath_absolute others base hne hb ho] at h
  replace h := congrArg partsOf h
  have plain : ∀ hs : List Hop, (∀ h ∈ hs, PlainSegment (hopPart h)) →
      ∀ p ∈ base ++ hs.map hopPart, PlainSegment p := by
    intro hs hhs p hp
    rcases List.mem_append.1 hp with hp | hp
    · exact hb p hp
    · obtain ⟨h, hh', rfl⟩ := List.mem_map.1 hp
      exact hhs h hh'
  rw [partsOf_absolute _ (plain _ hh), partsOf_absolute _ (plain _ ho), List.append_cancel_left_eq] at h
  clear hh ho plain
  induction hops generalizing others with
  | nil =>
    cases others with
    | nil => rfl
    | cons o os => simp at hl
  | cons x xs ih =>
    cases others with
    | nil => simp at hl
    | cons o os =>
      simp only [List.map_cons, List.cons.injEq] at hl h
      have := ih os hl.2 h.2
      unfold hopIds at this ⊢
      rw [List.filter_cons, List.filter_cons]
      have hpart := h.1
      unfold hopPart at hpart
      cases hv : o.locator.isVariable with
      | true =>
        rw [hl.1, hv] at hpart
        simp only [if_true] at hpart
        simp only [hl.1, hv, if_true, List.map_cons, hpart, this]
      | false =>
        simp only [hl.1, hv, Bool.false_eq_true, if_false]
        exact this

/-- C48, agreement with the specification: if the client is created for `/api` and the segment of the
service, which is how it is used, then replacing the variables of the template of the path with the
identifiers gives the path of the request. -/
theorem c48_template_partial (service version : Text) (hops : List Hop) (m : Method)
    (hs : PlainSegment service) (hv : PlainSegment version)
    (hh : ∀ h ∈ hops, PlainSegment (hopPart h)) (hm : ∀ p ∈ methodParts m, PlainSegment p)
    (hl : ∀ h ∈ hops, PlainSegment (Binding.locatorSegment h.locator))
    (ht : ∀ s ∈ [service, version] ++ methodParts m, isTemplateVariable s = false)
    (hc : ∀ h ∈ hops, h.locator.isVariable = false →
      isTemplateVariable (Binding.locatorSegment h.locator) = false) :
    fillTemplate
        (splitOn '/' (OpenApi.methodKey
          (OpenApi.absolutePath service version (hops.map fun h => h.locator)) m))
        (hopIds hops)
      = some (splitOn '/'
          (methodPath (clientPath (versionPath (t!"/api/" ++ service) version) hops) m)) := by
  have hbase : partsOf (t!"/api/" ++ service) = [t!"api", service] := by
    have e : t!"/api/" ++ service = t!"/api" ++ '/' :: service := rfl
    rw [e, partsOf_append, hs.partsOf]; rfl
  have hdots : NoDots (t!"/api/" ++ service) := by
    have e : t!"/api/" ++ service = t!"/api" ++ '/' :: service := rfl
    rw [e, noDots_append]
    exact ⟨by constructor <;> decide, hs.noDots⟩
  rw [c48_path_partial _ version hops m rfl hdots hv hh hm, hbase]
  have hkey : OpenApi.methodKey
      (OpenApi.absolutePath service version (hops.map fun h => h.locator)) m
      = absolute ([t!"api", service, version]
          ++ (hops.map fun h => OpenApi.locatorTemplate h.locator) ++ methodParts m) := by
    unfold OpenApi.methodKey methodParts
    have e : OpenApi.absolutePath service version (hops.map fun h => h.locator)
        = absolute ([t!"api", service, version]
            ++ hops.map fun h => OpenApi.locatorTemplate h.locator) := by
      rw [absolute_eq _ (by simp), OpenApi.absolutePath]
      simp [joinText, Function.comp_def]
    by_cases hz : Binding.methodSegment m = []
    · simp only [hz, if_true, List.append_nil]; exact e
    · rw [if_neg hz, if_neg hz, e, absolute_append _ [_]]
      simp [absolute]
  rw [hkey, splitOn_absolute, splitOn_absolute]
  · have e : [] :: ([t!"api", service, version]
          ++ (hops.map fun h => OpenApi.locatorTemplate h.locator) ++ methodParts m)
        = [[], t!"api", service, version]
          ++ ((hops.map fun h => OpenApi.locatorTemplate h.locator) ++ methodParts m) := by simp
    rw [e, fillTemplate_plain]
    · have := fillTemplate_hops hops (methodParts m) [] hc
      rw [List.append_nil] at this
      rw [this]
      have hfin := fillTemplate_plain (methodParts m) [] []
        fun a ha => ht a (List.mem_append_right _ ha)
      rw [List.append_nil] at hfin
      rw [hfin]
      simp [fillTemplate]
    · intro a ha
      simp only [List.mem_cons, List.not_mem_nil, or_false] at ha
      rcases ha with rfl | rfl | rfl | rfl
      · rfl
      · rfl
      · exact ht _ (by simp)
      · exact ht _ (by simp)
  · intro p hp
    rcases List.mem_append.1 hp with hp | hp
    · rcases List.mem_append.1 hp with hp | hp
      · rcases List.mem_append.1 hp with hp | hp
        · simp only [List.mem_cons, List.not_mem_nil, or_false] at hp
          rcases hp with rfl | rfl
          · decide
          · exact hs.2.1
        · rw [List.mem_singleton.1 hp]; exact hv.2.1
      · obtain ⟨h, hh', rfl⟩ := List.mem_map.1 hp
        exact (hh h hh').2.1
    · exact (hm p hp).2.1
  · intro p hp
    rcases List.mem_append.1 hp with hp | hp
    · rcases List.mem_append.1 hp with hp | hp
      · simp only [List.mem_cons, List.not_mem_nil, or_false] at hp
        rcases hp with rfl | rfl | rfl
        · decide
        · exact hs.2.1
        · exact hv.2.1
      · obtain ⟨h, hh', rfl⟩ := List.mem_map.1 hp
        unfold OpenApi.locatorTemplate
        have hseg := (hl h hh').2.1
        split
        · simp only [List.mem_append, not_or]
          exact ⟨⟨⟨by decide, hseg⟩, by decide⟩, by decide⟩
        · exact hseg
    · exact (hm p hp).2.1

/-- C48, the metadata: the root client uses its own path, which is the one of the template of the
version. -/
theorem c48_metadata (service version : Text) (hs : PlainSegment service)
    (hv : PlainSegment version) :
    metadataPath (versionPath (t!"/api/" ++ service) version)
      = OpenApi.absolutePath service version [] := by
  have hbase : partsOf (t!"/api/" ++ service) = [t!"api", service] := by
    have e : t!"/api/" ++ service = t!"/api" ++ '/' :: service := rfl
    rw [e, partsOf_append, hs.partsOf]; rfl
  have hdots : NoDots (t!"/api/" ++ service) := by
    have e : t!"/api/" ++ service = t!"/api" ++ '/' :: service := rfl
    rw [e, noDots_append]
    exact ⟨by constructor <;> decide, hs.noDots⟩
  rw [metadataPath, versionPath, join_rooted _ _ rfl hdots hv.noDots (by rw [hv.partsOf]; simp),
    hbase, hv.partsOf]
  simp [absolute, OpenApi.absolutePath, joinText]

/-- The segments calculated from names made of letters and digits are plain and don't look like
variables, so the theorems apply to models without annotations. -/
theorem c48_names (n : Name) (hne : n ≠ []) (hw : ∀ w ∈ n, w.text ≠ [] ∧ Alphanumeric w.text) :
    PlainSegment n.snake ∧ isTemplateVariable n.snake = false := by
  have lower : ∀ c : Char, c.isAlphanum = true → c.toLower.isAlphanum = true := by
    intro c h
    simp only [Char.isAlphanum, Char.isAlpha, Char.isUpper, Char.isLower, Char.isDigit,
      Bool.or_eq_true, Bool.and_eq_true, decide_eq_true_eq, Char.toLower] at h ⊢
    split
    · rename_i hu
      left; right
      simp only [ge_iff_le, UInt32.le_iff_toNat_le] at hu h ⊢
      have hu1 := hu.1
      have hu2 := hu.2
      simp only [show 'A'.val.toNat = 65 from rfl, show 'Z'.val.toNat = 90 from rfl,
        show 'a'.val.toNat = 97 from rfl, show 'z'.val.toNat = 122 from rfl] at hu1 hu2 ⊢
      simp only [UInt32.toNat_add, show ('a'.val - 'A'.val).toNat = 32 from rfl]
      omega
    · exact h
  have hchars : ∀ c ∈ n.snake, c.isAlphanum = true ∨ c = '_' := by
    intro c hc
    have hmem : ∀ (ws : List Text), (∀ w ∈ ws, ∀ c ∈ w, c.isAlphanum = true) →
        ∀ c ∈ joinText t!"_" ws, c.isAlphanum = true ∨ c = '_' := by
      intro ws
      induction ws with
      | nil => intro _ c hc; simp [joinText] at hc
      | cons w ws ih =>
        intro h c hc
        cases ws with
        | nil => exact Or.inl (h w List.mem_cons_self c (by simpa [joinText] using hc))
        | cons v vs =>
          rw [joinText_cons _ _ _ (by simp)] at hc
          simp only [List.mem_append, List.mem_singleton] at hc
          rcases hc with (hc | hc) | hc
          · exact Or.inl (h w List.mem_cons_self c hc)
          · exact Or.inr hc
          · exact ih (fun u hu => h u (List.mem_cons_of_mem _ hu)) c hc
    refine hmem _ ?_ c hc
    intro w hw' c hc
    obtain ⟨x, hx, rfl⟩ := List.mem_map.1 hw'
    obtain ⟨d, hd, rfl⟩ := List.mem_map.1 hc
    exact lower d ((hw x hx).2 d hd)
  have hnil : n.snake ≠ [] := by
    cases n with
    | nil => exact absurd rfl hne
    | cons w ws =>
      have := (hw w List.mem_cons_self).1
      unfold Name.snake Name.lowerJoined
      rw [List.map_cons]
      have h2 : toLower w.text ≠ [] := by simpa [toLower] using this
      cases ws with
      | nil => simpa [joinText] using h2
      | cons v vs => rw [joinText_cons _ _ _ (by simp)]; simp [h2]
  have hno : ∀ c : Char, c.isAlphanum = false → c ≠ '_' → c ∉ n.snake := by
    intro c h1 h2 h3
    rcases hchars c h3 with h | h
    · rw [h1] at h; exact absurd h (by simp)
    · exact h2 h
  refine ⟨⟨hnil, hno '/' rfl (by decide), ?_, ?_⟩, ?_⟩
  · intro e; exact hno '.' rfl (by decide) (by rw [e]; simp)
  · intro e; exact hno '.' rfl (by decide) (by rw [e]; simp)
  · unfold isTemplateVariable
    cases hs : n.snake with
    | nil => rfl
    | cons c cs =>
      have : c ≠ '{' := by
        intro e
        exact hno '{' rfl (by decide) (by rw [hs, e]; simp)
      simp [this]

/-! A case that meets the hypotheses: `/api/clusters_mgmt/v1/clusters/123/hibernate`. -/

example :
    methodPath (clientPath (versionPath t!"/api//clusters_mgmt/" t!"v1")
      [ { locator := { name := plainName [t!"clusters"], owner := 0 } },
        { locator := { name := plainName [t!"cluster"], owner := 1, isVariable := true }
          id := t!"123" } ]) { name := plainName [t!"hibernate"] }
      = t!"/api/clusters_mgmt/v1/clusters/123/hibernate" := by decide

example :
    OpenApi.methodKey (OpenApi.absolutePath t!"clusters_mgmt" t!"v1"
      [ { name := plainName [t!"clusters"], owner := 0 },
        { name := plainName [t!"cluster"], owner := 1, isVariable := true } ])
      { name := plainName [t!"hibernate"] }
      = t!"/api/clusters_mgmt/v1/clusters/{cluster_id}/hibernate" := by decide

example : PlainSegment t!"123" ∧ PlainSegment t!"v1" ∧ NoDots t!"/api//clusters_mgmt/" := by
  refine ⟨⟨?_, ?_, ?_, ?_⟩, ⟨?_, ?_, ?_, ?_⟩, ⟨?_, ?_⟩⟩ <;> decide

end Verif
