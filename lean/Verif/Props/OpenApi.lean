import Verif.Props.Binding
import Verif.Lemmas.OpenApiTotal
import Verif.Spec.OpenApiDoc
import Verif.Props.OpenApiBuffer
import Verif.Lemmas.JsonRead

/-!
# The OpenAPI documents (C68)

C68: the document generated for a version is exactly the one that corresponds to the version: the
paths, operations, parameters, bodies and responses of its resources and methods, and the schemas of
its types. The document that corresponds to a version is `document`, in the specification.
-/

namespace Verif

open OpenApi

/-- There is only one way to sort the paths and to remove the repeated ones. -/
theorem c68_entries_unique (v : VersionView) (ps : List (List Locator))
    (a b : List (Text × List Locator)) (ha : PathEntries v ps a) (hb : PathEntries v ps b) :
    a = b := by
  have last : ∀ (e f : Text × List Locator) (x y : List (Text × List Locator)),
      PathEntries v ps x → PathEntries v ps y → e ∈ x → f ∈ y → e.1 = f.1 → e = f := by
    intro e f x y hx hy he hf hk
    obtain ⟨b1, a1, h1, hk1, hl1⟩ := hx.last e he
    obtain ⟨b2, a2, h2, hk2, hl2⟩ := hy.last f hf
    have : b1 ++ e.2 :: a1 = b2 ++ f.2 :: a2 := h1.symm.trans h2
    refine Prod.ext hk ?_
    rcases List.append_eq_append_iff.1 this with ⟨m, hm1, hm2⟩ | ⟨m, hm1, hm2⟩
    · cases m with
      | nil => simp at hm2; exact hm2.1
      | cons z zs =>
        simp only [List.cons_append, List.cons.injEq] at hm2
        exact absurd (by rw [← hk2]; exact hk.symm) (hl1 f.2 (by rw [hm2.2]; simp))
    · cases m with
      | nil => simp at hm2; exact hm2.1.symm
      | cons z zs =>
        simp only [List.cons_append, List.cons.injEq] at hm2
        exact absurd (by rw [← hk1]; exact hk) (hl2 e.2 (by rw [hm2.2]; simp))
  have sub : ∀ (x y : List (Text × List Locator)), PathEntries v ps x → PathEntries v ps y →
      ∀ e ∈ x, e ∈ y := by
    intro x y hx hy e he
    obtain ⟨b1, a1, h1, hk1, _⟩ := hx.last e he
    obtain ⟨f, hf, hkf⟩ := hy.complete e.2 (by rw [h1]; simp)
    rw [last e f x y hx hy he hf (by rw [hk1, hkf])]
    exact hf
  have nodup : ∀ (x : List (Text × List Locator)), PathEntries v ps x → x.Nodup := by
    intro x hx
    refine hx.sorted.imp ?_
    intro p q hpq e
    rw [e] at hpq
    exact List.lt_irrefl _ hpq
  have perm : a.Perm b := by
    rw [List.perm_ext_iff_of_nodup (nodup a ha) (nodup b hb)]
    exact fun e => ⟨sub a b ha hb e, sub b a hb ha e⟩
  exact perm.eq_of_pairwise (fun p q _ _ h1 h2 => absurd (text_lt_trans h1 h2) (List.lt_irrefl _))
    ha.sorted hb.sorted

/-- C68. Whenever the generator writes something, no error was reported before and what it writes is
the document that corresponds to the version. -/
theorem c68_document (v : VersionView) (fuel errors : Nat) (ts : List Tok)
    (h : generateSpec v fuel errors = .done (.written ts)) :
    errors = 0 ∧ ∃ root ps entries schema, v.root = some root ∧
      paths v.graph fuel v.root = .done ps ∧ PathEntries v ps entries ∧
      (∀ id, Uses v root (entries.map Prod.snd) id → SchemaRef v id (schema id)) ∧
      ts = (document schema v root entries).tokens := by
  obtain ⟨calls, hcalls, h⟩ := bind_done h
  cases hrun : ({ errors := errors } : Buffer).run calls with
  | none => simp [hrun] at h
  | some b =>
    simp only [hrun] at h
    cases hw : b.write with
    | none => simp [hw] at h
    | some out =>
      simp only [hw, Run.done.injEq, SpecResult.written.injEq] at h
      subst h
      have he := run_errors calls hrun
      have hzero : b.errors = 0 := by
        unfold Buffer.write at hw
        split at hw
        · simp at hw
        · omega
      rw [hzero] at he
      obtain ⟨root, ps, hroot, hps, hd, h1, h2, h3⟩ := generateSpecSource_describes hcalls (by omega)
      refine ⟨by simp only at he; omega, root, ps, entriesOf v ps, schemaFn v fuel, hroot, hps,
        entriesOf_spec v ps, ?_, ?_⟩
      · intro id hu
        cases hu with
        | root hm hp hio => exact h1 _ hm _ hp hio
        | resource hpath hm hp hio =>
          obtain ⟨e, hee, rfl⟩ := List.mem_map.1 hpath
          exact h2 e hee _ hm _ hp hio
        | property ht hk ha => exact h3 _ ht hk _ ha
      · obtain ⟨b', hb', ho, _⟩ := c53_buffer _ _ hd errors
        rw [hrun] at hb'
        simp only [Option.some.injEq] at hb'
        subst hb'
        unfold Buffer.write at hw
        split at hw
        · simp at hw
        · simp only [Option.some.injEq] at hw
          rw [← hw, ho]

/-- What is written determines the document. -/
theorem c68_tokens_determine (a b : Json) (h : a.tokens = b.tokens) : a = b := by
  have ha := GoJson.parseVal_tokens a a.tokens.length [] (Nat.le_refl _)
  have hb := GoJson.parseVal_tokens b b.tokens.length [] (Nat.le_refl _)
  rw [h, hb] at ha
  simp only [Option.some.injEq, Prod.mk.injEq, and_true] at ha
  exact ha.symm

/-- C68. The document is written if and only if the version has a root, the paths can be listed, and
all the types that have to be described can be described. More fuel doesn't change that. -/
theorem c68_written_iff (v : VersionView) :
    (∃ fuel ts, generateSpec v fuel 0 = .done (.written ts)) ↔
      ∃ root fuel ps entries, v.root = some root ∧ paths v.graph fuel v.root = .done ps ∧
        PathEntries v ps entries ∧
        ∀ id, Uses v root (entries.map Prod.snd) id → ∃ members, SchemaRef v id members := by
  constructor
  · rintro ⟨fuel, ts, h⟩
    obtain ⟨_, root, ps, entries, schema, hroot, hps, he, hs, _⟩ := c68_document v fuel 0 ts h
    exact ⟨root, fuel, ps, entries, hroot, hps, he, fun id hu => ⟨_, hs id hu⟩⟩
  · rintro ⟨root, fuel, ps, entries, hroot, hps, he, hs⟩
    obtain rfl := c68_entries_unique v ps entries (entriesOf v ps) he (entriesOf_spec v ps)
    obtain ⟨n, hn⟩ := generateSpecSource_eventually hroot hps
      (fun m hm p hp hio => hs _ (.root hm hp hio))
      (fun e hee m hm p hp hio => hs _ (.resource (List.mem_map.2 ⟨e, hee, rfl⟩) hm hp hio))
      (fun t ht hk a ha => hs _ (.property ht hk ha))
    obtain ⟨calls, hcalls, hr⟩ := hn n (Nat.le_refl _)
    obtain ⟨_, _, _, _, hd, _⟩ := generateSpecSource_describes hcalls hr
    obtain ⟨b, hb, ho, _⟩ := c53_buffer _ _ hd 0
    have hz : b.errors = 0 := by
      have := run_errors calls hb
      simp only at this
      omega
    refine ⟨n, b.out, ?_⟩
    simp only at hcalls
    simp only [generateSpec, hcalls, Run.bind, hb, Buffer.write, hz]
    rfl

/-- Nothing is written if errors were reported before. -/
theorem c68_errors (v : VersionView) (fuel errors : Nat) (h : 0 < errors) (ts : List Tok) :
    generateSpec v fuel errors ≠ .done (.written ts) := by
  intro hw
  have := (c68_document v fuel errors ts hw).1
  omega

/-- If errors were reported before, and nothing else prevents it, the generator fails. -/
theorem c68_failed (v : VersionView) (fuel errors : Nat) (h : 0 < errors) (ts : List Tok)
    (hw : generateSpec v fuel 0 = .done (.written ts)) : generateSpec v fuel errors = .done .failed := by
  obtain ⟨calls, hcalls, hw⟩ := bind_done hw
  cases hrun : ({ errors := 0 } : Buffer).run calls with
  | none => simp [hrun] at hw
  | some b =>
    simp only [hrun] at hw
    cases hb : b.write with
    | none => simp [hb] at hw
    | some out =>
      have he := run_errors calls hrun
      have hzero : b.errors = 0 := by
        unfold Buffer.write at hb
        split at hb
        · simp at hb
        · omega
      rw [hzero] at he
      obtain ⟨_, _, _, _, hd, _⟩ := generateSpecSource_describes hcalls (by omega)
      obtain ⟨b', hb', _⟩ := c53_buffer _ _ hd errors
      have he' := run_errors calls hb'
      simp only at he'
      have : b'.errors > 0 := by omega
      simp [generateSpec, hcalls, Run.bind, hb', Buffer.write, this]

/-- The types of the document are those that the version has, sorted by name. -/
theorem c68_types (v : VersionView) :
    IsSortOf TypeCell.name v.types ((v.tables v.id).filterMap fun e => v.heap[e.2]?) := by
  have := sortByName_spec TypeCell.name ((v.tables v.id).values.filterMap fun id => v.heap[id]?)
  unfold VersionView.types
  simpa [GoMap.values, List.filterMap_map, Function.comp_def] using this

/-- The segments of the paths for the service and the version are those of their annotations, or the
names in snake case if there are no annotations. -/
theorem c68_segments (v : VersionView) :
    (∀ text, text ≠ [] → NamedBy v.serviceAnnotations t!"http" text → v.serviceSegment = text) ∧
    (NotNamedBy v.serviceAnnotations t!"http" → v.serviceSegment = snakeCase v.service) ∧
    (∀ text, text ≠ [] → NamedBy v.annotations t!"http" text → v.versionSegment = text) ∧
    (NotNamedBy v.annotations t!"http" → v.versionSegment = snakeCase v.name) :=
  ⟨fun text hne h => ((c28_annotation_wins _ text hne).2 h).2.1 v.service,
    fun h => ((c28_default_is_snake _).2 h).1 v.service,
    fun text hne h => ((c28_annotation_wins _ text hne).2 h).2.1 v.name,
    fun h => ((c28_default_is_snake _).2 h).1 v.name⟩

/-! A version that meets the hypotheses: a collection of clusters, that can be listed and that has an
action, and clusters that can be retrieved. -/

/-- The types of the example: those of the language, a class with an attribute of basic type, a list
of references to itself and an enumerated type. -/
def exApiTypes : TypeTable :=
  let t := TypeTable.newVersion [] 0
  let (t, state) := t.newType
    { name := plainName [t!"state"]
      kind := .enum
      values := [{ name := plainName [t!"ready"] }, { name := plainName [t!"failed"] }] }
  let (t, cluster) := t.newType
    { name := plainName [t!"cluster"]
      kind := .class
      doc := t!"A cluster."
      attributes :=
        [ { name := plainName [t!"name"], typ := 8 },
          { name := plainName [t!"state"], typ := state },
          { name := plainName [t!"peers"], typ := 16, link := true } ] }
  let (t, _) := t.newType
    { name := plainName [t!"cluster", t!"list"]
      kind := .list
      element := some cluster }
  t

/-- The resources of the example. -/
def exApiGraph : Graph :=
  [ { name := plainName [t!"root"],
      locators := [{ name := plainName [t!"clusters"], owner := 0, target := some 1 }] },
    { name := plainName [t!"clusters"],
      methods :=
        [ { name := Nom.list, parameters :=
              [ { name := Nom.page, typ := { id := 2, kind := .scalar }, isIn := true, isOut := true },
                { name := Nom.items, typ := { id := 16, kind := .list }, isOut := true } ] },
          { name := plainName [t!"register"], parameters :=
              [{ name := plainName [t!"token"], typ := { id := 8, kind := .scalar }, isIn := true }] } ],
      locators := [{ name := plainName [t!"cluster"], owner := 1, target := some 2,
                     isVariable := true }] },
    { name := plainName [t!"cluster"],
      methods := [{ name := Nom.get, parameters :=
        [{ name := Nom.body, typ := { id := 15, kind := .class }, isOut := true }] }] } ]

/-- The version of the example. -/
def exApi : VersionView where
  heap := exApiTypes.heap
  tables := fun _ => exApiTypes.types
  id := 0
  name := plainName [t!"v1"]
  service := plainName [t!"clusters", t!"mgmt"]
  graph := exApiGraph
  root := some 0

example : ∃ ts, generateSpec exApi 10 0 = .done (.written ts) := ⟨_, rfl⟩

end Verif
