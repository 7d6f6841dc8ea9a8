import Verif.Lemmas.Outcome
import Verif.Props.Files
import Verif.Lemmas.ErrorNames

/-!
# Property C85: the models for which Go code is generated
-/

namespace Verif.Outcome

open GoRef (Typ Attr)

/-! ## Which files are reported -/

/-- The file of a struct or class is reported exactly if it has too many attributes or one of them has
a type that can't be expressed. -/
theorem c85_type_file (base : Text) (t : TypeInfo) (d : GoRef.Decl) (h : t.typ = .struct d) :
    typeReports base t = false ↔ Fits t ∧ ∀ a ∈ t.attributes, AttrOk a := by
  unfold typeReports
  rw [h]
  simp only [Bool.or_eq_false_iff, bitmap_iff, List.any_eq_false, Bool.not_eq_true, attributeType_iff]

/-- The file of an enumerated type is never reported. -/
theorem c85_enum_file (base : Text) (t : TypeInfo) (d : GoRef.Decl) (h : t.typ = .enum d) :
    typeReports base t = false := by
  unfold typeReports
  rw [h]
  exact enum_wrong base d

/-- The file of the builder of a struct or class. -/
theorem c85_builder_file (base : Text) (t : TypeInfo) (d : GoRef.Decl) (h : t.typ = .struct d) :
    builderReports base t = false ↔ Fits t ∧ ∀ a ∈ t.attributes, BuilderOk a := by
  unfold builderReports
  rw [h]
  simp only [Bool.or_eq_false_iff, bitmap_iff, List.any_eq_false, Bool.not_eq_true, attributeBuilder_iff]
  simp [builderNameReports]

/-- The file of the readers and writers of a struct or class. -/
theorem c85_json_file (base : Text) (t : TypeInfo) (d : GoRef.Decl) (h : t.typ = .struct d) :
    typeJsonReports base t = false ↔
      ∀ a ∈ t.attributes, Readable a.typ ∧ (a.link = true → a.typ.isList = true → Collection a.typ) := by
  unfold typeJsonReports
  rw [h]
  have hs : wrong (GoRef.structReference base (.struct d)) = false := by
    simp [wrong, GoRef.structReference, GoRef.package]
  simp only [hs, Bool.false_or, List.any_eq_false, Bool.not_eq_true]
  constructor
  · intro h a ha
    have := h a ha
    cases hl : a.link with
    | false =>
      rw [hl, read_iff] at this
      exact ⟨this, by simp⟩
    | true =>
      rw [hl, readLink_iff] at this
      exact ⟨this.1, fun _ => this.2⟩
  · intro h a ha
    have := h a ha
    cases hl : a.link with
    | false => exact (read_iff _ _).mpr this.1
    | true => exact (readLink_iff _ _).mpr ⟨this.1, this.2 hl⟩

/-- The files of the builders of lists of structs, and of the readers and writers of lists of simple
types, are never reported. -/
theorem c85_list_files (base : Text) (t : TypeInfo) (d : GoRef.Decl) (e : Typ) (h : t.typ = .list d e)
    (hs : Simple e) :
    typeJsonReports base t = false ∧ (e.isStruct = true → builderReports base t = false) := by
  constructor
  · unfold typeJsonReports
    rw [h]
    simp only [Bool.or_eq_false_iff, wrong_false]
    exact ⟨⟨(struct_errors_list base d e).mpr (not_map_simple hs),
      (value_errors base _).mpr (.list d hs)⟩, read_simple hs⟩
  · intro he
    unfold builderReports
    rw [h]
    cases e <;> first | rfl | cases he

/-- What isn't reported when the types are generated isn't reported later, when the builders and the
readers and writers are generated. -/
theorem c85_types_first (base : Text) (t : TypeInfo) (d : GoRef.Decl) (h : t.typ = .struct d)
    (ht : typeReports base t = false) :
    builderReports base t = false ∧ typeJsonReports base t = false := by
  have ⟨h1, h2⟩ := (c85_type_file base t d h).mp ht
  constructor
  · rw [c85_builder_file base t d h]
    exact ⟨h1, fun a ha => (attributeBuilder_iff base a).mp (attributeBuilder_ok (h2 a ha))⟩
  · rw [c85_json_file base t d h]
    intro a ha
    have := read_ok (base := base) (h2 a ha)
    cases hl : a.link with
    | false =>
      rw [hl, read_iff] at this
      exact ⟨this, by simp⟩
    | true =>
      rw [hl, readLink_iff] at this
      exact ⟨this.1, fun _ => this.2⟩

/-- The reader and writer of the bodies of a method, for each kind of method. -/
theorem c85_method_json (base : Text) (api : Api) (m : Method) :
    methodJsonReports base api.typeOf m = false ↔
      ((m.name ∈ [Nom.add, Nom.get, Nom.update, Nom.asyncUpdate] → ∃ p ∈ m.parameters, p.name = Nom.body) ∧
      (m.name = Nom.list → PageOk api m [Nom.page, Nom.size, Nom.total, Nom.items]) ∧
      (m.name = Nom.search → PageOk api m [Nom.page, Nom.size, Nom.total, Nom.body, Nom.items]) ∧
      (m.name ∉ [Nom.add, Nom.delete, Nom.asyncDelete, Nom.get, Nom.list, Nom.post, Nom.search,
          Nom.update, Nom.asyncUpdate] →
        ∀ p ∈ m.parameters, p.isOut = true → Readable (api.typeOf p.typ.id))) := by
  have hbody : (m.getParameter Nom.body).isNone = false ↔ ∃ p ∈ m.parameters, p.name = Nom.body := by
    cases h : m.getParameter Nom.body with
    | none => simpa using (getParameter_none m _).mp h
    | some p =>
      obtain ⟨as, bs, h1, h2, -⟩ := (getParameter_some m _ p).mp h
      simp only [Option.isNone_some, true_iff]
      exact ⟨p, by simp [h1], h2⟩
  have hout : (Binding.responseParameters m).any (readParameterReports base api.typeOf) = false ↔
      ∀ p ∈ m.parameters, p.isOut = true → Readable (api.typeOf p.typ.id) := by
    simp only [Binding.responseParameters, List.any_eq_false, List.mem_filter, Bool.not_eq_true,
      readParameterReports, read_iff, and_imp]
  unfold methodJsonReports Method.isAction
  simp only [Method.isAdd, Method.isDelete, Method.isAsyncDelete, Method.isGet, Method.isList,
    Method.isPost, Method.isSearch, Method.isUpdate, Method.isAsyncUpdate, Bool.or_eq_true, named_iff]
  by_cases h1 : m.name = Nom.add
  · simp [h1, hbody, show Nom.add ≠ Nom.list by decide, show Nom.add ≠ Nom.search by decide]
  by_cases h2 : m.name = Nom.delete
  · simp [h2, show ¬ Nom.delete = Nom.add by decide, show ¬ Nom.delete = Nom.list by decide,
      show ¬ Nom.delete = Nom.get by decide, show ¬ Nom.delete = Nom.update by decide,
      show ¬ Nom.delete = Nom.asyncUpdate by decide, show ¬ Nom.delete = Nom.search by decide]
  by_cases h3 : m.name = Nom.asyncDelete
  · simp [h3, show ¬ Nom.asyncDelete = Nom.add by decide, show ¬ Nom.asyncDelete = Nom.list by decide,
      show ¬ Nom.asyncDelete = Nom.get by decide, show ¬ Nom.asyncDelete = Nom.update by decide,
      show ¬ Nom.asyncDelete = Nom.asyncUpdate by decide, show ¬ Nom.asyncDelete = Nom.search by decide]
  by_cases h4 : m.name = Nom.get
  · simp [h4, hbody, show ¬ Nom.get = Nom.add by decide, show ¬ Nom.get = Nom.delete by decide,
      show ¬ Nom.get = Nom.asyncDelete by decide, show ¬ Nom.get = Nom.list by decide,
      show ¬ Nom.get = Nom.search by decide]
  by_cases h5 : m.name = Nom.list
  · simp [h5, page_iff, show ¬ Nom.list = Nom.add by decide, show ¬ Nom.list = Nom.delete by decide,
      show ¬ Nom.list = Nom.asyncDelete by decide, show ¬ Nom.list = Nom.get by decide,
      show ¬ Nom.list = Nom.search by decide, show ¬ Nom.list = Nom.update by decide,
      show ¬ Nom.list = Nom.asyncUpdate by decide]
  by_cases h6 : m.name = Nom.post
  · simp [h6, show ¬ Nom.post = Nom.add by decide, show ¬ Nom.post = Nom.delete by decide,
      show ¬ Nom.post = Nom.asyncDelete by decide, show ¬ Nom.post = Nom.get by decide,
      show ¬ Nom.post = Nom.list by decide, show ¬ Nom.post = Nom.search by decide,
      show ¬ Nom.post = Nom.update by decide, show ¬ Nom.post = Nom.asyncUpdate by decide]
  by_cases h7 : m.name = Nom.search
  · simp [h7, page_iff, show ¬ Nom.search = Nom.add by decide, show ¬ Nom.search = Nom.delete by decide,
      show ¬ Nom.search = Nom.asyncDelete by decide, show ¬ Nom.search = Nom.get by decide,
      show ¬ Nom.search = Nom.list by decide, show ¬ Nom.search = Nom.post by decide,
      show ¬ Nom.search = Nom.update by decide, show ¬ Nom.search = Nom.asyncUpdate by decide]
  by_cases h8 : m.name = Nom.update
  · simp [h8, hbody, show ¬ Nom.update = Nom.add by decide, show ¬ Nom.update = Nom.delete by decide,
      show ¬ Nom.update = Nom.asyncDelete by decide, show ¬ Nom.update = Nom.get by decide,
      show ¬ Nom.update = Nom.list by decide, show ¬ Nom.update = Nom.post by decide,
      show ¬ Nom.update = Nom.search by decide]
  by_cases h9 : m.name = Nom.asyncUpdate
  · simp [h9, hbody, show ¬ Nom.asyncUpdate = Nom.add by decide,
      show ¬ Nom.asyncUpdate = Nom.delete by decide,
      show ¬ Nom.asyncUpdate = Nom.asyncDelete by decide, show ¬ Nom.asyncUpdate = Nom.get by decide,
      show ¬ Nom.asyncUpdate = Nom.list by decide, show ¬ Nom.asyncUpdate = Nom.post by decide,
      show ¬ Nom.asyncUpdate = Nom.search by decide]
  simp [h1, h2, h3, h4, h5, h6, h7, h8, h9, hout]

/-- The first `Get` method of the resource, if there is one, has output parameters. -/
def GetHasOutput (r : Resource) : Prop :=
  ∀ before m after, r.methods = before ++ m :: after → m.name = Nom.get →
    (∀ q ∈ before, q.name ≠ Nom.get) → ∃ p ∈ m.parameters, p.isOut = true

theorem findMethod_iff (r : Resource) (n : Name) (m : Method) :
    findMethod r n = some m ↔ ∃ before after, r.methods = before ++ m :: after ∧ m.name = n ∧
      ∀ q ∈ before, q.name ≠ n := by
  unfold findMethod
  simp only [List.find?_eq_some_iff_append, named_iff, Bool.not_eq_true', bool_eq_false_iff_not]
  constructor
  · rintro ⟨h1, as, bs, h2, h3⟩; exact ⟨as, bs, h2, h1, h3⟩
  · rintro ⟨as, bs, h2, h1, h3⟩; exact ⟨h1, as, bs, h2, h3⟩

/-- Generating the client of a resource panics exactly if its `Get` method has no output parameters.
It reports nothing exactly if, besides, all the locators have targets and all the parameters of all the
methods have types that can be expressed. -/
theorem c85_client_file (base : Text) (api : Api) (r : Resource) :
    (clientReports base api.typeOf r = .panic ↔ ¬ GetHasOutput r) ∧
    (clientReports base api.typeOf r = .done false ↔
      GetHasOutput r ∧ (∀ l ∈ r.locators, l.target ≠ none) ∧
      ∀ m ∈ r.methods, ∀ p ∈ m.parameters, p.isIn = true ∨ p.isOut = true → ParamOk api m p) := by
  have hloc : (r.locators.any fun l => l.target.isNone) = false ↔ ∀ l ∈ r.locators, l.target ≠ none := by
    simp only [List.any_eq_false, Option.isNone_iff_eq_none, ne_eq]
  have hmeth : (r.methods.any fun m => requestReports base api.typeOf m ||
      responseReports base api.typeOf m) = false ↔
      ∀ m ∈ r.methods, ∀ p ∈ m.parameters, p.isIn = true ∨ p.isOut = true → ParamOk api m p := by
    simp only [List.any_eq_false, Bool.not_eq_true, Bool.or_eq_false_iff, request_iff, response_iff]
    constructor
    · rintro h m hm p hp (hi | ho)
      · exact (h m hm).1 p hp hi
      · exact (h m hm).2 p hp ho
    · intro h m hm
      exact ⟨fun p hp hi => h m hm p hp (.inl hi), fun p hp ho => h m hm p hp (.inr ho)⟩
  unfold clientReports
  cases hf : findMethod r Nom.get with
  | none =>
    have hg : GetHasOutput r := by
      intro as m bs h1 h2 h3
      rw [(findMethod_iff r _ m).mpr ⟨as, bs, h1, h2, h3⟩] at hf
      cases hf
    dsimp only
    refine ⟨by simp [hg], ?_⟩
    rw [Run.done.injEq, Bool.or_eq_false_iff, hloc, hmeth]
    exact ⟨fun h => ⟨hg, h⟩, fun h => h.2⟩
  | some m =>
    obtain ⟨as, bs, h1, h2, h3⟩ := (findMethod_iff r _ m).mp hf
    have hg : GetHasOutput r ↔ Binding.responseBodyParameters m ≠ [] := by
      unfold Binding.responseBodyParameters
      rw [Ne, List.filter_eq_nil_iff]
      constructor
      · intro h hn
        obtain ⟨p, hp, ho⟩ := h as m bs h1 h2 h3
        exact hn p hp ho
      · intro h as' m' bs' h1' h2' h3'
        have := (findMethod_iff r _ m').mpr ⟨as', bs', h1', h2', h3'⟩
        rw [hf] at this
        cases this
        simpa using h
    dsimp only
    rw [hg]
    cases hr : Binding.responseBodyParameters m with
    | nil => simp
    | cons p ps =>
      refine ⟨by simp, ?_⟩
      rw [Run.done.injEq, Bool.or_eq_false_iff, Bool.or_eq_false_iff, hloc, hmeth]
      simp only [ne_eq, reduceCtorEq, not_false_eq_true, true_and]
      constructor
      · rintro ⟨⟨a, -⟩, b⟩; exact ⟨a, b⟩
      · rintro ⟨a, b⟩
        refine ⟨⟨a, ?_⟩, b⟩
        have hk := b m (by simp [h1])
        have hreq := (request_iff base api m).mpr fun p hp hi => hk p hp (.inl hi)
        have hres := (response_iff base api m).mpr fun p hp ho => hk p hp (.inr ho)
        unfold requestReports at hreq
        unfold responseReports at hres
        unfold pollReports
        simp only [Bool.or_eq_false_iff, List.any_eq_false, Bool.not_eq_true] at hreq hres ⊢
        exact ⟨fun p hp => (hreq p hp).2, fun p hp => (hres p hp).2⟩

/-! ## Models accepted by the reader -/

/-- The methods of the resources of a checked model follow the rules. -/
theorem checked_methods {api : Api} (hc : Checked api) {s : ServiceInfo} {v : VersionInfo} {r : Resource}
    (h : HasResourceInfo api s v r) :
    ∀ m ∈ r.methods, Accepted (Check.checkMethod v.builtins m) := by
  obtain ⟨fuel, messages, h1, h2⟩ := hc
  obtain ⟨⟨hs, hv⟩, id, hid, hg⟩ := h
  have hmem : ({ builtins := v.builtins, root := v.root, resources := v.resources } : Check.VersionView) ∈
      api.checkViews := by
    unfold Api.checkViews
    exact List.mem_flatMap.mpr ⟨s, hs, List.mem_map.mpr ⟨v, hv, rfl⟩⟩
  obtain ⟨ms, h3, h4⟩ := (c62_model_accepted_iff _ _ _ _ h1).mp h2 _ hmem
  unfold Check.checkVersion at h3
  obtain ⟨loops, -, h5⟩ := Run.bind_done h3
  cases h5
  rw [accepted_append, accepted_append, accepted_flatMap] at h4
  have := h4.1.2 id hid
  dsimp only at this
  rw [hg] at this
  intro m hm
  exact (accepted_flatMap _ _).mp this m hm

/-- The root of a checked version isn't nil. -/
theorem checked_root {api : Api} (hc : Checked api) {s : ServiceInfo} {v : VersionInfo}
    (h : HasVersionInfo api s v) :
    ∃ root fuel, v.root = some root ∧ checkLocatorLoops api.graph fuel (some root) = .done [] := by
  obtain ⟨fuel, messages, h1, h2⟩ := hc
  obtain ⟨hs, hv⟩ := h
  have hmem : ({ builtins := v.builtins, root := v.root, resources := v.resources } : Check.VersionView) ∈
      api.checkViews := by
    unfold Api.checkViews
    exact List.mem_flatMap.mpr ⟨s, hs, List.mem_map.mpr ⟨v, hv, rfl⟩⟩
  obtain ⟨ms, h3, h4⟩ := (c62_model_accepted_iff _ _ _ _ h1).mp h2 _ hmem
  unfold Check.checkVersion at h3
  dsimp only at h3
  obtain ⟨loops, h6, h5⟩ := Run.bind_done h3
  cases h5
  cases hr : v.root with
  | none => rw [hr] at h6; cases h6
  | some root =>
    rw [accepted_append] at h4
    refine ⟨root, fuel, rfl, ?_⟩
    rw [hr] at h6
    rw [h6]
    cases loops with
    | nil => rfl
    | cons l ls => exact absurd (by simp) (h4.2 (.loop l))

theorem accepted_get_output {b : Builtins} (hb : b.Present) {m : Method} (hm : m.name = Nom.get)
    (h : Accepted (Check.checkMethod b m)) : ∃ p ∈ m.parameters, p.isOut = true ∧ p.name = Nom.body := by
  have hr := ((c13_get_accepted_iff b hb m hm).mp h).1
  obtain ⟨as, p, bs, h1, h2, -⟩ := hr.one
  have hp : p ∈ m.parameters := by simp [h1]
  obtain ⟨h3, h4⟩ := hr.body p hp h2
  exact ⟨p, hp, h3.2, h4⟩

theorem accepted_body {b : Builtins} (hb : b.Present) {m : Method}
    (hm : m.name ∈ [Nom.add, Nom.get, Nom.update, Nom.asyncUpdate])
    (h : Accepted (Check.checkMethod b m)) : ∃ p ∈ m.parameters, p.name = Nom.body := by
  simp only [List.mem_cons, List.not_mem_nil, or_false] at hm
  rcases hm with hm | hm | hm
  · have hr := ((c11_add_accepted_iff b hb m hm).mp h).1
    obtain ⟨as, p, bs, h1, h2, -⟩ := hr.one
    have hp : p ∈ m.parameters := by simp [h1]
    exact ⟨p, hp, (hr.body p hp h2).2⟩
  · obtain ⟨p, hp, -, hn⟩ := accepted_get_output hb hm h
    exact ⟨p, hp, hn⟩
  · have hr := ((c16_update_accepted_iff b hb m hm).mp h).1
    obtain ⟨as, p, bs, h1, h2, -⟩ := hr.one
    have hp : p ∈ m.parameters := by simp [h1]
    exact ⟨p, hp, (hr.body p hp h2).2⟩

theorem accepted_items {b : Builtins} (hb : b.Present) {m : Method}
    (hm : m.name = Nom.list ∨ m.name = Nom.search)
    (h : Accepted (Check.checkMethod b m)) : ∃ p ∈ m.parameters, p.name = Nom.items := by
  rcases hm with hm | hm
  · have hr := ((c14_list_accepted_iff b hb m hm).mp h).1
    obtain ⟨as, p, bs, h1, h2, -⟩ := hr.one
    have hp : p ∈ m.parameters := by simp [h1]
    exact ⟨p, hp, (hr.items p hp h2).2⟩
  · have hr := ((c15_search_accepted_iff b hb m hm).mp h).1
    obtain ⟨as, p, bs, h1, h2, -⟩ := hr.oneItems
    have hp : p ∈ m.parameters := by simp [h1]
    exact ⟨p, hp, (hr.items p hp h2).2⟩

theorem flat_readable {t : Typ} (h : Flat t) : Readable t := by
  rintro d e rfl
  exact (flat_iff _).mp h

theorem collection_readable {t : Typ} (h : Collection t) : Readable t := by
  rintro d e rfl
  cases h

theorem paramOk_readable {api : Api} {m : Method} {p : Parameter} (h : ParamOk api m p) :
    Readable (api.typeOf p.typ.id) := by
  by_cases hi : IsItemsOf m p
  · exact collection_readable (h.1 hi)
  · exact flat_readable (h.2 hi)

theorem exists_last {m : Method} {n : Name} (h : ∃ p ∈ m.parameters, p.name = n) :
    ∃ p, IsLast m n p := by
  cases hl : GoJson.lastNamed m n with
  | none =>
    obtain ⟨p, hp, rfl⟩ := h
    have := (GoJson.lastWhere_spec _ m.parameters).2 hl p hp
    rw [(equals_names _ _).mpr rfl] at this
    cases this
  | some p => exact ⟨p, (lastNamed_iff m n p).mp hl⟩

theorem isLast_mem {m : Method} {n : Name} {p : Parameter} (h : IsLast m n p) :
    p ∈ m.parameters ∧ p.name = n := by
  obtain ⟨as, bs, h1, h2, -⟩ := h
  exact ⟨by simp [h1], h2⟩

theorem accepted_json {base : Text} {api : Api} {b : Builtins} (hb : b.Present) {m : Method}
    (h : Accepted (Check.checkMethod b m)) (hp : ∀ p ∈ m.parameters, ParamOk api m p) :
    methodJsonReports base api.typeOf m = false := by
  have hpage : ∀ special, m.name = Nom.list ∨ m.name = Nom.search → PageOk api m special := by
    intro special hm
    refine ⟨fun p hl => paramOk_readable (hp p (isLast_mem hl).1),
      fun p hl => paramOk_readable (hp p (isLast_mem hl).1),
      fun p hl => paramOk_readable (hp p (isLast_mem hl).1),
      fun p hm _ _ => paramOk_readable (hp p hm), ?_⟩
    obtain ⟨p, hl⟩ := exists_last (accepted_items hb hm h)
    exact ⟨p, hl, .inl ((hp p (isLast_mem hl).1).1 ⟨hm, (isLast_mem hl).2⟩)⟩
  rw [c85_method_json]
  exact ⟨fun hm => accepted_body hb hm h, fun hm => hpage _ (.inl hm), fun hm => hpage _ (.inr hm),
    fun _ p hm _ => paramOk_readable (hp p hm)⟩

/-- The generation of Go code never crashes for a model that has been accepted by the reader: the client
of each resource, the tree of paths of the metrics, and the paths of the specification of each version
are calculated in finite time. -/
theorem c85_no_crash (base : Text) (api : Api) (hr : FromReader api) (hc : Checked api) :
    (∀ s v r, HasResourceInfo api s v r → ∃ reported, clientReports base api.typeOf r = .done reported) ∧
    (∀ s v, HasVersionInfo api s v →
      (∃ tree, resourceBranch api.graph (api.graph.length + 1) v.root = .done tree) ∧
      ∃ results n, ∀ m, n ≤ m → paths api.graph m v.root = .done results) := by
  constructor
  · intro s v r h
    have hg : GetHasOutput r := by
      intro as m bs h1 h2 _
      obtain ⟨p, hp, ho, -⟩ := accepted_get_output (hr.builtins s v h.1) h2
        (checked_methods hc h m (by simp [h1]))
      exact ⟨p, hp, ho⟩
    have hp := (c85_client_file base api r).1
    cases hcl : clientReports base api.typeOf r with
    | done b => exact ⟨b, rfl⟩
    | panic => exact absurd hg (hp.mp hcl)
    | outOfFuel =>
      unfold clientReports at hcl
      dsimp only at hcl
      split at hcl
      · cases hcl
      · split at hcl <;> cases hcl
  · intro s v h
    obtain ⟨root, fuel, h1, h2⟩ := checked_root hc h
    rw [h1]
    obtain ⟨h3, h4⟩ := c10_accepted_finite hr.graph root fuel h2
    exact ⟨h4, h3⟩

/-! ## The result of the generation -/

theorem nodup_map_inj {α β : Type} {f : α → β} {l : List α} (h : (l.map f).Nodup) {a b : α}
    (ha : a ∈ l) (hb : b ∈ l) (e : f a = f b) : a = b := by
  induction l with
  | nil => cases ha
  | cons x xs ih =>
    rw [List.map_cons, List.nodup_cons] at h
    rcases List.mem_cons.mp ha with rfl | ha' <;> rcases List.mem_cons.mp hb with rfl | hb'
    · rfl
    · exact absurd (e ▸ List.mem_map_of_mem hb') h.1
    · exact absurd (e ▸ List.mem_map_of_mem ha') h.1
    · exact ih h.2 ha' hb'

theorem mem_typesNamed {api : Api} {s v n : Name} {t : TypeInfo} :
    t ∈ api.typesNamed s v n ↔
      ∃ si vi, HasVersionInfo api si vi ∧ si.name = s ∧ vi.name = v ∧ t ∈ vi.types ∧ typeName t.typ = n := by
  unfold Api.typesNamed Api.versionsNamed HasVersionInfo
  simp only [List.mem_flatMap, List.mem_filter, decide_eq_true_eq]
  constructor
  · rintro ⟨vi, ⟨si, ⟨h1, h2⟩, h3, h4⟩, h5, h6⟩
    exact ⟨si, vi, ⟨h1, h3⟩, h2, h4, h5, h6⟩
  · rintro ⟨si, vi, ⟨h1, h3⟩, h2, h4, h5, h6⟩
    exact ⟨vi, ⟨si, ⟨h1, h2⟩, h3, h4⟩, h5, h6⟩

theorem mem_versionsNamed {api : Api} {s v : Name} {vi : VersionInfo} :
    vi ∈ api.versionsNamed s v ↔ ∃ si, HasVersionInfo api si vi ∧ si.name = s ∧ vi.name = v := by
  unfold Api.versionsNamed HasVersionInfo
  simp only [List.mem_flatMap, List.mem_filter, decide_eq_true_eq]
  constructor
  · rintro ⟨si, ⟨h1, h2⟩, h3, h4⟩
    exact ⟨si, ⟨h1, h3⟩, h2, h4⟩
  · rintro ⟨si, ⟨h1, h3⟩, h2, h4⟩
    exact ⟨si, ⟨h1, h2⟩, h3, h4⟩

/-- The file of the errors of a version is reported exactly if there are two or more. -/
theorem c85_errors_file (v : VersionInfo) (h : ∀ e ∈ v.errors, e.2.ownName = none) :
    errorsReports v = false ↔ v.errors.length ≤ 1 := by
  rw [← errorsListing_value v.errors h]
  unfold errorsReports
  cases errorsListing v.errors <;> simp

theorem mem_resourcesOf {api : Api} {v : VersionInfo} {r : Resource} :
    r ∈ api.resourcesOf v ↔ ∃ id ∈ v.resources, api.graph[id]? = some r := by
  unfold Api.resourcesOf
  simp only [List.mem_filterMap]

theorem mem_resourcesNamed {api : Api} {s v n : Name} {r : Resource} :
    r ∈ api.resourcesNamed s v n ↔
      ∃ si vi, HasResourceInfo api si vi r ∧ si.name = s ∧ vi.name = v ∧ r.name = n := by
  unfold Api.resourcesNamed Api.versionsNamed HasResourceInfo HasVersionInfo
  simp only [List.mem_flatMap, List.mem_filter, decide_eq_true_eq, mem_resourcesOf]
  constructor
  · rintro ⟨vi, ⟨si, ⟨h1, h2⟩, h3, h4⟩, h5, h6⟩
    exact ⟨si, vi, ⟨⟨h1, h3⟩, h5⟩, h2, h4, h6⟩
  · rintro ⟨si, vi, ⟨⟨h1, h3⟩, h5⟩, h2, h4, h6⟩
    exact ⟨vi, ⟨si, ⟨h1, h2⟩, h3, h4⟩, h5, h6⟩

theorem hasType_view {api : Api} {s v n : Name} {k : Files.Kind} :
    Files.HasType api.view s v n k ↔
      ∃ si vi, HasVersionInfo api si vi ∧ si.name = s ∧ vi.name = v ∧
        ∃ t ∈ vi.types, typeName t.typ = n ∧ typeKind t.typ = k := by
  unfold Files.HasType Api.view HasVersionInfo
  simp only [List.mem_map]
  constructor
  · rintro ⟨_, ⟨si, h1, rfl⟩, h2, w, h3, h4, h5⟩
    obtain ⟨vi, h3', rfl⟩ := List.mem_map.mp h3
    obtain ⟨t, h5, h6⟩ := List.mem_map.mp h5
    rw [Files.TypeView.mk.injEq] at h6
    exact ⟨si, vi, ⟨h1, h3'⟩, h2, h4, t, h5, h6⟩
  · rintro ⟨si, vi, ⟨h1, h3⟩, h2, h4, t, h5, rfl, rfl⟩
    exact ⟨_, ⟨si, h1, rfl⟩, h2, _, List.mem_map.mpr ⟨vi, h3, rfl⟩, h4, List.mem_map.mpr ⟨t, h5, rfl⟩⟩

theorem hasResource_view {api : Api} {s v n : Name} :
    Files.HasResource api.view s v n ↔
      ∃ si vi r, HasResourceInfo api si vi r ∧ si.name = s ∧ vi.name = v ∧ r.name = n := by
  unfold Files.HasResource Api.view HasResourceInfo HasVersionInfo
  simp only [List.mem_map]
  constructor
  · rintro ⟨_, ⟨si, h1, rfl⟩, h2, w, h3, h4, h5⟩
    obtain ⟨vi, h3', rfl⟩ := List.mem_map.mp h3
    obtain ⟨r, h5, h6⟩ := List.mem_map.mp h5
    exact ⟨si, vi, r, ⟨⟨h1, h3'⟩, mem_resourcesOf.mp h5⟩, h2, h4, h6⟩
  · rintro ⟨si, vi, r, ⟨⟨h1, h3⟩, h5⟩, h2, h4, h6⟩
    exact ⟨_, ⟨si, h1, rfl⟩, h2, _, List.mem_map.mpr ⟨vi, h3, rfl⟩, h4,
      List.mem_map.mpr ⟨r, mem_resourcesOf.mpr h5, h6⟩⟩

/-- Which types ask for files: enumerated types, structs and classes have a file for the type; structs,
classes and lists of them have a file for the builder; and structs, classes and lists of anything but
lists and maps have a file for the readers and writers of JSON. -/
theorem c85_wanted (api : Api) (s v n : Name) :
    (Files.Wanted api.view (.type s v n) ↔ ∃ si vi, HasVersionInfo api si vi ∧ si.name = s ∧ vi.name = v ∧
      ∃ t ∈ vi.types, typeName t.typ = n ∧ ((∃ d, t.typ = .enum d) ∨ ∃ d, t.typ = .struct d)) ∧
    (Files.Wanted api.view (.builder s v n) ↔ ∃ si vi, HasVersionInfo api si vi ∧ si.name = s ∧
      vi.name = v ∧ ∃ t ∈ vi.types, typeName t.typ = n ∧
        ((∃ d, t.typ = .struct d) ∨ ∃ d d', t.typ = .list d (.struct d'))) ∧
    (Files.Wanted api.view (.typeJson s v n) ↔ ∃ si vi, HasVersionInfo api si vi ∧ si.name = s ∧
      vi.name = v ∧ ∃ t ∈ vi.types, typeName t.typ = n ∧
        ((∃ d, t.typ = .struct d) ∨ ∃ d e, t.typ = .list d e ∧
          ((∃ b, e = .basic b) ∨ (∃ d', e = .enum d') ∨ ∃ d', e = .struct d'))) := by
  have key : ∀ (ks : List Files.Kind) (p : Typ → Prop), (∀ t, typeKind t ∈ ks ↔ p t) →
      (Files.HasTypeOf ks api.view s v n ↔ ∃ si vi, HasVersionInfo api si vi ∧ si.name = s ∧
        vi.name = v ∧ ∃ t ∈ vi.types, typeName t.typ = n ∧ p t.typ) := by
    intro ks p hp
    unfold Files.HasTypeOf
    constructor
    · rintro ⟨k, hk, h⟩
      obtain ⟨si, vi, h1, h2, h3, t, h4, h5, rfl⟩ := hasType_view.mp h
      exact ⟨si, vi, h1, h2, h3, t, h4, h5, (hp _).mp hk⟩
    · rintro ⟨si, vi, h1, h2, h3, t, h4, h5, h6⟩
      exact ⟨typeKind t.typ, (hp _).mpr h6, hasType_view.mpr ⟨si, vi, h1, h2, h3, t, h4, h5, rfl⟩⟩
  refine ⟨key Files.declared (fun t => (∃ d, t = .enum d) ∨ ∃ d, t = .struct d) ?_,
    key Files.built (fun t => (∃ d, t = .struct d) ∨ ∃ d d', t = .list d (.struct d')) ?_,
    key Files.serialized (fun t => (∃ d, t = .struct d) ∨ ∃ d e, t = .list d e ∧
      ((∃ b, e = .basic b) ∨ (∃ d', e = .enum d') ∨ ∃ d', e = .struct d')) ?_⟩
  · intro t
    rcases t with b | d | d | ⟨d, e⟩ | ⟨d, e⟩
    · cases b <;> simp [typeKind, Files.declared]
    · simp [typeKind, Files.declared]
    · simp [typeKind, Files.declared]
    · cases e <;> simp [typeKind, Files.declared]
    · simp [typeKind, Files.declared]
  · intro t
    rcases t with b | d | d | ⟨d, e⟩ | ⟨d, e⟩
    · cases b <;> simp [typeKind, Files.built]
    · simp [typeKind, Files.built]
    · simp [typeKind, Files.built]
    · cases e <;> simp [typeKind, Files.built]
    · simp [typeKind, Files.built]
  · intro t
    rcases t with b | d | d | ⟨d, e⟩ | ⟨d, e⟩
    · cases b <;> simp [typeKind, Files.serialized]
    · simp [typeKind, Files.serialized]
    · simp [typeKind, Files.serialized]
    · cases e <;> simp only [typeKind, Files.serialized] <;> grind
    · simp [typeKind, Files.serialized]

/-- The types that ask for no file are never reported, and the builder of a list is reported exactly if
its elements have no builder. -/
theorem c85_other_files (base : Text) (t : TypeInfo) :
    ((∀ d, t.typ ≠ .struct d) → typeReports base t = false) ∧
    ((∀ d, t.typ ≠ .struct d) → (∀ d e, t.typ ≠ .list d e) →
      builderReports base t = false ∧ typeJsonReports base t = false) ∧
    ∀ d e, t.typ = .list d e →
      (builderReports base t = false ↔ (∃ d', e = .struct d') ∨ ∃ d' e', e = .list d' e') := by
  refine ⟨fun hs => ?_, fun hs hl => ⟨?_, ?_⟩, fun d e h => ?_⟩
  · unfold typeReports
    split
    · rename_i d h; exact absurd h (hs d)
    · exact enum_wrong base _
    · rfl
  · unfold builderReports
    split
    · rename_i d h; exact absurd h (hs d)
    · rename_i d e h; exact absurd h (hl d e)
    · rfl
  · unfold typeJsonReports
    split
    · rename_i d h; exact absurd h (hs d)
    · rename_i d e h; exact absurd h (hl d e)
    · rfl
  · unfold builderReports
    rw [h]
    cases e <;> simp [builderNameReports]

/-- The types found by name are of the kind that the file was generated for. -/
theorem typesNamed_kind {api : Api} (hr : FromReader api) {ks : List Files.Kind} {s v n : Name}
    (h : Files.HasTypeOf ks api.view s v n) {t : TypeInfo} (ht : t ∈ api.typesNamed s v n) :
    typeKind t.typ ∈ ks ∧ ∃ si vi, HasVersionInfo api si vi ∧ t ∈ vi.types := by
  obtain ⟨k, hk, hk'⟩ := h
  obtain ⟨si, vi, h1, h2, h3, t0, h4, h5, h6⟩ := hasType_view.mp hk'
  obtain ⟨si', vi', h1', h2', h3', h4', h5'⟩ := mem_typesNamed.mp ht
  have hs : si' = si := nodup_map_inj hr.serviceNames h1'.1 h1.1 (h2'.trans h2.symm)
  subst hs
  have hv : vi' = vi := nodup_map_inj (hr.versionNames si' h1.1) h1'.2 h1.2 (h3'.trans h3.symm)
  subst hv
  have : t = t0 := nodup_map_inj (hr.typeNames si' vi' h1) h4' h4 (h5'.trans h5.symm)
  subst this
  exact ⟨h6 ▸ hk, si', vi', h1, h4'⟩

theorem kind_declared {t : Typ} (h : typeKind t ∈ Files.declared) :
    (∃ d, t = .struct d) ∨ ∃ d, t = .enum d := by
  cases t with
  | basic b => cases b <;> simp [typeKind, Files.declared] at h
  | enum d => exact .inr ⟨d, rfl⟩
  | struct d => exact .inl ⟨d, rfl⟩
  | list d e => cases e <;> simp [typeKind, Files.declared] at h
  | map d e => simp [typeKind, Files.declared] at h

theorem kind_built {t : Typ} (h : typeKind t ∈ Files.built) :
    (∃ d, t = .struct d) ∨ ∃ d e, t = .list d e ∧ e.isStruct = true ∧ Simple e := by
  cases t with
  | basic b => cases b <;> simp [typeKind, Files.built] at h
  | enum d => simp [typeKind, Files.built] at h
  | struct d => exact .inl ⟨d, rfl⟩
  | list d e =>
    cases e with
    | struct d' => exact .inr ⟨d, _, rfl, rfl, .struct d'⟩
    | _ => simp [typeKind, Files.built] at h
  | map d e => simp [typeKind, Files.built] at h

theorem kind_serialized {t : Typ} (h : typeKind t ∈ Files.serialized) :
    (∃ d, t = .struct d) ∨ ∃ d e, t = .list d e ∧ Simple e := by
  cases t with
  | basic b => cases b <;> simp [typeKind, Files.serialized] at h
  | enum d => simp [typeKind, Files.serialized] at h
  | struct d => exact .inl ⟨d, rfl⟩
  | list d e =>
    cases e with
    | struct d' => exact .inr ⟨d, _, rfl, .struct d'⟩
    | enum d' => exact .inr ⟨d, _, rfl, .enum d'⟩
    | basic b => exact .inr ⟨d, _, rfl, .basic b⟩
    | _ => simp [typeKind, Files.serialized] at h
  | map d e => simp [typeKind, Files.serialized] at h

/-- **C85.** For a model that has been accepted by the reader, generating all the Go code succeeds
exactly if all the structs, classes and parameters can be expressed and all the files can be written. -/
theorem c85_success_iff (base : Text) (writable specWritable : Text → Bool) (api : Api)
    (hr : FromReader api) (hc : Checked api) (hu : Files.Usable api.view)
    (st : Files.State Files.Content) :
    (Files.generateGo (api.env base writable specWritable) api.view st).2 = true ↔
      st.errors = 0 ∧ Expressible api ∧
      (∀ slot, Files.Wanted api.view slot → writable (Files.location slot) = true) ∧
      (∀ s v, Files.HasVersion api.view s v → specWritable (Files.specLocation s v) = true) := by
  rw [Files.c79_success_iff _ _ hu]
  have hrep : ∀ slot, (api.env base writable specWritable).reports slot = 0 ↔
      api.reports base slot = false := by
    intro slot
    simp only [Api.env]
    split <;> simp_all
  simp only [hrep]
  have key : (∀ slot, Files.Wanted api.view slot → api.reports base slot = false) ↔ Expressible api := by
    constructor
    · intro h
      have htype : ∀ s v, HasVersionInfo api s v → ∀ t ∈ v.types, t.typ.isStruct = true →
          Fits t ∧ ∀ a ∈ t.attributes, AttrOk a := by
        intro s v hv t ht hs
        cases htt : t.typ with
        | struct d =>
          have := h (.type s.name v.name (typeName t.typ)) ⟨.struct, by simp [Files.declared],
            hasType_view.mpr ⟨s, v, hv, rfl, rfl, t, ht, rfl, by rw [htt]; rfl⟩⟩
          simp only [Api.reports, List.any_eq_false, Bool.not_eq_true] at this
          exact (c85_type_file base t d htt).mp
            (this t (mem_typesNamed.mpr ⟨s, v, hv, rfl, rfl, ht, rfl⟩))
        | _ => rw [htt] at hs; cases hs
      refine ⟨fun s v hv t ht hs => (htype s v hv t ht hs).1,
        fun s v hv t ht hs => (htype s v hv t ht hs).2, ?_, ?_⟩
      case refine_2 =>
        intro s v hv
        have := h (.errors s.name v.name) (by
          simp only [Files.Wanted, Files.HasVersion, Api.view, List.mem_map]
          exact ⟨_, ⟨s, hv.1, rfl⟩, rfl, _, List.mem_map.mpr ⟨v, hv.2, rfl⟩, rfl⟩)
        simp only [Api.reports, List.any_eq_false, Bool.not_eq_true] at this
        exact (c85_errors_file v (hr.errors s v hv)).mp (this v (mem_versionsNamed.mpr ⟨s, hv, rfl, rfl⟩))
      intro s v r hres m hm p hp
      have := h (.client s.name v.name r.name)
        (hasResource_view.mpr ⟨s, v, r, hres, rfl, rfl, rfl⟩)
      simp only [Api.reports, List.any_eq_false, decide_eq_true_eq, ne_eq, Decidable.not_not] at this
      have := this r (mem_resourcesNamed.mpr ⟨s, v, hres, rfl, rfl, rfl⟩)
      exact ((c85_client_file base api r).2.mp this).2.2 m hm p hp (hr.directions s v r hres m hm p hp)
    · intro h slot hw
      have htypes : ∀ si vi, HasVersionInfo api si vi → ∀ t ∈ vi.types, ∀ d, t.typ = .struct d →
          typeReports base t = false := by
        intro si vi hv t ht d hd
        exact (c85_type_file base t d hd).mpr ⟨h.fits si vi hv t ht (by rw [hd]; rfl),
          h.attributes si vi hv t ht (by rw [hd]; rfl)⟩
      cases slot with
      | type s v n =>
        simp only [Api.reports, List.any_eq_false, Bool.not_eq_true]
        intro t ht
        obtain ⟨hk, si, vi, hv, hm⟩ := typesNamed_kind hr hw ht
        rcases kind_declared hk with ⟨d, hd⟩ | ⟨d, hd⟩
        · exact htypes si vi hv t hm d hd
        · exact c85_enum_file base t d hd
      | builder s v n =>
        simp only [Api.reports, List.any_eq_false, Bool.not_eq_true]
        intro t ht
        obtain ⟨hk, si, vi, hv, hm⟩ := typesNamed_kind hr hw ht
        rcases kind_built hk with ⟨d, hd⟩ | ⟨d, e, hd, he, hs⟩
        · exact (c85_types_first base t d hd (htypes si vi hv t hm d hd)).1
        · exact (c85_list_files base t d e hd hs).2 he
      | typeJson s v n =>
        simp only [Api.reports, List.any_eq_false, Bool.not_eq_true]
        intro t ht
        obtain ⟨hk, si, vi, hv, hm⟩ := typesNamed_kind hr hw ht
        rcases kind_serialized hk with ⟨d, hd⟩ | ⟨d, e, hd, hs⟩
        · exact (c85_types_first base t d hd (htypes si vi hv t hm d hd)).2
        · exact (c85_list_files base t d e hd hs).1
      | client s v n =>
        simp only [Api.reports, List.any_eq_false, decide_eq_true_eq, ne_eq, Decidable.not_not]
        intro r hmem
        obtain ⟨si, vi, hres, -⟩ := mem_resourcesNamed.mp hmem
        refine (c85_client_file base api r).2.mpr ⟨?_, ?_, ?_⟩
        · intro as m bs h1 h2 _
          obtain ⟨p, hp, ho, -⟩ := accepted_get_output (hr.builtins si vi hres.1) h2
            (checked_methods hc hres m (by simp [h1]))
          exact ⟨p, hp, ho⟩
        · intro l hl
          obtain ⟨-, id, hid, hg⟩ := hres
          obtain ⟨-, t, ht, -⟩ := hr.graph id l (by simpa [Graph.locators, hg] using hl)
          simp [ht]
        · intro m hm p hp _
          exact h.parameters si vi r hres m hm p hp
      | resourceJson s v n =>
        simp only [Api.reports, resourceJsonReports, List.any_eq_false, Bool.not_eq_true]
        intro r hmem m hm
        obtain ⟨si, vi, hres, -⟩ := mem_resourcesNamed.mp hmem
        exact accepted_json (hr.builtins si vi hres.1) (checked_methods hc hres m hm)
          fun p hp => h.parameters si vi r hres m hm p hp
      | serviceClient s =>
        simp only [Api.reports, serviceClientReports, List.any_eq_false, Bool.not_eq_true,
          List.mem_filter, decide_eq_true_eq]
        rintro si ⟨hs, -⟩ vi hv
        obtain ⟨root, -, h1, -⟩ := checked_root hc ⟨hs, hv⟩
        simp [h1]
      | errors s v =>
        simp only [Api.reports, List.any_eq_false, Bool.not_eq_true]
        intro vi hmem
        obtain ⟨si, hv, -⟩ := mem_versionsNamed.mp hmem
        exact (c85_errors_file vi (hr.errors si vi hv)).mpr (h.errors si vi hv)
      | _ => rfl
  rw [← key]
  constructor
  · rintro ⟨h1, h2, h3⟩
    exact ⟨h1, fun slot hw => (h2 slot hw).1, fun slot hw => (h2 slot hw).2, fun s v hv => (h3 s v hv).2⟩
  · rintro ⟨h1, h2, h3, h4⟩
    exact ⟨h1, fun slot hw => ⟨h2 slot hw, h3 slot hw⟩, fun s v hv => ⟨rfl, h4 s v hv⟩⟩

/-! ## Methods that can always be expressed -/

theorem scalar_simple {t : Typ} {p : Parameter} (h : OfKind t p.typ.kind) (hs : Rule.Scalar p) :
    Simple t := by
  unfold Rule.Scalar at hs
  generalize p.typ.kind = k at h hs
  cases h <;> first | constructor | simp at hs

theorem struct_simple {t : Typ} {p : Parameter} (h : OfKind t p.typ.kind) (hs : Rule.Struct p) :
    Simple t := by
  unfold Rule.Struct at hs
  generalize p.typ.kind = k at h hs
  cases h <;> first | constructor | simp at hs

theorem paramOk_simple {api : Api} {m : Method} {p : Parameter} (h : Simple (api.typeOf p.typ.id))
    (hi : ¬ IsItemsOf m p) : ParamOk api m p :=
  ⟨fun h' => absurd h' hi, fun _ => .simple h⟩

/-- All the parameters of the accepted `Add`, `Delete`, `AsyncDelete`, `Get` and `Post` methods can be
expressed. -/
theorem c85_object_methods (api : Api) (b : Builtins) (hb : b.Present) (m : Method)
    (hm : m.name ∈ [Nom.add, Nom.delete, Nom.asyncDelete, Nom.get, Nom.post]) (hk : Coherent api m)
    (hd : ∀ p ∈ m.parameters, p.isIn = true ∨ p.isOut = true)
    (ha : Accepted (Check.checkMethod b m)) : ∀ p ∈ m.parameters, ParamOk api m p := by
  have hi : ∀ p, ¬ IsItemsOf m p := by
    rintro p ⟨h | h, -⟩ <;> rw [h] at hm <;> revert hm <;> decide
  intro p hp
  refine paramOk_simple ?_ (hi p)
  have hk := hk p hp
  simp only [List.mem_cons, List.not_mem_nil, or_false] at hm
  rcases hm with hm | hm | hm | hm | hm
  · rcases ((c11_add_accepted_iff b hb m hm).mp ha).1.types p hp with h | h
    · exact scalar_simple hk h
    · exact struct_simple hk h
  · exact scalar_simple hk (((c12_delete_accepted_iff b hb m (.inl hm)).mp ha).1.types p hp)
  · exact scalar_simple hk (((c12_delete_accepted_iff b hb m (.inr hm)).mp ha).1.types p hp)
  · rcases ((c13_get_accepted_iff b hb m hm).mp ha).1.types p hp with h | h
    · exact scalar_simple hk h
    · exact struct_simple hk h
  · exact struct_simple hk (((c15_post_accepted_iff b hb m hm).mp ha).1.types p hp (hd p hp))

/-- The parameters of an accepted `List` or `Search` method can be expressed exactly if all those named
`Items` are lists of something that isn't a map. -/
theorem c85_collection_methods (api : Api) (b : Builtins) (hb : b.Present) (m : Method)
    (hm : m.name = Nom.list ∨ m.name = Nom.search) (hk : Coherent api m)
    (hd : ∀ p ∈ m.parameters, p.isIn = true ∨ p.isOut = true)
    (ha : Accepted (Check.checkMethod b m)) :
    (∀ p ∈ m.parameters, ParamOk api m p) ↔
      ∀ p ∈ m.parameters, p.name = Nom.items →
        ∃ d element, api.typeOf p.typ.id = .list d element ∧ ¬ IsMap element := by
  constructor
  · intro h p hp hn
    have hc := (h p hp).1 ⟨hm, hn⟩
    revert hc
    generalize api.typeOf p.typ.id = t
    rintro ⟨d, h⟩
    exact ⟨d, _, rfl, h⟩
  · intro h p hp
    by_cases hn : p.name = Nom.items
    · obtain ⟨d, e, h1, h2⟩ := h p hp hn
      refine ⟨fun _ => ?_, fun h' => absurd ⟨hm, hn⟩ h'⟩
      rw [h1]
      exact .list d h2
    · refine paramOk_simple ?_ fun h' => hn h'.2
      have hk := hk p hp
      rcases hm with hm | hm
      · have hr := ((c14_list_accepted_iff b hb m hm).mp ha).1
        rcases hr.types p hp with h | h
        · exact scalar_simple hk h
        · exact absurd (hr.items p hp h).2 hn
      · have hr := ((c15_search_accepted_iff b hb m hm).mp ha).1
        rcases hd p hp with hi | ho
        · rcases hr.ins p hp hi with h | h
          · exact scalar_simple hk h
          · exact struct_simple hk h
        · rcases hr.outs p hp ho with h | h
          · exact scalar_simple hk h
          · exact absurd (hr.items p hp h).2 hn

/-- The parameters of an accepted `Update` or `AsyncUpdate` method can be expressed exactly if the
elements of those that are lists are simple. -/
theorem c85_update_methods (api : Api) (b : Builtins) (hb : b.Present) (m : Method)
    (hm : m.name = Nom.update ∨ m.name = Nom.asyncUpdate) (hk : Coherent api m)
    (ha : Accepted (Check.checkMethod b m)) :
    (∀ p ∈ m.parameters, ParamOk api m p) ↔
      ∀ p ∈ m.parameters, ∀ d element, api.typeOf p.typ.id = .list d element → Simple element := by
  have hi : ∀ p, ¬ IsItemsOf m p := by
    rintro p ⟨h | h, -⟩ <;> rw [h] at hm <;> revert hm <;> decide
  constructor
  · intro h p hp d e ht
    have hf := (h p hp).2 (hi p)
    rw [ht] at hf
    cases hf with
    | simple hs => cases hs
    | list _ hs => exact hs
  · intro h p hp
    refine ⟨fun h' => absurd h' (hi p), fun _ => ?_⟩
    have hk := hk p hp
    rcases ((c16_update_accepted_iff b hb m hm).mp ha).1.types p hp with h' | h' | h'
    · exact .simple (scalar_simple hk h')
    · exact .simple (struct_simple hk h')
    · unfold Rule.IsList at h'
      rw [h'] at hk
      have h := h p hp
      revert h hk
      generalize api.typeOf p.typ.id = t
      intro hk h
      cases hk with
      | list d e => exact .list d (h d e rfl)

/-! ## Examples -/

/-- Type `Cluster`. -/
def exCluster : GoRef.Decl :=
  { owner := { service := parseUsingCase t!"ClustersMgmt", version := parseUsingCase t!"V1" }
    name := parseUsingCase t!"Cluster" }

/-- The list of clusters. -/
def exClusters : GoRef.Decl :=
  { owner := { service := parseUsingCase t!"ClustersMgmt", version := parseUsingCase t!"V1" }
    name := parseUsingCase t!"ClusterList" }

/-- The types used by the parameters: those with identifiers 20 and 21 are the class and the list. -/
def exTypeOf (id : TypeId) : Typ :=
  if id = 20 then .struct exCluster else if id = 21 then .list exClusters (.struct exCluster)
  else .basic .string

/-- The resource that manages one cluster. -/
def exClusterResource : Resource :=
  { name := parseUsingCase t!"Cluster"
    methods := [{ name := Nom.get, parameters := [{ name := Nom.body, typ := ⟨20, .class⟩, isOut := true }] }] }

/-- The resource that manages the collection, with that list of additional parameters. -/
def exClustersResource (extra : List Parameter) : Resource :=
  { name := parseUsingCase t!"Clusters"
    methods :=
      [{ name := Nom.list, parameters := { name := Nom.items, typ := ⟨21, .list⟩, isOut := true } :: extra }]
    locators := [{ name := parseUsingCase t!"Cluster", owner := 1, target := some 2, isVariable := true }] }

/-- The root. -/
def exRoot : Resource :=
  { name := parseUsingCase t!"Root"
    locators := [{ name := parseUsingCase t!"Clusters", owner := 0, target := some 1 }] }

/-- The version, where the class has that list of attributes. -/
def exVersion (attributes : List Attr) : VersionInfo :=
  { name := parseUsingCase t!"V1"
    types := [{ typ := .struct exCluster, isClass := true, attributes := attributes },
      { typ := .list exClusters (.struct exCluster) }]
    root := some 0
    resources := [2, 1, 0]
    builtins := { boolean := some 0, integer := some 2, string := some 8 } }

/-- The model. -/
def exApi (attributes : List Attr) (extra : List Parameter) : Api :=
  { services := [{ name := parseUsingCase t!"ClustersMgmt", versions := [exVersion attributes] }]
    graph := [exRoot, exClustersResource extra, exClusterResource]
    typeOf := exTypeOf }

theorem exApi_version {attributes : List Attr} {extra : List Parameter} {s : ServiceInfo} {v : VersionInfo} :
    HasVersionInfo (exApi attributes extra) s v ↔
      s = { name := parseUsingCase t!"ClustersMgmt", versions := [exVersion attributes] } ∧
      v = exVersion attributes := by
  unfold HasVersionInfo exApi
  simp only [List.mem_singleton]
  constructor
  · rintro ⟨rfl, h⟩; exact ⟨rfl, by simpa using h⟩
  · rintro ⟨rfl, rfl⟩; exact ⟨rfl, by simp⟩

theorem exApi_resource {attributes : List Attr} {extra : List Parameter} {s : ServiceInfo} {v : VersionInfo}
    {r : Resource} (h : HasResourceInfo (exApi attributes extra) s v r) :
    r = exRoot ∨ r = exClustersResource extra ∨ r = exClusterResource := by
  obtain ⟨hv, id, hid, hg⟩ := h
  obtain ⟨-, rfl⟩ := exApi_version.mp hv
  simp only [exVersion, List.mem_cons, List.not_mem_nil, or_false] at hid
  rcases hid with rfl | rfl | rfl <;> simp [exApi] at hg <;> simp [hg]

theorem exApi_fromReader (attributes : List Attr) (extra : List Parameter)
    (hd : ∀ p ∈ extra, p.isIn = true ∨ p.isOut = true) : FromReader (exApi attributes extra) where
  serviceNames := by simp [exApi]
  versionNames := by
    intro s hs
    simp only [exApi, List.mem_singleton] at hs
    subst hs
    simp
  typeNames := by
    intro s v hv
    obtain ⟨-, rfl⟩ := exApi_version.mp hv
    show [exCluster.name, exClusters.name].Nodup
    decide
  graph := by
    intro r l hl
    match r with
    | 0 =>
      simp only [Graph.locators, exApi, exRoot] at hl
      simp at hl
      subst hl
      exact ⟨rfl, 1, rfl, by simp [exApi]⟩
    | 1 =>
      simp only [Graph.locators, exApi, exClustersResource] at hl
      simp at hl
      subst hl
      exact ⟨rfl, 2, rfl, by simp [exApi]⟩
    | 2 => simp [Graph.locators, exApi, exClusterResource] at hl
    | n + 3 => simp [Graph.locators, exApi] at hl
  resources := by
    intro s v hv r hr
    obtain ⟨-, rfl⟩ := exApi_version.mp hv
    simp only [exVersion, List.mem_cons, List.not_mem_nil, or_false] at hr
    rcases hr with rfl | rfl | rfl <;> simp [exApi]
  builtins := by
    intro s v hv
    obtain ⟨-, rfl⟩ := exApi_version.mp hv
    exact ⟨rfl, rfl, rfl⟩
  directions := by
    intro s v r h m hm p hp
    rcases exApi_resource h with rfl | rfl | rfl
    · simp [exRoot] at hm
    · simp only [exClustersResource, List.mem_singleton] at hm
      subst hm
      rcases List.mem_cons.mp hp with rfl | hp
      · exact .inr rfl
      · exact hd p hp
    · simp only [exClusterResource, List.mem_singleton] at hm
      subst hm
      simp only [List.mem_singleton] at hp
      subst hp
      exact .inr rfl
  errors := by
    intro s v hv
    obtain ⟨-, rfl⟩ := exApi_version.mp hv
    exact fun e he => nomatch he

theorem exApi_usable (attributes : List Attr) (extra : List Parameter) :
    Files.Usable (exApi attributes extra).view where
  services := by
    rintro s ⟨x, hx, rfl⟩
    simp only [Api.view, exApi, List.map_cons, List.map_nil, List.mem_singleton] at hx
    subst hx
    show Files.UsableName (parseUsingCase t!"ClustersMgmt")
    exact ⟨by decide, by decide⟩
  versions := by
    rintro s v ⟨x, hx, -, y, hy, rfl⟩
    simp only [Api.view, exApi, List.map_cons, List.map_nil, List.mem_singleton] at hx
    subst hx
    simp only [List.mem_singleton] at hy
    subst hy
    show Files.UsableName (parseUsingCase t!"V1")
    exact ⟨by decide, by decide⟩
  types := by
    rintro s v t k ⟨x, hx, -, y, hy, -, ht⟩
    simp only [Api.view, exApi, List.map_cons, List.map_nil, List.mem_singleton] at hx
    subst hx
    simp only [List.mem_singleton] at hy
    subst hy
    simp only [exVersion, List.map_cons, List.map_nil, List.mem_cons, List.not_mem_nil, or_false,
      Files.TypeView.mk.injEq] at ht
    rcases ht with ⟨rfl, -⟩ | ⟨rfl, -⟩ <;> exact ⟨by decide, by decide⟩
  resources := by
    intro s v r h
    obtain ⟨si, vi, x, hx, -, -, rfl⟩ := hasResource_view.mp h
    rcases exApi_resource hx with rfl | rfl | rfl
    · exact ⟨by decide, by decide⟩
    · show parseUsingCase t!"Clusters" ≠ [] ∧ '/' ∉ snakeCase (parseUsingCase t!"Clusters")
      exact ⟨by decide, by decide⟩
    · exact ⟨by decide, by decide⟩

/-- A scalar output parameter named `Items`. -/
def exScalarItems : Parameter := { name := Nom.items, typ := ⟨8, .scalar⟩, isOut := true }

theorem exApi_checked (attributes : List Attr) : Checked (exApi attributes []) := by
  have h : ∃ ms, Check.checkModel [exRoot, exClustersResource [], exClusterResource] 10
      [{ builtins := { boolean := some 0, integer := some 2, string := some 8 }
         root := some 0
         resources := [2, 1, 0] }] = .done ms ∧ ms.all (fun m => !m.isError) = true :=
    ⟨_, rfl, by decide⟩
  obtain ⟨ms, h1, h2⟩ := h
  refine ⟨10, ms, h1, fun p hp => ?_⟩
  exact absurd (List.all_eq_true.mp h2 _ hp) (by simp [Message.isError])

theorem exApi_checked_items (attributes : List Attr) : Checked (exApi attributes [exScalarItems]) := by
  have h : ∃ ms, Check.checkModel [exRoot, exClustersResource [exScalarItems], exClusterResource] 10
      [{ builtins := { boolean := some 0, integer := some 2, string := some 8 }
         root := some 0
         resources := [2, 1, 0] }] = .done ms ∧ ms.all (fun m => !m.isError) = true :=
    ⟨_, rfl, by decide⟩
  obtain ⟨ms, h1, h2⟩ := h
  refine ⟨10, ms, h1, fun p hp => ?_⟩
  exact absurd (List.all_eq_true.mp h2 _ hp) (by simp [Message.isError])

/-- A model that can be expressed: the class has a text, a list of texts, and a link to the list. -/
def exAttributes : List Attr :=
  [{ typ := .basic .string }, { typ := .list exClusters (.basic .string) },
    { typ := .list exClusters (.struct exCluster), link := true }]

theorem exApi_expressible : Expressible (exApi exAttributes []) where
  fits := by
    intro s v hv t ht hs
    obtain ⟨-, rfl⟩ := exApi_version.mp hv
    simp only [exVersion, List.mem_cons, List.not_mem_nil, or_false] at ht
    rcases ht with rfl | rfl
    · show 3 + 3 ≤ 64
      decide
    · cases hs
  attributes := by
    intro s v hv t ht hs a ha
    obtain ⟨-, rfl⟩ := exApi_version.mp hv
    simp only [exVersion, List.mem_cons, List.not_mem_nil, or_false] at ht
    rcases ht with rfl | rfl
    · simp only [exAttributes, List.mem_cons, List.not_mem_nil, or_false] at ha
      rcases ha with rfl | rfl | rfl
      · exact .simple (.basic _)
      · exact .list _ (.basic _)
      · exact .list _ (fun h => by cases h)
    · cases hs
  parameters := by
    intro s v r h m hm p hp
    rcases exApi_resource h with rfl | rfl | rfl
    · simp [exRoot] at hm
    · simp only [exClustersResource, List.mem_singleton] at hm
      subst hm
      simp only [List.mem_singleton] at hp
      subst hp
      exact ⟨fun _ => .list _ (fun h => by cases h), fun h => absurd ⟨.inl rfl, rfl⟩ h⟩
    · simp only [exClusterResource, List.mem_singleton] at hm
      subst hm
      simp only [List.mem_singleton] at hp
      subst hp
      refine ⟨fun h => ?_, fun _ => .simple (.struct _)⟩
      exact absurd h.2 (by decide)
  errors := by
    intro s v hv
    obtain ⟨-, rfl⟩ := exApi_version.mp hv
    exact Nat.zero_le _

/-- That model is generated if everything can be written. -/
example (base : Text) :
    (Files.generateGo ((exApi exAttributes []).env base (fun _ => true) fun _ => true)
      (exApi exAttributes []).view { disk := fun _ => none, errors := 0 }).2 = true :=
  (c85_success_iff base _ _ _ (exApi_fromReader _ _ (by simp)) (exApi_checked _) (exApi_usable _ _) _).mpr
    ⟨rfl, exApi_expressible, fun _ _ => rfl, fun _ _ _ => rfl⟩

/-- **C85, negation of the stronger claim.** There are models accepted by the reader whose code can't be
generated: with an attribute whose type is a list of lists, -/
theorem c85_accepted_refuted :
    ∃ api, FromReader api ∧ Checked api ∧ Files.Usable api.view ∧
      ∀ base writable specWritable st,
        (Files.generateGo (api.env base writable specWritable) api.view st).2 = false := by
  refine ⟨exApi [{ typ := .list exClusters (.list exClusters (.basic .string)) }] [],
    exApi_fromReader _ _ (by simp), exApi_checked _, exApi_usable _ _, ?_⟩
  intro base w sw st
  rw [← Bool.not_eq_true, c85_success_iff base w sw _ (exApi_fromReader _ _ (by simp)) (exApi_checked _)
    (exApi_usable _ _)]
  rintro ⟨-, h, -⟩
  have := h.attributes _ _ (exApi_version.mpr ⟨rfl, rfl⟩) _ List.mem_cons_self rfl _ List.mem_cons_self
  have : Flat (.list exClusters (.list exClusters (.basic .string))) := by simpa [AttrOk] using this
  cases this with
  | simple h => cases h
  | list _ h => cases h

/-- with a class of 62 attributes, -/
theorem c85_large_class_refuted :
    ∃ api, FromReader api ∧ Checked api ∧ Files.Usable api.view ∧
      (∀ s v, HasVersionInfo api s v → ∀ t ∈ v.types, ∀ a ∈ t.attributes, AttrOk a) ∧
      ∀ base writable specWritable st,
        (Files.generateGo (api.env base writable specWritable) api.view st).2 = false := by
  refine ⟨exApi (List.replicate 62 { typ := .basic .string }) [],
    exApi_fromReader _ _ (by simp), exApi_checked _, exApi_usable _ _, ?_, ?_⟩
  · intro s v hv t ht a ha
    obtain ⟨-, rfl⟩ := exApi_version.mp hv
    simp only [exVersion, List.mem_cons, List.not_mem_nil, or_false] at ht
    rcases ht with rfl | rfl
    · obtain rfl := List.eq_of_mem_replicate ha
      exact .simple (.basic _)
    · cases ha
  intro base w sw st
  rw [← Bool.not_eq_true, c85_success_iff base w sw _ (exApi_fromReader _ _ (by simp)) (exApi_checked _)
    (exApi_usable _ _)]
  rintro ⟨-, h, -⟩
  have := h.fits _ _ (exApi_version.mpr ⟨rfl, rfl⟩) _ List.mem_cons_self rfl
  simp [Fits] at this

/-- and with a `List` method that has a second output parameter named `Items`, which isn't a list. -/
theorem c85_items_refuted :
    ∃ api, FromReader api ∧ Checked api ∧ Files.Usable api.view ∧
      (∀ s v, HasVersionInfo api s v → ∀ t ∈ v.types, Fits t ∧ ∀ a ∈ t.attributes, AttrOk a) ∧
      ∀ base writable specWritable st,
        (Files.generateGo (api.env base writable specWritable) api.view st).2 = false := by
  have hd : ∀ p ∈ [exScalarItems], p.isIn = true ∨ p.isOut = true := by decide
  refine ⟨exApi [] [exScalarItems], exApi_fromReader _ _ hd, exApi_checked_items _, exApi_usable _ _, ?_, ?_⟩
  · intro s v hv t ht
    obtain ⟨-, rfl⟩ := exApi_version.mp hv
    simp only [exVersion, List.mem_cons, List.not_mem_nil, or_false] at ht
    rcases ht with rfl | rfl <;> simp [Fits]
  intro base w sw st
  rw [← Bool.not_eq_true, c85_success_iff base w sw _ (exApi_fromReader _ _ hd) (exApi_checked_items _)
    (exApi_usable _ _)]
  rintro ⟨-, h, -⟩
  have := (h.parameters _ _ (exClustersResource [exScalarItems])
    ⟨exApi_version.mpr ⟨rfl, rfl⟩, 1, by simp [exVersion], rfl⟩ _ List.mem_cons_self exScalarItems
    (by simp)).1 ⟨.inl rfl, rfl⟩
  cases this

/-- The file with the errors of a version isn't written if there are two, -/
example : errorsReports { exVersion [] with errors := [(t!"a", ⟨some [], none, 7, [], []⟩), (t!"b", ⟨some [], none, 8, [], []⟩)] } = true := by
  rw [← Bool.not_eq_false, c85_errors_file _ (by decide)]
  decide

/-- and it is if there is one. -/
example : errorsReports { exVersion [] with errors := [(t!"a", ⟨some [], none, 7, [], []⟩)] } = false :=
  (c85_errors_file _ (by decide)).mpr (by decide)

/-- Classes can have 61 attributes, and structs 64. -/
example (n : Nat) :
    (Fits ⟨.struct exCluster, true, List.replicate n { typ := .basic .string }⟩ ↔ n ≤ 61) ∧
    (Fits ⟨.struct exCluster, false, List.replicate n { typ := .basic .string }⟩ ↔ n ≤ 64) := by
  simp [Fits]

/-- The client of a resource whose `Get` method returns nothing makes the generator crash. -/
example (base : Text) (api : Api) :
    clientReports base api.typeOf { name := parseUsingCase t!"Cluster", methods := [{ name := Nom.get }] } =
      .panic := by
  rw [(c85_client_file base api _).1]
  intro h
  obtain ⟨p, hp, -⟩ := h [] { name := Nom.get } [] rfl rfl (by simp)
  cases hp

/-- The methods of the example meet the hypotheses of the theorems about methods. -/
example : Coherent (exApi [] []) { name := Nom.get, parameters := [{ name := Nom.body, typ := ⟨20, .class⟩, isOut := true }] } ∧
    Coherent (exApi [] []) { name := Nom.list, parameters := [{ name := Nom.items, typ := ⟨21, .list⟩, isOut := true }] } := by
  constructor <;> intro p hp <;> obtain rfl := List.mem_singleton.mp hp
  · exact .class exCluster
  · exact .list exClusters _

end Verif.Outcome
