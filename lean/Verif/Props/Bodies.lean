import Verif.Lemmas.Bodies
import Verif.Props.Checks
import Verif.Props.Json

/-! C66: the bodies of requests and responses. -/

namespace Verif

open Check

namespace GoJson

local macro "kind_simp" : tactic => `(tactic| simp only [Method.isAction, Method.isAdd,
  Method.isDelete, Method.isAsyncDelete, Method.isGet, Method.isList, Method.isPost,
  Method.isSearch, Method.isUpdate, Method.isAsyncUpdate])

theorem named_decide {m : Method} {name : Name} (hm : m.name = name) (n : Name) :
    m.named n = decide (name = n) := by
  rw [Bool.eq_iff_iff, named_iff, hm]; simp

/-! ## Requests -/

/-- C66: the body of the request of an add method is the value of its `body` parameter. -/
theorem c66_add_request (b : Builtins) (hb : b.Present) (m : Method) (hm : m.name = Nom.add)
    (ha : Accepted (checkMethod b m)) (hu : UniqueNames m) (S : Schema) (ht : Typed S m) :
    ∃ p ∈ m.parameters, p.name = Nom.body ∧ ∀ fields,
      requestBody S m fields = sentFor (marshal S p.typ.id (fields p)) := by
  obtain ⟨ha, -⟩ := (c11_add_accepted_iff b hb m hm).1 ha
  obtain ⟨p, hp, hs⟩ := exactlyOne_mem ha.one
  obtain ⟨hio, hn⟩ := ha.body p hp hs
  have h := named_decide hm
  have hact : m.isAction = false := by kind_simp; simp [h]
  refine ⟨p, hp, hn, fun fields => ?_⟩
  rw [requestBody_of_mem ((mem_body_fixed hact p).2 ⟨hp, hio.1, struct_not_scalar hs⟩)]
  rw [writeRequest, if_pos (show m.isAdd = true by kind_simp; simp [h]),
    (getParameter_unique hu _ _).2 ⟨hp, hn⟩]
  exact marshalBody_eq (typed_struct ht hp hs) _

/-- C66: the same for update methods. -/
theorem c66_update_request (b : Builtins) (hb : b.Present) (m : Method)
    (hm : m.name = Nom.update ∨ m.name = Nom.asyncUpdate)
    (ha : Accepted (checkMethod b m)) (hu : UniqueNames m) (S : Schema) (ht : Typed S m) :
    ∃ p ∈ m.parameters, p.name = Nom.body ∧ ∀ fields,
      requestBody S m fields = sentFor (marshal S p.typ.id (fields p)) := by
  obtain ⟨ha, -⟩ := (c16_update_accepted_iff b hb m hm).1 ha
  obtain ⟨p, hp, hs⟩ := exactlyOne_mem ha.one
  obtain ⟨hio, hn⟩ := ha.body p hp hs
  have hsc : p.typ.isScalar = false := hs.elim struct_not_scalar list_not_scalar
  have hmar : hasMarshal S p.typ.id = true := hs.elim (typed_struct ht hp) (typed_list ht hp)
  refine ⟨p, hp, hn, fun fields => ?_⟩
  have key : m.isAction = false ∧ writeRequest S m fields
      = marshalBody S p.typ.id (fields p) := by
    have hg := (getParameter_unique hu _ _).2 ⟨hp, hn⟩
    rcases hm with hm | hm
    all_goals
      have h := named_decide hm
      unfold writeRequest
      kind_simp
      simp only [h, hg]
      exact ⟨by decide, rfl⟩
  rw [requestBody_of_mem ((mem_body_fixed key.1 p).2 ⟨hp, hio.1, hsc⟩), key.2]
  exact marshalBody_eq hmar _

/-- C66: the same for search methods. -/
theorem c66_search_request (b : Builtins) (hb : b.Present) (m : Method) (hm : m.name = Nom.search)
    (ha : Accepted (checkMethod b m)) (hu : UniqueNames m) (S : Schema) (ht : Typed S m) :
    ∃ p ∈ m.parameters, p.name = Nom.body ∧ ∀ fields,
      requestBody S m fields = sentFor (marshal S p.typ.id (fields p)) := by
  obtain ⟨ha, -⟩ := (c15_search_accepted_iff b hb m hm).1 ha
  obtain ⟨p, hp, hs, hi⟩ := exactlyOne_mem ha.oneBody
  obtain ⟨hio, hn⟩ := ha.body p hp hs hi
  refine ⟨p, hp, hn, fun fields => ?_⟩
  have key : m.isAction = false ∧ writeRequest S m fields
      = marshalBody S p.typ.id (fields p) := by
    have hg := (lastNamed_unique hu _ _).2 ⟨hp, hn⟩
    unfold lastNamed at hg
    have h := named_decide hm
    unfold writeRequest
    kind_simp
    simp only [h, hg]
    exact ⟨by decide, rfl⟩
  rw [requestBody_of_mem ((mem_body_fixed key.1 p).2 ⟨hp, hi, struct_not_scalar hs⟩), key.2]
  exact marshalBody_eq (typed_struct ht hp hs) _

/-- C66: the body of the request of a post method is the value of its input parameter, and there is
no body if it doesn't have one. -/
theorem c66_post_request (b : Builtins) (hb : b.Present) (m : Method) (hm : m.name = Nom.post)
    (ha : Accepted (checkMethod b m)) (S : Schema) (ht : Typed S m) (fields : Parameter → Val) :
    (∀ p ∈ m.parameters, p.isIn = true →
      requestBody S m fields = sentFor (marshal S p.typ.id (fields p))) ∧
    ((∀ p ∈ m.parameters, p.isIn = false) → requestBody S m fields = .nothing) := by
  obtain ⟨ha, -⟩ := (c15_post_accepted_iff b hb m hm).1 ha
  have h := named_decide hm
  have hact : m.isAction = false := by kind_simp; simp only [h]; decide
  refine ⟨fun p hp hi => ?_, fun hno => ?_⟩
  · have hs := ha.types p hp (.inl hi)
    rw [requestBody_of_mem ((mem_body_fixed hact p).2 ⟨hp, hi, struct_not_scalar hs⟩)]
    have hl := lastWhere_one ha.oneIn hp hi
    have key : writeRequest S m fields = marshalBody S p.typ.id (fields p) := by
      unfold writeRequest
      kind_simp
      simp only [h, hl]
      rfl
    rw [key]
    exact marshalBody_eq (typed_struct ht hp hs) _
  · apply requestBody_of_none
    intro p hp
    rw [mem_body_fixed hact] at hp
    rw [hno p hp.1] at hp
    simp at hp

/-- C66: the functions that write the requests of these methods don't write anything, even if the
method has parameters that can't be sent. -/
theorem c66_no_write (m : Method)
    (hm : m.name = Nom.get ∨ m.name = Nom.list ∨ m.name = Nom.delete ∨ m.name = Nom.asyncDelete)
    (S : Schema) (fields : Parameter → Val) : writeRequest S m fields = .nothing := by
  rcases hm with hm | hm | hm | hm
  all_goals
    have h := named_decide hm
    unfold writeRequest
    kind_simp
    simp only [h]
    rfl

/-- C66: there is no body in the requests of get, list and delete methods. -/
theorem c66_no_body (b : Builtins) (hb : b.Present) (m : Method)
    (hm : m.name = Nom.get ∨ m.name = Nom.list ∨ m.name = Nom.delete ∨ m.name = Nom.asyncDelete)
    (ha : Accepted (checkMethod b m)) (S : Schema) (fields : Parameter → Val) :
    requestBody S m fields = .nothing := by
  apply requestBody_of_none
  intro p hp
  have hact : m.isAction = false := by
    rcases hm with hm | hm | hm | hm
    all_goals
      have h := named_decide hm
      kind_simp
      simp only [h]
      decide
  rw [mem_body_fixed hact] at hp
  obtain ⟨hp, hi, hs⟩ := hp
  rw [bool_eq_false_iff_not, kind_scalar] at hs
  rcases hm with hm | hm | hm | hm
  · obtain ⟨ha, -⟩ := (c13_get_accepted_iff b hb m hm).1 ha
    rcases ha.types p hp with h | h
    · exact hs h
    · have := (ha.body p hp h).1.1
      rw [hi] at this; simp at this
  · obtain ⟨ha, -⟩ := (c14_list_accepted_iff b hb m hm).1 ha
    rcases ha.types p hp with h | h
    · exact hs h
    · have := (ha.items p hp h).1.1
      rw [hi] at this; simp at this
  · obtain ⟨ha, -⟩ := (c12_delete_accepted_iff b hb m (.inl hm)).1 ha
    exact hs (ha.types p hp)
  · obtain ⟨ha, -⟩ := (c12_delete_accepted_iff b hb m (.inr hm)).1 ha
    exact hs (ha.types p hp)

/-- The names that have special meanings. -/
def Special (m : Method) : Prop :=
  m.name ∈ [Nom.add, Nom.delete, Nom.asyncDelete, Nom.get, Nom.list, Nom.post, Nom.search,
    Nom.update, Nom.asyncUpdate]

theorem special_false {m : Method} (hm : ¬ Special m) :
    m.isAdd = false ∧ m.isDelete = false ∧ m.isAsyncDelete = false ∧ m.isGet = false ∧
    m.isList = false ∧ m.isPost = false ∧ m.isSearch = false ∧ m.isUpdate = false ∧
    m.isAsyncUpdate = false ∧ m.isAction = true := by
  simp only [Special, List.mem_cons, List.not_mem_nil, or_false, not_or] at hm
  obtain ⟨h1, h2, h3, h4, h5, h6, h7, h8, h9⟩ := hm
  have h : ∀ n, m.named n = decide (m.name = n) := fun n => named_decide rfl n
  kind_simp
  simp [h, h1, h2, h3, h4, h5, h6, h7, h8, h9]

/-- The members of the request of an action. -/
def actionMembers (S : Schema) (m : Method) (fields : Parameter → Val) :
    Option (List (Text × List Tok)) :=
  (m.parameters.filter fun p => p.isIn && !(fields p).isNil).mapM fun p =>
    (writeVal S p.typ.id false (fields p)).map fun ts => (Binding.bodyParameterName p, ts)

theorem writeParameters_eq (S : Schema) (fields : Parameter → Val) (ps : List Parameter)
    (count : Nat) :
    writeParameters S fields count ps =
      ((ps.filter fun p => !(fields p).isNil).mapM fun p =>
        (writeVal S p.typ.id false (fields p)).map fun ts => (Binding.bodyParameterName p, ts)).map
        fun ms => (if ms = [] then [] else more count) ++ membersTokens ms := by
  induction ps generalizing count with
  | nil => simp [writeParameters, membersTokens]
  | cons p ps ih =>
    rw [writeParameters]
    by_cases hn : (fields p).isNil = true
    · simp [hn, ih]
    · simp only [hn, List.filter_cons, Bool.not_false, if_true, Bool.false_eq_true, if_false,
        List.mapM_cons, ih (count + 1)]
      cases writeVal S p.typ.id false (fields p) with
      | none => simp
      | some ts =>
        cases ((ps.filter fun p => !(fields p).isNil).mapM fun p =>
          (writeVal S p.typ.id false (fields p)).map fun ts =>
            (Binding.bodyParameterName p, ts)) with
        | none => simp
        | some ms =>
          cases ms with
          | nil => simp [membersTokens]
          | cons e ms => simp [membersTokens, more]

/-- C66: the body of the request of an action is an object whose members are the input parameters
that have been set, in the order of the declaration. There is no body if the action has no input
parameters. It panics only if some value can't be written. -/
theorem c66_action_request (m : Method) (hm : ¬ Special m) (S : Schema)
    (fields : Parameter → Val) :
    requestBody S m fields =
      if ∃ p ∈ m.parameters, p.isIn = true then
        sentFor ((actionMembers S m fields).map objectTokens)
      else .nothing := by
  obtain ⟨h1, h2, h3, h4, h5, h6, h7, h8, h9, h10⟩ := special_false hm
  have hps : Binding.requestBodyParameters m = m.parameters.filter fun p => p.isIn := by
    simp [Binding.requestBodyParameters, h10]
  unfold requestBody writeRequest writeActionRequest
  simp only [h1, h2, h3, h4, h5, h6, h7, h8, h9, Bool.false_eq_true, if_false, Bool.or_self, hps]
  by_cases he : ∃ p ∈ m.parameters, p.isIn = true
  · rw [if_pos he]
    cases hf : m.parameters.filter fun p => p.isIn with
    | nil =>
      obtain ⟨p, hp, hi⟩ := he
      have := List.filter_eq_nil_iff.1 hf p hp
      exact absurd hi this
    | cons p ps =>
      simp only
      rw [← hf, writeParameters_eq]
      unfold actionMembers
      rw [List.filter_filter]
      simp only [Bool.and_comm]
      cases (m.parameters.filter fun p => p.isIn && !(fields p).isNil).mapM (fun p =>
        (writeVal S p.typ.id false (fields p)).map fun ts => (Binding.bodyParameterName p, ts)) with
      | none => rfl
      | some ms => cases ms <;> simp [sentFor, objectTokens, membersTokens, more]
  · rw [if_neg he]
    have : m.parameters.filter (fun p => p.isIn) = [] := by
      rw [List.filter_eq_nil_iff]
      intro p hp hi
      exact he ⟨p, hp, hi⟩
    rw [this]

/-! ## Responses -/

/-- C66: the body of the response of add, get and update methods is the value of the `body`
parameter. -/
theorem c66_body_response (b : Builtins) (hb : b.Present) (m : Method)
    (hm : m.name = Nom.add ∨ m.name = Nom.get ∨ m.name = Nom.update ∨ m.name = Nom.asyncUpdate)
    (ha : Accepted (checkMethod b m)) (hu : UniqueNames m) (S : Schema) (ht : Typed S m) :
    ∃ p ∈ m.parameters, p.name = Nom.body ∧ ∀ D fuel fields source,
      readResponse D S fuel m fields source
        = receivedFor fields p (unmarshal D S fuel p.typ.id source) := by
  obtain ⟨p, hp, hn, hmar⟩ : ∃ p ∈ m.parameters, p.name = Nom.body ∧
      hasMarshal S p.typ.id = true := by
    rcases hm with hm | hm | hm
    · obtain ⟨ha, -⟩ := (c11_add_accepted_iff b hb m hm).1 ha
      obtain ⟨p, hp, hs⟩ := exactlyOne_mem ha.one
      exact ⟨p, hp, (ha.body p hp hs).2, typed_struct ht hp hs⟩
    · obtain ⟨ha, -⟩ := (c13_get_accepted_iff b hb m hm).1 ha
      obtain ⟨p, hp, hs⟩ := exactlyOne_mem ha.one
      exact ⟨p, hp, (ha.body p hp hs).2, typed_struct ht hp hs⟩
    · obtain ⟨ha, -⟩ := (c16_update_accepted_iff b hb m hm).1 ha
      obtain ⟨p, hp, hs⟩ := exactlyOne_mem ha.one
      exact ⟨p, hp, (ha.body p hp hs).2, hs.elim (typed_struct ht hp) (typed_list ht hp)⟩
  refine ⟨p, hp, hn, fun D fuel fields source => ?_⟩
  rw [← unmarshalBody_eq hmar]
  have hg := (getParameter_unique hu _ _).2 ⟨hp, hn⟩
  rcases hm with hm | hm | hm | hm
  all_goals
    have h := named_decide hm
    unfold readResponse
    kind_simp
    simp only [h, hg]
    rfl

/-- C66: the body of the response of a post method is the value of its output parameter. -/
theorem c66_post_response (b : Builtins) (hb : b.Present) (m : Method) (hm : m.name = Nom.post)
    (ha : Accepted (checkMethod b m)) (S : Schema) (ht : Typed S m) :
    ∃ p ∈ m.parameters, p.isOut = true ∧ ∀ D fuel fields source,
      readResponse D S fuel m fields source
        = receivedFor fields p (unmarshal D S fuel p.typ.id source) := by
  obtain ⟨ha, -⟩ := (c15_post_accepted_iff b hb m hm).1 ha
  obtain ⟨p, hp, ho⟩ := exactlyOne_mem ha.oneOut
  have hs := ha.types p hp (.inr ho)
  refine ⟨p, hp, ho, fun D fuel fields source => ?_⟩
  rw [← unmarshalBody_eq (typed_struct ht hp hs)]
  have hl := lastWhere_one (.inl ha.oneOut) hp ho
  have h := named_decide hm
  unfold readResponse
  kind_simp
  simp only [h, hl]
  rfl

/-- C66: nothing is read from the responses of delete methods. -/
theorem c66_delete_response (m : Method) (hm : m.name = Nom.delete ∨ m.name = Nom.asyncDelete)
    (D : DateParser) (S : Schema) (fuel : Nat) (fields : Parameter → Val) (source : List Tok) :
    readResponse D S fuel m fields source = .fields fields := by
  rcases hm with hm | hm
  all_goals
    have h := named_decide hm
    unfold readResponse
    kind_simp
    simp only [h]
    rfl

/-- What reading the members of the body of a response must do. -/
structure ReadsMembers (D : DateParser) (S : Schema) (m : Method) (fields : Parameter → Val)
    (ms : List (Text × Json)) (r : Received) : Prop where
  /-- The code compiles. -/
  compiles : r ≠ .doesNotCompile
  /-- There is an error only if the value of a member for an output parameter isn't valid. -/
  fails : r = .error ↔ ∃ e ∈ ms, ∃ p ∈ m.parameters, p.isOut = true ∧ TagOf m p e.1 ∧
    Unreadable D S p.typ.id e.2
  /-- Each output parameter gets the value of the last member with its name. -/
  found : ∀ f, r = .fields f → ∀ p ∈ m.parameters, p.isOut = true → ∀ tag, TagOf m p tag →
    ∀ j, LastMember ms tag j → ∃ v w, Reads D S p.typ.id j v ∧ StoredAs S m p v w ∧ f p = w
  /-- Those that have no member aren't changed. -/
  missing : ∀ f, r = .fields f → ∀ p ∈ m.parameters, p.isOut = true → ∀ tag, TagOf m p tag →
    (∀ e ∈ ms, e.1 ≠ tag) → f p = fields p
  /-- And neither are the other parameters. -/
  others : ∀ f, r = .fields f → ∀ p, ¬ (p ∈ m.parameters ∧ p.isOut = true) → f p = fields p

theorem tagOf_exists (m : Method) (p : Parameter) : ∃ tag, TagOf m p tag := by
  by_cases h : IsItems m p
  · exact ⟨_, .inl ⟨h, rfl⟩⟩
  · exact ⟨_, .inr ⟨h, rfl⟩⟩

theorem tagOf_unique {m : Method} {p : Parameter} {a b : Text} (ha : TagOf m p a)
    (hb : TagOf m p b) : a = b := by
  rcases ha with ⟨h, rfl⟩ | ⟨h, rfl⟩ <;> rcases hb with ⟨h', rfl⟩ | ⟨h', rfl⟩
  · rfl
  · exact absurd h h'
  · exact absurd h' h
  · rfl

theorem lastMember_unique {ms : List (Text × Json)} {name : Text} {a b : Json}
    (ha : LastMember ms name a) (hb : LastMember ms name b) : a = b := by
  obtain ⟨u, v, h1, h2⟩ := ha
  obtain ⟨u', v', h1', h2'⟩ := hb
  rw [h1] at h1'
  rcases List.append_eq_append_iff.1 h1' with ⟨w, h3, h4⟩ | ⟨w, h3, h4⟩
  · cases w with
    | nil => simp at h4; exact h4.1
    | cons x w =>
      simp only [List.cons_append, List.cons.injEq] at h4
      obtain ⟨rfl, rfl⟩ := h4
      exact absurd rfl (h2 (name, b) (by simp))
  · cases w with
    | nil => simp at h4; exact h4.1.symm
    | cons x w =>
      simp only [List.cons_append, List.cons.injEq] at h4
      obtain ⟨rfl, rfl⟩ := h4
      exact absurd rfl (h2' (name, a) (by simp))

theorem readsMembers_cases {D : DateParser} {S : Schema} {m : Method} (ht : UniqueTags m)
    {cases : List Case}
    (hc : ∀ c ∈ cases, c.param ∈ m.parameters ∧ c.param.isOut = true ∧ TagOf m c.param c.tag ∧
      ∀ v, StoredAs S m c.param v (c.value v))
    (hall : ∀ p ∈ m.parameters, p.isOut = true → ∃ c ∈ cases, c.param = p)
    (hinj : ∀ c ∈ cases, ∀ c' ∈ cases, c.param = c'.param → c = c')
    (fields : Parameter → Val) (ms : List (Text × Json)) (hn : (Json.obj ms).NamedMembers)
    (fuel : Nat) (hf : 2 * (Json.obj ms).tokens.length ≤ fuel) :
    ReadsMembers D S m fields ms (readCases D S fuel cases fields (Json.obj ms).tokens) := by
  have hg : GoodCases cases := by
    refine ⟨fun c h c' h' e => ?_, hinj⟩
    obtain ⟨h1, h2, h3, -⟩ := hc c h
    obtain ⟨h1', h2', h3', -⟩ := hc c' h'
    exact hinj c h c' h' (ht _ h1 _ h1' h2 h2' c.tag h3 (e ▸ h3'))
  have hn' : Json.NamedList ms := hn
  have ha := agrees_loop (readCase_agrees D S cases) ms fuel fields [] hf
  simp only [List.append_nil] at ha
  obtain ⟨hlost, herr⟩ := decodeCases_error (D := D) (S := S) hg ms hn' fields
  have hcase : ∀ p ∈ m.parameters, p.isOut = true → ∀ tag, TagOf m p tag →
      ∃ c ∈ cases, c.param = p ∧ c.tag = tag := by
    intro p hp ho tag htag
    obtain ⟨c, h, rfl⟩ := hall p hp ho
    exact ⟨c, h, rfl, tagOf_unique (hc c h).2.2.1 htag⟩
  have herr' : decodeLoop (caseEffect D S cases) fields ms = .error ↔
      ∃ e ∈ ms, ∃ p ∈ m.parameters, p.isOut = true ∧ TagOf m p e.1 ∧
        Unreadable D S p.typ.id e.2 := by
    rw [herr]
    constructor
    · rintro ⟨e, he, c, h, ht, hu⟩
      obtain ⟨h1, h2, h3, -⟩ := hc c h
      exact ⟨e, he, c.param, h1, h2, ht ▸ h3, hu⟩
    · rintro ⟨e, he, p, hp, ho, htag, hu⟩
      obtain ⟨c, h, rfl, htag'⟩ := hcase p hp ho _ htag
      exact ⟨e, he, c, h, htag', hu⟩
  cases hd : decodeLoop (caseEffect D S cases) fields ms with
  | lost => exact absurd hd hlost
  | error =>
    simp only [hd, Agrees] at ha
    have hr : readCases D S fuel cases fields (Json.obj ms).tokens = .error := by
      simp [readCases, ha]
    rw [hr]
    exact ⟨by simp, by simp [← herr', hd], by simp, by simp, by simp⟩
  | ok g =>
    simp only [hd, Agrees] at ha
    have hr : readCases D S fuel cases fields (Json.obj ms).tokens = .fields g := by
      simp [readCases, ha]
    rw [hr]
    obtain ⟨h1, h2⟩ := decodeCases_ok hg ms hn' fields g hd
    refine ⟨by simp, by rw [← herr', hd]; simp, ?_, ?_, ?_⟩
    · intro f e p hp ho tag htag j hj
      rw [Received.fields.injEq] at e; subst e
      obtain ⟨c, h, rfl, rfl⟩ := hcase p hp ho tag htag
      rcases h1 c h with ⟨j', v, hj', hv, e⟩ | ⟨hno, -⟩
      · rw [lastMember_unique hj hj']
        exact ⟨v, c.value v, hv, (hc c h).2.2.2 v, e⟩
      · obtain ⟨u, w, rfl, -⟩ := hj
        exact absurd rfl (hno (c.tag, j) (by simp))
    · intro f e p hp ho tag htag hno
      rw [Received.fields.injEq] at e; subst e
      obtain ⟨c, h, rfl, rfl⟩ := hcase p hp ho tag htag
      rcases h1 c h with ⟨j', v, ⟨u, w, rfl, -⟩, -, -⟩ | ⟨-, e⟩
      · exact absurd rfl (hno (c.tag, j') (by simp))
      · exact e
    · intro f e p hp
      rw [Received.fields.injEq] at e; subst e
      apply h2
      rintro c h rfl
      exact hp ⟨(hc c h).1, (hc c h).2.1⟩

/-- C66: each output parameter of an action gets the value of the member of the body of the
response with its name, whatever the order of the members, and other members are ignored. -/
theorem c66_action_response (m : Method) (hm : ¬ Special m) (ht : UniqueTags m)
    (D : DateParser) (S : Schema) (fields : Parameter → Val) (ms : List (Text × Json))
    (hn : (Json.obj ms).NamedMembers) (fuel : Nat) (hf : 2 * (Json.obj ms).tokens.length ≤ fuel) :
    ReadsMembers D S m fields ms (readResponse D S fuel m fields (Json.obj ms).tokens) := by
  have hni : ∀ p, ¬ IsItems m p := by
    rintro p ⟨h | h, -⟩ <;> exact hm (by simp [Special, h])
  obtain ⟨h1, h2, h3, h4, h5, h6, h7, h8, h9, h10⟩ := special_false hm
  have hcases := readsMembers_cases (D := D) (S := S) ht
    (cases := (Binding.responseParameters m).map bodyCase) (by
      intro c h
      obtain ⟨p, hp, rfl⟩ := List.mem_map.1 h
      simp only [Binding.responseParameters, List.mem_filter] at hp
      refine ⟨hp.1, hp.2, .inr ⟨hni _, rfl⟩, fun v => .inr ⟨fun h => hni _ h.1, rfl⟩⟩) (by
      intro p hp ho
      exact ⟨bodyCase p, List.mem_map.2 ⟨p, by simp [Binding.responseParameters, hp, ho], rfl⟩, rfl⟩)
    (by
      intro c h c' h' e
      obtain ⟨p, -, rfl⟩ := List.mem_map.1 h
      obtain ⟨q, -, rfl⟩ := List.mem_map.1 h'
      simp only [bodyCase] at e
      rw [e]) fields ms hn fuel hf
  unfold readResponse
  simp only [h1, h2, h3, h4, h5, h6, h7, h8, h9, Bool.false_eq_true, if_false, Bool.or_self]
  cases hr : Binding.responseParameters m with
  | nil =>
    simp only
    have hno : ∀ p ∈ m.parameters, ¬ p.isOut = true := by
      intro p hp ho
      have : p ∈ Binding.responseParameters m := by simp [Binding.responseParameters, hp, ho]
      simp [hr] at this
    refine ⟨by simp, ?_, ?_, ?_, ?_⟩
    · constructor
      · intro h; simp at h
      · rintro ⟨e, -, p, hp, ho, -⟩; exact absurd ho (hno p hp)
    · intro f _ p hp ho; exact absurd ho (hno p hp)
    · intro f _ p hp ho; exact absurd ho (hno p hp)
    · intro f e p _; rw [Received.fields.injEq] at e; rw [e]
  | cons p ps =>
    simp only
    rw [← hr]
    exact hcases

theorem pageCases_reads {D : DateParser} {S : Schema} {m : Method} (hu : UniqueNames m)
    (ht : UniqueTags m) (hm : m.name = Nom.list ∨ m.name = Nom.search) {names : List Name}
    (h1 : Nom.page ∈ names) (h2 : Nom.size ∈ names) (h3 : Nom.total ∈ names)
    (h4 : Nom.items ∈ names)
    (hcov : ∀ p ∈ m.parameters, p.isOut = true → p.name ∈ names →
      p.name = Nom.page ∨ p.name = Nom.size ∨ p.name = Nom.total ∨ p.name = Nom.items)
    (hout : ∀ p ∈ m.parameters, p.name = Nom.page ∨ p.name = Nom.size ∨ p.name = Nom.total →
      p.isOut = true)
    {items : Parameter} (hi : items ∈ m.parameters) (hin : items.name = Nom.items)
    (hio : items.isOut = true) {name : Text} {element : TypeId}
    (hs : S items.typ.id = .list name element) (fields : Parameter → Val)
    (ms : List (Text × Json)) (hn : (Json.obj ms).NamedMembers) (fuel : Nat)
    (hf : 2 * (Json.obj ms).tokens.length ≤ fuel) :
    ∃ cases, pageCases S m names = some cases ∧
      ReadsMembers D S m fields ms (readCases D S fuel cases fields (Json.obj ms).tokens) := by
  have hlast := (lastNamed_unique hu Nom.items items).2 ⟨hi, hin⟩
  have hii : IsItems m items := ⟨hm, hin⟩
  have hother : ∀ p, p ∈ (otherParameters m names).filter (fun p => p.isOut) ↔
      p ∈ m.parameters ∧ p.isOut = true ∧ p.name ∉ names := by
    intro p
    simp only [otherParameters, List.mem_filter, Bool.not_eq_true', bool_eq_false_iff_not,
      List.any_eq_true, c01_equals_iff, Option.some.injEq]
    constructor
    · rintro ⟨⟨a, b⟩, c⟩; exact ⟨a, c, fun h => b ⟨_, h, rfl⟩⟩
    · rintro ⟨a, b, c⟩; exact ⟨⟨a, fun ⟨n, h, e⟩ => c (e ▸ h)⟩, b⟩
  have hmem : ∀ c, c ∈ (lastNamed m Nom.page).toList.map bodyCase
        ++ (lastNamed m Nom.size).toList.map bodyCase
        ++ (lastNamed m Nom.total).toList.map bodyCase
        ++ ((otherParameters m names).filter fun p => p.isOut).map bodyCase
        ++ [{ tag := t!"items", param := items, wrap := !(S element).isScalar }] ↔
      (c.param ∈ m.parameters ∧ c.param.isOut = true ∧ c.param.name ≠ Nom.items ∧
        c = bodyCase c.param) ∨
      c = { tag := t!"items", param := items, wrap := !(S element).isScalar } := by
    intro c
    have hb : ∀ p, (bodyCase p).param = p := fun _ => rfl
    simp only [List.mem_append, List.mem_map, Option.mem_toList, Option.mem_def,
      lastNamed_unique hu, hother, List.mem_singleton]
    constructor
    · rintro ((((⟨p, ⟨hp, e⟩, rfl⟩ | ⟨p, ⟨hp, e⟩, rfl⟩) | ⟨p, ⟨hp, e⟩, rfl⟩) | ⟨p, ⟨hp, ho, e⟩, rfl⟩) | h)
      · exact .inl ⟨hp, hout p hp (.inl e), by rw [hb, e]; decide, rfl⟩
      · exact .inl ⟨hp, hout p hp (.inr (.inl e)), by rw [hb, e]; decide, rfl⟩
      · exact .inl ⟨hp, hout p hp (.inr (.inr e)), by rw [hb, e]; decide, rfl⟩
      · exact .inl ⟨hp, ho, fun h => e (h ▸ h4), rfl⟩
      · exact .inr h
    · rintro (⟨hp, ho, hne, e⟩ | h)
      · by_cases hin : c.param.name ∈ names
        · rcases hcov c.param hp ho hin with h | h | h | h
          · exact .inl (.inl (.inl (.inl ⟨c.param, ⟨hp, h⟩, e.symm⟩)))
          · exact .inl (.inl (.inl (.inr ⟨c.param, ⟨hp, h⟩, e.symm⟩)))
          · exact .inl (.inl (.inr ⟨c.param, ⟨hp, h⟩, e.symm⟩))
          · exact absurd h hne
        · exact .inl (.inr ⟨c.param, ⟨hp, ho, hin⟩, e.symm⟩)
      · exact .inr h
  refine ⟨_, by simp only [pageCases, hlast, hs]; rfl, ?_⟩
  refine readsMembers_cases ht ?_ ?_ ?_ fields ms hn fuel hf
  · intro c h
    rcases (hmem c).1 h with ⟨hp, ho, hne, e⟩ | rfl
    · have hni : ¬ IsItems m c.param := fun h => hne h.2
      refine ⟨hp, ho, .inr ⟨hni, ?_⟩, fun v => .inr ⟨fun h => hni h.1, ?_⟩⟩
      · rw [e]; rfl
      · rw [e]; rfl
    · refine ⟨hi, hio, .inl ⟨hii, rfl⟩, fun v => ?_⟩
      cases hsc : (S element).isScalar with
      | true =>
        refine .inr ⟨?_, by simp [Case.value]⟩
        rintro ⟨-, n, el, h, h'⟩
        simp only at h
        rw [hs] at h
        simp only [Shape.list.injEq] at h
        rw [← h.2, hsc] at h'
        simp at h'
      | false => exact .inl ⟨hii, ⟨name, element, hs, hsc⟩, by simp [Case.value]⟩
  · intro p hp ho
    by_cases h : p.name = Nom.items
    · refine ⟨_, (hmem _).2 (.inr rfl), ?_⟩
      exact unique_mem hu hi hp (hin.trans h.symm)
    · exact ⟨bodyCase p, (hmem _).2 (.inl ⟨hp, ho, h, rfl⟩), rfl⟩
  · intro c h c' h' e
    rcases (hmem c).1 h with ⟨hp, ho, hne, e1⟩ | e1 <;>
      rcases (hmem c').1 h' with ⟨hp', ho', hne', e2⟩ | e2
    · rw [e1, e2, e]
    · rw [e, e2] at hne; exact absurd hin hne
    · rw [← e, e1] at hne'; exact absurd hin hne'
    · rw [e1, e2]

theorem first_unique {m : Method} (hu : UniqueNames m) {n : Name} {P : Parameter → Prop}
    (h : Rule.First m n P) {p : Parameter} (hp : p ∈ m.parameters) (hn : p.name = n) : P p :=
  (first_iff m n P).1 h p ((getParameter_unique hu n p).2 ⟨hp, hn⟩)

/-- C66: the same for list and search methods: the page, the size, the total and the items are read
from the members with their names, as any other output parameter. -/
theorem c66_page_response (b : Builtins) (hb : b.Present) (m : Method)
    (hm : m.name = Nom.list ∨ m.name = Nom.search) (ha : Accepted (checkMethod b m))
    (hu : UniqueNames m) (ht : UniqueTags m) (D : DateParser) (S : Schema) (hS : Typed S m)
    (fields : Parameter → Val) (ms : List (Text × Json)) (hn : (Json.obj ms).NamedMembers)
    (fuel : Nat) (hf : 2 * (Json.obj ms).tokens.length ≤ fuel) :
    ReadsMembers D S m fields ms (readResponse D S fuel m fields (Json.obj ms).tokens) := by
  have hname := hm
  rcases hm with hm | hm
  · obtain ⟨ha, -⟩ := (c14_list_accepted_iff b hb m hm).1 ha
    obtain ⟨items, hi, hl⟩ := exactlyOne_mem ha.one
    obtain ⟨ho, hin⟩ := ha.items items hi hl
    obtain ⟨n, e, hs, -⟩ := hS.lists items hi hl
    obtain ⟨cases, h1, h2⟩ := pageCases_reads (D := D) hu ht hname
      (names := [Nom.page, Nom.size, Nom.total, Nom.items]) (by simp) (by simp) (by simp) (by simp)
      (by simp) (by
        rintro p hp (h | h | h)
        · exact (first_unique hu ha.paging.page hp h).2.1.2
        · exact (first_unique hu ha.paging.size hp h).2.1.2
        · exact (first_unique hu ha.paging.total hp h).2.2)
      hi hin ho.2 hs fields ms hn fuel hf
    have h := named_decide hm
    unfold readResponse
    kind_simp
    simp only [h, h1]
    exact h2
  · obtain ⟨ha, -⟩ := (c15_search_accepted_iff b hb m hm).1 ha
    obtain ⟨items, hi, hl⟩ := exactlyOne_mem ha.oneItems
    obtain ⟨ho, hin⟩ := ha.items items hi hl
    obtain ⟨n, e, hs, -⟩ := hS.lists items hi hl
    obtain ⟨q, hq, hqs, hqi⟩ := exactlyOne_mem ha.oneBody
    obtain ⟨hqo, hqn⟩ := ha.body q hq hqs hqi
    obtain ⟨cases, h1, h2⟩ := pageCases_reads (D := D) hu ht hname
      (names := [Nom.page, Nom.size, Nom.total, Nom.body, Nom.items]) (by simp) (by simp) (by simp)
      (by simp)
      (by
        intro p hp hpo hpn
        simp only [List.mem_cons, List.not_mem_nil, or_false] at hpn
        rcases hpn with h | h | h | h | h
        · exact .inl h
        · exact .inr (.inl h)
        · exact .inr (.inr (.inl h))
        · have := unique_mem hu hp hq (h.trans hqn.symm)
          rw [this, hqo.2] at hpo
          simp at hpo
        · exact .inr (.inr (.inr h))) (by
        rintro p hp (h | h | h)
        · exact (first_unique hu ha.paging.page hp h).2.1.2
        · exact (first_unique hu ha.paging.size hp h).2.1.2
        · exact (first_unique hu ha.paging.total hp h).2.2)
      hi hin ho.2 hs fields ms hn fuel hf
    have h := named_decide hm
    unfold readResponse
    kind_simp
    simp only [h, h1]
    exact h2

/-! ## Consequences -/

/-- C66: what the server sends for a value is what the client receives. -/
theorem c66_round_trip (b : Builtins) (hb : b.Present) (m : Method)
    (hm : m.name = Nom.add ∨ m.name = Nom.get ∨ m.name = Nom.update ∨ m.name = Nom.asyncUpdate)
    (ha : Accepted (checkMethod b m)) (hu : UniqueNames m) (D : DateParser) (S : Schema)
    (ht : Typed S m) (hS : Proper S) :
    ∃ p ∈ m.parameters, p.name = Nom.body ∧ ∀ v, Normal D S p.typ.id false v →
      ∃ ts, marshal S p.typ.id v = some ts ∧ ∀ fuel fields, 2 * ts.length ≤ fuel →
        ∃ f, readResponse D S fuel m fields ts = .fields f ∧ f p = v ∧
          ∀ q, q ≠ p → f q = fields q := by
  obtain ⟨p, hp, hn, h⟩ := c66_body_response b hb m hm ha hu S ht
  refine ⟨p, hp, hn, fun v hv => ?_⟩
  obtain ⟨ts, h1, h2⟩ := c38_marshal D S hS p.typ.id v hv
  refine ⟨ts, h1, fun fuel fields hf => ⟨_, by rw [h, h2 fuel hf]; rfl, by simp, ?_⟩⟩
  intro q hq
  simp [hq]

/-- Sending the request of an add method when the body hasn't been set doesn't return an error: it
panics (unless the type of the body is a struct without attributes). -/
theorem c66_nil_body_refuted (b : Builtins) (hb : b.Present) (m : Method) (hm : m.name = Nom.add)
    (ha : Accepted (checkMethod b m)) (hu : UniqueNames m) (S : Schema) (ht : Typed S m)
    (hne : ∀ p ∈ m.parameters, ∀ n, S p.typ.id ≠ .struct false n [])
    (fields : Parameter → Val) (hf : ∀ p, fields p = .nil) :
    requestBody S m fields = .panic := by
  obtain ⟨p, hp, hn, h⟩ := c66_add_request b hb m hm ha hu S ht
  rw [h, hf]
  obtain ⟨ha, -⟩ := (c11_add_accepted_iff b hb m hm).1 ha
  obtain ⟨q, hq, hs⟩ := exactlyOne_mem ha.one
  have := unique_mem hu hp hq (hn.trans (ha.body q hq hs).2.symm)
  subst this
  obtain ⟨c, n, as, e⟩ := ht.structs p hp hs
  have hne := hne p hp n
  rw [e] at hne
  have : marshal S p.typ.id .nil = none := by
    cases c <;> cases as <;> simp_all [marshal, writeVal]
  rw [this]
  rfl

/-! ## Metadata -/

/-- The effect of a member of the metadata. -/
def metadataEffect (k : Text) (j : Json) : Decoded (Metadata → Metadata) :=
  if k = t!"server_version" then
    match stringOf j with
    | some s => .ok fun m => { bitmap := m.bitmap ||| 1, serverVersion := s }
    | none => .error
  else .ok id

theorem readMetadata_agrees : StepAgrees metadataEffect
    (fun fuel field (m : Metadata) r =>
      if field = t!"server_version" then
        (readString r).map fun p => ({ bitmap := m.bitmap ||| 1, serverVersion := p.1 }, p.2)
      else skipValue fuel m r) := by
  intro fuel k j s rest hk hf
  unfold metadataEffect
  by_cases h : k = t!"server_version"
  · simp only [h, if_true, readString_tokens]
    cases stringOf j <;> simp [Decoded.bind, Agrees]
  · simp only [h, if_false, skipValue_tokens j fuel s rest hf]
    simp [Decoded.bind, Agrees]

/-- C66: the version of the server is that of the last member with that name; the other members are
ignored. -/
theorem c66_metadata (ms : List (Text × Json)) (hn : (Json.obj ms).NamedMembers) (fuel : Nat)
    (hf : 2 * (Json.obj ms).tokens.length ≤ fuel) :
    (readMetadata fuel (Json.obj ms).tokens = none ↔
      ∃ j, (t!"server_version", j) ∈ ms ∧ j ≠ .null ∧ ∀ s, j ≠ .str s) ∧
    (∀ md, readMetadata fuel (Json.obj ms).tokens = some md →
      (∀ s, LastMember ms t!"server_version" (.str s) → md = { bitmap := 1, serverVersion := s }) ∧
      ((∀ e ∈ ms, e.1 ≠ t!"server_version") → md = { bitmap := 0, serverVersion := [] })) := by
  have ha := agrees_loop readMetadata_agrees ms fuel {} [] hf
  simp only [List.append_nil] at ha
  have hstr : ∀ j : Json, stringOf j = none ↔ j ≠ .null ∧ ∀ s, j ≠ .str s := by
    intro j; cases j <;> simp [stringOf]
  have key : ∀ (ms : List (Text × Json)), Json.NamedList ms → ∀ (md : Metadata),
      md.bitmap = 0 ∨ md.bitmap = 1 →
      decodeLoop metadataEffect md ms ≠ .lost ∧
      (decodeLoop metadataEffect md ms = .error ↔
        ∃ j, (t!"server_version", j) ∈ ms ∧ stringOf j = none) ∧
      ∀ md', decodeLoop metadataEffect md ms = .ok md' →
        (∀ s, LastMember ms t!"server_version" (.str s) → md' = { bitmap := 1, serverVersion := s })
        ∧ ((∀ e ∈ ms, e.1 ≠ t!"server_version") → md' = md) := by
    intro ms
    induction ms with
    | nil =>
      intro _ md hb
      refine ⟨by simp [decodeLoop], by simp [decodeLoop], fun md' h => ?_⟩
      simp only [decodeLoop, Decoded.ok.injEq] at h
      refine ⟨?_, fun _ => h.symm⟩
      rintro s ⟨u, v, h, -⟩
      simp at h
    | cons e ms ih =>
      obtain ⟨k, j⟩ := e
      intro hn md hb
      simp only [Json.NamedList] at hn
      obtain ⟨hk, -, hn⟩ := hn
      have hlast : ∀ s, LastMember ((k, j) :: ms) t!"server_version" (.str s) →
          LastMember ms t!"server_version" (.str s) ∨
          ((∀ e ∈ ms, e.1 ≠ t!"server_version") ∧ k = t!"server_version" ∧ j = .str s) := by
        rintro s ⟨u, v, h1, h2⟩
        cases u with
        | nil =>
          simp only [List.nil_append, List.cons.injEq, Prod.mk.injEq] at h1
          exact .inr ⟨by rw [h1.2]; exact h2, h1.1.1, h1.1.2⟩
        | cons x u =>
          simp only [List.cons_append, List.cons.injEq] at h1
          exact .inl ⟨u, v, h1.2, h2⟩
      simp only [decodeLoop, hk, if_false]
      by_cases hv : k = t!"server_version"
      · cases hs : stringOf j with
        | none =>
          have : metadataEffect k j = .error := by simp [metadataEffect, hv, hs]
          rw [this]
          refine ⟨by simp [Decoded.bind], ?_, by simp [Decoded.bind]⟩
          simp only [Decoded.bind, true_iff]
          exact ⟨j, by simp [hv], hs⟩
        | some s =>
          have : metadataEffect k j
              = .ok fun m => { bitmap := m.bitmap ||| 1, serverVersion := s } := by
            simp [metadataEffect, hv, hs]
          rw [this]
          simp only [Decoded.bind]
          have hbit : md.bitmap ||| 1 = 1 := by rcases hb with h | h <;> rw [h] <;> rfl
          obtain ⟨h1, h2, h3⟩ := ih hn { bitmap := md.bitmap ||| 1, serverVersion := s } (.inr hbit)
          refine ⟨h1, ?_, fun md' h => ?_⟩
          · rw [h2]
            constructor
            · rintro ⟨j', h, h'⟩; exact ⟨j', by simp [h], h'⟩
            · rintro ⟨j', h, h'⟩
              rcases List.mem_cons.1 h with h | h
              · simp only [Prod.mk.injEq] at h
                rw [h.2, hs] at h'; simp at h'
              · exact ⟨j', h, h'⟩
          · obtain ⟨h4, h5⟩ := h3 md' h
            refine ⟨fun s' hl => ?_, fun hno => absurd hv (hno (k, j) (by simp))⟩
            rcases hlast s' hl with hl | ⟨hno, -, hj⟩
            · exact h4 s' hl
            · rw [h5 hno, hbit]
              rw [hj] at hs
              simp only [stringOf, Option.some.injEq] at hs
              rw [hs]
      · have : metadataEffect k j = .ok id := by simp [metadataEffect, hv]
        rw [this]
        simp only [Decoded.bind, id]
        obtain ⟨h1, h2, h3⟩ := ih hn md hb
        refine ⟨h1, ?_, fun md' h => ?_⟩
        · rw [h2]
          constructor
          · rintro ⟨j', h, h'⟩; exact ⟨j', by simp [h], h'⟩
          · rintro ⟨j', h, h'⟩
            rcases List.mem_cons.1 h with h | h
            · simp only [Prod.mk.injEq] at h
              exact absurd h.1.symm hv
            · exact ⟨j', h, h'⟩
        · obtain ⟨h4, h5⟩ := h3 md' h
          refine ⟨fun s' hl => ?_, fun hno => h5 fun e he => hno e (by simp [he])⟩
          rcases hlast s' hl with hl | ⟨-, hk', -⟩
          · exact h4 s' hl
          · exact absurd hk' hv
  obtain ⟨h1, h2, h3⟩ := key ms hn {} (.inl rfl)
  simp only [hstr] at h2
  rw [← h2]
  cases hd : decodeLoop metadataEffect {} ms with
  | lost => exact absurd hd h1
  | error =>
    simp only [hd, Agrees] at ha
    simp [readMetadata, ha]
  | ok md =>
    simp only [hd, Agrees] at ha
    have hr : readMetadata fuel (Json.obj ms).tokens = some md := by
      simp only [readMetadata, ha, Option.map_some]
    rw [hr]
    refine ⟨by simp, fun md' h => ?_⟩
    rw [Option.some.injEq] at h
    subst h
    exact h3 md hd

/-- C66: the metadata written has the version of the server if and only if it has been set, and it
is read back. -/
theorem c66_metadata_round_trip (version : Text) (fuel : Nat) (hf : 10 ≤ fuel) :
    writeMetadata { bitmap := 1, serverVersion := version }
      = objectTokens [(t!"server_version", [.str version])] ∧
    writeMetadata {} = objectTokens [] ∧
    readMetadata fuel (writeMetadata { bitmap := 1, serverVersion := version })
      = some { bitmap := 1, serverVersion := version } ∧
    readMetadata fuel (writeMetadata {}) = some {} := by
  match fuel, hf with
  | fuel + 10, _ =>
    refine ⟨?_, ?_, ?_, ?_⟩
    · simp [writeMetadata, objectTokens, membersTokens]
    · simp [writeMetadata, objectTokens, membersTokens]
    · simp [readMetadata, writeMetadata, readLoop, readObject, readString]
    · simp [readMetadata, writeMetadata, readLoop, readObject]

/-! ## C67: the fields used -/

/-- C67, for the parameters whose fields aren't renamed: the code that reads and writes JSON uses the
fields that the types of requests and responses have. -/
theorem c67_fields_partial (p : Parameter) :
    parameterFieldName p = Go.parameterField p ↔
      Go.privateName p.name ≠ t!"err" ∧ Go.privateName p.name ≠ t!"status" := by
  unfold parameterFieldName Go.parameterField Go.avoidBuiltin Go.builtinFields
  by_cases h : [t!"err", t!"status"].contains (Go.privateName p.name) = true
  · rw [if_pos h]
    constructor
    · intro e
      have := congrArg List.length e
      simp at this
    · rintro ⟨h1, h2⟩
      simp at h
      rcases h with h | h
      · exact absurd h h1
      · exact absurd h h2
  · rw [if_neg h]
    simp at h
    simp [h]

/-- The code generated for a method with an output parameter named `Status` doesn't compile. -/
theorem c67_status_refuted :
    let p : Parameter := { name := parseUsingCase t!"Status", typ := ⟨8, .scalar⟩, isOut := true }
    let m : Method := { name := parseUsingCase t!"Hibernate", parameters := [p] }
    parameterFieldName p = t!"status" ∧ Go.parameterField p = t!"status_" ∧
    Go.responseFields m = [t!"status", t!"header", t!"err", t!"status_"] := by decide

/-! ## Examples -/

/-- A schema for the examples of the checks. -/
def bodySchema : Schema := fun id =>
  match id with
  | 2 => .integer
  | 8 => .string
  | 20 => .struct true t!"Cluster"
      [{ tag := t!"name", typ := 8, link := false, bit := 3 }]
  | 21 => .list t!"ClusterList" 20
  | _ => .interface

/-- A search method. -/
def exSearch : Method := { name := Nom.search, parameters := [exBody true false, exItems, exPage 1] }

example : UniqueNames exSearch ∧ UniqueTags exSearch ∧ Typed bodySchema exSearch ∧
    Accepted (checkMethod exBuiltins exSearch) := by
  refine ⟨?_, ?_, ⟨?_, ?_⟩, by decide⟩
  · unfold UniqueNames; decide
  · intro p hp q hq ho ho' tag ht ht'
    simp only [exSearch, List.mem_cons, List.not_mem_nil, or_false] at hp hq
    rcases hp with rfl | rfl | rfl <;> rcases hq with rfl | rfl | rfl
    · rfl
    · simp [exBody] at ho
    · simp [exBody] at ho
    · simp [exBody] at ho'
    · rfl
    · rcases ht with ⟨-, e⟩ | ⟨h, -⟩
      · rcases ht' with ⟨h, -⟩ | ⟨-, e'⟩
        · exact absurd h.2 (by decide)
        · rw [e] at e'; exact absurd e' (by decide)
      · exact absurd ⟨.inr rfl, rfl⟩ h
    · simp [exBody] at ho'
    · rcases ht' with ⟨-, e⟩ | ⟨h, -⟩
      · rcases ht with ⟨h, -⟩ | ⟨-, e'⟩
        · exact absurd h.2 (by decide)
        · rw [e] at e'; exact absurd e' (by decide)
      · exact absurd ⟨.inr rfl, rfl⟩ h
    · rfl
  · intro p hp hs
    simp only [exSearch, List.mem_cons, List.not_mem_nil, or_false] at hp
    rcases hp with rfl | rfl | rfl
    · exact ⟨_, _, _, rfl⟩
    · simp [Rule.Struct, exItems] at hs
    · simp [Rule.Struct, exPage] at hs
  · intro p hp hs
    simp only [exSearch, List.mem_cons, List.not_mem_nil, or_false] at hp
    rcases hp with rfl | rfl | rfl
    · simp [Rule.IsList, exBody] at hs
    · exact ⟨_, _, rfl, .inr ⟨_, _, _, rfl⟩⟩
    · simp [Rule.IsList, exPage] at hs

example : requestBody bodySchema exSearch
      (fun p => if p.name = Nom.body then .obj 10 t!"1" [] [.str t!"x"] else .nil)
    = .body (objectTokens [(t!"kind", [.str t!"Cluster"]), (t!"id", [.str t!"1"]),
        (t!"name", [.str t!"x"])]) := by rfl

example : ∃ f, readResponse noDates bodySchema 100 exSearch (fun _ => .nil)
      (Json.obj [(t!"extra", .arr [.null]), (t!"page", .num t!"3"),
        (t!"items", .arr [.obj [(t!"name", .str t!"x")]])]).tokens = .fields f ∧
    f (exPage 1) = .int 3 ∧ f (exBody true false) = .nil ∧
    f exItems = .linkList false [] (.list [.obj 8 [] [] [.str t!"x"]]) :=
  ⟨_, rfl, rfl, rfl, rfl⟩

end GoJson

end Verif
