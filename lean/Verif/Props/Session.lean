import Verif.Lemmas.SessionTypes
import Verif.Lemmas.Digits
import Verif.Props.Reader
import Verif.Props.Checks

/-!
# Property C17, and the parts of C18, C20 and C21 about whole models

`Session.read prior inputs fuel` is `Read` for a reporter that already has `prior` errors.
-/

namespace Verif

open Session

/-! ## C17: the result of reading -/

theorem errorText_tells (n : Nat) (h : 0 < n) : TellsErrors n (errorText n) := by
  unfold errorText TellsErrors
  by_cases h1 : n > 1
  · rw [if_pos h1]
    exact .inr ⟨h1, natText n, numeral_natText n, rfl⟩
  · rw [if_neg h1]
    exact .inl ⟨by omega, rfl⟩

/-- A model is returned exactly when the reporter has no errors at the end; otherwise the text of
the error tells how many there are, which are those that the reporter already had, those found
while loading and those found by the checks. -/
theorem c17_returned_iff (prior : Nat) (inputs : List SourceModel) (fuel : Nat) (out : ReadOutcome)
    (h : read (some prior) inputs fuel = .done out) :
    ((∃ s, out.result = .model s) ↔ out.errors = 0) ∧
    (out.errors ≠ 0 → ∃ text, out.result = .error text ∧ TellsErrors out.errors text) ∧
    ∃ messages,
      Check.checkModel (load inputs).graph fuel
        ((load inputs).versions.map (load inputs).versionView) = .done messages ∧
      out.errors = prior + (load inputs).problems.length +
        (messages.filter Message.isError).length ∧
      (out.errors = 0 → out.result = .model (load inputs)) := by
  unfold Session.read at h
  dsimp only at h
  obtain ⟨messages, hm, h⟩ := Run.bind_done h
  split at h
  · rename_i hpos
    cases h
    refine ⟨⟨fun ⟨s, hs⟩ => (nomatch hs), fun he => absurd he (Nat.ne_of_gt hpos)⟩,
      fun _ => ⟨_, rfl, errorText_tells _ hpos⟩, messages, hm, rfl,
      fun he => absurd he (Nat.ne_of_gt hpos)⟩
  · rename_i hpos
    cases h
    refine ⟨⟨fun _ => Nat.eq_zero_of_not_pos hpos, fun _ => ⟨_, rfl⟩⟩,
      fun hne => absurd (Nat.eq_zero_of_not_pos hpos) hne, messages, hm, rfl, fun _ => rfl⟩

/-- Without a reporter there is no model. -/
theorem c17_no_reporter (inputs : List SourceModel) (fuel : Nat) :
    ∃ text errors, read none inputs fuel = .done { result := .error text, errors := errors } :=
  ⟨_, _, rfl⟩

/-- If a model is returned then the reporter had no errors before; everything that was found in the
input directories, except files that are not directories or regular files, was loaded without
errors; and all the methods satisfy their rules. -/
theorem c17_nothing_ignored (prior : Nat) (inputs : List SourceModel) (fuel : Nat)
    (out : ReadOutcome) (s : Session) (h : read (some prior) inputs fuel = .done out)
    (hm : out.result = .model s) :
    prior = 0 ∧ s = load inputs ∧ s.problems = [] ∧ (∀ d ∈ inputs, d.Readable) ∧
    ∀ v ∈ s.versions, ∃ messages,
      Check.checkVersion s.graph fuel (s.versionView v) = .done messages ∧ Accepted messages := by
  obtain ⟨h1, -, messages, h3, h4, h5⟩ := c17_returned_iff prior inputs fuel out h
  have h0 := h1.mp ⟨s, hm⟩
  have hs := h5 h0
  rw [hm] at hs
  cases hs
  have hp : (load inputs).problems = [] := List.eq_nil_of_length_eq_zero (by omega)
  have hf : (messages.filter Message.isError) = [] := List.eq_nil_of_length_eq_zero (by omega)
  refine ⟨by omega, rfl, hp, ?_, ?_⟩
  · rw [load_problems] at hp
    unfold Session.reportUndefined at hp
    dsimp only at hp
    rw [List.append_assoc] at hp
    exact foldl_all _ _ loadModel_prefix loadModel_good _ _ (List.append_eq_nil_iff.mp hp).1
  · have hacc : Accepted messages := by
      intro m hmem
      have := List.filter_eq_nil_iff.mp hf _ hmem
      exact this rfl
    have := (c62_model_accepted_iff _ _ _ messages h3).mp hacc
    intro v hv
    exact this _ (List.mem_map.mpr ⟨v, hv, rfl⟩)

/-- If a model is returned then the methods of all the resources of all its versions were checked,
starting from the resource named `Root`, in the order of their names, and using the kinds that the
types of the parameters have at the end. -/
theorem c17_everything_checked (prior : Nat) (inputs : List SourceModel) (fuel : Nat)
    (out : ReadOutcome) (s : Session) (h : read (some prior) inputs fuel = .done out)
    (hm : out.result = .model s) (service name : Text) (v : LoadedVersion)
    (hv : s.version service name = some v) :
    (∃ view messages, Check.checkVersion s.graph fuel view = .done messages ∧ Accepted messages ∧
      view.root = v.resources.find t!"root" ∧
      view.builtins = TypeTable.builtins { version := v.id, heap := s.heap, types := v.types } ∧
      (∀ k id, v.resources.find k = some id → id ∈ view.resources) ∧
      (∀ id ∈ view.resources, ∃ k, (k, id) ∈ v.resources) ∧
      view.resources.Pairwise fun a b => ∀ ra rb, s.graph[a]? = some ra → s.graph[b]? = some rb →
        ¬ (rb.name.map Word.text < ra.name.map Word.text)) ∧
    ∀ res ∈ s.graph, ∀ m ∈ res.methods, ∀ p ∈ m.parameters, ∀ c,
      s.heap[p.typ.id]? = some c → p.typ.kind = c.kind := by
  obtain ⟨-, hs, -, -, hchecked⟩ := c17_nothing_ignored prior inputs fuel out s h hm
  have mem_listing : ∀ {α : Type} (nameOf : α → Name) (m : GoMap α) (x : α),
      x ∈ listing nameOf m ↔ x ∈ m.values := fun nameOf m x =>
    (sortByName_spec nameOf m.values).1.mem_iff
  have mem_values : ∀ {α : Type} (m : GoMap α) (k : Text) (x : α), m.find k = some x →
      x ∈ m.values := fun m k x hf => List.mem_map.mpr ⟨(k, x), GoMap.find_some_mem hf, rfl⟩
  refine ⟨?_, ?_⟩
  · have hv' : v ∈ s.versions := by
      obtain ⟨l, hl, hlv⟩ := Option.bind_eq_some_iff.mp hv
      exact List.mem_flatMap.mpr ⟨l, (mem_listing _ _ _).mpr (mem_values _ _ _ hl),
        (mem_listing _ _ _).mpr (mem_values _ _ _ hlv)⟩
    obtain ⟨messages, h1, h2⟩ := hchecked v hv'
    refine ⟨s.versionView v, messages, h1, h2, rfl, rfl, fun k id hf => ?_, fun id hid => ?_, ?_⟩
    · exact (mem_listing _ _ _).mpr (mem_values _ _ _ hf)
    · obtain ⟨⟨k, id'⟩, hk, rfl⟩ := List.mem_map.mp ((mem_listing _ _ _).mp hid)
      exact ⟨k, hk⟩
    · refine (sortByName_spec (resourceName s.graph) v.resources.values).2.imp ?_
      intro a b hab ra rb ha hb
      simpa only [resourceName, ha, hb] using hab
  · subst hs
    intro res hres m hm' p hp c hc
    obtain ⟨res0, -, rfl⟩ := List.mem_map.mp hres
    obtain ⟨m0, -, rfl⟩ := List.mem_map.mp hm'
    obtain ⟨p0, -, rfl⟩ := List.mem_map.mp hp
    have hc' : (load inputs).heap[(Reader.resolveParameter _ p0).typ.id]? = some c := hc
    change (Reader.resolveParameter (load inputs).heap p0).typ.kind = c.kind
    have hid : (Reader.resolveParameter (load inputs).heap p0).typ.id = p0.typ.id := by
      unfold Reader.resolveParameter; split <;> rfl
    have hc'' : (load inputs).heap[p0.typ.id]? = some c := by rw [← hid]; exact hc
    unfold Reader.resolveParameter
    rw [hc'']

/-- A small model in one directory: a service with two versions, each with a root. -/
def exampleInput : SourceModel :=
  { services :=
      [ { name := t!"clusters_mgmt"
          versions :=
            [ { name := t!"v1"
                files :=
                  [ { decls :=
                        [ .class t!"Cluster" [] []
                            [ { name := t!"Groups", ref := .list t!"Group", link := true },
                              { name := t!"State", ref := .plain t!"State" } ],
                          .enum t!"State" [] [] [{ name := t!"Ready" }] ] },
                    { decls :=
                        [ .resource t!"Root" [] []
                            [ .locator { name := t!"Clusters", members := [.target t!"Clusters"] } ],
                          .struct t!"Group" [] [] [] ,
                          .resource t!"Clusters" [] []
                            [ .method
                                { name := t!"Purge"
                                  parameters :=
                                    [ { name := t!"Fast"
                                        ref := .plain t!"Boolean"
                                        directions := [.input] } ] } ] ] } ] },
              { name := t!"v2"
                files :=
                  [ { regular := false },
                    { decls := [.resource t!"Root" [] [] [],
                        .class t!"Thing" [] [] [{ name := t!"x", ref := .list t!"Thing" }]] } ] } ] },
        { name := t!"README.md", isDir := false } ] }

/-- It is returned by a new reporter... -/
example : ∃ s, read (some 0) [exampleInput] 20 = .done { result := .model s, errors := 0 } :=
  ⟨_, rfl⟩

/-- ...it isn't returned if the reporter already has an error, or if some file has syntax errors. -/
example :
    (∃ text, read (some 2) [] 5 = .done { result := .error text, errors := 2 } ∧
      text = t!"there were 2 errors") ∧
    (∃ text, read (some 0) [{ services := [{ name := t!"s", versions :=
        [{ name := t!"v1", files := [{ syntaxErrors := 1, decls :=
          [.resource t!"Root" [] [] []] }] }] }] }] 5 =
      .done { result := .error text, errors := 1 } ∧ text = t!"there was 1 error") :=
  ⟨⟨_, rfl, by decide⟩, ⟨_, by decide, rfl⟩⟩

/-! ### Files -/

/-- The actions before the first error. -/
def beforeError (actions : List Action) : List Action :=
  actions.takeWhile fun a => a ≠ .error

/-- The files that the given actions try to write. -/
def filesOf (actions : List Action) : List (Text × Text) :=
  actions.filterMap fun a =>
    match a with
    | .write _ file content => some (file, content)
    | _ => none

theorem write_blocked (o : Output) (kind : BufferKind) (file content : Text) (h : o.errors ≠ 0) :
    (o.write kind file content).files = o.files ∧
    (o.write kind file content).errors = o.errors ∧
    (o.write kind file content).results = o.results ++ [some (errorText o.errors)] := by
  unfold Output.write Output.message
  have h' : o.errors > 0 := Nat.pos_of_ne_zero h
  cases kind <;> simp [h']

theorem run_blocked (actions : List Action) (o : Output) (h : o.errors ≠ 0) :
    (o.run actions).files = o.files := by
  induction actions generalizing o with
  | nil => rfl
  | cons a as ih =>
    unfold Output.run at ih ⊢
    rw [List.foldl_cons]
    cases a with
    | write kind file content =>
      obtain ⟨h1, h2, -⟩ := write_blocked o kind file content h
      rw [ih _ (by rw [Output.step, h2]; exact h), Output.step, h1]
    | error => rw [ih _ (by simp [Output.step, Output.message])]; rfl
    | info => rw [ih _ (by simpa [Output.step, Output.message] using h)]; rfl
    | warning => rw [ih _ (by simpa [Output.step, Output.message] using h)]; rfl

/-- The number of messages that are reported: one for each message, one for each file of Go code or Markdown
even if it isn't written, and one for each OpenAPI specification that is written. -/
theorem c17_messages (actions : List Action) :
    (Output.run {} actions).messages =
      (actions.countP fun a => match a with | .write .openapi _ _ => false | _ => true) +
      ((beforeError actions).countP fun a => match a with | .write .openapi _ _ => true | _ => false) := by
  have blocked : ∀ (actions : List Action) (o : Output), o.errors ≠ 0 → (o.run actions).messages =
      o.messages + (actions.countP fun a => match a with | .write .openapi _ _ => false | _ => true) := by
    intro actions
    induction actions with
    | nil => intro o _; rfl
    | cons a as ih =>
      intro o h
      have h' : o.errors > 0 := Nat.pos_of_ne_zero h
      unfold Output.run at ih ⊢
      rw [List.foldl_cons]
      cases a with
      | write kind file content =>
        rw [ih _ (by rw [Output.step, (write_blocked o kind file content h).2.1]; exact h)]
        unfold Output.step Output.write Output.message
        cases kind <;> simp [h'] <;> omega
      | error =>
        rw [ih _ (by simp [Output.step, Output.message])]
        simp [Output.step, Output.message]
        omega
      | info =>
        rw [ih _ (by simpa [Output.step, Output.message] using h)]
        simp [Output.step, Output.message]
        omega
      | warning =>
        rw [ih _ (by simpa [Output.step, Output.message] using h)]
        simp [Output.step, Output.message]
        omega
  have key : ∀ (actions : List Action) (o : Output), o.errors = 0 → (o.run actions).messages = o.messages +
      ((actions.countP fun a => match a with | .write .openapi _ _ => false | _ => true) +
      ((beforeError actions).countP fun a => match a with | .write .openapi _ _ => true | _ => false)) := by
    intro actions
    induction actions with
    | nil => intro o _; rfl
    | cons a as ih =>
      intro o h
      cases a with
      | error =>
        have := blocked as (o.step .error) (by simp [Output.step, Output.message])
        unfold Output.run at this ⊢
        rw [List.foldl_cons, this]
        simp [Output.step, Output.message, beforeError]
        omega
      | info =>
        have := ih (o.step .info) (by simpa [Output.step, Output.message] using h)
        unfold Output.run at this ⊢
        rw [List.foldl_cons, this]
        simp [Output.step, Output.message, beforeError]
        omega
      | warning =>
        have := ih (o.step .warning) (by simpa [Output.step, Output.message] using h)
        unfold Output.run at this ⊢
        rw [List.foldl_cons, this]
        simp [Output.step, Output.message, beforeError]
        omega
      | write kind file content =>
        have := ih (o.step (.write kind file content)) (by
          unfold Output.step Output.write Output.message
          cases kind <;> simp [h])
        unfold Output.run at this ⊢
        rw [List.foldl_cons, this]
        cases kind <;> simp [Output.step, Output.write, Output.message, beforeError, h] <;> omega
  simpa using key actions {} rfl

/-- Whatever the history of messages and writes, the files written are those before the first
error, in order. -/
theorem c17_files (actions : List Action) :
    (Output.run {} actions).files = filesOf (beforeError actions) := by
  have key : ∀ (actions : List Action) (o : Output), o.errors = 0 →
      (o.run actions).files = o.files ++ filesOf (beforeError actions) := by
    intro actions
    induction actions with
    | nil => intro o _; simp [Output.run, beforeError, filesOf]
    | cons a as ih =>
      intro o h
      unfold Output.run at ih ⊢
      rw [List.foldl_cons]
      cases a with
      | error =>
        have := run_blocked as (o.step .error) (by simp [Output.step, Output.message])
        unfold Output.run at this
        rw [this]
        simp [Output.step, Output.message, beforeError, filesOf]
      | info =>
        rw [ih _ (by simpa [Output.step, Output.message] using h)]
        simp [Output.step, Output.message, beforeError, filesOf]
      | warning =>
        rw [ih _ (by simpa [Output.step, Output.message] using h)]
        simp [Output.step, Output.message, beforeError, filesOf]
      | write kind file content =>
        have h1 : (o.step (.write kind file content)).errors = 0 ∧
            (o.step (.write kind file content)).files = o.files ++ [(file, content)] := by
          unfold Output.step Output.write Output.message
          cases kind <;> simp [h]
        rw [ih _ h1.1, h1.2]
        simp [beforeError, filesOf]
  have := key actions {} rfl
  simpa using this

/-- The result of each write: nothing if no error precedes it, and otherwise an error that tells
how many errors precede it. -/
theorem c17_write_results (before after : List Action) (kind : BufferKind) (file content : Text) :
    ∃ results result, (Output.run {} before).results = results ∧
      ((Output.run {} (before ++ .write kind file content :: after)).results)[results.length]? =
        some result ∧
      (before.count .error = 0 → result = none) ∧
      (before.count .error ≠ 0 → ∃ text, result = some text ∧
        TellsErrors (before.count .error) text) := by
  have herr : ∀ (as : List Action) (o : Output), (o.run as).errors = o.errors + as.count .error := by
    intro as
    induction as with
    | nil => intro o; rfl
    | cons a as ih =>
      intro o
      unfold Output.run at ih ⊢
      rw [List.foldl_cons, ih]
      cases a with
      | error => simp [Output.step, Output.message]; omega
      | info => simp [Output.step, Output.message]
      | warning => simp [Output.step, Output.message]
      | write kind file content =>
        have : (o.step (.write kind file content)).errors = o.errors := by
          unfold Output.step Output.write Output.message
          cases kind <;> simp <;> split <;> rfl
        rw [this, List.count_cons_of_ne (by simp)]
  have hpre : ∀ (as : List Action) (o : Output), o.results <+: (o.run as).results := by
    intro as
    induction as with
    | nil => intro o; exact List.prefix_refl _
    | cons a as ih =>
      intro o
      unfold Output.run at ih ⊢
      rw [List.foldl_cons]
      refine List.IsPrefix.trans ?_ (ih _)
      cases a with
      | error => exact List.prefix_refl _
      | info => exact List.prefix_refl _
      | warning => exact List.prefix_refl _
      | write kind file content =>
        unfold Output.step Output.write Output.message
        cases kind <;> simp <;> split <;> exact List.prefix_append _ _
  have hstep : ((Output.run {} before).step (.write kind file content)).results =
      (Output.run {} before).results ++
        [if before.count .error = 0 then none else some (errorText (before.count .error))] := by
    have he := herr before {}
    simp only [Nat.zero_add] at he
    by_cases h0 : before.count .error = 0
    · rw [if_pos h0]
      rw [h0] at he
      unfold Output.step Output.write Output.message
      cases kind <;> simp [he]
    · rw [if_neg h0, Output.step,
        (write_blocked _ kind file content (by rw [he]; exact h0)).2.2, he]
  refine ⟨_, if before.count .error = 0 then none else some (errorText (before.count .error)),
    rfl, ?_, ?_, ?_⟩
  · have h2 := hpre after ((Output.run {} before).step (.write kind file content))
    rw [hstep] at h2
    obtain ⟨rest, hrest⟩ := h2
    have : Output.run {} (before ++ .write kind file content :: after) =
        (((Output.run {} before).step (.write kind file content)).run after) := by
      simp [Output.run]
    rw [this, ← hrest, List.append_assoc, List.getElem?_append_right (Nat.le_refl _)]
    simp
  · intro h; rw [if_pos h]
  · intro h
    rw [if_neg h]
    exact ⟨_, rfl, errorText_tells _ (Nat.pos_of_ne_zero h)⟩

example : (Output.run {} [.write .golang t!"a.go" t!"A", .warning, .write .openapi t!"b" t!"B",
      .error, .write .markdown t!"c.md" t!"C"]) =
    { messages := 5, errors := 1, files := [(t!"a.go", t!"A"), (t!"b", t!"B")]
      results := [none, none, some t!"there was 1 error"] } := by decide

/-! ## C21: every version of a model -/

/-- For every version of a model that is loaded, every type that isn't a list has a list; each type
is found with its own name and belongs to that version; and different versions are different
objects. -/
theorem c21_model (inputs : List SourceModel) (service name : Text) (v : LoadedVersion)
    (hv : (load inputs).version service name = some v) :
    v.name.toText = name ∧
    (∀ k id, v.types.find k = some id → ∃ c, (load inputs).heap[id]? = some c ∧
      c.name.toText = k ∧ c.owner = some v.id ∧
      (k ≠ [] → c.kind ≠ .list → ∃ id', v.types.find (k ++ t!"_list") = some id')) ∧
    (∀ service' name' v', (load inputs).version service' name' = some v' → v'.id = v.id →
      service' = service ∧ name' = name) := by
  have g := loadModels_modelGood inputs
  have g' : ModelGood (inputs.foldl loadModel {}).reportUndefined := g.congr rfl rfl (.refl _)
  obtain ⟨h1, h2, h3, h4⟩ := complete_good g'
  have e1 : ∀ a b, (load inputs).version a b =
      (inputs.foldl loadModel {}).reportUndefined.complete.version a b := fun _ _ => rfl
  have e2 : (load inputs).heap = (inputs.foldl loadModel {}).reportUndefined.complete.heap := rfl
  generalize (inputs.foldl loadModel {}).reportUndefined = s at *
  rw [e1] at hv
  rw [e2]
  have split : ∀ a b v, s.complete.version a b = some v →
      ∃ l, s.complete.services.find a = some l ∧ l.versions.find b = some v ∧ v.name.toText = b ∧
        TypesGood s.complete.heap v.id v.types := by
    intro a b v hv
    obtain ⟨l, hl, hlv⟩ := Option.bind_eq_some_iff.mp hv
    obtain ⟨x1, x2, x3⟩ := (h1.named a l hl).2.named b v hlv
    exact ⟨l, hl, hlv, x1, x3⟩
  obtain ⟨l, hl, hlv, hname, hgood⟩ := split service name v hv
  refine ⟨hname, ?_, ?_⟩
  · intro k id hf
    obtain ⟨c, hc, hk, ho⟩ := hgood.named k id hf
    refine ⟨c, hc, hk, ho, fun hne hkind => ?_⟩
    cases hs : s.version service name with
    | none => rw [h3 _ _ hs] at hv; cases hv
    | some v0 =>
      obtain ⟨v1, a1, -, -, -, -, a2, -, -⟩ := (h4 service name).exists_ v0 hs
      rw [hv] at a1; cases a1
      exact a2 k id c hne hf hc hkind
  · intro service' name' v' hv' he
    rw [e1] at hv'
    obtain ⟨l', hl', hlv', hname', -⟩ := split service' name' v' hv'
    have := h1.distinct service' l' v' service l v hl' (by rw [hname']; exact hlv') hl
      (by rw [hname]; exact hlv) he
    rw [hname, hname'] at this
    exact this

/-! ## C18 and C20: several versions -/

/-- With several versions a model can be returned although one of its versions uses a type that is
never declared in it: the index of undefined types is shared by all the versions, so the
declaration in another version hides the error. -/
theorem c18_versions_refuted : ∃ (inputs : List SourceModel) (s : Session) (v : LoadedVersion)
    (id : TypeId) (c : TypeCell),
    read (some 0) inputs 5 = .done { result := .model s, errors := 0 } ∧
    s.version t!"s" t!"v1" = some v ∧ v.types.find t!"foo" = some id ∧ s.heap[id]? = some c ∧
    c.kind = .undefined := by
  refine ⟨[{ services := [{ name := t!"s", versions :=
      [ { name := t!"v1", files := [{ decls :=
            [ .resource t!"Root" [] [] [],
              .class t!"A" [] [] [{ name := t!"x", ref := .plain t!"Foo" }] ] }] },
        { name := t!"v2", files := [{ decls :=
            [ .resource t!"Root" [] [] [],
              .class t!"A" [] [] [{ name := t!"x", ref := .plain t!"Foo" }],
              .class t!"Foo" [] [] [] ] }] } ] }] }], _, _, _, _, rfl, rfl, rfl, rfl, rfl⟩

/-- With several versions a model can be returned although a type is declared twice in one of its
versions, and is not declared in the other that uses it. -/
theorem c20_versions_refuted : ∃ (inputs : List SourceModel) (s : Session) (d : SourceVersion),
    inputs = [{ services := [{ name := t!"s", versions := [{ name := t!"v1", files := [{ decls :=
        [ .resource t!"Root" [] [] [],
          .class t!"A" [] [] [{ name := t!"x", ref := .plain t!"Foo" }] ] }] }, d] }] }] ∧
    read (some 0) inputs 5 = .done { result := .model s, errors := 0 } ∧
    ∃ f ∈ d.files, ¬ (declaredTypes f.decls).Nodup := by
  refine ⟨_, _, { name := t!"v2", files := [{ decls :=
      [ .resource t!"Root" [] [] [],
        .class t!"Foo" [] [] [],
        .struct t!"Foo" [] [] [] ] }] }, rfl, rfl, _, List.mem_singleton.mpr rfl, by decide⟩

/-- With one version: if the model is returned then all the names that are used are declared in it,
and nothing is declared twice. -/
theorem c18_single_version (fuel : Nat) (service : Text) (d : SourceVersion) (out : ReadOutcome)
    (s : Session) (h : read (some 0) [{ services := [{ name := service, versions := [d] }] }] fuel =
      .done out) (hm : out.result = .model s) (hd : d.isDir = true) (hn : WellNamed d.decls) :
    (Reader.fresh.decls d.decls).reportUndefined.problems = [] ∧
    (∀ k ∈ mentionedTypes d.decls,
      k ∈ builtinKeys ∨ k ∈ declaredTypes d.decls ∨ k ∈ derivedTypes d.decls) ∧
    (∀ k ∈ mentionedResources d.decls, k ∈ declaredResources d.decls) ∧
    (declaredTypes d.decls).Nodup ∧ (∀ k ∈ declaredTypes d.decls, k ∉ builtinKeys) ∧
    (declaredResources d.decls).Nodup ∧ (declaredErrors d.decls).Nodup ∧
    (NoNameClash d.decls → Acceptable d.decls) := by
  obtain ⟨-, hs, hp, hread, -⟩ := c17_nothing_ignored 0 _ fuel out s h hm
  subst hs
  have hr := hread _ (List.mem_singleton.mpr rfl)
  obtain ⟨hgood, hfiles⟩ := (hr.2 _ (List.mem_singleton.mpr rfl) rfl).2 d
    (List.mem_singleton.mpr rfl) hd
  -- The files are loaded by a new reader:
  have hload : ∀ (fs : List SourceFile) (r : Reader),
      (∀ f ∈ fs, f.regular = true → f.readable = true ∧ f.syntaxErrors = 0) →
      fs.foldl loadFile r = r.decls ((fs.filter (·.regular)).flatMap (·.decls)) := by
    intro fs
    induction fs with
    | nil => intro r _; rfl
    | cons f fs ih =>
      intro r hf
      have hf' := hf f (List.mem_cons_self ..)
      rw [List.foldl_cons, ih _ fun g hg => hf g (List.mem_cons_of_mem _ hg)]
      unfold loadFile
      cases hreg : f.regular with
      | false => simp [hreg]
      | true =>
        obtain ⟨h1, h2⟩ := hf' hreg
        simp [hreg, h1, h2, Reader.decls, List.foldl_append]
  rw [load_problems] at hp
  have hproblems : (Reader.fresh.decls d.decls).reportUndefined.problems = [] := by
    rw [← hp]
    have hl := hload d.files Reader.fresh hfiles
    have hd' : (d.files.filter (·.regular)).flatMap (·.decls) = d.decls := rfl
    rw [hd'] at hl
    rw [← hl]
    simp only [List.foldl_cons, List.foldl_nil, loadModel, loadService, loadVersion, hd, hgood,
      Bool.not_true, Bool.false_eq_true, if_false]
    unfold Session.findOrCreateService Session.findOrCreateVersion
    have hempty : ∀ k, ({} : Session).services.find k = none :=
      fun _ => rfl
    rw [hempty]
    dsimp only
    have hnone : ∀ k, (({ name := parseUsingSeparator service '_' } : LoadedService).versions).find
        k = none := fun _ => rfl
    simp only [GoMap.find_insert, if_true, Option.bind_some, hnone, Session.leave, Session.store]
    rfl
  obtain ⟨a, b⟩ := c18_used_is_declared d.decls hn hproblems
  have hp0 : (Reader.fresh.decls d.decls).problems = [] :=
    ((reportUndefined_nil _).mp hproblems).1
  obtain ⟨x1, x2, x3, x4⟩ := c20_duplicates_reported d.decls hn hp0
  exact ⟨hproblems, a, b, x1, x2, x3, x4,
    fun hc => (c18_accepted_iff_partial d.decls hn hc).mp hproblems⟩

end Verif
