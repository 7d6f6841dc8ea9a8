import Verif.Lemmas.ClientFile
import Verif.Props.ResourceClient
import Verif.Props.MessagesCode
import Verif.Props.Outcome

/-!
# C108: the file of the client of a resource

The file contains the client of C106, the types used to poll if there is a method that retrieves the object, and the
requests and responses of C107.
-/

namespace Verif.ClientFile

open GoTemplate GoCode GoFile
open TypesCode (Context errorCount errorCount_append errorCount_flatMap effects_foldl refEffects)
open JsonCode (importEffects imports_effects importErrors imports_order import_mem written)
open MessagesCode (requestImports responseImports requestEffects responseEffects errors_package helpers_package)
open MethodsCode (Adds)
open Docs (Short)
open ResourceClient (Linked clientImports)

/-- The packages that polling needs. -/
def pollImports (base : Text) : List (Text × Text) := [(t!"net/http", []), (t!"time", []), (base ++ t!"/errors", [])]

theorem does_client (g : Graph) (r : Resource) (h : Linked g r) :
    Does (ResourceClient.clientSource g r) (importEffects clientImports ++ [])
      (ResourceClient.clientLines (ResourceClient.nameFor r) r.name.toText r.doc (r.name.toText = t!"root")
        (r.methods.map (ResourceClient.callFor r))
        (r.locators.filterMap fun l => (l.target.bind (g[·]?)).map (ResourceClient.stepFor l))) := by
  have hroot : decide (r.name.toText = t!"root") = Decls.isRoot r := by
    rw [Decls.isRoot, show Nom.root.toText = t!"root" by decide]
    by_cases h : r.name.toText = t!"root" <;> simp [h]
  rw [hroot]
  exact does_emit (ResourceClient.env g) clientImports _ _ _ _ _ ResourceClient.client_lines
    (ResourceClient.run_client g r fun l hl => (ResourceClient.linked_iff g l).mpr (h l hl))

theorem does_poll (x : Context) (r : Resource) (m : Method) :
    Does (pollSource x r m) (importEffects (pollImports x.base) ++ pollEffects x m) (pollOf x r m).lines := by
  have := does_emit (MessagesCode.env x) (pollImports x.base) pollTemplate _ pollLines _ _ poll_lines (run_poll x r m)
  have e : pollSource x r m = fun b => (JsonCode.Buffer.imports b (pollImports x.base)).emit (MessagesCode.env x)
      pollTemplate [(t!"Resource", .resource r), (t!"Method", .method r m)] := by
    funext b
    rw [pollSource]
    simp [pollImports, Go.errorsImport, errors_package]
  rw [e]
  exact this

theorem does_request (x : Context) (r : Resource) (m : Method) :
    Does (MessagesCode.requestSource x r m) (importEffects (requestImports x.base) ++ requestEffects x m)
      (MessagesCode.requestOf x r m).lines := by
  have := does_emit (MessagesCode.env x) (requestImports x.base) MessagesCode.requestTemplate _ MessagesCode.requestLines
    _ _ MessagesCode.request_lines (MessagesCode.run_request x r m)
  have e : MessagesCode.requestSource x r m = fun b => (JsonCode.Buffer.imports b (requestImports x.base)).emit
      (MessagesCode.env x) MessagesCode.requestTemplate [(t!"Method", .method r m)] := by
    funext b
    rw [MessagesCode.requestSource]
    simp [requestImports, Go.errorsImport, Go.helpersImport, errors_package, helpers_package]
  rw [e]
  exact this

theorem does_response (x : Context) (r : Resource) (m : Method) :
    Does (MessagesCode.responseSource x r m) (importEffects (responseImports x.base) ++ responseEffects x m)
      (MessagesCode.responseOf x r m).lines := by
  have := does_emit (MessagesCode.env x) (responseImports x.base) MessagesCode.responseTemplate _
    MessagesCode.responseLines _ _ MessagesCode.response_lines (MessagesCode.run_response x r m)
  have e : MessagesCode.responseSource x r m = fun b => (JsonCode.Buffer.imports b (responseImports x.base)).emit
      (MessagesCode.env x) MessagesCode.responseTemplate [(t!"Method", .method r m)] := by
    funext b
    rw [MessagesCode.responseSource]
    simp [responseImports, Go.errorsImport, errors_package]
  rw [e]
  exact this

/-- The effects of the messages of a method. -/
def messageEffects (x : Context) (m : Method) : List Effect :=
  (importEffects (requestImports x.base) ++ requestEffects x m) ++
    (importEffects (responseImports x.base) ++ responseEffects x m)

theorem state_messages (x : Context) (r : Resource) (b : Buffer) : ∀ (ms : List Method) (b' : Buffer) (fx : List Effect)
    (ls : List Text), State b b' fx ls →
    State b (ms.foldl (fun b m => MessagesCode.responseSource x r m (MessagesCode.requestSource x r m b)) b')
      (fx ++ ms.flatMap (messageEffects x))
      (ls ++ ms.flatMap fun m => (MessagesCode.requestOf x r m).lines ++ (MessagesCode.responseOf x r m).lines)
  | [], b', fx, ls, h => by simpa using h
  | m :: ms, b', fx, ls, h => by
    have := state_messages x r b ms _ _ _ (state_step (state_step h (does_request x r m)) (does_response x r m))
    rw [List.foldl_cons, List.flatMap_cons, List.flatMap_cons]
    simp only [messageEffects, List.append_assoc] at this ⊢
    exact this

theorem messages_fail (x : Context) (r : Resource) : ∀ (ms : List Method) (b : Buffer), b.errors ≠ 0 →
    (ms.foldl (fun b m => MessagesCode.responseSource x r m (MessagesCode.requestSource x r m b)) b).errors ≠ 0
  | [], _, h => h
  | m :: ms, b, h => by
    rw [List.foldl_cons]
    exact messages_fail x r ms _ ((does_response x r m _).2 ((does_request x r m _).2 h))

/-- The effects of polling. -/
def getEffects (x : Context) (r : Resource) : List Effect :=
  match getOf r with
  | some m => importEffects (pollImports x.base) ++ pollEffects x m
  | none => []

/-- All the effects. -/
def fileEffects (x : Context) (r : Resource) : List Effect :=
  (importEffects clientImports ++ []) ++ getEffects x r ++ r.methods.flatMap (messageEffects x)

theorem get_eq (r : Resource) : Outcome.findMethod r Nom.get = getOf r := by
  rw [Outcome.findMethod, getOf]
  congr 1
  funext m
  rw [Bool.eq_iff_iff, named_iff, beq_iff_eq, show Nom.get = parseUsingCase t!"Get" by decide]

/-- The first method called `get`, if there is one, has output parameters. -/
def Retrieves (r : Resource) : Prop := ∀ m, getOf r = some m → ∃ p ∈ m.parameters, p.isOut = true

theorem body_nil (m : Method) : Binding.responseBodyParameters m = [] ↔ ¬ ∃ p ∈ m.parameters, p.isOut = true := by
  rw [Binding.responseBodyParameters, List.filter_eq_nil_iff]
  simp

theorem poll_done (x : Context) (r : Resource) (b : Buffer) (h : Retrieves r) :
    pollPart x r b = .done (match getOf r with
      | some m => pollSource x r m b
      | none => b) := by
  rw [pollPart, get_eq]
  cases hg : getOf r with
  | none => rfl
  | some m =>
    dsimp only
    cases hb : Binding.responseBodyParameters m with
    | nil => exact absurd (h m hg) ((body_nil m).mp hb)
    | cons p ps => rfl

theorem source_done (x : Context) (g : Graph) (r : Resource) (b : Buffer) (h : Retrieves r) :
    source x g r b = .done (messagesPart x r (match getOf r with
      | some m => pollSource x r m (ResourceClient.clientSource g r b)
      | none => ResourceClient.clientSource g r b)) := by
  rw [source, poll_done x r _ h]
  rfl

theorem source_run (x : Context) (g : Graph) (r : Resource) (b : Buffer) (hb : b.errors = 0) (h : Retrieves r)
    (hl : Linked g r) : ∃ b', source x g r b = .done b' ∧ State b b' (fileEffects x r) (linesOf x g r) := by
  refine ⟨_, source_done x g r b h, ?_⟩
  have h1 := state_start (does_client g r hl) hb
  rw [messagesPart]
  rw [fileEffects, getEffects, linesOf]
  cases getOf r with
  | none =>
    simp only [List.append_nil] at h1 ⊢
    exact state_messages x r b r.methods _ _ _ h1
  | some m => exact state_messages x r b r.methods _ _ _ (state_step h1 (does_poll x r m))

/-- The code is generated without panics exactly if the method that retrieves the object has output parameters, if there is
one. -/
theorem c108_panics_iff (x : Context) (g : Graph) (r : Resource) (b : Buffer) :
    (source x g r b = .panic ↔ ¬ Retrieves r) ∧ source x g r b ≠ .outOfFuel := by
  by_cases h : Retrieves r
  · rw [source_done x g r b h]
    simp [h]
  · have hs : source x g r b = .panic := by
      rw [source, pollPart, get_eq]
      have ⟨m, hm⟩ : ∃ m, ¬ (getOf r = some m → ∃ p ∈ m.parameters, p.isOut = true) := Classical.not_forall.mp h
      have ⟨h1, h2⟩ := Classical.not_imp.mp hm
      rw [h1]
      dsimp only
      rw [(body_nil m).mpr h2]
      rfl
    simp [hs, h]

theorem request_errors (x : Context) (r : Resource) (m : Method) :
    errorCount (importEffects (requestImports x.base) ++ requestEffects x m) = 0 ↔
      Outcome.requestReports x.base x.typeOf m = false := by
  rw [← (MessagesCode.c107_reports x r m { pkg := [] } rfl).1, adds_errors ((does_request x r m { pkg := [] }).1 rfl)]
  simp

theorem response_errors (x : Context) (r : Resource) (m : Method) :
    errorCount (importEffects (responseImports x.base) ++ responseEffects x m) = 0 ↔
      Outcome.responseReports x.base x.typeOf m = false := by
  rw [← (MessagesCode.c107_reports x r m { pkg := [] } rfl).2, adds_errors ((does_response x r m { pkg := [] }).1 rfl)]
  simp

theorem poll_errors (x : Context) (m : Method) :
    errorCount (importEffects (pollImports x.base) ++ pollEffects x m) = 0 ↔
      Outcome.pollReports x.base x.typeOf m = false := by
  rw [errorCount_append, importErrors, Nat.zero_add, pollEffects, errorCount_append, Nat.add_eq_zero_iff,
    errorCount_flatMap, errorCount_flatMap, Outcome.pollReports, Bool.or_eq_false_iff, List.any_eq_false,
    List.any_eq_false]
  have ha : ∀ p, errorCount (MessagesCode.accessorEffects x m p) = 0 ↔
      ¬ Outcome.wrong (GoRef.accessorType x.base (Outcome.paramOf x.typeOf m p)) = true :=
    fun p => (MessagesCode.wrong_iff _).symm
  simp only [ha]

theorem file_errors (x : Context) (r : Resource) :
    errorCount (fileEffects x r) = 0 ↔
      (∀ m, getOf r = some m → Outcome.pollReports x.base x.typeOf m = false) ∧
      ∀ m ∈ r.methods, Outcome.requestReports x.base x.typeOf m = false ∧
        Outcome.responseReports x.base x.typeOf m = false := by
  rw [fileEffects, errorCount_append, errorCount_append, List.append_nil, importErrors, Nat.zero_add,
    Nat.add_eq_zero_iff, errorCount_flatMap]
  refine and_congr ?_ (forall_congr' fun m => imp_congr_right fun _ => ?_)
  · rw [getEffects]
    cases getOf r with
    | none => simp [errorCount]
    | some m => simp [poll_errors]
  · rw [messageEffects, errorCount_append, Nat.add_eq_zero_iff, request_errors x r m, response_errors x r m]

/-- The problems that are reported, and the panics, are those of the model of the outcome of the generators. -/
theorem c108_reports (x : Context) (g : Graph) (r : Resource) (pkg : Text)
    (hg : ∀ l ∈ r.locators, ∀ k, l.target = some k → k < g.length) :
    (source x g r { pkg := pkg } = .panic ↔ Outcome.clientReports x.base x.typeOf r = .panic) ∧
    ∀ b, source x g r { pkg := pkg } = .done b →
      (b.errors = 0 ↔ Outcome.clientReports x.base x.typeOf r = .done false) := by
  have hlink : Linked g r ↔ (r.locators.any fun l => l.target.isNone) = false := by
    have := ResourceClient.c106_reports g r pkg hg
    rw [Ne, ResourceClient.c106_errors_iff] at this
    cases h : r.locators.any fun l => l.target.isNone <;> rw [h] at this <;> simpa using this
  have hmeth : (r.methods.any fun m => Outcome.requestReports x.base x.typeOf m ||
      Outcome.responseReports x.base x.typeOf m) = false ↔
      ∀ m ∈ r.methods, Outcome.requestReports x.base x.typeOf m = false ∧
        Outcome.responseReports x.base x.typeOf m = false := by
    simp [List.any_eq_false]
  by_cases hr : Retrieves r
  · have hc : Outcome.clientReports x.base x.typeOf r = .done (
        (r.locators.any fun l => l.target.isNone) || ((match getOf r with
          | some m => Outcome.pollReports x.base x.typeOf m
          | none => false) ||
        r.methods.any fun m => Outcome.requestReports x.base x.typeOf m ||
          Outcome.responseReports x.base x.typeOf m)) := by
      rw [Outcome.clientReports, get_eq]
      cases hg : getOf r with
      | none => simp
      | some m =>
        dsimp only
        cases hb : Binding.responseBodyParameters m with
        | nil => exact absurd (hr m hg) ((body_nil m).mp hb)
        | cons p ps => simp [Bool.or_assoc]
    rw [hc]
    refine ⟨by rw [(c108_panics_iff x g r _).1]; simp [hr], fun b hb => ?_⟩
    rw [Run.done.injEq, Bool.or_eq_false_iff, ← hlink, Bool.or_eq_false_iff, hmeth]
    by_cases hl : Linked g r
    · obtain ⟨b', h1, h2⟩ := source_run x g r { pkg := pkg } rfl hr hl
      rw [h1] at hb
      cases hb
      rw [h2.2, file_errors]
      have : (∀ m, getOf r = some m → Outcome.pollReports x.base x.typeOf m = false) ↔ (match getOf r with
          | some m => Outcome.pollReports x.base x.typeOf m
          | none => false) = false := by
        cases getOf r <;> simp
      rw [this]
      exact ⟨fun h => ⟨hl, h⟩, fun h => h.2⟩
    · have h0 : (ResourceClient.clientSource g r { pkg := pkg }).errors ≠ 0 :=
        fun h => hl ((ResourceClient.c106_errors_iff g r pkg).mp h)
      rw [source_done x g r _ hr] at hb
      cases hb
      have : ∀ b, b.errors ≠ 0 → (messagesPart x r b).errors ≠ 0 := fun b h => messages_fail x r r.methods b h
      constructor
      · intro h
        refine absurd h (this _ ?_)
        cases getOf r with
        | none => exact h0
        | some m => exact (does_poll x r m _).2 h0
      · exact fun h => absurd h.1 hl
  · have hs := (c108_panics_iff x g r { pkg := pkg }).1.mpr hr
    rw [hs]
    refine ⟨⟨fun _ => ?_, fun _ => rfl⟩, fun b h => by cases h⟩
    have ⟨m, hm⟩ : ∃ m, ¬ (getOf r = some m → ∃ p ∈ m.parameters, p.isOut = true) := Classical.not_forall.mp hr
    have ⟨h1, h2⟩ := Classical.not_imp.mp hm
    rw [Outcome.clientReports, get_eq, h1]
    dsimp only
    rw [(body_nil m).mpr h2]

/-- **C108.** If the types of all the parameters can be expressed, the locators have targets and the method that retrieves
the object has output parameters, then the file is written, unless a line is too long, with the lines of the
specification. -/
theorem c108_file (x : Context) (g : Graph) (r : Resource) (order : List (Text × Text))
    (hg : ∀ l ∈ r.locators, ∀ k, l.target = some k → k < g.length)
    (h : Outcome.clientReports x.base x.typeOf r = .done false) :
    ∃ text ok b, source x g r { pkg := x.pkg } = .done b ∧ resourceFile x g r 0 order = .done (some text, ok) ∧
      (ok = true ↔ Short b.code) ∧
      (ok = true → significant text = code (fileLines x.pkg order (linesOf x g r))) := by
  have hr : Retrieves r := by
    apply Classical.byContradiction
    intro hn
    have := (c108_reports x g r x.pkg hg).1.mp ((c108_panics_iff x g r _).1.mpr hn)
    rw [this] at h
    cases h
  have he := ((c108_reports x g r x.pkg hg).2 _ (source_done x g r _ hr)).mpr h
  have hl : Linked g r := by
    apply Classical.byContradiction
    intro hn
    have h0 : (ResourceClient.clientSource g r { pkg := x.pkg }).errors ≠ 0 :=
      fun h => hn ((ResourceClient.c106_errors_iff g r x.pkg).mp h)
    refine messages_fail x r r.methods _ ?_ he
    cases getOf r with
    | none => exact h0
    | some m => exact (does_poll x r m _).2 h0
  obtain ⟨b, h1, h2, h3⟩ := source_run x g r { pkg := x.pkg } rfl hr hl
  have hb : b.errors = 0 := ((c108_reports x g r x.pkg hg).2 b h1).mpr h
  obtain ⟨t, h4, h5⟩ := h2 (h3.mp hb)
  obtain ⟨w1, w2, w3⟩ := written b (fileEffects x r) x.pkg t _ order (by simpa using h4) h5
  obtain ⟨text, ht⟩ := Option.ne_none_iff_exists'.mp (w1.mpr (h3.mp hb))
  obtain ⟨ok, hok⟩ : ∃ ok, ok = (b.write order).2 := ⟨_, rfl⟩
  have h8 : b.write order = (some text, ok) := Prod.ext ht hok.symm
  refine ⟨text, ok, b, h1, ?_, ?_, ?_⟩
  · rw [resourceFile, h1, ← h8]
    rfl
  · rw [hok, w2]
    simp [w1, h3.mp hb]
  · rintro rfl
    rw [w3 text h8, ← code_append]
    simp [fileLines]

/-- Otherwise nothing is written, and a problem is reported, or it panics. -/
theorem c108_written_iff (x : Context) (g : Graph) (r : Resource) (problems : Nat) (order : List (Text × Text))
    (hg : ∀ l ∈ r.locators, ∀ k, l.target = some k → k < g.length) :
    (∃ text ok, resourceFile x g r problems order = .done (some text, ok)) ↔
      problems = 0 ∧ Outcome.clientReports x.base x.typeOf r = .done false := by
  constructor
  · rintro ⟨text, ok, h⟩
    have hr : Retrieves r := by
      apply Classical.byContradiction
      intro hn
      rw [resourceFile, (c108_panics_iff x g r _).1.mpr hn] at h
      cases h
    rw [resourceFile, source_done x g r _ hr] at h
    obtain ⟨b, hb⟩ : ∃ b, b = messagesPart x r (match getOf r with
      | some m => pollSource x r m (ResourceClient.clientSource g r { pkg := x.pkg, errors := problems })
      | none => ResourceClient.clientSource g r { pkg := x.pkg, errors := problems }) := ⟨_, rfl⟩
    rw [← hb] at h
    have h' : b.write order = (some text, ok) := by
      injection h
    have he : b.errors = 0 := by
      apply Classical.byContradiction
      intro hn
      rw [Buffer.write, if_pos (by omega)] at h'
      cases h'
    have hp : problems = 0 := by
      apply Classical.byContradiction
      intro hn
      have h0 : (ResourceClient.clientSource g r { pkg := x.pkg, errors := problems }).errors ≠ 0 := by
        rw [ResourceClient.clientSource, imports_effects, Buffer.emit, if_pos]
        · rw [(effects_foldl _ _).1, importErrors]
          exact hn
        · rw [(effects_foldl _ _).1, importErrors]
          exact Nat.pos_of_ne_zero hn
      rw [hb] at he
      refine messages_fail x r r.methods _ ?_ he
      cases getOf r with
      | none => exact h0
      | some m => exact (does_poll x r m _).2 h0
    subst hp
    exact ⟨rfl, ((c108_reports x g r x.pkg hg).2 b (by rw [source_done x g r _ hr, hb])).mp he⟩
  · rintro ⟨rfl, h⟩
    obtain ⟨text, ok, -, -, h1, -⟩ := c108_file x g r order hg h
    exact ⟨text, ok, h1⟩

/-- What the types used to poll call: the method of the client that creates the request, the method of the request that
sends it, and the setters of the request and the getters of the response, with the same names and types. All of them are in
the file. -/
theorem c108_poll_calls (x : Context) (r : Resource) (m : Method) (h : getOf r = some m) :
    m ∈ r.methods ∧ m.name = Nom.get ∧
    (t!"func (c *" ++ (pollOf x r m).client ++ t!") " ++ (pollOf x r m).method ++ t!"() *" ++
      (pollOf x r m).methodRequest ++ t!" {") ∈ (ResourceClient.callFor r m).lines (ResourceClient.nameFor r) ∧
    (t!"func (r *" ++ (pollOf x r m).methodRequest ++ t!") SendContext(ctx context.Context) (result *" ++
      (pollOf x r m).methodResponse ++ t!", err error) {") ∈ (MessagesCode.requestOf x r m).lines ∧
    (∀ a ∈ (pollOf x r m).setters, (t!"func (r *" ++ (pollOf x r m).methodRequest ++ t!") " ++ a.name ++ t!"(value " ++
      a.type ++ t!") *" ++ (pollOf x r m).methodRequest ++ t!" {") ∈ (MessagesCode.requestOf x r m).lines) ∧
    ∀ a ∈ (pollOf x r m).getters,
      (t!"func (r *" ++ (pollOf x r m).methodResponse ++ t!") " ++ a.name ++ t!"() " ++ a.type ++ t!" {") ∈
        (MessagesCode.responseOf x r m).lines ∧
      (t!"func (r *" ++ (pollOf x r m).methodResponse ++ t!") Get" ++ a.name ++ t!"() (value " ++ a.type ++
        t!", ok bool) {") ∈ (MessagesCode.responseOf x r m).lines := by
  have hr : (pollOf x r m).methodRequest = (MessagesCode.requestOf x r m).request := rfl
  have hs : (pollOf x r m).methodResponse = (MessagesCode.responseOf x r m).response := rfl
  have hs' : (MessagesCode.requestOf x r m).response = (MessagesCode.responseOf x r m).response := rfl
  refine ⟨List.mem_of_find?_eq_some h, ?_, ?_, ?_, ?_, ?_⟩
  · have := List.find?_some h
    rw [beq_iff_eq] at this
    rw [this]
    decide
  · have e : (ResourceClient.callFor r m).request = (pollOf x r m).methodRequest := rfl
    rw [← e]
    rw [ResourceClient.Call.lines]
    exact List.mem_cons_of_mem _ (List.mem_cons_of_mem _ (List.mem_cons_of_mem _ (List.mem_cons_self ..)))
  · rw [hr, hs, ← hs', MessagesCode.Request.lines, MessagesCode.Request.sendLines]
    simp
  · intro a ha
    obtain ⟨i, hi, rfl⟩ := List.mem_map.mp ha
    rw [hr, MessagesCode.Request.lines]
    refine List.mem_append_left _ (List.mem_append_right _ (List.mem_flatMap.mpr ⟨i, hi, ?_⟩))
    rw [MessagesCode.Input.lines]
    exact List.mem_cons_of_mem _ (List.mem_cons_of_mem _ (List.mem_cons_of_mem _ (List.mem_cons_self ..)))
  · intro a ha
    obtain ⟨o, ho, rfl⟩ := List.mem_map.mp ha
    rw [hs, MessagesCode.Response.lines]
    have h1 : (t!"func (r *" ++ (MessagesCode.responseOf x r m).response ++ t!") " ++ o.getter ++ t!"() " ++
        o.getterType ++ t!" {") ∈ o.lines (MessagesCode.responseOf x r m).response := by
      rw [MessagesCode.Output.lines]
      simp
    have h2 : (t!"func (r *" ++ (MessagesCode.responseOf x r m).response ++ t!") Get" ++ o.getter ++ t!"() (value " ++
        o.getterType ++ t!", ok bool) {") ∈ o.lines (MessagesCode.responseOf x r m).response := by
      rw [MessagesCode.Output.lines]
      simp
    exact ⟨List.mem_append_right _ (List.mem_flatMap.mpr ⟨o, ho, h1⟩),
      List.mem_append_right _ (List.mem_flatMap.mpr ⟨o, ho, h2⟩)⟩

/-- The packages of the types of the fields and getters, for the response. -/
def responseTypes (x : Context) (m : Method) : List Text :=
  (m.parameters.filter (·.isOut)).flatMap fun p =>
    [(match x.typeOf p.typ.id with
      | .list _ element =>
        if element.isScalar then (GoRef.valueReference x.base element).imprt
        else (GoRef.parameterFieldType x.base { typ := x.typeOf p.typ.id, items := p.isItems m }).imprt
      | t => (GoRef.parameterFieldType x.base { typ := t, items := p.isItems m }).imprt),
    (GoRef.accessorType x.base { typ := x.typeOf p.typ.id, items := p.isItems m }).imprt]

theorem mem_response (x : Context) (m : Method) (path : Text) :
    (∃ sel, Effect.imports path sel ∈ responseEffects x m) ↔ path ∈ responseTypes x m := by
  simp only [responseEffects, List.mem_append, List.mem_flatMap, responseTypes, List.mem_cons, List.not_mem_nil, or_false,
    MessagesCode.accessorEffects, MessagesCode.mem_ref, Binding.responseParameters]
  have hf : ∀ p, (∃ sel, Effect.imports path sel ∈ MessagesCode.responseFieldEffects x m p) ↔ path =
      (match x.typeOf p.typ.id with
      | .list _ element =>
        if element.isScalar then (GoRef.valueReference x.base element).imprt
        else (GoRef.parameterFieldType x.base { typ := x.typeOf p.typ.id, items := p.isItems m }).imprt
      | t => (GoRef.parameterFieldType x.base { typ := t, items := p.isItems m }).imprt) := by
    intro p
    rw [MessagesCode.responseFieldEffects]
    simp only [MessagesCode.fieldEffects, MessagesCode.param]
    cases x.typeOf p.typ.id with
    | list d e => cases he : e.isScalar <;> simp [he, MessagesCode.mem_ref]
    | _ => simp [MessagesCode.mem_ref]
  constructor
  · rintro ⟨sel, ⟨p, hp, h⟩ | ⟨p, hp, h, -⟩⟩
    · exact ⟨p, hp, .inl ((hf p).mp ⟨sel, h⟩)⟩
    · exact ⟨p, hp, .inr h⟩
  · rintro ⟨p, hp, h | h⟩
    · obtain ⟨sel, h⟩ := (hf p).mpr h
      exact ⟨sel, .inl ⟨p, hp, h⟩⟩
    · exact ⟨_, .inr ⟨p, hp, h, rfl⟩⟩

theorem mem_request (x : Context) (m : Method) (path : Text) :
    (∃ sel, Effect.imports path sel ∈ requestEffects x m) ↔ path ∈ MessagesCode.requestTypes x m := by
  simp only [requestEffects, List.mem_append, List.mem_flatMap, MessagesCode.requestTypes, List.mem_cons,
    List.not_mem_nil, or_false, MessagesCode.fieldEffects, MessagesCode.accessorEffects, MessagesCode.mem_ref,
    Binding.requestParameters]
  constructor
  · rintro ⟨sel, ⟨p, hp, h, -⟩ | ⟨p, hp, h, -⟩⟩
    · exact ⟨p, hp, .inl h⟩
    · exact ⟨p, hp, .inr h⟩
  · rintro ⟨p, hp, h | h⟩
    · exact ⟨_, .inl ⟨p, hp, h, rfl⟩⟩
    · exact ⟨_, .inr ⟨p, hp, h, rfl⟩⟩

theorem mem_imports (l : List (Text × Text)) (path : Text) :
    (∃ sel, Effect.imports path sel ∈ importEffects l) ↔ path ∈ l.map Prod.fst := by
  simp only [import_mem, List.mem_map]
  constructor
  · rintro ⟨sel, h⟩
    exact ⟨_, h, rfl⟩
  · rintro ⟨i, h, rfl⟩
    exact ⟨i.2, h⟩

theorem mem_poll (x : Context) (m : Method) (path : Text) (h : ∃ sel, Effect.imports path sel ∈ pollEffects x m) :
    path ∈ MessagesCode.requestTypes x m ∨ path ∈ responseTypes x m := by
  rw [← mem_request, ← mem_response]
  obtain ⟨sel, h⟩ := h
  rcases List.mem_append.mp h with h | h
  · exact .inl ⟨sel, List.mem_append_right _ h⟩
  · exact .inr ⟨sel, List.mem_append_right _ h⟩

/-- The imports of the file, in whatever order they are written: the packages that the code uses, and those of the types of
the parameters, once each. -/
theorem c108_imports (x : Context) (g : Graph) (r : Resource) (b : Buffer) (order : List (Text × Text))
    (hl : Linked g r) (hs : source x g r { pkg := x.pkg } = .done b) (hb : b.errors = 0) (ho : order.Perm b.imports) :
    (order.map Prod.fst).Nodup ∧
    ∀ path, path ∈ order.map Prod.fst ↔ path ≠ [] ∧ path ≠ x.pkg ∧
      (path ∈ [t!"net/http", t!"path"] ∨ (getOf r ≠ none ∧ path = t!"time") ∨
        ∃ m ∈ r.methods, path ∈ [t!"bufio", t!"bytes", t!"context", t!"io", t!"os", t!"net/http", t!"net/url",
          x.base ++ t!"/errors", x.base ++ t!"/helpers"] ∨ path ∈ MessagesCode.requestTypes x m ∨
          path ∈ responseTypes x m) := by
  have hr : Retrieves r := by
    apply Classical.byContradiction
    intro hn
    rw [(c108_panics_iff x g r _).1.mpr hn] at hs
    cases hs
  obtain ⟨b', h1, h2, h3⟩ := source_run x g r { pkg := x.pkg } rfl hr hl
  rw [hs] at h1
  cases h1
  obtain ⟨t, h4, -⟩ := h2 (h3.mp hb)
  rw [h4] at ho
  obtain ⟨h5, h6, -⟩ := imports_order _ _ _ ho
  refine ⟨h5, fun path => ?_⟩
  rw [h6]
  refine and_congr_right fun _ => and_congr_right fun _ => ?_
  have hpoll : (∃ sel, Effect.imports path sel ∈ getEffects x r) →
      (getOf r ≠ none ∧ path = t!"time") ∨ ∃ m ∈ r.methods, path ∈ [t!"bufio", t!"bytes", t!"context", t!"io", t!"os",
        t!"net/http", t!"net/url", x.base ++ t!"/errors", x.base ++ t!"/helpers"] ∨
        path ∈ MessagesCode.requestTypes x m ∨ path ∈ responseTypes x m := by
    rintro ⟨sel, h⟩
    rw [getEffects] at h
    cases hg : getOf r with
    | none => rw [hg] at h; cases h
    | some m =>
      rw [hg] at h
      have hm : m ∈ r.methods := List.mem_of_find?_eq_some hg
      rcases List.mem_append.mp h with h | h
      · have := (mem_imports _ path).mp ⟨sel, h⟩
        simp only [pollImports, List.map_cons, List.map_nil, List.mem_cons, List.not_mem_nil, or_false] at this
        rcases this with rfl | rfl | rfl
        · exact .inr ⟨m, hm, .inl (by simp)⟩
        · exact .inl ⟨by simp, rfl⟩
        · exact .inr ⟨m, hm, .inl (by simp)⟩
      · exact .inr ⟨m, hm, .inr (mem_poll x m path ⟨sel, h⟩)⟩
  constructor
  · rintro ⟨sel, h⟩
    rw [fileEffects, List.append_nil, List.append_assoc] at h
    rcases List.mem_append.mp h with h | h
    · exact .inl ((mem_imports clientImports path).mp ⟨sel, h⟩)
    rcases List.mem_append.mp h with h | h
    · exact .inr (hpoll ⟨sel, h⟩)
    obtain ⟨m, hm, h⟩ := List.mem_flatMap.mp h
    refine .inr (.inr ⟨m, hm, ?_⟩)
    rcases List.mem_append.mp h with h | h <;> rcases List.mem_append.mp h with h | h
    · exact .inl ((mem_imports _ path).mp ⟨sel, h⟩)
    · exact .inr (.inl ((mem_request x m path).mp ⟨sel, h⟩))
    · have := (mem_imports _ path).mp ⟨sel, h⟩
      simp only [responseImports, List.map_cons, List.map_nil, List.mem_cons, List.not_mem_nil, or_false] at this
      refine .inl ?_
      rcases this with rfl | rfl | rfl <;> simp
    · exact .inr (.inr ((mem_response x m path).mp ⟨sel, h⟩))
  · rintro (h | ⟨hg, rfl⟩ | ⟨m, hm, h⟩)
    · obtain ⟨sel, h⟩ := (mem_imports clientImports path).mpr h
      refine ⟨sel, ?_⟩
      rw [fileEffects, List.append_nil, List.append_assoc]
      exact List.mem_append_left _ h
    · obtain ⟨m, hm⟩ := Option.ne_none_iff_exists'.mp hg
      obtain ⟨sel, h⟩ := (mem_imports (pollImports x.base) t!"time").mpr (by simp [pollImports])
      refine ⟨sel, ?_⟩
      rw [fileEffects, getEffects, hm]
      exact List.mem_append_left _ (List.mem_append_right _ (List.mem_append_left _ h))
    · have hin : ∀ sel, Effect.imports path sel ∈ messageEffects x m → Effect.imports path sel ∈ fileEffects x r :=
        fun sel h => List.mem_append_right _ (List.mem_flatMap.mpr ⟨m, hm, h⟩)
      rcases h with h | h | h
      · obtain ⟨sel, h⟩ := (mem_imports (requestImports x.base) path).mpr h
        exact ⟨sel, hin sel (List.mem_append_left _ (List.mem_append_left _ h))⟩
      · obtain ⟨sel, h⟩ := (mem_request x m path).mpr h
        exact ⟨sel, hin sel (List.mem_append_left _ (List.mem_append_right _ h))⟩
      · obtain ⟨sel, h⟩ := (mem_response x m path).mpr h
        exact ⟨sel, hin sel (List.mem_append_right _ (List.mem_append_right _ h))⟩

/-! ## Examples -/

/-- Retrieves a cluster, and has a query parameter. -/
def exGet : Method :=
  { name := Nom.get
    parameters := [
      { name := Nom.body, typ := ⟨0, .class⟩, isOut := true },
      { name := parseUsingCase t!"Fields", typ := ⟨2, .scalar⟩, isIn := true }] }

/-- The resource of a cluster, with a locator. -/
def exResource : Resource :=
  { name := parseUsingCase t!"Cluster", methods := [exGet]
    locators := [{ name := parseUsingCase t!"Status", owner := 0, target := some 1 }] }

def exGraph : Graph := [exResource, { name := parseUsingCase t!"Status" }]

example : Outcome.clientReports MessagesCode.exContext.base MessagesCode.exContext.typeOf exResource = .done false ∧
    ∀ l ∈ exResource.locators, ∀ k, l.target = some k → k < exGraph.length := by
  refine ⟨by decide +kernel, fun l hl k hk => ?_⟩
  obtain rfl := List.mem_singleton.mp hl
  cases hk
  decide

example : getOf exResource = some exGet ∧ Retrieves exResource := by
  have : getOf exResource = some exGet := by decide +kernel
  refine ⟨this, fun m hm => ?_⟩
  rw [this] at hm
  cases hm
  exact ⟨_, List.mem_cons_self .., rfl⟩

/-- A method to retrieve an object that doesn't return it. -/
example : ¬ Retrieves { name := parseUsingCase t!"Cluster", methods := [{ name := Nom.get }] } := by
  intro h
  obtain ⟨p, hp, -⟩ := h { name := Nom.get } (by decide +kernel)
  cases hp

example : (pollOf MessagesCode.exContext exResource exGet).setters.flatMap (Accessor.setterLines t!"ClusterPollRequest") = [
    t!"// Fields sets the value of the 'fields' parameter for all the requests that",
    t!"// will be used to retrieve the object.",
    t!"//",
    t!"// ",
    t!"func (r *ClusterPollRequest) Fields(value string) *ClusterPollRequest {",
    t!"r.request.Fields(value)",
    t!"return r",
    t!"}"] := by decide +kernel

example : (pollOf MessagesCode.exContext exResource exGet).client = t!"ClusterClient" ∧
    (pollOf MessagesCode.exContext exResource exGet).request = t!"ClusterPollRequest" ∧
    (pollOf MessagesCode.exContext exResource exGet).response = t!"ClusterPollResponse" ∧
    (pollOf MessagesCode.exContext exResource exGet).methodRequest = t!"ClusterGetRequest" ∧
    (pollOf MessagesCode.exContext exResource exGet).methodResponse = t!"ClusterGetResponse" ∧
    (pollOf MessagesCode.exContext exResource exGet).method = t!"Get" := by decide +kernel

end Verif.ClientFile
