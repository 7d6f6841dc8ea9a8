import Verif.Lemmas.MessagesCode
import Verif.Props.JsonCode
import Verif.Props.GoRefs
import Verif.Props.Outcome

/-!
# C107: the requests and responses of methods

The code of the request of a method has one setter for each input parameter, and sends the scalar parameters of methods
that aren't actions in the query, and the rest in the body. The code of the response has two getters for each output
parameter.
-/

namespace Verif.MessagesCode

open GoTemplate GoCode GoFile
open TypesCode (errorCount errorCount_append errorCount_ref errorCount_flatMap effects_foldl emit_eq refEffects)
open JsonCode (importEffects imports_effects importErrors imports_order import_mem)

/-- The packages that the requests need. -/
def requestImports (base : Text) : List (Text × Text) :=
  [(t!"bufio", []), (t!"bytes", []), (t!"context", []), (t!"io", []), (t!"os", []), (t!"net/http", []),
    (t!"net/url", []), (base ++ t!"/errors", []), (base ++ t!"/helpers", [])]

/-- The packages that the responses need. -/
def responseImports (base : Text) : List (Text × Text) :=
  [(t!"io", []), (t!"net/http", []), (base ++ t!"/errors", [])]

theorem errors_package : Go.errorsPackage = t!"errors" := by decide +kernel

theorem helpers_package : Go.helpersPackage = t!"helpers" := by decide +kernel

theorem wrong_iff (ref : GoRef.Ref) : ¬ Outcome.wrong ref = true ↔ errorCount (refEffects ref) = 0 := by
  rw [errorCount_ref, Outcome.wrong]
  simp

theorem request_run (x : Context) (r : Resource) (m : Method) (b : Buffer) (hb : b.errors = 0) :
    ∃ t, requestSource x r m b =
        { (importEffects (requestImports x.base) ++ requestEffects x m).foldl Buffer.effect b with
          code := b.code ++ t ++ t!"\n" } ∧
      ∀ rest, significant (t ++ rest) = code (requestOf x r m).lines ++ significant rest := by
  have hs : requestSource x r m b = ((importEffects (requestImports x.base)).foldl Buffer.effect b).emit
      (env x) requestTemplate [(t!"Method", .method r m)] := by
    rw [requestSource, imports_effects]
    simp [requestImports, Go.errorsImport, Go.helpersImport, errors_package, helpers_package]
  have he : ((importEffects (requestImports x.base)).foldl Buffer.effect b).errors = 0 := by
    rw [(effects_foldl _ _).1, importErrors, hb]
  obtain ⟨t, h1, h2⟩ := emit_eq (env x) _ requestTemplate _ requestLines _ _ he request_lines (run_request x r m)
  refine ⟨t, ?_, h2⟩
  rw [hs, h1, List.foldl_append, (effects_foldl _ b).2.2]

theorem response_run (x : Context) (r : Resource) (m : Method) (b : Buffer) (hb : b.errors = 0) :
    ∃ t, responseSource x r m b =
        { (importEffects (responseImports x.base) ++ responseEffects x m).foldl Buffer.effect b with
          code := b.code ++ t ++ t!"\n" } ∧
      ∀ rest, significant (t ++ rest) = code (responseOf x r m).lines ++ significant rest := by
  have hs : responseSource x r m b = ((importEffects (responseImports x.base)).foldl Buffer.effect b).emit
      (env x) responseTemplate [(t!"Method", .method r m)] := by
    rw [responseSource, imports_effects]
    simp [responseImports, Go.errorsImport, errors_package]
  have he : ((importEffects (responseImports x.base)).foldl Buffer.effect b).errors = 0 := by
    rw [(effects_foldl _ _).1, importErrors, hb]
  obtain ⟨t, h1, h2⟩ := emit_eq (env x) _ responseTemplate _ responseLines _ _ he response_lines (run_response x r m)
  refine ⟨t, ?_, h2⟩
  rw [hs, h1, List.foldl_append, (effects_foldl _ b).2.2]

/-- **C107.** The code that is added to the file for the request of a method consists of the lines of the
specification. -/
theorem c107_request (x : Context) (r : Resource) (m : Method) (b : Buffer) (hb : b.errors = 0) :
    ∃ added, (requestSource x r m b).code = b.code ++ added ∧ significant added = code (requestOf x r m).lines := by
  obtain ⟨t, h1, h2⟩ := request_run x r m b hb
  refine ⟨t ++ t!"\n", by rw [h1, List.append_assoc], ?_⟩
  rw [h2, show significant t!"\n" = [] by decide, List.append_nil]

/-- The same for the response. -/
theorem c107_response (x : Context) (r : Resource) (m : Method) (b : Buffer) (hb : b.errors = 0) :
    ∃ added, (responseSource x r m b).code = b.code ++ added ∧ significant added = code (responseOf x r m).lines := by
  obtain ⟨t, h1, h2⟩ := response_run x r m b hb
  refine ⟨t ++ t!"\n", by rw [h1, List.append_assoc], ?_⟩
  rw [h2, show significant t!"\n" = [] by decide, List.append_nil]

/-- The problems that are reported are those of the types of the parameters, as in the model of the outcome of the
generators. -/
theorem c107_reports (x : Context) (r : Resource) (m : Method) (b : Buffer) (hb : b.errors = 0) :
    ((requestSource x r m b).errors = 0 ↔ Outcome.requestReports x.base x.typeOf m = false) ∧
    ((responseSource x r m b).errors = 0 ↔ Outcome.responseReports x.base x.typeOf m = false) := by
  constructor
  · obtain ⟨t, h1, -⟩ := request_run x r m b hb
    rw [h1]
    change ((importEffects (requestImports x.base) ++ requestEffects x m).foldl Buffer.effect b).errors = 0 ↔ _
    rw [(effects_foldl _ b).1, hb, errorCount_append, importErrors, requestEffects, errorCount_append,
      Outcome.requestReports, List.any_eq_false]
    simp only [Nat.zero_add, Nat.add_eq_zero_iff, errorCount_flatMap, fieldEffects, accessorEffects, Bool.or_eq_true,
      not_or, wrong_iff]
    exact ⟨fun h p hp => ⟨h.1 p hp, h.2 p hp⟩, fun h => ⟨fun p hp => (h p hp).1, fun p hp => (h p hp).2⟩⟩
  · obtain ⟨t, h1, -⟩ := response_run x r m b hb
    rw [h1]
    change ((importEffects (responseImports x.base) ++ responseEffects x m).foldl Buffer.effect b).errors = 0 ↔ _
    rw [(effects_foldl _ b).1, hb, errorCount_append, importErrors, responseEffects, errorCount_append,
      Outcome.responseReports, List.any_eq_false]
    have hf : ∀ p, errorCount (responseFieldEffects x m p) = 0 ↔ ¬ (match x.typeOf p.typ.id with
        | .list _ element =>
          if element.isScalar then Outcome.wrong (GoRef.valueReference x.base element)
          else Outcome.wrong (GoRef.parameterFieldType x.base (Outcome.paramOf x.typeOf m p))
        | _ => Outcome.wrong (GoRef.parameterFieldType x.base (Outcome.paramOf x.typeOf m p))) = true := by
      intro p
      have h0 : errorCount (fieldEffects x m p) = 0 ↔
        ¬ Outcome.wrong (GoRef.parameterFieldType x.base (Outcome.paramOf x.typeOf m p)) = true := (wrong_iff _).symm
      unfold responseFieldEffects
      cases x.typeOf p.typ.id with
      | list d e =>
        cases he : e.isScalar
        · simpa [he] using h0
        · simpa [he] using (wrong_iff (GoRef.valueReference x.base e)).symm
      | _ => exact h0
    simp only [Nat.zero_add, Nat.add_eq_zero_iff, errorCount_flatMap, Bool.or_eq_true, not_or]
    have ha : ∀ p, errorCount (accessorEffects x m p) = 0 ↔
        ¬ Outcome.wrong (GoRef.accessorType x.base (Outcome.paramOf x.typeOf m p)) = true :=
      fun p => (wrong_iff _).symm
    exact ⟨fun h p hp => ⟨(hf p).mp (h.1 p hp), (ha p).mp (h.2 p hp)⟩,
      fun h => ⟨fun p hp => (hf p).mpr (h p hp).1, fun p hp => (ha p).mpr (h p hp).2⟩⟩

/-- The packages of the types of the fields and setters, for the request. -/
def requestTypes (x : Context) (m : Method) : List Text :=
  (m.parameters.filter (·.isIn)).flatMap fun p =>
    [(GoRef.parameterFieldType x.base (param x m p)).imprt, (GoRef.accessorType x.base (param x m p)).imprt]

theorem mem_ref (path sel : Text) (ref : GoRef.Ref) :
    Effect.imports path sel ∈ refEffects ref ↔ path = ref.imprt ∧ sel = ref.selector := by
  simp [refEffects]

/-- The request imports the packages that its code uses, and those of the types of its parameters. -/
theorem c107_imports (x : Context) (r : Resource) (m : Method) (pkg : Text) (order : List (Text × Text))
    (ho : order.Perm (requestSource x r m { pkg := pkg }).imports) :
    (order.map Prod.fst).Nodup ∧
    ∀ path, path ∈ order.map Prod.fst ↔ path ≠ [] ∧ path ≠ pkg ∧
      (path ∈ [t!"bufio", t!"bytes", t!"context", t!"io", t!"os", t!"net/http", t!"net/url", x.base ++ t!"/errors",
        x.base ++ t!"/helpers"] ∨ path ∈ requestTypes x m) := by
  obtain ⟨t, h1, -⟩ := request_run x r m { pkg := pkg } rfl
  rw [h1] at ho
  obtain ⟨h2, h3, -⟩ := imports_order _ _ _ ho
  refine ⟨h2, fun path => ?_⟩
  rw [h3]
  refine and_congr_right fun _ => and_congr_right fun _ => ?_
  simp only [List.mem_append, import_mem, exists_or]
  refine or_congr ?_ ?_
  · constructor
    · rintro ⟨sel, h⟩
      have := List.mem_map_of_mem (f := Prod.fst) h
      exact this
    · intro h
      obtain ⟨i, hi, rfl⟩ := List.mem_map.mp (show path ∈ (requestImports x.base).map Prod.fst from h)
      exact ⟨i.2, hi⟩
  · simp only [requestEffects, List.mem_append, List.mem_flatMap, requestTypes, List.mem_cons, List.not_mem_nil, or_false,
      fieldEffects, accessorEffects, mem_ref, Binding.requestParameters]
    constructor
    · rintro ⟨sel, ⟨p, hp, h, -⟩ | ⟨p, hp, h, -⟩⟩
      · exact ⟨p, hp, .inl h⟩
      · exact ⟨p, hp, .inr h⟩
    · rintro ⟨p, hp, h | h⟩
      · exact ⟨_, .inl ⟨p, hp, h, rfl⟩⟩
      · exact ⟨_, .inr ⟨p, hp, h, rfl⟩⟩

/-- The functions that are called to write the body of the request and to read the body of the response are those of the
file of the JSON support of the resource, see C97, that receive the types of the request and of the response. -/
theorem c107_functions (x : Context) (y : MethodsCode.Context) (r : Resource) (m : Method) :
    (requestOf x r m).request = (MethodsCode.messageOf y r m).requestType ∧
    (requestOf x r m).response = (MethodsCode.messageOf y r m).responseType ∧
    (responseOf x r m).response = (MethodsCode.messageOf y r m).responseType ∧
    (∀ f, (requestOf x r m).write = some f → f = (MethodsCode.messageOf y r m).write) ∧
    ∀ f, (requestOf x r m).read = some f → f = (MethodsCode.messageOf y r m).read := by
  refine ⟨rfl, rfl, rfl, fun f h => ?_, fun f h => ?_⟩
  · simp only [requestOf] at h
    split at h <;> cases h
    rfl
  · simp only [requestOf] at h
    split at h <;> cases h
    rfl

/-- Every input parameter is sent: in the query if it is a scalar and the method isn't an action, and otherwise in the
body. A body is sent exactly if there is a parameter of the second kind. -/
theorem c107_sent (x : Context) (r : Resource) (m : Method) :
    (∀ q, q ∈ (requestOf x r m).queries ↔ ∃ p ∈ m.parameters, p.isIn = true ∧ p.typ.isScalar = true ∧
      m.isAction = false ∧ q = ⟨Go.parameterField p, Binding.queryParameterName p⟩) ∧
    ((requestOf x r m).write ≠ none ↔ ∃ p ∈ m.parameters, p.isIn = true ∧
      ¬ (p.typ.isScalar = true ∧ m.isAction = false)) ∧
    ((requestOf x r m).read ≠ none ↔ ∃ p ∈ m.parameters, p.isOut = true) := by
  refine ⟨fun q => ?_, ?_, ?_⟩
  · simp only [requestOf]
    cases m.isAction
    · simp only [Bool.false_eq_true, if_false, List.mem_map, List.mem_filter, Bool.and_eq_true]
      constructor
      · rintro ⟨p, ⟨hp, h1, h2⟩, rfl⟩
        exact ⟨p, hp, h1, h2, trivial, rfl⟩
      · rintro ⟨p, hp, h1, h2, -, rfl⟩
        exact ⟨p, ⟨hp, h1, h2⟩, rfl⟩
    · simp
  · simp only [requestOf]
    split
    · rename_i h
      obtain ⟨p, hp, h⟩ := List.any_eq_true.mp h
      simp only [ne_eq, reduceCtorEq, not_false_eq_true, true_iff]
      refine ⟨p, hp, ?_⟩
      revert h
      cases p.isIn <;> cases m.isAction <;> cases p.typ.isScalar <;> simp
    · rename_i h
      simp only [ne_eq, not_true_eq_false, false_iff]
      rintro ⟨p, hp, h1, h2⟩
      apply h
      refine List.any_eq_true.mpr ⟨p, hp, ?_⟩
      revert h1 h2
      cases p.isIn <;> cases m.isAction <;> cases p.typ.isScalar <;> simp
  · simp only [requestOf]
    split
    · rename_i h
      simpa using h
    · rename_i h
      simpa using h

/-- What the setters store and what the getters return are what C78 says. -/
theorem c107_types (base pkg : Text) (m : Method) (p : Parameter) (t : GoRef.Typ) :
    (if (inputOf base pkg m p t).address then t!"*" else []) ++ (inputOf base pkg m p t).setterType =
      GoRef.requestAssigned base pkg { typ := t, items := p.isItems m } ∧
    (outputOf base pkg m p t).zero.isSome = GoRef.responseDereferences { typ := t, items := p.isItems m } := by
  cases t <;> exact ⟨by simp [inputOf, GoRef.requestAssigned, GoRef.Typ.isStruct, GoRef.Typ.isList], rfl⟩

/-! ## Examples -/

/-- The version of the examples. -/
def exOwner : GoRef.Owner :=
  { service := parseUsingCase t!"Mgmt", version := parseUsingSeparator t!"v1" '_' }

/-- The types of the examples: the type with identifier zero is the class of clusters, that with identifier one is the
interface type, and the rest are texts. -/
def exContext : Context :=
  { base := t!"example.com/api", pkg := t!"example.com/api/mgmt/v1", owner := exOwner
    typeOf := fun id => if id = 0 then .struct { owner := exOwner, name := parseUsingCase t!"Cluster", annotations := [] }
      else if id = 1 then .basic .interface else .basic .string
    ownerOf := fun _ => exOwner }

/-- Adds a cluster, and has a query parameter. -/
def exMethod : Method :=
  { name := Nom.add
    parameters := [
      { name := Nom.body, typ := ⟨0, .class⟩, isIn := true, isOut := true },
      { name := parseUsingCase t!"DryRun", typ := ⟨2, .scalar⟩, isIn := true }] }

/-- The resource of the clusters. -/
def exResource : Resource := { name := parseUsingCase t!"Clusters", methods := [exMethod] }

example : Outcome.requestReports exContext.base exContext.typeOf exMethod = false ∧
    Outcome.responseReports exContext.base exContext.typeOf exMethod = false := by decide +kernel

example : (requestOf exContext exResource exMethod).inputs.flatMap (Input.lines t!"ClustersAddRequest") = [
    t!"// Body sets the value of the 'body' parameter.",
    t!"//",
    t!"// ",
    t!"func (r *ClustersAddRequest) Body(value *Cluster) *ClustersAddRequest {",
    t!"r.body = value",
    t!"return r",
    t!"}",
    t!"// DryRun sets the value of the 'dry_run' parameter.",
    t!"//",
    t!"// ",
    t!"func (r *ClustersAddRequest) DryRun(value string) *ClustersAddRequest {",
    t!"r.dryRun = &value",
    t!"return r",
    t!"}"] := by decide +kernel

example : (requestOf exContext exResource exMethod).queries.flatMap Query.lines = [
    t!"if r.dryRun != nil {",
    t!"helpers.AddValue(&query, \"dry_run\", *r.dryRun)",
    t!"}"] ∧
    (requestOf exContext exResource exMethod).verb = t!"POST" ∧
    (requestOf exContext exResource exMethod).write = some t!"writeClustersAddRequest" ∧
    (requestOf exContext exResource exMethod).read = some t!"readClustersAddResponse" := by decide +kernel

/-- The query parameters are dereferenced. The type of the field is a pointer for the parameters of C78 that aren't of
the interface type. -/
theorem c107_query_pointer (base : Text) (here : GoRef.Owner) (m : Method) (p : Parameter) (t : GoRef.Typ)
    (k ka : GoRef.GoType) (hs : t.isScalar = true)
    (hu : GoRef.Usable base here t) (he : GoRef.EnumsHere base here t)
    (ht : GoRef.parameterType base { typ := t, items := p.isItems m } = some k)
    (hta : GoRef.accessedType base { typ := t, items := p.isItems m } = some ka)
    (hi : (inputOf base (GoRef.home base here) m p t).fieldType ≠ t!"interface{}") :
    (inputOf base (GoRef.home base here) m p t).fieldType =
      t!"*" ++ (inputOf base (GoRef.home base here) m p t).setterType := by
  have h := (GoRef.c78_request_iff base here { typ := t, items := p.isItems m } k ka hu he ht hta).mpr (by
    intro d e h
    simp only at h
    rw [h] at hs
    cases hs)
  rcases h with h | h
  · change GoRef.requestField base _ _ = _
    rw [h, GoRef.requestAssigned]
    cases t <;> first | rfl | cases hs
  · exact absurd h hi

/-- It is false for the interface type: the code dereferences a field that isn't a pointer, so it isn't valid. -/
theorem c107_query_refuted :
    ∃ (x : Context) (r : Resource) (m : Method) (i : Input) (q : Query), i ∈ (requestOf x r m).inputs ∧
      q ∈ (requestOf x r m).queries ∧ q.field = i.field ∧ i.fieldType = t!"interface{}" ∧
      q.lines = [t!"if r.any != nil {", t!"helpers.AddValue(&query, \"any\", *r.any)", t!"}"] ∧
      Outcome.requestReports x.base x.typeOf m = false := by
  let m : Method :=
    { name := Nom.get, parameters := [{ name := parseUsingCase t!"Any", typ := ⟨1, .interface⟩, isIn := true }] }
  refine ⟨exContext, exResource, m, (requestOf exContext exResource m).inputs.head (by decide +kernel),
    (requestOf exContext exResource m).queries.head (by decide +kernel), List.head_mem _, List.head_mem _, ?_⟩
  decide +kernel

end Verif.MessagesCode
