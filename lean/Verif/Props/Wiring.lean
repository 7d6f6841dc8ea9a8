import Verif.Spec.Wiring

/-!
# C110: the generators are created only when they have everything that they need

A builder fails exactly when something mandatory is missing, and then the message is about the first thing that is
missing. What is given to a builder is in the object that it creates, except for the calculator of the HTTP binding of
two generators. When all the options are given the commands always create all their objects, with the right parts.
-/

namespace Verif.Wiring

variable {α : Type}

theorem build_error (c : Component) (b : Given α) (p : Piece)
    (h : (mandatory c).find? (fun q => (b.get q).isNone) = some p) :
    build c b = .error (called c p ++ t!" is mandatory") := by
  cases c <;> simp only [mandatory, List.find?, Given.get] at h <;> (repeat' split at h) <;> cases h <;>
    simp [build, errorsGenerator, helpersGenerator, typesGenerator, buildersGenerator, clientsGenerator,
      jsonGenerator, metricsGenerator, goSpecGenerator, specGenerator, docsGenerator, goPackages, goNames, goTypes,
      specNames, docsNames, bindingCalculator, errorListener, called, *]

theorem build_ok (c : Component) (b : Given α) (h : (mandatory c).find? (fun q => (b.get q).isNone) = none) :
    ∃ g, build c b = .ok g := by
  cases c <;> simp only [mandatory, List.find?, Given.get] at h <;> (repeat' split at h) <;> cases h <;>
    simp [build, errorsGenerator, helpersGenerator, typesGenerator, buildersGenerator, clientsGenerator,
      jsonGenerator, metricsGenerator, goSpecGenerator, specGenerator, docsGenerator, goPackages, goNames, goTypes,
      specNames, docsNames, bindingCalculator, errorListener, *]

/-- A builder fails exactly when something mandatory hasn't been given, and the message is about the first. -/
theorem c110_error_iff (c : Component) (b : Given α) (e : Text) :
    build c b = .error e ↔
      ∃ p, (mandatory c).find? (fun q => (b.get q).isNone) = some p ∧ e = called c p ++ t!" is mandatory" := by
  constructor
  · intro h
    cases hf : (mandatory c).find? (fun q => (b.get q).isNone) with
    | none =>
      obtain ⟨g, hg⟩ := build_ok c b hf
      rw [hg] at h
      cases h
    | some p =>
      rw [build_error c b p hf] at h
      cases h
      exact ⟨p, rfl, rfl⟩
  · rintro ⟨p, hp, rfl⟩
    exact build_error c b p hp

/-- A builder succeeds exactly when everything that is mandatory has been given. -/
theorem c110_ok_iff (c : Component) (b : Given α) :
    (∃ g, build c b = .ok g) ↔ ∀ p ∈ mandatory c, b.get p ≠ none := by
  have h := c110_error_iff c b
  cases hb : build c b with
  | ok g =>
    simp only [hb, reduceCtorEq, false_iff] at h
    simp only [Except.ok.injEq, exists_eq', true_iff]
    intro p hp hn
    have hs : ((mandatory c).find? fun q => (b.get q).isNone).isSome := by
      rw [List.find?_isSome]
      exact ⟨p, hp, by simp [hn]⟩
    obtain ⟨q, hq⟩ := Option.isSome_iff_exists.mp hs
    exact h _ ⟨q, hq, rfl⟩
  | error e =>
    refine ⟨fun ⟨g, hg⟩ => (by cases hg), fun hall => ?_⟩
    obtain ⟨p, hp, -⟩ := (h e).mp hb
    have h1 := List.find?_some hp
    have h2 := List.mem_of_find?_eq_some hp
    simp only [Option.isNone_iff_eq_none] at h1
    exact (hall p h2 h1).elim

/-- What has been given to a builder is in the object that it creates, and nothing else, except for what it forgets. -/
theorem c110_parts_partial (c : Component) (b g : Given α) (h : build c b = .ok g) (p : Piece) :
    g.get p = if p ∈ settable c ∧ ¬ (((c = .jsonGenerator ∨ c = .metricsGenerator) ∧ p = .binding))
      then b.get p else none := by
  obtain ⟨r, m, o, pk, n, t, bi, ba⟩ := b
  cases c <;>
    simp only [build, errorsGenerator, helpersGenerator, typesGenerator, buildersGenerator, clientsGenerator,
      jsonGenerator, metricsGenerator, goSpecGenerator, specGenerator, docsGenerator, goPackages, goNames, goTypes,
      specNames, docsNames, bindingCalculator, errorListener] at h <;>
    (repeat' split at h) <;> cases h <;> cases p <;> simp [settable, Given.get]

/-- It is false that everything that is given to a builder is in the object that it creates. -/
theorem c110_parts_refuted :
    ¬ ∀ (c : Component) (b g : Given Nat), build c b = .ok g → ∀ p ∈ settable c, g.get p = b.get p := by
  intro h
  have := h .jsonGenerator
    { reporter := some 1, model := some 2, output := some 3, packages := some 4, names := some 5, types := some 6,
      binding := some 7 } _ rfl .binding (by decide)
  exact absurd this (by decide)

/-- Everything that is mandatory can be given. -/
theorem c110_mandatory_settable (c : Component) : ∀ p ∈ mandatory c, p ∈ settable c := by
  cases c <;> decide

/-- What is not mandatory, although it can be given. -/
theorem c110_optional (c : Component) (p : Piece) :
    p ∈ settable c ∧ p ∉ mandatory c ↔ Forgets c p ∨ (c = .docsGenerator ∧ p = .names) := by
  rw [Forgets]
  cases c <;> cases p <;> decide

/-! ## The commands -/

/-- The objects that the command that generates Go code should create, in order. -/
def goOrder : List Component :=
  [.goPackages, .goNames, .goTypes, .bindingCalculator, .specNames, .errorsGenerator, .helpersGenerator,
    .typesGenerator, .buildersGenerator, .clientsGenerator, .jsonGenerator, .metricsGenerator, .goSpecGenerator]

/-- The objects of a command are in order and have the parts that they should. -/
def Right (base output : Text) (order : List Component) (objects : List (Component × Given Thing)) : Prop :=
  objects.map Prod.fst = order ∧
  ∀ x ∈ objects, (∀ p ∈ mandatory x.1, x.2.get p = some (expected base output x.1 p)) ∧
    ∀ p, p ∉ mandatory x.1 → x.2.get p = none

theorem option_some (t : Text) (h : t ≠ []) : option t = some (.text t) := by rw [option, if_neg h]

/-- With a base and an output directory the command that generates Go code creates all its objects, with the right
parts; without one of them it doesn't. -/
theorem c110_go (base output : Text) :
    (base ≠ [] ∧ output ≠ [] → ∃ l, goObjects base output = .ok l ∧ Right base output goOrder l) ∧
    (base = [] → goObjects base output = .error t!"Can't create Go packages calculator: base package is mandatory") ∧
    (base ≠ [] → output = [] → goObjects base output = .error t!"Can't create errors generator: path is mandatory") := by
  refine ⟨fun ⟨hb, ho⟩ => ?_, fun hb => ?_, fun hb ho => ?_⟩
  · refine ⟨_, by rw [goObjects, option_some _ hb, option_some _ ho]; rfl, rfl, ?_⟩
    simp only [List.mem_cons, List.not_mem_nil, or_false, forall_eq_or_imp, forall_eq]
    refine ⟨?_, ?_, ?_, ?_, ?_, ?_, ?_, ?_, ?_, ?_, ?_, ?_, ?_⟩ <;>
      refine ⟨fun p hp => ?_, fun p hp => ?_⟩ <;>
      cases p <;> first | rfl | exact absurd hp (by decide)
  · subst hb
    rfl
  · subst ho
    rw [goObjects, option_some _ hb]
    rfl

/-- With an output directory the command that generates OpenAPI specifications creates all its objects, with the right
parts. -/
theorem c110_spec (output : Text) :
    (output ≠ [] → ∃ l, specObjects output = .ok l ∧
      Right [] output [.bindingCalculator, .specNames, .specGenerator] l) ∧
    (output = [] → specObjects output = .error t!"Can't create OpenAPI generator: output directory is mandatory") := by
  refine ⟨fun ho => ?_, fun ho => ?_⟩
  · refine ⟨_, by rw [specObjects, option_some _ ho]; rfl, rfl, ?_⟩
    simp only [List.mem_cons, List.not_mem_nil, or_false, forall_eq_or_imp, forall_eq]
    refine ⟨?_, ?_, ?_⟩ <;> refine ⟨fun p hp => ?_, fun p hp => ?_⟩ <;>
      cases p <;> first | rfl | exact absurd hp (by decide)
  · subst ho
    rfl

/-- With an output directory the command that generates documentation creates its generator, always without a
calculator of names. -/
theorem c110_docs (output : Text) :
    (output ≠ [] → ∃ g, docsObjects output = .ok [(.docsGenerator, g)] ∧
      Right [] output [.docsGenerator] [(.docsGenerator, g)] ∧ g.get .names = none) ∧
    (output = [] → docsObjects output =
      .error t!"Can't create documentation generator: parameter 'output' is mandatory") := by
  refine ⟨fun ho => ?_, fun ho => ?_⟩
  · refine ⟨_, by rw [docsObjects, option_some _ ho]; rfl, ⟨rfl, ?_⟩, rfl⟩
    simp only [List.mem_cons, List.not_mem_nil, or_false, forall_eq]
    refine ⟨fun p hp => ?_, fun p hp => ?_⟩ <;> cases p <;> first | rfl | exact absurd hp (by decide)
  · subst ho
    rfl

/-! ## The options -/

/-- The message about an option that hasn't been given. -/
def message (name : Text) : Text := List.flatten [t!"Option '--", name, t!"' is mandatory"]

/-- The commands report each mandatory option that is missing, once, and in order. -/
theorem c110_options (o : Options) :
    goProblems o = (([(t!"model", decide (o.paths = [])), (t!"base", decide (o.base = [])),
      (t!"output", decide (o.output = []))].filter Prod.snd).map fun x => message x.1) ∧
    outputProblems o = (([(t!"model", decide (o.paths = [])),
      (t!"output", decide (o.output = []))].filter Prod.snd).map fun x => message x.1) ∧
    checkProblems o = (([(t!"model", decide (o.paths = []))].filter Prod.snd).map fun x => message x.1) := by
  obtain ⟨p, b, t⟩ := o
  cases p <;> cases b <;> cases t <;>
    simp [goProblems, outputProblems, checkProblems, message]

/-- If the command that generates Go code doesn't report missing options then it creates all its objects, and otherwise
it wouldn't be able to or there would be no model to read. -/
theorem c110_options_suffice (o : Options) :
    goProblems o = [] ↔ o.paths ≠ [] ∧ ∃ l, goObjects o.base o.output = .ok l := by
  obtain ⟨p, b, t⟩ := o
  obtain ⟨h1, h2, h3⟩ := c110_go b t
  by_cases hb : b = []
  · simp [goProblems, hb] at h2 ⊢
    simp [h2]
  · by_cases ht : t = []
    · have := h3 hb ht
      simp only [goProblems, this]
      simp [ht]
    · obtain ⟨l, hl, -⟩ := h1 ⟨hb, ht⟩
      simp [goProblems, hb, ht, hl]

/-! ## Examples -/

example : build .clientsGenerator ({ reporter := some 1, model := some 2 } : Given Nat) =
    .error t!"path is mandatory" := rfl

example : ∃ g, build .goPackages ({ reporter := some 1, base := some 2 } : Given Nat) = .ok g :=
  (c110_ok_iff _ _).mpr (by decide)

example : goProblems { paths := [], base := t!"x", output := [] } =
    [t!"Option '--model' is mandatory", t!"Option '--output' is mandatory"] := rfl

example : ∃ l, goObjects t!"example.com/api" t!"out" = .ok l ∧ l.length = 13 := by
  obtain ⟨l, h, hr, -⟩ := (c110_go t!"example.com/api" t!"out").1 (by decide)
  refine ⟨l, h, ?_⟩
  rw [← List.length_map (f := Prod.fst), hr]
  rfl

end Verif.Wiring
