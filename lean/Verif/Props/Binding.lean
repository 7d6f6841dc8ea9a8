import Verif.Lemmas.Binding
import Verif.Model.Docs

/-!
# Properties C25 to C28: HTTP bindings
-/

namespace Verif

/-! ## C25 -/

/-- Actions are the methods whose name isn't one of the nine standard ones. -/
theorem c25_action_iff (m : Method) : m.isAction = true ↔ m.name ∉ standardMethods := by
  obtain ⟨h1, h2, h3, h4, h5, h6, h7, h8, h9⟩ := nom_methods
  unfold Method.isAction Method.isAdd Method.isDelete Method.isAsyncDelete Method.isGet
    Method.isList Method.isPost Method.isSearch Method.isUpdate Method.isAsyncUpdate
  simp only [named_plain, h1, h2, h3, h4, h5, h6, h7, h8, h9, standardMethods, verbTable,
    List.map_cons, List.map_nil, List.mem_cons, List.not_mem_nil, or_false]
  constructor
  · intro h
    split at h <;> (try simp_all)
  · intro h
    simp only [not_or] at h
    simp [h]

theorem scalar_iff (p : Parameter) : p.typ.isScalar = true ↔ Rule.Scalar p := by
  unfold TypeRef.isScalar Kind.isScalar Rule.Scalar
  cases p.typ.kind <;> simp

/-- What goes to the query: inputs that are scalars, of methods that aren't actions. -/
theorem c25_query_iff (m : Method) (p : Parameter) :
    p ∈ Binding.requestQueryParameters m ↔
      p ∈ m.parameters ∧ p.isIn = true ∧ m.name ∈ standardMethods ∧ Rule.Scalar p := by
  unfold Binding.requestQueryParameters
  have ha := c25_action_iff m
  have hs := scalar_iff p
  by_cases h : m.isAction = true
  · have := ha.mp h
    simp [h, this]
  · have : m.name ∈ standardMethods := Decidable.byContradiction fun h' => h (ha.mpr h')
    simp [h, this, ← hs]

/-- What goes to the body: all the inputs of actions, and the inputs of other methods that aren't
scalars. -/
theorem c25_body_iff (m : Method) (p : Parameter) :
    p ∈ Binding.requestBodyParameters m ↔
      p ∈ m.parameters ∧ p.isIn = true ∧ (m.name ∈ standardMethods → ¬ Rule.Scalar p) := by
  unfold Binding.requestBodyParameters
  have ha := c25_action_iff m
  have hs := scalar_iff p
  by_cases h : m.isAction = true
  · have := ha.mp h
    simp [h, this]
  · have : m.name ∈ standardMethods := Decidable.byContradiction fun h' => h (ha.mpr h')
    simp [h, this, ← hs]

/-- Every input goes to exactly one place, and nothing else is sent: query and body together are a
rearrangement of the inputs, they share nothing, and both keep the order of the parameters. -/
theorem c25_split (m : Method) :
    (Binding.requestQueryParameters m ++ Binding.requestBodyParameters m).Perm
      (m.parameters.filter fun p => p.isIn) ∧
    (∀ p ∈ Binding.requestQueryParameters m, p ∉ Binding.requestBodyParameters m) ∧
    (Binding.requestQueryParameters m).Sublist m.parameters ∧
    (Binding.requestBodyParameters m).Sublist m.parameters := by
  refine ⟨?_, ?_, ?_, ?_⟩
  · unfold Binding.requestQueryParameters Binding.requestBodyParameters
    by_cases h : m.isAction = true
    · simp [h]
    · simp only [h, Bool.false_eq_true, if_false, Bool.not_false, if_true]
      have := List.filter_append_perm (fun p : Parameter => p.typ.isScalar)
        (m.parameters.filter fun p => p.isIn)
      rw [List.filter_filter, List.filter_filter] at this
      have e1 : (fun p : Parameter => p.typ.isScalar && p.isIn) =
        fun p => p.isIn && p.typ.isScalar := by funext p; exact Bool.and_comm _ _
      have e2 : (fun p : Parameter => (!p.typ.isScalar) && p.isIn) =
        fun p => p.isIn && !p.typ.isScalar := by funext p; exact Bool.and_comm _ _
      rw [e1, e2] at this
      simpa using this
  · intro p hp hb
    rw [c25_query_iff] at hp
    rw [c25_body_iff] at hb
    exact hb.2.2 hp.2.2.1 hp.2.2.2
  · unfold Binding.requestQueryParameters
    split
    · exact List.filter_sublist
    · exact List.nil_sublist _
  · unfold Binding.requestBodyParameters
    split <;> exact List.filter_sublist

/-- The request is made of the inputs and the response of the outputs: an output only parameter is
never sent and an input only parameter is never returned. -/
theorem c25_directions (m : Method) :
    (∀ p, p ∈ Binding.requestParameters m ↔ p ∈ m.parameters ∧ p.isIn = true) ∧
    (∀ p, p ∈ Binding.responseParameters m ↔ p ∈ m.parameters ∧ p.isOut = true) ∧
    (∀ p, p ∈ Binding.responseBodyParameters m ↔ p ∈ m.parameters ∧ p.isOut = true) ∧
    (∀ p, Rule.OnlyOut p → p ∉ Binding.requestQueryParameters m ∧
      p ∉ Binding.requestBodyParameters m ∧ p ∉ Binding.requestParameters m) ∧
    (∀ p, Rule.OnlyIn p → p ∉ Binding.responseParameters m ∧
      p ∉ Binding.responseBodyParameters m) := by
  refine ⟨?_, ?_, ?_, ?_, ?_⟩
  · intro p; simp [Binding.requestParameters]
  · intro p; simp [Binding.responseParameters]
  · intro p; simp [Binding.responseBodyParameters]
  · intro p hp
    rw [c25_query_iff, c25_body_iff]
    simp [Binding.requestParameters, hp.1]
  · intro p hp
    simp [Binding.responseParameters, Binding.responseBodyParameters, hp.2]

/-- The parameter with the items is the one called `Items` of methods `List` and `Search`. -/
theorem c25_items_iff (m : Method) (p : Parameter) :
    p.isItems m = true ↔
      (m.name = plainName [t!"list"] ∨ m.name = plainName [t!"search"]) ∧
      p.name = plainName [t!"items"] := by
  obtain ⟨h1, h2, h3, h4, h5, h6, h7, h8, h9⟩ := nom_methods
  have hi : Nom.items = plainName [t!"items"] := by decide
  unfold Parameter.isItems Method.isList Method.isSearch
  rw [Bool.and_eq_true, Bool.or_eq_true, named_iff, named_iff, h4, h9]
  have : Name.equals (some p.name) (some Nom.items) = true ↔ p.name = plainName [t!"items"] := by
    rw [← hi]
    exact named_iff { name := p.name } Nom.items
  rw [this]

/-- The parameter with the body is the one called `Body` of methods `Add`, `Get`, `Search`, `Update`
and `AsyncUpdate`, but not of `Post`. -/
theorem c25_body_parameter_iff (m : Method) (p : Parameter) :
    p.isBody m = true ↔
      m.name ∈ [plainName [t!"add"], plainName [t!"get"], plainName [t!"search"],
        plainName [t!"update"], plainName [t!"async", t!"update"]] ∧
      p.name = plainName [t!"body"] := by
  obtain ⟨h1, h2, h3, h4, h5, h6, h7, h8, h9⟩ := nom_methods
  have hi : Nom.body = plainName [t!"body"] := by decide
  unfold Parameter.isBody Method.isAdd Method.isGet Method.isSearch Method.isUpdate
    Method.isAsyncUpdate
  dsimp only
  have : Name.equals (some p.name) (some Nom.body) = true ↔ p.name = plainName [t!"body"] := by
    rw [← hi]
    exact named_iff { name := p.name } Nom.body
  simp only [Bool.and_eq_true, Bool.or_eq_true, named_iff, this, h1, h3, h5, h6, h9, List.mem_cons,
    List.not_mem_nil, or_false, or_assoc]

section Example
/-- A list method with an input scalar, an input struct and an output list. -/
def exBindingMethod : Method :=
  { name := plainName [t!"search"]
    parameters :=
      [{ name := plainName [t!"page"], typ := ⟨1, .scalar⟩, isIn := true, isOut := true },
       { name := plainName [t!"body"], typ := ⟨9, .struct⟩, isIn := true },
       { name := plainName [t!"items"], typ := ⟨10, .list⟩, isOut := true }] }

example : (Binding.requestQueryParameters exBindingMethod).map (·.name) = [plainName [t!"page"]] ∧
    (Binding.requestBodyParameters exBindingMethod).map (·.name) = [plainName [t!"body"]] ∧
    (Binding.requestBodyParameters { exBindingMethod with name := plainName [t!"hibernate"] }).map
      (·.name) = [plainName [t!"page"], plainName [t!"body"]] ∧
    (Binding.responseParameters exBindingMethod).map (·.name) =
      [plainName [t!"page"], plainName [t!"items"]] := by decide
end Example

/-! ## C26 -/

/-- The verb and the status are those of the table, and POST and 200 for the methods that aren't in
the table. -/
theorem c26_verb_and_status (m : Method) :
    (∀ row ∈ verbTable, m.name = row.1 →
      Binding.method m = row.2.1 ∧ Binding.defaultStatus m = row.2.2) ∧
    ((∀ row ∈ verbTable, m.name ≠ row.1) →
      Binding.method m = t!"POST" ∧ Binding.defaultStatus m = 200) := by
  obtain ⟨h1, h2, h3, h4, h5, h6, h7, h8, h9⟩ := nom_methods
  unfold Binding.method Binding.defaultStatus
  simp only [named_plain, h1, h2, h3, h4, h5, h6, h7, h8, verbTable, List.forall_mem_cons]
  refine ⟨⟨?_, ?_, ?_, ?_, ?_, ?_, ?_, ?_, ?_⟩, ?_⟩
  case refine_9 => intro row h; cases h
  case refine_10 =>
    rintro ⟨a, b, c, d, e, f, g, h, -⟩
    simp [a, b, c, d, e, f, g, h]
  all_goals
    intro h
    rw [h]
    decide

/-- The documentation shows the same verb that clients and specifications use. -/
theorem c26_docs_agree (m : Method) : Docs.httpMethod m = Binding.method m := by
  have hv := c26_verb_and_status m
  obtain ⟨h1, h2, h3, h4, h5, h6, h7, h8, h9⟩ := nom_methods
  by_cases h : ∀ row ∈ verbTable, m.name ≠ row.1
  · rw [(hv.2 h).1]
    unfold Docs.httpMethod
    simp only [verbTable, List.forall_mem_cons] at h
    obtain ⟨a, b, c, d, e, f, g, i, -⟩ := h
    simp [named_plain, h1, h3, h4, h5, h6, h7, h8, a, c, d, e, f, g, i]
  · have : ∃ row ∈ verbTable, m.name = row.1 := by
      apply Classical.byContradiction
      intro h'
      apply h
      intro row hr he
      exact h' ⟨row, hr, he⟩
    obtain ⟨row, hr, he⟩ := this
    rw [(hv.1 row hr he).1]
    unfold Docs.httpMethod
    simp only [named_plain, h1, h3, h4, h5, h6, h7, h8, he]
    clear he hv h
    revert row
    decide

example : Binding.method exBindingMethod = t!"POST" ∧ Binding.defaultStatus exBindingMethod = 200 ∧
    Binding.defaultStatus { exBindingMethod with name := parseUsingCase t!"AsyncDelete" } = 202 := by
  decide

/-! ## C27 -/

/-- The verb and the segment added to the URL of the resource. -/
def endpoint (m : Method) : Text × Text := (Binding.method m, Binding.methodSegment m)

/-- The property is false: `Add` and `Search` of one resource share verb and URL. -/
theorem c27_refuted :
    ∃ m n : Method, m.name ≠ n.name ∧ endpoint m = endpoint n :=
  ⟨{ name := parseUsingCase t!"Add" }, { name := parseUsingCase t!"Search" }, by decide, by decide⟩

theorem methodSegment_standard (m : Method) (h : m.name ∈ standardMethods) :
    Binding.methodSegment m = [] := by
  unfold Binding.methodSegment
  have : ¬ m.isAction = true := fun h' => (c25_action_iff m).mp h' h
  simp [this]

theorem methodSegment_action (m : Method) (h : m.name ∉ standardMethods)
    (hn : ∃ w ∈ m.name, w.text ≠ []) : Binding.methodSegment m ≠ [] := by
  unfold Binding.methodSegment
  rw [if_pos ((c25_action_iff m).mpr h)]
  dsimp only
  split
  · rw [snake_eq]; exact snakeCase_ne_nil _ hn
  · assumption

theorem method_action (m : Method) (h : m.name ∉ standardMethods) : Binding.method m = t!"POST" := by
  apply ((c26_verb_and_status m).2 _).1
  intro row hr he
  apply h
  rw [he]
  exact List.mem_cons_of_mem _ (List.mem_map.mpr ⟨row, hr, rfl⟩)

/-- Exactly when two methods are indistinguishable: both belong to one of four groups of standard
methods, or both are actions with the same segment. -/
theorem c27_indistinguishable_iff_partial (m n : Method)
    (hm : ∃ w ∈ m.name, w.text ≠ []) (hn : ∃ w ∈ n.name, w.text ≠ []) :
    endpoint m = endpoint n ↔
      (∃ g ∈ sharedEndpoints, m.name ∈ g ∧ n.name ∈ g) ∨
      (m.name ∉ standardMethods ∧ n.name ∉ standardMethods ∧
        Binding.methodSegment m = Binding.methodSegment n) := by
  have notin : ∀ (x : Method), x.name ∉ standardMethods → ∀ g ∈ sharedEndpoints, x.name ∉ g := by
    intro x hx g hg hxg
    apply hx
    have : ∀ g ∈ sharedEndpoints, ∀ y ∈ g, y ∈ standardMethods := by decide
    exact this g hg _ hxg
  by_cases h1 : m.name ∈ standardMethods
  · by_cases h2 : n.name ∈ standardMethods
    · have e : endpoint m = endpoint n ↔ Binding.method m = Binding.method n := by
        unfold endpoint
        rw [methodSegment_standard m h1, methodSegment_standard n h2]
        simp
      rw [e]
      simp only [h1, h2, not_true, false_and, or_false]
      have em : Binding.method m = Binding.method { name := m.name } := rfl
      have en : Binding.method n = Binding.method { name := n.name } := rfl
      rw [em, en]
      have : ∀ a ∈ standardMethods, ∀ b ∈ standardMethods,
          Binding.method { name := a } = Binding.method { name := b } ↔
            ∃ g ∈ sharedEndpoints, a ∈ g ∧ b ∈ g := by decide
      exact this _ h1 _ h2
    · constructor
      · intro h
        exfalso
        have := congrArg Prod.snd h
        simp only [endpoint] at this
        rw [methodSegment_standard m h1] at this
        exact methodSegment_action n h2 hn this.symm
      · rintro (⟨g, hg, _, h⟩ | ⟨h, _⟩)
        · exact absurd h (notin n h2 g hg)
        · exact absurd h1 h
  · by_cases h2 : n.name ∈ standardMethods
    · constructor
      · intro h
        exfalso
        have := congrArg Prod.snd h
        simp only [endpoint] at this
        rw [methodSegment_standard n h2] at this
        exact methodSegment_action m h1 hm this
      · rintro (⟨g, hg, h, _⟩ | ⟨_, h, _⟩)
        · exact absurd h (notin m h1 g hg)
        · exact absurd h2 h
    · constructor
      · intro h
        exact Or.inr ⟨h1, h2, congrArg Prod.snd h⟩
      · rintro (⟨g, hg, h, _⟩ | ⟨_, _, h⟩)
        · exact absurd h (notin m h1 g hg)
        · unfold endpoint
          rw [method_action m h1, method_action n h2, h]

example : endpoint { name := parseUsingCase t!"Hibernate" } ≠
    endpoint { name := parseUsingCase t!"Resume" } ∧
    endpoint { name := parseUsingCase t!"Get" } ≠ endpoint { name := parseUsingCase t!"Update" } := by
  decide

/-! ## C28 -/

/-- A name annotation, with a text that isn't empty, is always honoured. -/
theorem c28_annotation_wins (as : List Annotation) (name : Text) (hne : name ≠ []) :
    (NamedBy as t!"json" name →
      (∀ a : Attribute, a.annotations = as → Binding.attributeName a = name) ∧
      (∀ v : EnumValue, v.annotations = as → Binding.enumValueName v = name) ∧
      (∀ p : Parameter, p.annotations = as → Binding.bodyParameterName p = name) ∧
      (∀ p : Parameter, p.annotations = as → NotNamedBy as t!"http" →
        Binding.queryParameterName p = name)) ∧
    (NamedBy as t!"http" name →
      (∀ p : Parameter, p.annotations = as → Binding.queryParameterName p = name) ∧
      (∀ n : Name, Binding.segment n as = name) ∧
      (∀ l : Locator, l.annotations = as → Binding.locatorSegment l = name) ∧
      (∀ m : Method, m.annotations = as → m.name ∉ standardMethods →
        Binding.methodSegment m = name)) := by
  constructor
  · intro h
    have hj : jsonName as = name := annotationText_of_namedBy _ _ _ h
    refine ⟨?_, ?_, ?_, ?_⟩
    · rintro a rfl; simp [Binding.attributeName, hj, hne]
    · rintro a rfl; simp [Binding.enumValueName, hj, hne]
    · rintro a rfl; simp [Binding.bodyParameterName, hj, hne]
    · rintro a rfl h2
      have h2 : httpName a.annotations = [] := annotationText_of_notNamedBy _ _ h2
      simp [Binding.queryParameterName, hj, hne, h2]
  · intro h
    have hj : httpName as = name := annotationText_of_namedBy _ _ _ h
    refine ⟨?_, ?_, ?_, ?_⟩
    · rintro a rfl; simp [Binding.queryParameterName, hj, hne]
    · intro n; simp [Binding.segment, hj, hne]
    · rintro a rfl; simp [Binding.locatorSegment, hj, hne]
    · rintro a rfl h2
      simp [Binding.methodSegment, hj, hne, (c25_action_iff a).mpr h2]

/-- Without annotation the name is the snake case of the name. -/
theorem c28_default_is_snake (as : List Annotation) :
    (NotNamedBy as t!"json" →
      (∀ a : Attribute, a.annotations = as → Binding.attributeName a = snakeCase a.name) ∧
      (∀ v : EnumValue, v.annotations = as → Binding.enumValueName v = snakeCase v.name) ∧
      (∀ p : Parameter, p.annotations = as → Binding.bodyParameterName p = snakeCase p.name) ∧
      (∀ p : Parameter, p.annotations = as → NotNamedBy as t!"http" →
        Binding.queryParameterName p = snakeCase p.name)) ∧
    (NotNamedBy as t!"http" →
      (∀ n : Name, Binding.segment n as = snakeCase n) ∧
      (∀ l : Locator, l.annotations = as → Binding.locatorSegment l = snakeCase l.name) ∧
      (∀ m : Method, m.annotations = as → m.name ∉ standardMethods →
        Binding.methodSegment m = snakeCase m.name)) := by
  constructor
  · intro h
    have hj : jsonName as = [] := annotationText_of_notNamedBy _ _ h
    refine ⟨?_, ?_, ?_, ?_⟩
    · rintro a rfl; simp [Binding.attributeName, hj, snake_eq]
    · rintro a rfl; simp [Binding.enumValueName, hj, snake_eq]
    · rintro a rfl; simp [Binding.bodyParameterName, hj, snake_eq]
    · rintro a rfl h2
      have h2 : httpName a.annotations = [] := annotationText_of_notNamedBy _ _ h2
      simp [Binding.queryParameterName, hj, h2, snake_eq]
  · intro h
    have hj : httpName as = [] := annotationText_of_notNamedBy _ _ h
    refine ⟨?_, ?_, ?_⟩
    · intro n; simp [Binding.segment, hj, snake_eq]
    · rintro a rfl; simp [Binding.locatorSegment, hj, snake_eq]
    · rintro a rfl h2
      simp [Binding.methodSegment, hj, (c25_action_iff a).mpr h2, snake_eq]

/-- Standard methods add nothing to the URL, whatever their annotations. -/
theorem c28_standard_methods (m : Method) (h : m.name ∈ standardMethods) :
    Binding.methodSegment m = [] := methodSegment_standard m h

/-- A value that isn't a string is rendered with the marks that Go uses for wrong formats. -/
theorem c28_not_a_string (as : List Annotation) (annotation : Text) (a : Annotation)
    (ha : a.name = annotation) :
    (∀ i, a.parameters.find t!"name" = some (.int i) →
      annotationText (a :: as) annotation t!"name" = t!"%!s(int=" ++ intText i ++ t!")") ∧
    (a.parameters.find t!"name" = some (.bool true) →
      annotationText (a :: as) annotation t!"name" = t!"%!s(bool=true)") ∧
    (a.parameters.find t!"name" = some (.bool false) →
      annotationText (a :: as) annotation t!"name" = t!"%!s(bool=false)") := by
  have hf : getAnnotation (a :: as) annotation = some a := by simp [getAnnotation, ha]
  unfold annotationText
  rw [hf]
  refine ⟨?_, ?_, ?_⟩
  · intro i h; simp only [h]; rfl
  · intro h; simp only [h]; rfl
  · intro h; simp only [h]; rfl

section Example
/-- An attribute `@json(name = "api_url") URL`. -/
def exAnnotated : Attribute :=
  { name := parseUsingCase t!"ExternalURL", typ := 0,
    annotations := [{ name := t!"json", parameters := [(t!"name", .str t!"api_url")] }] }

example : Binding.attributeName exAnnotated = t!"api_url" ∧
    NamedBy exAnnotated.annotations t!"json" t!"api_url" ∧
    NotNamedBy exAnnotated.annotations t!"http" ∧
    Binding.attributeName { exAnnotated with annotations := [] } = t!"external_url" := by
  refine ⟨by decide, ⟨[], _, [], rfl, rfl, by simp, by decide⟩, ?_, by decide⟩
  intro a ha h
  simp [exAnnotated] at ha
  subst ha
  revert h
  decide
end Example

/-! ## C24 -/

/-- The flag can be set but not cleared: the argument is ignored. -/
theorem c24_set_variable_refuted (l : Locator) :
    (l.setVariable false).isVariable = true ∧ (l.setVariable true).isVariable = true := ⟨rfl, rfl⟩

/-- The constant locators of a resource are those that aren't variable, in order, and the variable
locator is the first one that is. -/
theorem c24_locators (r : Resource) :
    (∀ l, l ∈ r.constantLocators ↔ l ∈ r.locators ∧ l.isVariable = false) ∧
    r.constantLocators.Sublist r.locators ∧
    (r.variableLocator = none ↔ ∀ l ∈ r.locators, l.isVariable = false) ∧
    (∀ l, r.variableLocator = some l ↔ l.isVariable = true ∧ ∃ before after,
      r.locators = before ++ l :: after ∧ ∀ k ∈ before, k.isVariable = false) := by
  refine ⟨?_, List.filter_sublist, ?_, ?_⟩
  · intro l; simp [Resource.constantLocators]
  · simp [Resource.variableLocator]
  · intro l
    unfold Resource.variableLocator
    rw [List.find?_eq_some_iff_append]
    simp

example : ({ name := [], locators :=
      [{ name := [], owner := 0 }, { name := [], owner := 0, isVariable := true }] } : Resource).variableLocator =
    some { name := [], owner := 0, isVariable := true } := by decide

end Verif
