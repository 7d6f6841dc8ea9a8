import Verif.Lemmas.Binding
import Verif.Model.GoNames

/-!
# Properties C29, C35 and C63: identifiers and packages of the generated Go code
-/

namespace Verif

/-- The keywords of the Go language specification. -/
def goKeywords : List Text :=
  [t!"break", t!"default", t!"func", t!"interface", t!"select",
   t!"case", t!"defer", t!"go", t!"map", t!"struct",
   t!"chan", t!"else", t!"goto", t!"package", t!"switch",
   t!"const", t!"fallthrough", t!"if", t!"range", t!"type",
   t!"continue", t!"for", t!"import", t!"return", t!"var"]

/-- Words with upper case first letter, joined. -/
def upperCamel (n : Name) : Text :=
  (n.map fun w => if w.initialism then w.text else title w.text).flatten

/-- First word in lower case, other words with upper case first letter. -/
def lowerCamel : Name → Text
  | [] => []
  | w :: ws => w.text.map Char.toLower ++ upperCamel ws

theorem joinText_nil : ∀ l : List Text, joinText [] l = l.flatten
  | [] => rfl
  | [t] => by simp [joinText]
  | t :: u :: ts => by
    have ih := joinText_nil (u :: ts)
    simp only [joinText, ih]
    simp

theorem reserved_iff (w : Text) : Go.reservedWords.contains w = true ↔ w ∈ goKeywords := by
  have h1 : ∀ x ∈ Go.reservedWords, x ∈ goKeywords := by decide
  have h2 : ∀ x ∈ goKeywords, x ∈ Go.reservedWords := by decide
  simp only [List.contains_iff_mem]
  exact ⟨h1 w, h2 w⟩

theorem avoid_spec (w : Text) :
    Go.avoidReservedWord w ∉ goKeywords ∧
    (w ∉ goKeywords → Go.avoidReservedWord w = w) ∧
    (w ∈ goKeywords → Go.avoidReservedWord w = w ++ t!"_") := by
  unfold Go.avoidReservedWord
  by_cases h : w ∈ goKeywords
  · rw [if_pos ((reserved_iff w).mpr h)]
    refine ⟨?_, fun h' => absurd h h', fun _ => rfl⟩
    have : ∀ x ∈ goKeywords, x ++ t!"_" ∉ goKeywords := by decide
    exact this w h
  · rw [if_neg (fun h' => h ((reserved_iff w).mp h'))]
    exact ⟨h, fun _ => rfl, fun h' => absurd h' h⟩

/-- Exported identifiers are never keywords, and are the camel case of the name unless that is a
keyword. -/
theorem c29_public (n : Name) :
    Go.publicName n ∉ goKeywords ∧
    (upperCamel n ∉ goKeywords → Go.publicName n = upperCamel n) ∧
    (upperCamel n ∈ goKeywords → Go.publicName n = upperCamel n ++ t!"_") := by
  have e : Go.publicName n = Go.avoidReservedWord (upperCamel n) := by
    unfold Go.publicName upperCamel
    rw [joinText_nil]
    rfl
  rw [e]
  exact avoid_spec _

/-- The same for identifiers that aren't exported, including names of fields. -/
theorem c29_private (n : Name) :
    Go.privateName n ∉ goKeywords ∧
    (lowerCamel n ∉ goKeywords → Go.privateName n = lowerCamel n) ∧
    (lowerCamel n ∈ goKeywords → Go.privateName n = lowerCamel n ++ t!"_") := by
  have e : Go.privateName n = Go.avoidReservedWord (lowerCamel n) := by
    unfold Go.privateName lowerCamel upperCamel
    dsimp only
    rw [joinText_nil]
    cases n with
    | nil => rfl
    | cons w ws => rfl
  rw [e]
  exact avoid_spec _

theorem privateName_eq (n : Name) : Go.privateName n = Go.avoidReservedWord (lowerCamel n) := by
  unfold Go.privateName lowerCamel upperCamel
  dsimp only
  rw [joinText_nil]
  cases n with
  | nil => rfl
  | cons w ws => rfl

/-- Two names with different lower camel case never give the same field. -/
theorem c29_private_injective (n k : Name)
    (hn : '_' ∉ lowerCamel n) (hk : '_' ∉ lowerCamel k)
    (h : Go.privateName n = Go.privateName k) : lowerCamel n = lowerCamel k := by
  rw [privateName_eq, privateName_eq] at h
  unfold Go.avoidReservedWord at h
  split at h <;> split at h
  · exact List.append_cancel_right h
  · exact absurd (h ▸ List.mem_append_right _ (by simp)) hk
  · exact absurd (h.symm ▸ List.mem_append_right _ (by simp)) hn
  · exact h

/-- A name given with `@go` is used as it is, even if it is a keyword. -/
theorem c29_annotation_refuted :
    ∃ (as : List Annotation) (n : Name), Go.nameOf as n ∈ goKeywords :=
  ⟨[{ name := t!"go", parameters := [(t!"name", .str t!"func")] }], parseUsingCase t!"Function",
    by decide⟩

/-- It is honoured if it isn't empty, and without it the exported name is used. -/
theorem c29_annotation (as : List Annotation) (n : Name) :
    (∀ name, name ≠ [] → NamedBy as t!"go" name → Go.nameOf as n = name) ∧
    (NotNamedBy as t!"go" → Go.nameOf as n = Go.publicName n) := by
  constructor
  · intro name hne h
    have : goName as = name := annotationText_of_namedBy _ _ _ h
    simp [Go.nameOf, this, hne]
  · intro h
    have : goName as = [] := annotationText_of_notNamedBy _ _ h
    simp [Go.nameOf, this]

example : Go.privateName (parseUsingCase t!"Type") = t!"type_" ∧
    Go.privateName (parseUsingCase t!"ClusterID") = t!"clusterID" ∧
    Go.publicName (parseUsingCase t!"ClusterID") = t!"ClusterID" ∧
    Go.publicName (parseUsingSeparator t!"go" '_') = t!"Go" ∧
    Go.fileName (parseUsingCase t!"ClusterID") = t!"cluster_id" := by decide

/-- Names of files are the snake case of the name. -/
theorem c29_file (n : Name) : Go.fileName n = snakeCase n := snake_eq n

/-! ## C35 -/

/-- The words in lower case, joined. -/
def flatName (n : Name) : Text := (n.map fun w => w.text.map Char.toLower).flatten

/-- The property is false: the boundaries of the words are lost. -/
theorem c35_refuted :
    ∃ s₁ s₂ v : Name, s₁ ≠ s₂ ∧ Go.versionPackage s₁ v = Go.versionPackage s₂ v :=
  ⟨parseUsingSeparator t!"a_bc" '_', parseUsingSeparator t!"ab_c" '_',
    parseUsingSeparator t!"v1" '_', by decide, by decide⟩

theorem lowerJoined_nil (n : Name) : n.lowerJoined [] = flatName n := by
  unfold Name.lowerJoined flatName
  rw [joinText_nil]
  rfl

theorem append_sep_inj {sep : Char} : ∀ {a b c d : Text}, sep ∉ a → sep ∉ c →
    a ++ sep :: b = c ++ sep :: d → a = c ∧ b = d
  | [], b, [], d, _, _, h => by simpa using h
  | [], b, c :: cs, d, _, hc, h => by
    simp at h
    exact absurd (h.1 ▸ List.mem_cons_self) hc
  | a :: as, b, [], d, ha, _, h => by
    simp at h
    exact absurd (h.1 ▸ List.mem_cons_self) ha
  | a :: as, b, c :: cs, d, ha, hc, h => by
    simp at h
    obtain ⟨h1, h2⟩ := h
    have := append_sep_inj (fun h => ha (List.mem_cons_of_mem _ h))
      (fun h => hc (List.mem_cons_of_mem _ h)) h2
    exact ⟨by rw [h1, this.1], this.2⟩

theorem versionPackage_eq (s v : Name) (hs : flatName s ≠ []) (hv : flatName v ≠ []) :
    Go.versionPackage s v = flatName s ++ '/' :: flatName v := by
  unfold Go.versionPackage
  rw [lowerJoined_nil, lowerJoined_nil]
  simp [hs, hv]

/-- Two versions share a package exactly if the names of services and versions are equal once the
words are joined. -/
theorem c35_same_package_iff_partial (s₁ s₂ v₁ v₂ : Name)
    (hs₁ : flatName s₁ ≠ [] ∧ '/' ∉ flatName s₁) (hs₂ : flatName s₂ ≠ [] ∧ '/' ∉ flatName s₂)
    (hv₁ : flatName v₁ ≠ []) (hv₂ : flatName v₂ ≠ []) :
    Go.versionPackage s₁ v₁ = Go.versionPackage s₂ v₂ ↔
      flatName s₁ = flatName s₂ ∧ flatName v₁ = flatName v₂ := by
  rw [versionPackage_eq _ _ hs₁.1 hv₁, versionPackage_eq _ _ hs₂.1 hv₂]
  constructor
  · exact append_sep_inj hs₁.2 hs₂.2
  · rintro ⟨h1, h2⟩
    rw [h1, h2]

/-- The helpers, errors and metrics packages are different, and can clash with services of those
names: the packages of a service called `errors` live inside the errors package. -/
theorem c35_fixed_packages :
    Go.helpersPackage = t!"helpers" ∧ Go.errorsPackage = t!"errors" ∧
    Go.metricsPackage = t!"metrics" := by decide

theorem c35_service_package (s : Name) : Go.servicePackage s = flatName s := lowerJoined_nil s

/-- The import path of a package is the base followed by the package. -/
def ImportOf (base package import_ : Text) : Prop := import_ = base ++ ['/'] ++ package

/-- Imports of the helpers and errors packages are right. -/
theorem c35_imports (base : Text) :
    ImportOf base Go.helpersPackage (Go.helpersImport base) ∧
    ImportOf base Go.errorsPackage (Go.errorsImport base) := ⟨rfl, rfl⟩

/-- The import path of the metrics package is never right: it is that of the helpers. -/
theorem c35_metrics_import_refuted (base : Text) :
    ¬ ImportOf base Go.metricsPackage (Go.metricsImport base) ∧
    Go.metricsImport base = Go.helpersImport base := by
  refine ⟨?_, rfl⟩
  unfold ImportOf Go.metricsImport
  intro h
  simp only [List.append_assoc] at h
  have := List.append_cancel_left h
  revert this
  decide

example : Go.versionPackage (parseUsingSeparator t!"clusters_mgmt" '_')
    (parseUsingSeparator t!"v1" '_') = t!"clustersmgmt/v1" := by decide

/-! ## C63 -/

/-- The members that every generated response declares besides those of the parameters. -/
def responseInfrastructure : List Text := [t!"status", t!"header", t!"err"]
def responseInfrastructureMethods : List Text := [t!"Status", t!"Header", t!"Error"]
/-- The members that every generated request declares besides those of the parameters. -/
def requestInfrastructure : List Text := [t!"transport", t!"path", t!"query", t!"header"]
def requestInfrastructureMethods : List Text :=
  [t!"Parameter", t!"Header", t!"Impersonate", t!"Send", t!"SendContext"]

/-- The property is false: a parameter named `Path` makes the generated request declare the field
`path` twice, one named `Header` makes it declare the method `Header` twice. -/
theorem c63_refuted :
    (∃ m : Method, (m.parameters.map Parameter.name).Nodup ∧ ¬ (Go.requestFields m).Nodup) ∧
    (∃ m : Method, (m.parameters.map Parameter.name).Nodup ∧ ¬ (Go.requestMethods m).Nodup) ∧
    (∃ m : Method, (m.parameters.map Parameter.name).Nodup ∧ ¬ (Go.responseFields m).Nodup) ∧
    (∃ m : Method, (m.parameters.map Parameter.name).Nodup ∧ ¬ (Go.responseMethods m).Nodup) := by
  refine ⟨⟨⟨parseUsingCase t!"Get",
      [{ name := parseUsingCase t!"Path", typ := ⟨1, .scalar⟩, isIn := true }], [], []⟩, ?_⟩,
    ⟨⟨parseUsingCase t!"Get",
      [{ name := parseUsingCase t!"Header", typ := ⟨1, .scalar⟩, isIn := true }], [], []⟩, ?_⟩,
    ⟨⟨parseUsingCase t!"Get",
      [{ name := parseUsingCase t!"Header", typ := ⟨1, .scalar⟩, isOut := true }], [], []⟩, ?_⟩,
    ⟨⟨parseUsingCase t!"Get",
      [{ name := parseUsingCase t!"Header", typ := ⟨1, .scalar⟩, isOut := true }], [], []⟩, ?_⟩⟩
  all_goals decide

theorem avoidBuiltin_fields (t : Text) :
    Go.avoidBuiltin t Go.builtinFields ≠ t!"err" ∧ Go.avoidBuiltin t Go.builtinFields ≠ t!"status" ∧
    (t ≠ t!"err" → t ≠ t!"status" → Go.avoidBuiltin t Go.builtinFields = t) := by
  unfold Go.avoidBuiltin Go.builtinFields
  refine ⟨?_, ?_, ?_⟩
  · split
    · intro h
      have := congrArg List.getLast? h
      simp at this
    · rename_i h
      intro h'
      apply h
      simp [h']
  · split
    · intro h
      have := congrArg List.getLast? h
      simp at this
    · rename_i h
      intro h'
      apply h
      simp [h']
  · intro h1 h2
    rw [if_neg]
    simp [h1, h2]

/-- What does hold: no parameter clashes with the fields `err` and `status`, and the field of a
parameter is its lower camel case name when that isn't one of those two nor a keyword. -/
theorem c63_fields_partial (p : Parameter) :
    Go.parameterField p ≠ t!"err" ∧ Go.parameterField p ≠ t!"status" ∧
    (lowerCamel p.name ∉ goKeywords → lowerCamel p.name ≠ t!"err" →
      lowerCamel p.name ≠ t!"status" → Go.parameterField p = lowerCamel p.name) := by
  unfold Go.parameterField
  have h := avoidBuiltin_fields (Go.privateName p.name)
  refine ⟨h.1, h.2.1, ?_⟩
  intro h1 h2 h3
  rw [(c29_private p.name).2.1 h1] at h ⊢
  exact h.2.2 h2 h3

/-- A field of a request clashes with the infrastructure exactly if the parameter is called like
one of the four fields. -/
theorem c63_request_clash_iff_partial (p : Parameter) :
    Go.parameterField p ∈ requestInfrastructure ↔ lowerCamel p.name ∈ requestInfrastructure := by
  have hk : ∀ x ∈ requestInfrastructure, x ∉ goKeywords ∧ x ≠ t!"err" ∧ x ≠ t!"status" ∧
      '_' ∉ x := by decide
  constructor
  · intro hm
    have hu : '_' ∉ Go.parameterField p := (hk _ hm).2.2.2
    have h1 : Go.parameterField p = Go.privateName p.name := by
      unfold Go.parameterField Go.avoidBuiltin at hu ⊢
      split
      · rename_i hc
        rw [if_pos hc] at hu
        simp at hu
      · rfl
    have h2 : Go.privateName p.name = lowerCamel p.name := by
      by_cases hc : lowerCamel p.name ∈ goKeywords
      · rw [h1, (c29_private p.name).2.2 hc] at hu
        simp at hu
      · exact (c29_private p.name).2.1 hc
    rw [← h2, ← h1]
    exact hm
  · intro hm
    have := hk _ hm
    rw [(c63_fields_partial p).2.2 this.1 this.2.1 this.2.2.1]
    exact hm

/-- The fields of requests and responses are those of the infrastructure followed by one for each
parameter; the methods likewise, with two getters for each output. -/
theorem c63_members (m : Method) :
    Go.requestFields m = requestInfrastructure ++
      (m.parameters.filter fun p => p.isIn).map Go.parameterField ∧
    (∀ x, x ∈ Go.requestMethods m ↔ x ∈ requestInfrastructureMethods ∨
      ∃ p ∈ m.parameters, p.isIn = true ∧ x = Go.nameOf p.annotations p.name) ∧
    Go.responseFields m = responseInfrastructure ++
      (m.parameters.filter fun p => p.isOut).map Go.parameterField ∧
    (∀ x, x ∈ Go.responseMethods m ↔ x ∈ responseInfrastructureMethods ∨
      ∃ p ∈ m.parameters, p.isOut = true ∧
        (x = Go.parameterGetter p ∨ x = t!"Get" ++ Go.parameterGetter p)) := by
  refine ⟨rfl, ?_, rfl, ?_⟩
  · intro x
    simp only [Go.requestMethods, Binding.requestParameters, requestInfrastructureMethods,
      List.mem_append, List.mem_map, List.mem_filter, List.mem_cons, List.not_mem_nil, or_false,
      Go.parameterSetter, Go.avoidBuiltin, Go.builtinSetters, List.contains_nil,
      Bool.false_eq_true, if_false]
    constructor
    · rintro ((h | ⟨p, ⟨h1, h2⟩, rfl⟩) | h)
      · rcases h with h | h | h <;> simp [h]
      · exact Or.inr ⟨p, h1, h2, rfl⟩
      · rcases h with h | h <;> simp [h]
    · rintro (h | ⟨p, h1, h2, rfl⟩)
      · rcases h with h | h | h | h | h <;> simp [h]
      · exact Or.inl (Or.inr ⟨p, ⟨h1, h2⟩, rfl⟩)
  · intro x
    simp only [Go.responseMethods, Binding.responseParameters, responseInfrastructureMethods,
      List.mem_append, List.mem_flatMap, List.mem_filter, List.mem_cons, List.not_mem_nil, or_false]
    constructor
    · rintro (h | ⟨p, ⟨h1, h2⟩, h3⟩)
      · exact Or.inl h
      · exact Or.inr ⟨p, h1, h2, h3⟩
    · rintro (h | ⟨p, h1, h2, h3⟩)
      · exact Or.inl h
      · exact Or.inr ⟨p, ⟨h1, h2⟩, h3⟩

/-- Getters never clash with `Error` nor `Status`. -/
theorem c63_getters_partial (p : Parameter) :
    Go.parameterGetter p ≠ t!"Error" ∧ Go.parameterGetter p ≠ t!"Status" := by
  unfold Go.parameterGetter Go.avoidBuiltin Go.builtinGetters
  constructor
  · split
    · intro h
      have := congrArg List.getLast? h
      simp at this
    · rename_i h
      intro h'
      apply h
      simp [h']
  · split
    · intro h
      have := congrArg List.getLast? h
      simp at this
    · rename_i h
      intro h'
      apply h
      simp [h']

/-- The name of a request type is ambiguous: resource `Cluster` with action `NodeDelete` and
resource `ClusterNode` with method `Delete`. Outside of the root resource it is the concatenation
of both names. -/
theorem c63_message_names_refuted :
    ∃ (r s : Resource) (m n : Method), r.name ≠ s.name ∧ m.name ≠ n.name ∧
      ∀ suffix, Go.messageName suffix false r m = Go.messageName suffix false s n :=
  ⟨{ name := parseUsingCase t!"Cluster" }, { name := parseUsingCase t!"ClusterNode" },
    { name := parseUsingCase t!"NodeDelete" }, { name := parseUsingCase t!"Delete" },
    by decide, by decide, by
      intro suffix
      unfold Go.messageName
      congr 1⟩

example : Go.messageName t!"Request" false { name := parseUsingCase t!"Cluster" }
    { name := parseUsingCase t!"Get" } = t!"ClusterGetRequest" ∧
    Go.messageName t!"Request" true { name := parseUsingCase t!"Root" }
      { name := parseUsingCase t!"Get" } = t!"GetRequest" ∧
    Go.enumConstant [] (parseUsingCase t!"ClusterState") { name := parseUsingCase t!"Ready" } =
      t!"ClusterStateReady" := by decide

end Verif
