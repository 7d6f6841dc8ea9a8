import Verif.Lemmas.OpenApiBuffer
import Verif.Lemmas.Names

/-! Lemmas about the OpenAPI generator: the calls of each function describe what they should. -/

namespace Verif

namespace OpenApi

/-- The calls add the given members to the innermost object. -/
def Adds (calls : List Call) (ms : List (Text × Json)) : Prop :=
  ∀ name members outer, outline (.object name members :: outer) calls
    = some (.object name (members ++ ms) :: outer)

/-- The calls add the given items to the innermost array. -/
def AddsItems (calls : List Call) (js : List Json) : Prop :=
  ∀ name items outer, outline (.array name items :: outer) calls
    = some (.array name (items ++ js) :: outer)

theorem Adds.nil : Adds [] [] := fun _ _ _ => by simp [outline]

theorem AddsItems.nil : AddsItems [] [] := fun _ _ _ => by simp [outline]

theorem Adds.append {a b : List Call} {x y : List (Text × Json)} (ha : Adds a x) (hb : Adds b y) :
    Adds (a ++ b) (x ++ y) := fun name members outer => by
  rw [outline_append, ha, Option.bind_some, hb, List.append_assoc]

theorem AddsItems.append {a b : List Call} {x y : List Json} (ha : AddsItems a x)
    (hb : AddsItems b y) : AddsItems (a ++ b) (x ++ y) := fun name members outer => by
  rw [outline_append, ha, Option.bind_some, hb, List.append_assoc]

theorem reports_append (a b : List Call) : reports (a ++ b) = reports a + reports b := by
  simp [reports]

theorem Adds.description (doc : Text) : Adds (generateDescription doc) (description doc) := by
  unfold generateDescription OpenApi.description
  by_cases h : doc = []
  · simp only [h, ne_eq, not_true_eq_false, if_false, if_true]; exact Adds.nil
  · simp only [h, ne_eq, not_false_eq_true, if_true, if_false]
    intro name members outer
    simp [outline, outlineStep, place]

theorem reports_description (doc : Text) : reports (generateDescription doc) = 0 := by
  unfold generateDescription
  split <;> simp [reports]

theorem bind_done {α β : Type} {r : Run α} {f : α → Run β} {b : β} (h : r.bind f = .done b) :
    ∃ a, r = .done a ∧ f a = .done b := by
  cases r with
  | outOfFuel => simp [Run.bind] at h
  | panic => simp [Run.bind] at h
  | done a => exact ⟨a, rfl, h⟩

/-- Evaluation of outlines. -/
macro "outline_simp" "[" ts:Lean.Parser.Tactic.simpLemma,* "]" : tactic =>
  `(tactic| simp only [outline_append, outline, outlineStep, accepts, place, Option.isSome_some,
    Option.isNone_none, if_true, Option.bind_some, List.append_assoc, List.nil_append,
    List.cons_append, List.append_nil, $ts,*])

theorem forEach_adds {α : Type} {f : α → Run (List Call)} {g : α → List (Text × Json)}
    {Q : α → Prop} : ∀ {xs : List α} {calls : List Call},
    (∀ x ∈ xs, ∀ c, f x = .done c → reports c = 0 → Adds c (g x) ∧ Q x) →
    forEach f xs = .done calls → reports calls = 0 →
    Adds calls (xs.flatMap g) ∧ ∀ x ∈ xs, Q x
  | [], calls, _, h, _ => by
    simp only [forEach, Run.done.injEq] at h
    subst h
    exact ⟨Adds.nil, by simp⟩
  | x :: xs, calls, hx, h, hr => by
    rw [forEach] at h
    obtain ⟨a, ha, h⟩ := bind_done h
    obtain ⟨b, hb, h⟩ := bind_done h
    simp only [Run.done.injEq] at h
    subst h
    rw [reports_append] at hr
    have h1 := hx x List.mem_cons_self a ha (by omega)
    have h2 := forEach_adds (fun y hy => hx y (List.mem_cons_of_mem _ hy)) hb (by omega)
    refine ⟨?_, ?_⟩
    · rw [List.flatMap_cons]; exact h1.1.append h2.1
    · intro y hy
      rcases List.mem_cons.1 hy with rfl | hy
      · exact h1.2
      · exact h2.2 y hy

theorem forEach_addsItems {α : Type} {f : α → Run (List Call)} {g : α → Json}
    {Q : α → Prop} : ∀ {xs : List α} {calls : List Call},
    (∀ x ∈ xs, ∀ c, f x = .done c → reports c = 0 → AddsItems c [g x] ∧ Q x) →
    forEach f xs = .done calls → reports calls = 0 →
    AddsItems calls (xs.map g) ∧ ∀ x ∈ xs, Q x
  | [], calls, _, h, _ => by
    simp only [forEach, Run.done.injEq] at h
    subst h
    exact ⟨AddsItems.nil, by simp⟩
  | x :: xs, calls, hx, h, hr => by
    rw [forEach] at h
    obtain ⟨a, ha, h⟩ := bind_done h
    obtain ⟨b, hb, h⟩ := bind_done h
    simp only [Run.done.injEq] at h
    subst h
    rw [reports_append] at hr
    have h1 := hx x List.mem_cons_self a ha (by omega)
    have h2 := forEach_addsItems (fun y hy => hx y (List.mem_cons_of_mem _ hy)) hb (by omega)
    refine ⟨?_, ?_⟩
    · rw [List.map_cons, ← List.singleton_append]; exact h1.1.append h2.1
    · intro y hy
      rcases List.mem_cons.1 hy with rfl | hy
      · exact h1.2
      · exact h2.2 y hy

theorem generateSchemaReference_adds (v : VersionView) : ∀ (fuel : Nat) (id : TypeId)
    (calls : List Call), generateSchemaReference v fuel (some id) = .done calls →
    reports calls = 0 → ∃ ms, SchemaRef v id ms ∧ Adds calls ms
  | 0, id, calls, h, _ => by simp [generateSchemaReference] at h
  | fuel + 1, id, calls, h, hr => by
    rw [generateSchemaReference] at h
    cases hc : v.heap[id]? with
    | none => simp [hc] at h
    | some typ =>
      cases ho : typ.owner with
      | none => simp [hc, ho] at h
      | some version =>
        simp only [hc, ho] at h
        have bi : ∀ (name : Name) (ms : List (Text × Json)), (name, ms) ∈ builtinSchemas →
            (v.tables version).find name.toText = some id → SchemaRef v id ms :=
          fun name ms hm hf => .builtin hm ⟨typ, version, hc, ho, hf⟩
        have fin1 : ∀ (k : Text) (x : Json), Adds [.field k x] [(k, x)] := by
          intro k x name members outer
          outline_simp []
        have fin2 : ∀ (k l : Text) (x y : Json), Adds [.field k x, .field l y] [(k, x), (l, y)] := by
          intro k l x y name members outer
          outline_simp []
        by_cases h1 : v.builtin version Nom.boolean = some id
        · rw [if_pos h1] at h
          simp only [Run.done.injEq] at h; subst h
          exact ⟨_, bi (plainName [t!"boolean"]) _ (by simp [builtinSchemas]) h1, fin1 _ _⟩
        rw [if_neg h1] at h
        by_cases h2 : v.builtin version Nom.integer = some id
        · rw [if_pos h2] at h
          simp only [Run.done.injEq] at h; subst h
          exact ⟨_, bi (plainName [t!"integer"]) _ (by simp [builtinSchemas]) h2, fin2 _ _ _ _⟩
        rw [if_neg h2] at h
        by_cases h3 : v.builtin version Nom.long = some id
        · rw [if_pos h3] at h
          simp only [Run.done.injEq] at h; subst h
          exact ⟨_, bi (plainName [t!"long"]) _ (by simp [builtinSchemas]) h3, fin2 _ _ _ _⟩
        rw [if_neg h3] at h
        by_cases h4 : v.builtin version Nom.float = some id
        · rw [if_pos h4] at h
          simp only [Run.done.injEq] at h; subst h
          exact ⟨_, bi (plainName [t!"float"]) _ (by simp [builtinSchemas]) h4, fin2 _ _ _ _⟩
        rw [if_neg h4] at h
        by_cases h5 : v.builtin version Nom.string = some id
        · rw [if_pos h5] at h
          simp only [Run.done.injEq] at h; subst h
          exact ⟨_, bi (plainName [t!"string"]) _ (by simp [builtinSchemas]) h5, fin1 _ _⟩
        rw [if_neg h5] at h
        by_cases h6 : v.builtin version Nom.date = some id
        · rw [if_pos h6] at h
          simp only [Run.done.injEq] at h; subst h
          exact ⟨_, bi (plainName [t!"date"]) _ (by simp [builtinSchemas]) h6, fin2 _ _ _ _⟩
        rw [if_neg h6] at h
        by_cases h7 : v.builtin version Nom.interface = some id
        · rw [if_pos h7] at h
          simp only [Run.done.injEq] at h; subst h
          exact ⟨_, bi (plainName [t!"interface"]) _ (by simp [builtinSchemas]) h7, fin1 _ _⟩
        rw [if_neg h7] at h
        have hnot : NotBuiltin v id typ := by
          refine ⟨hc, version, ho, ?_⟩
          intro b hb
          simp only [builtinSchemas, List.mem_cons, List.not_mem_nil, or_false] at hb
          rcases hb with rfl | rfl | rfl | rfl | rfl | rfl | rfl
          · exact h1
          · exact h2
          · exact h3
          · exact h4
          · exact h5
          · exact h6
          · exact h7
        by_cases hk : (typ.isEnum || typ.kind.isStruct) = true
        · rw [if_pos hk] at h
          simp only [Run.done.injEq] at h; subst h
          refine ⟨_, .named hnot ?_, fin1 _ _⟩
          simpa [TypeCell.isEnum, Kind.isStruct] using hk
        rw [if_neg hk] at h; clear hk
        by_cases hk : typ.isList = true
        · rw [if_pos hk] at h
          obtain ⟨el, hel, h⟩ := bind_done h
          simp only [Run.done.injEq] at h; subst h
          rw [reports_append, reports_append] at hr
          cases he : typ.element with
          | none =>
            rw [he] at hel
            cases fuel with
            | zero => simp [generateSchemaReference] at hel
            | succ n => simp [generateSchemaReference] at hel
          | some element =>
            rw [he] at hel
            obtain ⟨ms, hms, hadd⟩ := generateSchemaReference_adds v fuel element el hel (by omega)
            refine ⟨_, .list hnot (by simpa [TypeCell.isList] using hk) he hms, ?_⟩
            intro name members outer
            outline_simp [hadd _ _ _]
        rw [if_neg hk] at h; clear hk
        by_cases hk : typ.isMap = true
        · rw [if_pos hk] at h
          obtain ⟨el, hel, h⟩ := bind_done h
          simp only [Run.done.injEq] at h; subst h
          rw [reports_append, reports_append] at hr
          cases he : typ.element with
          | none =>
            rw [he] at hel
            cases fuel with
            | zero => simp [generateSchemaReference] at hel
            | succ n => simp [generateSchemaReference] at hel
          | some element =>
            rw [he] at hel
            obtain ⟨ms, hms, hadd⟩ := generateSchemaReference_adds v fuel element el hel (by omega)
            refine ⟨_, .map hnot (by simpa [TypeCell.isMap] using hk) he hms, ?_⟩
            intro name members outer
            outline_simp [hadd _ _ _]
        rw [if_neg hk] at h
        simp only [Run.done.injEq] at h; subst h
        simp [reports] at hr

open Classical in
/-- The members of the schemas of the types, as generated. -/
noncomputable def schemaFn (v : VersionView) (fuel : Nat) (id : TypeId) : List (Text × Json) :=
  if h : ∃ ms, SchemaRef v id ms ∧ ∃ calls,
      generateSchemaReference v fuel (some id) = .done calls ∧ Adds calls ms
  then h.choose else []

theorem schemaFn_spec (v : VersionView) (fuel : Nat) (id : TypeId) (calls : List Call)
    (h : generateSchemaReference v fuel (some id) = .done calls) (hr : reports calls = 0) :
    SchemaRef v id (schemaFn v fuel id) ∧ Adds calls (schemaFn v fuel id) := by
  obtain ⟨ms, hms, hadd⟩ := generateSchemaReference_adds v fuel id calls h hr
  have hex : ∃ ms, SchemaRef v id ms ∧ ∃ calls,
      generateSchemaReference v fuel (some id) = .done calls ∧ Adds calls ms :=
    ⟨ms, hms, calls, h, hadd⟩
  unfold schemaFn
  rw [dif_pos hex]
  have := hex.choose_spec
  refine ⟨this.1, ?_⟩
  obtain ⟨calls', h', hadd'⟩ := this.2
  rw [h] at h'
  simp only [Run.done.injEq] at h'
  rw [h']
  exact hadd'

section

variable {v : VersionView} {fuel : Nat}

/-- Shorthand: the type has the schema given by the function. -/
def Good (v : VersionView) (fuel : Nat) (id : TypeId) : Prop := SchemaRef v id (schemaFn v fuel id)

theorem generateParameterProperty_adds {p : Parameter} {calls : List Call}
    (h : generateParameterProperty v fuel p = .done calls) (hr : reports calls = 0) :
    Adds calls [(p.name.snake, .obj (description p.doc ++ schemaFn v fuel p.typ.id))] ∧
      Good v fuel p.typ.id := by
  obtain ⟨el, hel, h⟩ := bind_done h
  simp only [Run.done.injEq] at h; subst h
  simp only [reports_append] at hr
  have hs := schemaFn_spec v fuel _ el hel (by omega)
  refine ⟨?_, hs.1⟩
  intro name members outer
  outline_simp [Adds.description p.doc _ _ _, hs.2 _ _ _, parameterPropertyName]

theorem generateParametersSchema_adds {m : Method} {ps : List Parameter} {calls : List Call}
    (h : generateParametersSchema v fuel m ps = .done calls) (hr : reports calls = 0) :
    Adds calls (bodySchema (schemaFn v fuel) m ps) ∧ ∀ p ∈ ps, Good v fuel p.typ.id := by
  cases ps with
  | nil => simp [generateParametersSchema] at h
  | cons p ps =>
    simp only [generateParametersSchema] at h
    split at h
    · rename_i hcond
      obtain ⟨el, hel, h⟩ := bind_done h
      simp only [Run.done.injEq] at h; subst h
      simp only [reports_append] at hr
      have hs := forEach_adds (Q := fun p => Good v fuel p.typ.id)
        (fun x _ c hc hcr => generateParameterProperty_adds hc hcr) hel (by omega)
      refine ⟨?_, hs.2⟩
      have e : bodySchema (schemaFn v fuel) m (p :: ps) = parametersObject (schemaFn v fuel) (p :: ps) := by
        unfold bodySchema
        by_cases ha : m.isAction = true
        · simp [ha]
        · rw [if_neg ha]
          cases ps with
          | nil => simp [ha] at hcond
          | cons q qs => rfl
      rw [e, parametersObject]
      intro name members outer
      have hmap : ∀ (g : Parameter → Text × Json) (l : List Parameter),
          l.flatMap (fun x => [g x]) = l.map g := by
        intro g l; induction l <;> simp_all
      outline_simp [hs.1 _ _ _, hmap]
    · rename_i hcond
      have hs := schemaFn_spec v fuel _ calls h hr
      have e : bodySchema (schemaFn v fuel) m (p :: ps) = schemaFn v fuel p.typ.id ∧ ps = [] := by
        unfold bodySchema
        simp only [not_or] at hcond
        have hps : ps = [] := by
          have := hcond.1
          simp only [List.length_cons, gt_iff_lt, Nat.not_lt] at this
          exact List.length_eq_zero_iff.1 (by omega)
        subst hps
        rw [if_neg hcond.2]
        exact ⟨rfl, rfl⟩
      rw [e.1]
      refine ⟨hs.2, ?_⟩
      intro q hq
      rw [e.2, List.mem_singleton] at hq
      rw [hq]
      exact hs.1

theorem generatePathParameter_adds (l : Locator) :
    AddsItems (generatePathParameter l) [pathParameter l] := by
  intro name items outer
  unfold generatePathParameter pathParameter
  outline_simp []

theorem flatMap_pathParameter_adds : ∀ (ls : List Locator),
    AddsItems (ls.flatMap generatePathParameter) (ls.map pathParameter)
  | [] => AddsItems.nil
  | l :: ls => by
    rw [List.flatMap_cons, List.map_cons, ← List.singleton_append]
    exact (generatePathParameter_adds l).append (flatMap_pathParameter_adds ls)

theorem generateQueryParameter_adds {p : Parameter} {calls : List Call}
    (h : generateQueryParameter v fuel p = .done calls) (hr : reports calls = 0) :
    AddsItems calls [queryParameter (schemaFn v fuel) p] ∧ Good v fuel p.typ.id := by
  obtain ⟨el, hel, h⟩ := bind_done h
  simp only [Run.done.injEq] at h; subst h
  simp only [reports_append] at hr
  have hs := schemaFn_spec v fuel _ el hel (by omega)
  refine ⟨?_, hs.1⟩
  intro name members outer
  unfold queryParameter
  outline_simp [Adds.description p.doc _ _ _, hs.2 _ _ _]

theorem generateURLParameters_adds {path : List Locator} {m : Method} {calls : List Call}
    (h : generateURLParameters v fuel path m = .done calls) (hr : reports calls = 0) :
    Adds calls (if operationParameters (schemaFn v fuel) path m = [] then []
      else [(t!"parameters", .arr (operationParameters (schemaFn v fuel) path m))]) ∧
    ∀ p ∈ Binding.requestQueryParameters m, Good v fuel p.typ.id := by
  simp only [generateURLParameters] at h
  have hlen : operationParameters (schemaFn v fuel) path m = [] ↔
      ¬ ((path.filter fun l => l.isVariable).length + (Binding.requestQueryParameters m).length > 0) := by
    rw [← List.length_eq_zero_iff]
    simp only [operationParameters, List.length_append, List.length_map]
    omega
  split at h
  · rename_i hpos
    obtain ⟨el, hel, h⟩ := bind_done h
    simp only [Run.done.injEq] at h; subst h
    simp only [reports_append] at hr
    have hs := forEach_addsItems (Q := fun p => Good v fuel p.typ.id)
      (fun x _ c hc hcr => generateQueryParameter_adds hc hcr) hel (by omega)
    refine ⟨?_, hs.2⟩
    rw [if_neg (fun e => hlen.1 e hpos)]
    intro name members outer
    unfold operationParameters
    outline_simp [hs.1 _ _ _, flatMap_pathParameter_adds _ _ _ _]
  · rename_i hpos
    simp only [Run.done.injEq] at h; subst h
    rw [if_pos (hlen.2 hpos)]
    refine ⟨Adds.nil, ?_⟩
    have : Binding.requestQueryParameters m = [] := List.length_eq_zero_iff.1 (by omega)
    rw [this]; simp

theorem generateDefaultResponse_adds : Adds generateDefaultResponse [errorResponse] := by
  intro name members outer
  unfold generateDefaultResponse errorResponse content reference
  outline_simp [Adds.description _ _ _ _]

theorem generateResponses_adds {m : Method} {calls : List Call}
    (h : generateResponses v fuel m = .done calls) (hr : reports calls = 0) :
    Adds calls [ (t!"responses", .obj
        [ (natText (Binding.defaultStatus m), .obj (description t!"Success." ++
            (if Binding.responseParameters m = [] then []
             else [content (bodySchema (schemaFn v fuel) m (Binding.responseParameters m))]))),
          errorResponse ]) ] ∧
    ∀ p ∈ Binding.responseParameters m, Good v fuel p.typ.id := by
  obtain ⟨ct, hct, h⟩ := bind_done h
  simp only [Run.done.injEq] at h; subst h
  simp only [reports_append] at hr
  have hcontent : Adds ct (if Binding.responseParameters m = [] then []
      else [content (bodySchema (schemaFn v fuel) m (Binding.responseParameters m))]) ∧
      ∀ p ∈ Binding.responseParameters m, Good v fuel p.typ.id := by
    split at hct
    · rename_i hpos
      obtain ⟨el, hel, hct⟩ := bind_done hct
      simp only [Run.done.injEq] at hct; subst hct
      simp only [reports_append] at hr
      have hs := generateParametersSchema_adds hel (by omega)
      refine ⟨?_, hs.2⟩
      rw [if_neg (by intro e; simp [e] at hpos)]
      intro name members outer
      unfold content
      outline_simp [hs.1 _ _ _]
    · rename_i hpos
      simp only [Run.done.injEq] at hct; subst hct
      have : Binding.responseParameters m = [] := List.length_eq_zero_iff.1 (by omega)
      rw [if_pos this, this]
      exact ⟨Adds.nil, by simp⟩
  refine ⟨?_, hcontent.2⟩
  intro name members outer
  outline_simp [Adds.description _ _ _ _, hcontent.1 _ _ _, generateDefaultResponse_adds _ _ _]

theorem generateRequestBody_adds {m : Method} {calls : List Call}
    (h : generateRequestBody v fuel m = .done calls) (hr : reports calls = 0) :
    Adds calls (if Binding.requestBodyParameters m = [] then []
     else [(t!"requestBody",
       .obj [content (bodySchema (schemaFn v fuel) m (Binding.requestBodyParameters m))])]) ∧
    ∀ p ∈ Binding.requestBodyParameters m, Good v fuel p.typ.id := by
  simp only [generateRequestBody] at h
  split at h
  · rename_i hpos
    obtain ⟨el, hel, h⟩ := bind_done h
    simp only [Run.done.injEq] at h; subst h
    simp only [reports_append] at hr
    have hs := generateParametersSchema_adds hel (by omega)
    refine ⟨?_, hs.2⟩
    rw [if_neg (by intro e; simp [e] at hpos)]
    intro name members outer
    unfold content
    outline_simp [hs.1 _ _ _]
  · rename_i hpos
    simp only [Run.done.injEq] at h; subst h
    have : Binding.requestBodyParameters m = [] := List.length_eq_zero_iff.1 (by omega)
    rw [if_pos this, this]
    exact ⟨Adds.nil, by simp⟩

/-- The parameters of a method that take part in the request or in the response have schemas. -/
def GoodMethod (v : VersionView) (fuel : Nat) (m : Method) : Prop :=
  ∀ p ∈ m.parameters, (p.isIn ∨ p.isOut) → Good v fuel p.typ.id

theorem generateMethod_adds {path : List Locator} {m : Method} {calls : List Call}
    (h : generateMethod v fuel path m = .done calls) (hr : reports calls = 0) :
    Adds calls [((Binding.method m).map Char.toLower, operation (schemaFn v fuel) path m)] ∧
      GoodMethod v fuel m := by
  obtain ⟨a, ha, h⟩ := bind_done h
  obtain ⟨b, hb, h⟩ := bind_done h
  obtain ⟨c, hc, h⟩ := bind_done h
  simp only [Run.done.injEq] at h; subst h
  simp only [reports_append] at hr
  have h1 := generateURLParameters_adds ha (by omega)
  have h2 := generateRequestBody_adds hb (by omega)
  have h3 := generateResponses_adds hc (by omega)
  refine ⟨?_, ?_⟩
  · intro name members outer
    unfold operation
    outline_simp [Adds.description m.doc _ _ _, h1.1 _ _ _, h2.1 _ _ _, h3.1 _ _ _, toLower]
  · intro p hp hio
    rcases hio with hin | hout
    · by_cases hact : m.isAction = true
      · refine h2.2 p ?_
        simp [Binding.requestBodyParameters, hact, hp, hin]
      · by_cases hsc : p.typ.isScalar = true
        · refine h1.2 p ?_
          simp [Binding.requestQueryParameters, hact, hp, hin, hsc]
        · refine h2.2 p ?_
          simp [Binding.requestBodyParameters, hact, hp, hin, hsc]
    · refine h3.2 p ?_
      simp [Binding.responseParameters, hp, hout]

theorem flatMap_single {α β : Type} (g : α → β) (l : List α) :
    l.flatMap (fun x => [g x]) = l.map g := by
  induction l <;> simp_all

theorem generateResourcePaths_adds {key : Text} {path : List Locator} {r : ResId}
    {calls : List Call}
    (h : generateResourcePaths v fuel key path (some r) = .done calls) (hr : reports calls = 0) :
    Adds calls (resourceItems (schemaFn v fuel) key path (v.graph.methods r)) ∧
      ∀ m ∈ v.graph.methods r, GoodMethod v fuel m := by
  simp only [generateResourcePaths] at h
  obtain ⟨a, ha, h⟩ := bind_done h
  obtain ⟨b, hb, h⟩ := bind_done h
  simp only [Run.done.injEq] at h; subst h
  simp only [reports_append] at hr
  have h1 : Adds a (if (v.graph.methods r).filter (fun m => Binding.methodSegment m = []) = [] then []
        else [(key, .obj (((v.graph.methods r).filter fun m => Binding.methodSegment m = []).map
          fun m => ((Binding.method m).map Char.toLower, operation (schemaFn v fuel) path m)))]) ∧
      ∀ m ∈ (v.graph.methods r).filter (fun m => Binding.methodSegment m = []),
        GoodMethod v fuel m := by
    split at ha
    · rename_i hpos
      obtain ⟨el, hel, ha⟩ := bind_done ha
      simp only [Run.done.injEq] at ha; subst ha
      simp only [reports_append] at hr
      have hs := forEach_adds (Q := fun m => GoodMethod v fuel m)
        (fun x _ c hc hcr => generateMethod_adds hc hcr) hel (by omega)
      refine ⟨?_, hs.2⟩
      rw [if_neg (by intro e; simp [e] at hpos)]
      intro name members outer
      outline_simp [hs.1 _ _ _, flatMap_single]
    · rename_i hpos
      simp only [Run.done.injEq] at ha; subst ha
      have : (v.graph.methods r).filter (fun m => Binding.methodSegment m = []) = [] :=
        List.length_eq_zero_iff.1 (by omega)
      rw [if_pos this, this]
      exact ⟨Adds.nil, by simp⟩
  have h2 := forEach_adds
    (g := fun m => [(key ++ '/' :: Binding.methodSegment m,
      Json.obj [((Binding.method m).map Char.toLower, operation (schemaFn v fuel) path m)])])
    (Q := fun m => GoodMethod v fuel m)
    (by
      intro m _ c hc hcr
      obtain ⟨el, hel, hc⟩ := bind_done hc
      simp only [Run.done.injEq] at hc; subst hc
      simp only [reports_append] at hcr
      have hs := generateMethod_adds hel (by omega)
      refine ⟨?_, hs.2⟩
      intro name members outer
      outline_simp [hs.1 _ _ _]) hb (by omega)
  refine ⟨?_, ?_⟩
  · have e := h1.1.append h2.1
    rw [flatMap_single] at e
    exact e
  · intro m hm
    by_cases hseg : Binding.methodSegment m = []
    · exact h1.2 m (by simp [hm, hseg])
    · exact h2.2 m (by simp [hm, hseg])

theorem generateStringProperty_adds (name doc : Text) :
    Adds (generateStringProperty name doc) [stringProperty name doc] := by
  intro n members outer
  unfold generateStringProperty stringProperty
  outline_simp [Adds.description _ _ _ _]

theorem generateStructProperty_adds {a : Attribute} {calls : List Call}
    (h : generateStructProperty v fuel a = .done calls) (hr : reports calls = 0) :
    Adds calls [(Binding.attributeName a, .obj (description a.doc ++ schemaFn v fuel a.typ))] ∧
      Good v fuel a.typ := by
  obtain ⟨el, hel, h⟩ := bind_done h
  simp only [Run.done.injEq] at h; subst h
  simp only [reports_append] at hr
  have hs := schemaFn_spec v fuel _ el hel (by omega)
  refine ⟨?_, hs.1⟩
  intro name members outer
  outline_simp [Adds.description a.doc _ _ _, hs.2 _ _ _, attributePropertyName, Binding.attributeName]

theorem generateEnumSchema_items : ∀ (values : List EnumValue),
    AddsItems (values.map fun value => .item (.str (Binding.enumValueName value)))
      (values.map fun e => .str (Binding.enumValueName e))
  | [] => AddsItems.nil
  | e :: es => by
    refine AddsItems.append (a := [_]) (x := [_]) ?_ (generateEnumSchema_items es)
    intro name items outer
    outline_simp []

theorem generateSchema_adds {t : TypeCell} {calls : List Call}
    (h : generateSchema v fuel t = .done calls) (hr : reports calls = 0) :
    Adds calls (typeSchema (schemaFn v fuel) t) ∧
      (t.kind = .class ∨ t.kind = .struct → ∀ a ∈ t.attributes, Good v fuel a.typ) := by
  unfold generateSchema at h
  split at h
  · rename_i hk
    have hk : t.kind = .enum := by simpa [TypeCell.isEnum] using hk
    simp only [Run.done.injEq] at h; subst h
    refine ⟨?_, by simp [hk]⟩
    intro name members outer
    unfold typeSchema generateEnumSchema schemaName
    simp only [hk]
    outline_simp [Adds.description _ _ _ _, generateEnumSchema_items _ _ _ _]
  · split at h
    · rename_i hk
      obtain ⟨el, hel, h⟩ := bind_done h
      simp only [Run.done.injEq] at h; subst h
      simp only [reports_append] at hr
      have hs := forEach_adds (Q := fun a => Good v fuel a.typ)
        (fun x _ c hc hcr => generateStructProperty_adds hc hcr) hel (by omega)
      refine ⟨?_, fun _ => hs.2⟩
      intro name members outer
      have hk : t.kind = .class ∨ t.kind = .struct := by simpa [Kind.isStruct] using hk
      unfold typeSchema schemaName kindDescription
      rcases hk with hk | hk
      · simp only [hk, TypeCell.isClass, beq_self_eq_true, if_true]
        outline_simp [Adds.description _ _ _ _, hs.1 _ _ _, flatMap_single,
          generateStringProperty_adds _ _ _ _ _]
      · simp only [hk, TypeCell.isClass]
        outline_simp [Adds.description _ _ _ _, hs.1 _ _ _, flatMap_single,
          show (Kind.struct == Kind.class) = false from rfl, Bool.false_eq_true, if_false]
    · rename_i hk1 hk2
      simp only [Run.done.injEq] at h; subst h
      have e : typeSchema (schemaFn v fuel) t = [] ∧ ¬ (t.kind = .class ∨ t.kind = .struct) := by
        unfold typeSchema
        simp only [TypeCell.isEnum, Kind.isStruct] at hk1 hk2
        cases hk : t.kind <;> simp_all
      rw [e.1]
      exact ⟨Adds.nil, fun hcs => absurd hcs e.2⟩

theorem generateMetadataSchema_adds : Adds generateMetadataSchema [metadataSchema] := by
  intro name members outer
  unfold generateMetadataSchema metadataSchema
  outline_simp [Adds.description _ _ _ _, generateStringProperty_adds _ _ _ _ _]

set_option maxRecDepth 4000 in
theorem generateErrorSchema_adds : Adds generateErrorSchema [errorSchema] := by
  intro name members outer
  unfold generateErrorSchema errorSchema
  outline_simp [Adds.description _ _ _ _, generateStringProperty_adds _ _ _ _ _]

theorem generateComponents_adds {calls : List Call}
    (h : generateComponents v fuel = .done calls) (hr : reports calls = 0) :
    Adds calls [ (t!"components", .obj
        [ (t!"schemas", .obj (schemas (schemaFn v fuel) v)),
          (t!"securitySchemes", .obj
            [ (t!"bearer", .obj
                [ (t!"type", .str t!"http"),
                  (t!"scheme", .str t!"bearer"),
                  (t!"bearerFormat", .str t!"JWT") ]) ]) ]) ] ∧
      ∀ t ∈ v.types, t.kind = .class ∨ t.kind = .struct → ∀ a ∈ t.attributes, Good v fuel a.typ := by
  obtain ⟨el, hel, h⟩ := bind_done h
  simp only [Run.done.injEq] at h; subst h
  simp only [reports_append] at hr
  have hs := forEach_adds
    (Q := fun t => t.kind = .class ∨ t.kind = .struct → ∀ a ∈ t.attributes, Good v fuel a.typ)
    (fun x _ c hc hcr => generateSchema_adds hc hcr) hel (by omega)
  refine ⟨?_, hs.2⟩
  intro name members outer
  unfold schemas
  outline_simp [generateMetadataSchema_adds _ _ _, generateErrorSchema_adds _ _ _, hs.1 _ _ _]

end

end OpenApi

end Verif
