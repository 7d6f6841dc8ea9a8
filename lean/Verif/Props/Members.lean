import Verif.Spec.Members
import Verif.Lemmas.Members

/-!
# C84: the fields and methods of the generated types have different names

In Go a struct can't have two fields, two methods, or a field and a method with the same name. The types
whose members depend on the model are the objects, the builders, the clients, the requests, the
responses and the requests and responses of polling.
-/

namespace Verif.Members

open Decls (Exported)

/-! ## Objects and builders -/

/-- C84, objects: the names are different exactly if the attributes have different names, none of them
is called like the members that all objects, or all classes, have, and none is called like another with
`Get` before. -/
theorem c84_object_iff_partial (isClass : Bool) (as : List Attr) (h : Usual as) :
    (objectFields isClass as ++ objectMethods isClass as).Nodup ↔
      (as.map fun a => privateField a.label.name).Nodup ∧
      (as.map methodOf).Nodup ∧
      (∀ a ∈ as, privateField a.label.name ≠ t!"bitmap_" ∧
        (isClass = true → lowerCamel a.label.name ∉ [t!"id", t!"href"])) ∧
      (∀ a ∈ as, methodOf a ≠ t!"Empty" ∧
        (isClass = true →
          methodOf a ∉ [t!"Kind", t!"Link", t!"ID", t!"GetID", t!"HREF", t!"GetHREF"])) ∧
      ∀ a ∈ as, ∀ b ∈ as, methodOf a ≠ t!"Get" ++ methodOf b := by
  have hf : ∀ x ∈ attributeFields as, ∃ a ∈ as, x = privateField a.label.name := by
    intro x hx
    rw [(attributeFields_perm as).mem_iff] at hx
    obtain ⟨a, ha, rfl⟩ := List.mem_map.mp hx
    exact ⟨a, ha, rfl⟩
  have hmg : ∀ x, x ∈ (as.flatMap fun a => [getterName a, t!"Get" ++ getterName a]) ↔
      ∃ a ∈ as, x = methodOf a ∨ x = t!"Get" ++ methodOf a := mem_getters getterName as
  have hng : (as.flatMap fun a => [getterName a, t!"Get" ++ getterName a]).Nodup ↔
      (as.map methodOf).Nodup ∧ ∀ a ∈ as, ∀ b ∈ as, methodOf a ≠ t!"Get" ++ methodOf b :=
    getters_nodup getterName as
  unfold objectFields objectMethods
  rw [struct_nodup, (attributeFields_perm as).nodup_iff, hng]
  · have hid : ∀ a ∈ as, (lowerCamel a.label.name ∉ [t!"id", t!"href"] ↔
        privateField a.label.name ∉ [t!"id", t!"href"]) := by
      intro a _
      have h1 := privateField_eq_iff a.label.name t!"id" (by decide) (by decide)
      have h2 := privateField_eq_iff a.label.name t!"href" (by decide) (by decide)
      simp only [List.mem_cons, List.not_mem_nil, or_false, h1, h2]
    constructor
    · rintro ⟨⟨_, h2, h3⟩, _, ⟨h5, h6⟩, h7⟩
      refine ⟨h2, h5, ?_, ?_, h6⟩
      · intro a ha
        have := h3 (privateField a.label.name)
          ((attributeFields_perm as).mem_iff.mpr (List.mem_map.mpr ⟨a, ha, rfl⟩))
        rw [List.mem_append, not_or] at this
        refine ⟨fun e => this.1 (by rw [e]; simp), fun hc => (hid a ha).mpr ?_⟩
        rw [if_pos hc] at this
        exact this.2
      · intro a ha
        have := h7 (methodOf a) ((hmg _).mpr ⟨a, ha, .inl rfl⟩)
        rw [List.mem_append, not_or] at this
        refine ⟨fun e => this.2 (by rw [e]; simp), fun hc => ?_⟩
        rw [if_pos hc] at this
        exact this.1
    · rintro ⟨h2, h5, h3, h4, h6⟩
      refine ⟨⟨by cases isClass <;> decide, h2, ?_⟩, by cases isClass <;> decide, ⟨h5, h6⟩, ?_⟩
      · intro x hx
        obtain ⟨a, ha, rfl⟩ := hf x hx
        rw [List.mem_append, not_or]
        refine ⟨fun e => (h3 a ha).1 (by simpa using e), ?_⟩
        split
        · rename_i hc; exact (hid a ha).mp ((h3 a ha).2 hc)
        · simp
      · intro x hx
        obtain ⟨a, ha, hx⟩ := (hmg x).mp hx
        rw [List.mem_append, not_or]
        rcases hx with rfl | rfl
        · refine ⟨?_, fun e => (h4 a ha).1 (by simpa using e)⟩
          split
          · rename_i hc; exact (h4 a ha).2 hc
          · simp
        · refine ⟨?_, by simp⟩
          split
          · rename_i hc
            have := (h4 a ha).2 hc
            simp only [List.mem_cons, List.not_mem_nil, or_false, not_or] at this
            simp only [List.mem_cons, List.not_mem_nil, or_false, not_or]
            refine ⟨by simp, by simp, by simp, fun e => this.2.2.1 ?_, by simp,
              fun e => this.2.2.2.2.1 ?_⟩
            · exact List.append_cancel_left (as := t!"Get") e
            · exact List.append_cancel_left (as := t!"Get") e
          · simp
  · intro x hx
    rw [List.mem_append] at hx
    rcases hx with hx | hx
    · have : ∀ c : Bool, ∀ x ∈ [t!"bitmap_"] ++ (if c = true then [t!"id", t!"href"] else []),
          (x.head?.map Char.isUpper) = some false := by decide
      exact not_exported_of (this _ x hx)
    · obtain ⟨a, ha, rfl⟩ := hf x hx
      exact field_private (h a ha).1
  · intro x hx
    rw [List.mem_append] at hx
    rcases hx with hx | hx
    · have : ∀ c : Bool, ∀ x ∈ (if c = true then
          [t!"Kind", t!"Link", t!"ID", t!"GetID", t!"HREF", t!"GetHREF"] else []) ++ [t!"Empty"],
          (x.head?.map Char.isUpper) = some true := by decide
      exact exported_of (this _ x hx)
    · obtain ⟨a, ha, hx⟩ := (hmg x).mp hx
      rcases hx with rfl | rfl
      · exact (h a ha).2
      · exact Exported.get

/-- C84, builders. -/
theorem c84_builder_iff_partial (isClass : Bool) (as : List Attr) (h : Usual as) :
    (builderFields isClass as ++ builderMethods isClass as).Nodup ↔
      (as.map fun a => privateField a.label.name).Nodup ∧
      (as.map methodOf).Nodup ∧
      (∀ a ∈ as, privateField a.label.name ≠ t!"bitmap_" ∧
        (isClass = true → lowerCamel a.label.name ∉ [t!"id", t!"href"])) ∧
      ∀ a ∈ as, methodOf a ∉ [t!"Empty", t!"Copy", t!"Build"] ∧
        (isClass = true → methodOf a ∉ [t!"Link", t!"ID", t!"HREF"]) := by
  have hf : ∀ x ∈ attributeFields as, ∃ a ∈ as, x = privateField a.label.name := by
    intro x hx
    rw [(attributeFields_perm as).mem_iff] at hx
    obtain ⟨a, ha, rfl⟩ := List.mem_map.mp hx
    exact ⟨a, ha, rfl⟩
  have hp : (builderFields isClass as ++ builderMethods isClass as).Perm
      ((([t!"bitmap_"] ++ (if isClass then [t!"id", t!"href"] else [])) ++ attributeFields as) ++
        (((if isClass then [t!"Link", t!"ID", t!"HREF"] else []) ++ [t!"Empty", t!"Copy", t!"Build"]) ++
          as.map methodOf)) := by
    unfold builderFields builderMethods
    refine List.Perm.append_left _ ?_
    have e : (if isClass = true then [t!"Link", t!"ID", t!"HREF"] else []) ++
        [t!"Empty", t!"Copy", t!"Build"] =
        ((if isClass = true then [t!"Link", t!"ID", t!"HREF"] else []) ++ [t!"Empty"]) ++
          [t!"Copy", t!"Build"] := by simp
    rw [e, List.append_assoc _ (as.map setterName), List.append_assoc _ [t!"Copy", t!"Build"]]
    exact List.Perm.append_left _ List.perm_append_comm
  rw [hp.nodup_iff, struct_nodup, (attributeFields_perm as).nodup_iff]
  · have hid : ∀ a ∈ as, (lowerCamel a.label.name ∉ [t!"id", t!"href"] ↔
        privateField a.label.name ∉ [t!"id", t!"href"]) := by
      intro a _
      have h1 := privateField_eq_iff a.label.name t!"id" (by decide) (by decide)
      have h2 := privateField_eq_iff a.label.name t!"href" (by decide) (by decide)
      simp only [List.mem_cons, List.not_mem_nil, or_false, h1, h2]
    constructor
    · rintro ⟨⟨_, h2, h3⟩, _, h5, h7⟩
      refine ⟨h2, h5, ?_, ?_⟩
      · intro a ha
        have := h3 (privateField a.label.name)
          ((attributeFields_perm as).mem_iff.mpr (List.mem_map.mpr ⟨a, ha, rfl⟩))
        rw [List.mem_append, not_or] at this
        refine ⟨fun e => this.1 (by rw [e]; simp), fun hc => (hid a ha).mpr ?_⟩
        rw [if_pos hc] at this
        exact this.2
      · intro a ha
        have := h7 (methodOf a) (List.mem_map.mpr ⟨a, ha, rfl⟩)
        rw [List.mem_append, not_or] at this
        refine ⟨this.2, fun hc => ?_⟩
        rw [if_pos hc] at this
        exact this.1
    · rintro ⟨h2, h5, h3, h4⟩
      refine ⟨⟨by cases isClass <;> decide, h2, ?_⟩, by cases isClass <;> decide, h5, ?_⟩
      · intro x hx
        obtain ⟨a, ha, rfl⟩ := hf x hx
        rw [List.mem_append, not_or]
        refine ⟨fun e => (h3 a ha).1 (by simpa using e), ?_⟩
        split
        · rename_i hc; exact (hid a ha).mp ((h3 a ha).2 hc)
        · simp
      · intro x hx
        obtain ⟨a, ha, rfl⟩ := List.mem_map.mp hx
        rw [List.mem_append, not_or]
        refine ⟨?_, (h4 a ha).1⟩
        split
        · rename_i hc; exact (h4 a ha).2 hc
        · simp
  · intro x hx
    rw [List.mem_append] at hx
    rcases hx with hx | hx
    · have : ∀ c : Bool, ∀ x ∈ [t!"bitmap_"] ++ (if c = true then [t!"id", t!"href"] else []),
          (x.head?.map Char.isUpper) = some false := by decide
      exact not_exported_of (this _ x hx)
    · obtain ⟨a, ha, rfl⟩ := hf x hx
      exact field_private (h a ha).1
  · intro x hx
    rw [List.mem_append] at hx
    rcases hx with hx | hx
    · have : ∀ c : Bool, ∀ x ∈ (if c = true then [t!"Link", t!"ID", t!"HREF"] else []) ++
          [t!"Empty", t!"Copy", t!"Build"], (x.head?.map Char.isUpper) = some true := by decide
      exact exported_of (this _ x hx)
    · obtain ⟨a, ha, rfl⟩ := List.mem_map.mp hx
      exact (h a ha).2

/-- Attributes like those of the real models. -/
def clusterAttributes : List Attr :=
  [{ label := ⟨parseUsingCase t!"Name", []⟩ }, { label := ⟨parseUsingCase t!"Managed", []⟩, isBoolean := true },
   { label := ⟨parseUsingCase t!"CreationTimestamp", []⟩ }, { label := ⟨parseUsingCase t!"Type", []⟩ }]

example : Usual clusterAttributes := by
  have h : ∀ a ∈ clusterAttributes, (∃ w ∈ a.label.name.head?, w.text ≠ []) ∧ Exported (methodOf a) := by
    decide
  intro a ha
  obtain ⟨⟨w, hw, ht⟩, he⟩ := h a ha
  refine ⟨?_, he⟩
  cases hn : a.label.name with
  | nil => rw [hn] at hw; cases hw
  | cons v ws => rw [hn] at hw; cases hw; exact ⟨_, ws, rfl, ht⟩
example : (objectFields true clusterAttributes ++ objectMethods true clusterAttributes).Nodup ∧
    objectFields true clusterAttributes = [t!"bitmap_", t!"id", t!"href", t!"name",
      t!"creationTimestamp", t!"type_", t!"managed"] := by decide
example : (builderFields true clusterAttributes ++ builderMethods true clusterAttributes).Nodup := by
  decide

/-- C84 is false: nothing prevents the use of these names for attributes, and then the generated types
don't compile. -/
theorem c84_object_refuted :
    (∀ n ∈ [t!"Kind", t!"Link", t!"ID", t!"HREF", t!"Empty"],
      ¬ (objectFields true [{ label := ⟨parseUsingCase n, []⟩ }] ++
        objectMethods true [{ label := ⟨parseUsingCase n, []⟩ }]).Nodup) ∧
    ¬ (objectFields false [{ label := ⟨parseUsingCase t!"Empty", []⟩ }] ++
      objectMethods false [{ label := ⟨parseUsingCase t!"Empty", []⟩ }]).Nodup ∧
    ¬ (objectFields false [{ label := ⟨parseUsingCase t!"Foo", []⟩ }, { label := ⟨parseUsingCase t!"GetFoo", []⟩ }] ++
      objectMethods false [{ label := ⟨parseUsingCase t!"Foo", []⟩ }, { label := ⟨parseUsingCase t!"GetFoo", []⟩ }]).Nodup ∧
    (∀ n ∈ [t!"Copy", t!"Build", t!"Empty"],
      ¬ (builderFields false [{ label := ⟨parseUsingCase n, []⟩ }] ++
        builderMethods false [{ label := ⟨parseUsingCase n, []⟩ }]).Nodup) := by
  decide

/-- The members of the lists and of their builders don't depend on the model, and are different. -/
theorem c84_lists (isClass : Bool) :
    (listFields ++ listMethods isClass).Nodup ∧ listBuilderMembers.Nodup := by
  cases isClass <;> decide

/-- C84: the members of the types that don't depend on the attributes or on the parameters. -/
theorem c84_fixed_members (isClass : Bool) (x : Text) :
    (x ∈ listFields ++ listMethods isClass ↔
      x ∈ [t!"href", t!"link", t!"items", t!"Len", t!"SetLink", t!"SetHREF", t!"SetItems", t!"Items",
        t!"Empty", t!"Get", t!"Slice", t!"Each", t!"Range"] ∨
      isClass = true ∧ x ∈ [t!"Kind", t!"Link", t!"HREF", t!"GetHREF"]) ∧
    (x ∈ listBuilderMembers ↔ x ∈ [t!"items", t!"Items", t!"Empty", t!"Copy", t!"Build"]) ∧
    (x ∈ clientFields ↔ x ∈ [t!"transport", t!"path"]) ∧
    (x ∈ pollRequestFields ↔
      x ∈ [t!"request", t!"interval", t!"statuses", t!"predicates", t!"task"]) ∧
    (x ∈ pollResponseFields ↔ x = t!"response") := by
  refine ⟨?_, Iff.rfl, Iff.rfl, Iff.rfl, by simp [pollResponseFields]⟩
  unfold listFields listMethods
  cases isClass <;> simp only [List.mem_append, List.mem_cons, List.not_mem_nil, or_false,
    if_true, Bool.false_eq_true, if_false, false_and, true_and]
  all_goals grind

/-! ## Clients -/

/-- C84, clients: the names are different exactly if those of the methods and locators are, none of
them is `Get` if it is the root, and none is `Poll` if there is a method `Get`. -/
theorem c84_client_iff_partial (r : Resource)
    (hm : ∀ m ∈ r.methods, Exported (Go.nameOf m.annotations m.name))
    (hl : ∀ l ∈ r.locators, Exported (Go.nameOf l.annotations l.name)) :
    (clientFields ++ clientMethods r).Nodup ↔
      ((r.methods.map fun m => Go.nameOf m.annotations m.name) ++
        r.locators.map fun l => Go.nameOf l.annotations l.name).Nodup ∧
      (r.name.toText = t!"root" →
        (∀ m ∈ r.methods, Go.nameOf m.annotations m.name ≠ t!"Get") ∧
        ∀ l ∈ r.locators, Go.nameOf l.annotations l.name ≠ t!"Get") ∧
      ((∃ m ∈ r.methods, m.name = Nom.get) →
        (∀ m ∈ r.methods, Go.nameOf m.annotations m.name ≠ t!"Poll") ∧
        ∀ l ∈ r.locators, Go.nameOf l.annotations l.name ≠ t!"Poll") := by
  have hp : (clientFields ++ clientMethods r).Perm
      ((clientFields ++ []) ++
        (((if Decls.isRoot r then [t!"Get"] else []) ++
          (if (r.methods.find? Method.isGet).isSome then [t!"Poll"] else [])) ++
        ((r.methods.map fun m => Go.nameOf m.annotations m.name) ++
        r.locators.map fun l => Go.nameOf l.annotations l.name))) := by
    rw [List.append_nil]
    refine List.Perm.append_left _ ?_
    unfold clientMethods
    rw [List.perm_iff_count]
    intro a
    simp only [List.count_append]
    omega
  rw [hp.nodup_iff, struct_nodup]
  · have hroot := Decls.isRoot_iff r
    have hpoll := Decls.poll_iff r
    rw [← hroot, ← hpoll]
    have hall : ∀ x, (∀ g ∈ (r.methods.map fun m => Go.nameOf m.annotations m.name) ++
        r.locators.map fun l => Go.nameOf l.annotations l.name, g ≠ x) ↔
        (∀ m ∈ r.methods, Go.nameOf m.annotations m.name ≠ x) ∧
        ∀ l ∈ r.locators, Go.nameOf l.annotations l.name ≠ x := by
      intro x
      simp only [List.mem_append, List.mem_map]
      constructor
      · intro h
        exact ⟨fun m hm => h _ (.inl ⟨m, hm, rfl⟩), fun l hl => h _ (.inr ⟨l, hl, rfl⟩)⟩
      · rintro ⟨h1, h2⟩ g (⟨m, hm, rfl⟩ | ⟨l, hl, rfl⟩)
        · exact h1 m hm
        · exact h2 l hl
    rw [← hall, ← hall]
    constructor
    · rintro ⟨_, _, h5, h6⟩
      refine ⟨h5, fun hr g hg e => ?_, fun hq g hg e => ?_⟩
      · exact h6 g hg (by rw [e, if_pos hr]; simp)
      · exact h6 g hg (by rw [e, if_pos hq]; simp)
    · rintro ⟨h5, h6, h7⟩
      refine ⟨⟨by decide, by simp, by simp⟩, ?_, h5, ?_⟩
      · cases Decls.isRoot r <;> cases (r.methods.find? Method.isGet).isSome <;> decide
      · intro g hg hc
        rw [List.mem_append] at hc
        rcases hc with hc | hc
        · split at hc
          · rename_i hr; exact h6 hr g hg (by simpa using hc)
          · cases hc
        · split at hc
          · rename_i hr; exact h7 hr g hg (by simpa using hc)
          · cases hc
  · intro x hx
    have : ∀ x ∈ clientFields ++ [], (x.head?.map Char.isUpper) = some false := by decide
    exact not_exported_of (this x hx)
  · intro x hx
    simp only [List.mem_append, List.mem_map] at hx
    rcases hx with (hx | hx) | ⟨m, h, rfl⟩ | ⟨l, h, rfl⟩
    · split at hx
      · rw [List.mem_singleton.mp hx]; exact exported_of rfl
      · cases hx
    · split at hx
      · rw [List.mem_singleton.mp hx]; exact exported_of rfl
      · cases hx
    · exact hm m h
    · exact hl l h

example : (clientFields ++ clientMethods {
    name := parseUsingCase t!"Cluster",
    methods := [{ name := parseUsingCase t!"Get" }, { name := parseUsingCase t!"Delete" }],
    locators := [{ name := parseUsingCase t!"Groups", owner := 0 }] }).Nodup := by decide

/-- C84 is false: a method and a locator can have the same name, and the root can't have a method
`Get`. -/
theorem c84_client_refuted :
    ¬ (clientFields ++ clientMethods {
        name := parseUsingCase t!"Cluster",
        methods := [{ name := parseUsingCase t!"Status" }],
        locators := [{ name := parseUsingCase t!"Status", owner := 0 }] }).Nodup ∧
    ¬ (clientFields ++ clientMethods {
        name := parseUsingCase t!"Root",
        methods := [{ name := parseUsingCase t!"Get" }] }).Nodup ∧
    ¬ (clientFields ++ clientMethods {
        name := parseUsingCase t!"Cluster",
        methods := [{ name := parseUsingCase t!"Get" }],
        locators := [{ name := parseUsingCase t!"Poll", owner := 0 }] }).Nodup := by decide

/-- C84, clients of services: versions have different names. -/
theorem c84_service_iff_partial (vs : List Decls.Label)
    (h : ∀ v ∈ vs, Exported (Go.nameOf v.annotations v.name)) :
    (serviceMembers vs).Nodup ↔ (vs.map fun v => Go.nameOf v.annotations v.name).Nodup := by
  have := struct_nodup clientFields [] [] (vs.map fun v => Go.nameOf v.annotations v.name)
    (by
      intro x hx
      have : ∀ x ∈ clientFields ++ [], (x.head?.map Char.isUpper) = some false := by decide
      exact not_exported_of (this x hx))
    (by
      intro x hx
      obtain ⟨v, hv, rfl⟩ := List.mem_map.mp hx
      exact h v hv)
  simp only [List.append_nil, List.nil_append] at this
  unfold serviceMembers
  rw [this]
  simp [show clientFields.Nodup by decide]

example : serviceMembers [⟨parseUsingCase t!"V1", []⟩, ⟨parseUsingCase t!"V2Alpha1", []⟩] =
    [t!"transport", t!"path", t!"V1", t!"V2Alpha1"] := by decide

/-! ## Requests, responses and polling -/

/-- C84, requests: the names are different exactly if the inputs have different names and none of them is
called like the members that all requests have. -/
theorem c84_request_iff_partial (m : Method) (h : UsualParameters (inputs m)) :
    (Go.requestFields m ++ Go.requestMethods m).Nodup ↔
      ((inputs m).map fieldOf).Nodup ∧
      ((inputs m).map fun p => Go.nameOf p.annotations p.name).Nodup ∧
      (∀ p ∈ inputs m, fieldOf p ∉ [t!"transport", t!"path", t!"query", t!"header"]) ∧
      ∀ p ∈ inputs m, Go.nameOf p.annotations p.name ∉
        [t!"Parameter", t!"Header", t!"Impersonate", t!"Send", t!"SendContext"] := by
  have hfe : (Binding.requestParameters m).map Go.parameterField = (inputs m).map fieldOf :=
    List.map_congr_left fun p _ => parameterField_eq p
  have hp : (Go.requestFields m ++ Go.requestMethods m).Perm
      (([t!"transport", t!"path", t!"query", t!"header"] ++ (inputs m).map fieldOf) ++
        ([t!"Parameter", t!"Header", t!"Impersonate", t!"Send", t!"SendContext"] ++
          (inputs m).map fun p => Go.nameOf p.annotations p.name)) := by
    unfold Go.requestFields Go.requestMethods
    rw [hfe]
    refine List.Perm.append_left _ ?_
    show ([t!"Parameter", t!"Header", t!"Impersonate"] ++
      ((inputs m).map fun p => Go.nameOf p.annotations p.name) ++ [t!"Send", t!"SendContext"]).Perm
      (([t!"Parameter", t!"Header", t!"Impersonate"] ++ [t!"Send", t!"SendContext"]) ++
        (inputs m).map fun p => Go.nameOf p.annotations p.name)
    rw [List.append_assoc, List.append_assoc]
    exact List.Perm.append_left _ List.perm_append_comm
  rw [hp.nodup_iff, struct_nodup]
  · simp only [List.forall_mem_map]
    have d1 : ([t!"transport", t!"path", t!"query", t!"header"] : List Text).Nodup := by decide
    have d2 : ([t!"Parameter", t!"Header", t!"Impersonate", t!"Send", t!"SendContext"] : List Text).Nodup := by
      decide
    constructor
    · rintro ⟨⟨_, a, b⟩, _, c, d⟩; exact ⟨a, c, b, d⟩
    · rintro ⟨a, c, b, d⟩; exact ⟨⟨d1, a, b⟩, d2, c, d⟩
  · intro x hx
    rw [List.mem_append] at hx
    rcases hx with hx | hx
    · have : ∀ x ∈ [t!"transport", t!"path", t!"query", t!"header"],
        (x.head?.map Char.isUpper) = some false := by decide
      exact not_exported_of (this x hx)
    · obtain ⟨p, hp, rfl⟩ := List.mem_map.mp hx
      exact fieldOf_private (h p hp).1
  · intro x hx
    rw [List.mem_append] at hx
    rcases hx with hx | hx
    · have : ∀ x ∈ [t!"Parameter", t!"Header", t!"Impersonate", t!"Send", t!"SendContext"],
        (x.head?.map Char.isUpper) = some true := by decide
      exact exported_of (this x hx)
    · obtain ⟨p, hp, rfl⟩ := List.mem_map.mp hx
      exact (h p hp).2

/-- The conditions for the getters. -/
theorem getters_iff (ps : List Parameter) :
    ((ps.flatMap fun p => [getterOf p, t!"Get" ++ getterOf p]).Nodup ∧
      ∀ g ∈ (ps.flatMap fun p => [getterOf p, t!"Get" ++ getterOf p]),
        g ∉ [t!"Status", t!"Header", t!"Error"]) ↔
    (ps.map getterOf).Nodup ∧ (∀ p ∈ ps, Go.nameOf p.annotations p.name ≠ t!"Header") ∧
      ∀ p ∈ ps, ∀ q ∈ ps, getterOf p ≠ t!"Get" ++ getterOf q := by
  have hh : ∀ p : Parameter, getterOf p = t!"Header" ↔ Go.nameOf p.annotations p.name = t!"Header" := by
    intro p
    unfold getterOf
    split
    · rename_i e; rw [e]; decide
    · split
      · rename_i e; rw [e]; decide
      · exact Iff.rfl
  rw [getters_nodup]
  constructor
  · rintro ⟨⟨h1, h2⟩, h3⟩
    refine ⟨h1, fun p hp e => ?_, h2⟩
    refine h3 (getterOf p) ((mem_getters _ _ _).mpr ⟨p, hp, .inl rfl⟩) ?_
    rw [(hh p).mpr e]; decide
  · rintro ⟨h1, h3, h2⟩
    refine ⟨⟨h1, h2⟩, ?_⟩
    intro g hg
    obtain ⟨p, hp, hg⟩ := (mem_getters _ _ _).mp hg
    rcases hg with rfl | rfl
    · have := getterOf_ne p
      simp only [List.mem_cons, List.not_mem_nil, or_false, not_or]
      exact ⟨this.2, fun e => h3 p hp ((hh p).mp e), this.1⟩
    · simp

/-- C84, responses: the names are different exactly if the outputs have different names, none of them is
called `Header`, and none is called like another with `Get` before. -/
theorem c84_response_iff_partial (m : Method) (h : UsualParameters (outputs m)) :
    (Go.responseFields m ++ Go.responseMethods m).Nodup ↔
      ((outputs m).map fieldOf).Nodup ∧
      ((outputs m).map getterOf).Nodup ∧
      (∀ p ∈ outputs m, fieldOf p ≠ t!"header" ∧ Go.nameOf p.annotations p.name ≠ t!"Header") ∧
      ∀ p ∈ outputs m, ∀ q ∈ outputs m, getterOf p ≠ t!"Get" ++ getterOf q := by
  have hfe : (Binding.responseParameters m).map Go.parameterField = (outputs m).map fieldOf :=
    List.map_congr_left fun p _ => parameterField_eq p
  have hge : ((Binding.responseParameters m).flatMap fun p =>
      [Go.parameterGetter p, t!"Get" ++ Go.parameterGetter p]) =
      (outputs m).flatMap fun p => [getterOf p, t!"Get" ++ getterOf p] := by
    simp only [parameterGetter_eq]; rfl
  unfold Go.responseFields Go.responseMethods
  rw [hfe, hge, struct_nodup]
  · have hgi := getters_iff (outputs m)
    have d1 : ([t!"status", t!"header", t!"err"] : List Text).Nodup := by decide
    have d2 : ([t!"Status", t!"Header", t!"Error"] : List Text).Nodup := by decide
    constructor
    · rintro ⟨⟨_, a, b⟩, _, c, d⟩
      obtain ⟨g1, g2, g3⟩ := hgi.mp ⟨c, d⟩
      refine ⟨a, g1, fun p hp => ⟨fun e => ?_, g2 p hp⟩, g3⟩
      exact b (fieldOf p) (List.mem_map.mpr ⟨p, hp, rfl⟩) (by rw [e]; decide)
    · rintro ⟨a, g1, g2, g3⟩
      obtain ⟨c, d⟩ := hgi.mpr ⟨g1, fun p hp => (g2 p hp).2, g3⟩
      refine ⟨⟨d1, a, ?_⟩, d2, c, d⟩
      intro f hf
      obtain ⟨p, hp, rfl⟩ := List.mem_map.mp hf
      have := fieldOf_ne p
      simp only [List.mem_cons, List.not_mem_nil, or_false, not_or]
      exact ⟨this.2, (g2 p hp).1, this.1⟩
  · intro x hx
    rw [List.mem_append] at hx
    rcases hx with hx | hx
    · have : ∀ x ∈ [t!"status", t!"header", t!"err"],
        (x.head?.map Char.isUpper) = some false := by decide
      exact not_exported_of (this x hx)
    · obtain ⟨p, hp, rfl⟩ := List.mem_map.mp hx
      exact fieldOf_private (h p hp).1
  · intro x hx
    rw [List.mem_append] at hx
    rcases hx with hx | hx
    · have : ∀ x ∈ [t!"Status", t!"Header", t!"Error"],
        (x.head?.map Char.isUpper) = some true := by decide
      exact exported_of (this x hx)
    · obtain ⟨p, hp, hx⟩ := (mem_getters _ _ _).mp hx
      rcases hx with rfl | rfl
      · exact getterOf_exported (h p hp).2
      · exact Exported.get

/-- C84, requests of polling. -/
theorem c84_poll_request_iff_partial (m : Method) (h : UsualParameters (inputs m)) :
    (pollRequestFields ++ pollRequestMethods m).Nodup ↔
      ((inputs m).map fun p => Go.nameOf p.annotations p.name).Nodup ∧
      ∀ p ∈ inputs m, Go.nameOf p.annotations p.name ∉
        [t!"Parameter", t!"Header", t!"Interval", t!"Status", t!"Predicate", t!"StartContext"] := by
  have hp : (pollRequestFields ++ pollRequestMethods m).Perm
      ((pollRequestFields ++ []) ++
        ([t!"Parameter", t!"Header", t!"Interval", t!"Status", t!"Predicate", t!"StartContext"] ++
          (inputs m).map fun p => Go.nameOf p.annotations p.name)) := by
    rw [List.append_nil]
    refine List.Perm.append_left _ ?_
    show ([t!"Parameter", t!"Header"] ++
      ((inputs m).map fun p => Go.nameOf p.annotations p.name) ++
        [t!"Interval", t!"Status", t!"Predicate", t!"StartContext"]).Perm
      (([t!"Parameter", t!"Header"] ++ [t!"Interval", t!"Status", t!"Predicate", t!"StartContext"]) ++
        (inputs m).map fun p => Go.nameOf p.annotations p.name)
    rw [List.append_assoc, List.append_assoc]
    exact List.Perm.append_left _ List.perm_append_comm
  rw [hp.nodup_iff, struct_nodup]
  · simp only [List.forall_mem_map]
    have d1 : pollRequestFields.Nodup := by decide
    have d2 : ([t!"Parameter", t!"Header", t!"Interval", t!"Status", t!"Predicate",
      t!"StartContext"] : List Text).Nodup := by decide
    constructor
    · rintro ⟨_, _, c, d⟩; exact ⟨c, d⟩
    · rintro ⟨c, d⟩; exact ⟨⟨d1, by simp, by simp⟩, d2, c, d⟩
  · intro x hx
    have : ∀ x ∈ pollRequestFields ++ [], (x.head?.map Char.isUpper) = some false := by decide
    exact not_exported_of (this x hx)
  · intro x hx
    rw [List.mem_append] at hx
    rcases hx with hx | hx
    · have : ∀ x ∈ [t!"Parameter", t!"Header", t!"Interval", t!"Status", t!"Predicate",
        t!"StartContext"], (x.head?.map Char.isUpper) = some true := by decide
      exact exported_of (this x hx)
    · obtain ⟨p, hp, rfl⟩ := List.mem_map.mp hx
      exact (h p hp).2

/-- C84, responses of polling: they never clash if the responses of the method don't. -/
theorem c84_poll_response_iff_partial (m : Method) (h : UsualParameters (outputs m)) :
    (pollResponseFields ++ pollResponseMethods m).Nodup ↔
      ((outputs m).map getterOf).Nodup ∧
      (∀ p ∈ outputs m, Go.nameOf p.annotations p.name ≠ t!"Header") ∧
      ∀ p ∈ outputs m, ∀ q ∈ outputs m, getterOf p ≠ t!"Get" ++ getterOf q := by
  have hge : ((Binding.responseParameters m).flatMap fun p =>
      [Go.parameterGetter p, t!"Get" ++ Go.parameterGetter p]) =
      (outputs m).flatMap fun p => [getterOf p, t!"Get" ++ getterOf p] := by
    simp only [parameterGetter_eq]; rfl
  have hs := struct_nodup pollResponseFields [] [t!"Status", t!"Header", t!"Error"]
    ((outputs m).flatMap fun p => [getterOf p, t!"Get" ++ getterOf p]) ?_ ?_
  · rw [List.append_nil] at hs
    unfold pollResponseMethods
    rw [hge, hs, ← getters_iff]
    have d1 : pollResponseFields.Nodup := by decide
    have d2 : ([t!"Status", t!"Header", t!"Error"] : List Text).Nodup := by decide
    constructor
    · rintro ⟨_, _, c, d⟩; exact ⟨c, d⟩
    · rintro ⟨c, d⟩; exact ⟨⟨d1, by simp, by simp⟩, d2, c, d⟩
  · intro x hx
    have : ∀ x ∈ pollResponseFields ++ [], (x.head?.map Char.isUpper) = some false := by decide
    exact not_exported_of (this x hx)
  · intro x hx
    rw [List.mem_append] at hx
    rcases hx with hx | hx
    · have : ∀ x ∈ [t!"Status", t!"Header", t!"Error"],
        (x.head?.map Char.isUpper) = some true := by decide
      exact exported_of (this x hx)
    · obtain ⟨p, hp, hx⟩ := (mem_getters _ _ _).mp hx
      rcases hx with rfl | rfl
      · exact getterOf_exported (h p hp).2
      · exact Exported.get

/-- A method `Get` like those of the real models. -/
def getMethod : Method where
  name := parseUsingCase t!"Get"
  parameters := [{ name := parseUsingCase t!"FetchLabels", typ := ⟨1, .scalar⟩, isIn := true },
    { name := parseUsingCase t!"Status", typ := ⟨1, .scalar⟩, isOut := true },
    { name := parseUsingCase t!"Body", typ := ⟨2, .«class»⟩, isOut := true }]

example : (Go.requestFields getMethod ++ Go.requestMethods getMethod).Nodup ∧
    (Go.responseFields getMethod ++ Go.responseMethods getMethod).Nodup ∧
    (pollRequestFields ++ pollRequestMethods getMethod).Nodup ∧
    (pollResponseFields ++ pollResponseMethods getMethod).Nodup ∧
    Go.responseFields getMethod = [t!"status", t!"header", t!"err", t!"status_", t!"body"] := by decide

/-- C84 is false: a method `Get` with a parameter `Interval` has a fine request, but it can't be
polled. -/
theorem c84_poll_refuted :
    ∀ n ∈ [t!"Interval", t!"Status", t!"Predicate", t!"StartContext"],
      let m : Method := { name := parseUsingCase t!"Get", parameters :=
        [{ name := parseUsingCase n, typ := ⟨1, .scalar⟩, isIn := true }] }
      (Go.requestFields m ++ Go.requestMethods m).Nodup ∧
      ¬ (pollRequestFields ++ pollRequestMethods m).Nodup := by decide

end Verif.Members
