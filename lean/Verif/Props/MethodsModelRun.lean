import Verif.Lemmas.MethodsModelRun
import Verif.Props.JsonModelRun
import Verif.Props.MethodsRun
import Verif.Props.Checks

/-!
# C102: running the generated code of the methods of a model

**C102.** The generated code of the methods of the resources of every model that is read is code like the one that the
property C100 is about. So the functions that write the requests and read the responses do what the model of the bodies
says.
-/

namespace Verif.ModelRun

open GoJson (Val Schema DateParser writeRequest readResponse)
open GoProgram hiding given
open TypesRun (Legal)
open BuildersRun (Program Holds)
open JsonCode (camel)
open JsonRun (Library call Settles Sends)
open MethodsCode (messageOf)
open MethodsRun (Linked RequestAt ResponseAt Submits Answers written obtained wholes)
open Whole (load_inv)
open Session (load)
open Check (checkMethod)

variable {P : Program} {inputs : List SourceModel} {base : Text} {K : VersionId → Bool} {D : DateParser} {limit : Nat}

/-- The code of a method of a model, when it is part of a Go program, is code like the one that the property C100 is
about. -/
theorem c102_linked (h : Ready P inputs base K) (hm : MethodsContain P (load inputs) K base) {service version : Text}
    {v : LoadedVersion} {name : Text} {r : Resource} (hr : ResourceOf (load inputs) service version v name r)
    (hK : K v.id = true) {m : Method} (hin : m ∈ r.methods) (hg : GoodMethod (load inputs) r m) :
    Linked P (schemaOf (load inputs) (ofVersions K)) (codeOf (load inputs) base) (jsonOf (load inputs) base)
      (listsOf (load inputs) base) (TypesCode.contextOf (load inputs) base v.id) r m (packageFor (load inputs) v) := by
  have i := load_inv inputs
  obtain ⟨id, h1, h2⟩ := hr.resource
  refine method_linked i.ok.heap (c94_loaded inputs base h.root K h.defined h.versions h.names)
    (c98_loaded inputs K h.json) rfl (h.code.legal _) hg (hm _ _ _ _ _ hr hK m hin) fun p hp => ?_
  obtain ⟨c, hc, ho⟩ := i.locals.resources _ _ _ hr.version _ _ _ h1 h2 m hin p hp
  exact ⟨c, hc, ho, by rw [ofVersions, ho]; exact hK⟩

/-- The function that writes the request of a method of a model sends the body that the properties C41 and those that
follow it say, for every request that is in the memory and every writer. -/
theorem c102_write (h : Ready P inputs base K) (hm : MethodsContain P (load inputs) K base) {service version : Text}
    {v : LoadedVersion} {name : Text} {r : Resource} (hr : ResourceOf (load inputs) service version v name r)
    (hK : K v.id = true) {m : Method} (hin : m ∈ r.methods) (hg : GoodMethod (load inputs) r m)
    {s : State Val Library} {N : Value Val → Prop} {fields : Parameter → Val} {request : Value Val}
    (hreq : RequestAt (schemaOf (load inputs) (ofVersions K)) (codeOf (load inputs) base) N s m fields request)
    (writer : Value Val) {fuel : Nat} (hf : ∀ p ∈ written m, sizeOf (fields p) ≤ fuel) :
    Submits s (call P (goZero P) D limit (fuel + 2) (packageFor (load inputs) v) (requestFunction r m)
      [request, writer] s) (writeRequest (schemaOf (load inputs) (ofVersions K)) m fields) :=
  MethodsRun.c100_write h.whole.1 (c102_linked h hm hr hK hin hg) hreq writer hf

/-- The function that reads the response of a method of a model sets the fields that the properties C41 and those that
follow it say, and returns an error when they say so. It never panics. -/
theorem c102_read (h : Ready P inputs base K) (hm : MethodsContain P (load inputs) K base) {service version : Text}
    {v : LoadedVersion} {name : Text} {r : Resource} (hr : ResourceOf (load inputs) service version v name r)
    (hK : K v.id = true) {m : Method} (hin : m ∈ r.methods) (hg : GoodMethod (load inputs) r m)
    {s : State Val Library} {fields : Parameter → Val} {a : Nat}
    (hres : ResponseAt (schemaOf (load inputs) (ofVersions K)) (codeOf (load inputs) base) s m fields a)
    {ts : List Tok} (hsrc : s.user.source = some ts) (reader : Value Val) {fuel : Nat} (hf : ts.length < fuel)
    (hlim : ts.length < limit) :
    ∃ o, Settles (fun n => readResponse D (schemaOf (load inputs) (ofVersions K)) n m fields ts) o ∧
      Answers (schemaOf (load inputs) (ofVersions K)) (codeOf (load inputs) base) s m a
        (call P (goZero P) D limit (fuel + 2) (packageFor (load inputs) v) (responseFunction r m) [.pointer a, reader] s)
        o :=
  MethodsRun.c100_read h.whole.1 h.whole.2 (c102_linked h hm hr hK hin hg) hres hsrc reader hf hlim

/-- If the source can't be read then the function that reads the response of a method that has one returns an error. -/
theorem c102_read_no_source (h : Ready P inputs base K) (hm : MethodsContain P (load inputs) K base)
    {service version : Text} {v : LoadedVersion} {name : Text} {r : Resource}
    (hr : ResourceOf (load inputs) service version v name r) (hK : K v.id = true) {m : Method} (hin : m ∈ r.methods)
    (hg : GoodMethod (load inputs) r m) {s : State Val Library} {fields : Parameter → Val} {a : Nat}
    (hres : ResponseAt (schemaOf (load inputs) (ofVersions K)) (codeOf (load inputs) base) s m fields a)
    (hsrc : s.user.source = none) (reader : Value Val) (fuel : Nat) (hc : MethodsCode.Complete m)
    (ho : obtained m ≠ []) :
    Answers (schemaOf (load inputs) (ofVersions K)) (codeOf (load inputs) base) s m a
      (call P (goZero P) D limit (fuel + 2) (packageFor (load inputs) v) (responseFunction r m) [.pointer a, reader] s)
      .error :=
  MethodsRun.c100_read_no_source h.whole.1 (c102_linked h hm hr hK hin hg) hres hsrc reader fuel hc ho

/-! ## Bodies -/

/-- If a method is accepted, and the names of its parameters are different, then the values that are the whole body of
its requests and responses are objects or lists. -/
theorem c102_bodies (b : Builtins) (hb : b.Present) (heap : Heap) (m : Method)
    (ha : Accepted (checkMethod b (resolved heap m))) (hn : (m.parameters.map (·.name)).Nodup) :
    ∀ p ∈ wholes m, ∀ c, heap[p.typ.id]? = some c → c.kind.isStruct = true ∨ c.kind = .list := by
  have hn' : ((resolved heap m).parameters.map (·.name)).Nodup := by
    rw [resolved, List.map_map, show ((fun p : Parameter => p.name) ∘ Reader.resolveParameter heap) = (·.name) from
      funext fun p => (resolved_same heap p).1]
    exact hn
  have key : ∀ p ∈ wholes (resolved heap m), Rule.Struct p ∨ Rule.IsList p := by
    intro p hp
    generalize resolved heap m = m' at ha hn' hp
    have hmem := wholes_mem hp
    unfold wholes at hp
    unfold MethodsCode.kindOf at hp
    by_cases h1 : m'.name = Nom.add
    · rw [if_pos h1] at hp
      have r := ((c11_add_accepted_iff b hb m' h1).mp ha).1
      exact .inl (body_is hn' r.one (fun q hq hs => (r.body q hq hs).2) hmem (bodyOf_is hp))
    · rw [if_neg h1] at hp
      by_cases h2 : m'.name = Nom.delete ∨ m'.name = Nom.asyncDelete
      · rw [if_pos h2] at hp
        cases hp
      · rw [if_neg h2] at hp
        by_cases h3 : m'.name = Nom.get
        · rw [if_pos h3] at hp
          have r := ((c13_get_accepted_iff b hb m' h3).mp ha).1
          exact .inl (body_is hn' r.one (fun q hq hs => (r.body q hq hs).2) hmem (bodyOf_is hp))
        · rw [if_neg h3] at hp
          by_cases h4 : m'.name = Nom.list
          · rw [if_pos h4] at hp
            cases hp
          · rw [if_neg h4] at hp
            by_cases h5 : m'.name = Nom.post
            · rw [if_pos h5] at hp
              have r := ((c15_post_accepted_iff b hb m' h5).mp ha).1
              rcases List.mem_append.mp hp with hp | hp
              · exact .inl (r.types p hmem (.inl (lastThat_is hp)))
              · exact .inl (r.types p hmem (.inr (lastThat_is hp)))
            · rw [if_neg h5] at hp
              by_cases h6 : m'.name = Nom.search
              · rw [if_pos h6] at hp
                have r := ((c15_search_accepted_iff b hb m' h6).mp ha).1
                exact .inl (body_is hn' r.oneBody (fun q hq hs => (r.body q hq hs.1 hs.2).2) hmem
                  (by simpa using lastThat_is hp)).1
              · rw [if_neg h6] at hp
                by_cases h7 : m'.name = Nom.update ∨ m'.name = Nom.asyncUpdate
                · rw [if_pos h7] at hp
                  have r := ((c16_update_accepted_iff b hb m' h7).mp ha).1
                  exact body_is hn' r.one (fun q hq hs => (r.body q hq hs).2) hmem (bodyOf_is hp)
                · rw [if_neg h7] at hp
                  cases hp
  intro p hp c hc
  have := key (Reader.resolveParameter heap p) (by
    rw [resolved_wholes]
    exact List.mem_map.mpr ⟨p, hp, rfl⟩)
  unfold Rule.Struct Rule.IsList at this
  rw [resolved_kind hc] at this
  rcases this with (h | h) | h
  · rw [h]; exact .inl rfl
  · rw [h]; exact .inl rfl
  · exact .inr h

/-- Without the condition on the names it isn't true: the rules allow two parameters called `Body`, and the generated
code uses the first one. -/
theorem c102_repeated_refuted : ¬ ∀ (b : Builtins) (_ : b.Present) (heap : Heap) (m : Method)
    (_ : Accepted (checkMethod b (resolved heap m))),
    ∀ p ∈ wholes m, ∀ c, heap[p.typ.id]? = some c → c.kind.isStruct = true ∨ c.kind = .list := by
  intro h
  have := h { boolean := some 0, integer := some 1, string := some 2 } ⟨rfl, rfl, rfl⟩
    [{ name := Nom.boolean, kind := .scalar }, { name := parseUsingCase t!"Cluster", kind := .class }]
    { name := Nom.add, parameters :=
        [{ name := Nom.body, typ := ⟨0, .scalar⟩, isIn := true, isOut := false },
         { name := Nom.body, typ := ⟨1, .class⟩, isIn := true, isOut := true }] } (by decide)
    { name := Nom.body, typ := ⟨0, .scalar⟩, isIn := true, isOut := false } (by decide) _ rfl
  revert this
  decide

/-! ## An example -/

/-- A model with a class, and a resource with an action, a method that returns a page and a method whose body is an
object. -/
def methodsInput : SourceModel :=
  { services := [{ name := t!"clusters_mgmt", versions := [{ name := t!"v1", files := [{ decls :=
      [ .resource t!"Root" [] [] [.locator { name := t!"Clusters", members := [.target t!"Clusters"] }],
        .resource t!"Clusters" [] []
          [ .method { name := t!"Add", parameters :=
              [{ name := t!"Body", ref := .plain t!"Cluster", directions := [.input, .output] }] },
            .method { name := t!"List", parameters :=
              [{ name := t!"Items", ref := .list t!"Cluster", directions := [.output] }] },
            .method { name := t!"Purge", parameters :=
              [{ name := t!"Fast", ref := .plain t!"Boolean", directions := [.input] },
               { name := t!"Done", ref := .plain t!"Boolean", directions := [.output] }] } ],
        .class t!"Cluster" [] [] [{ name := t!"Region", ref := .plain t!"String" }] ] }] }] }] }

theorem methods_versions : GoodVersions (load [methodsInput]) exampleVersion := by
  intro w hw
  have : w = 0 := by simpa [exampleVersion] using hw
  subst this
  refine ⟨t!"clusters_mgmt", t!"v1", _, _, rfl, rfl, rfl, ⟨by decide, by decide, by decide, by decide⟩, by decide,
    by decide⟩

theorem methods_names : GoodNames (load [methodsInput]) exampleVersion := by
  intro id c hc hT hk
  have h : ∀ c ∈ (load [methodsInput]).heap, ofVersions exampleVersion c = true →
      c.kind.isStruct = true ∨ c.kind = .enum →
      ((goName c).head?.map Char.isUpper) = some true ∧ '.' ∉ goName c := by decide +kernel
  obtain ⟨h1, h2⟩ := h c (List.mem_of_getElem? hc) hT hk
  refine ⟨?_, h2⟩
  cases hn : goName c with
  | nil => rw [hn] at h1; cases h1
  | cons x y => rw [hn] at h1; exact ⟨x, y, rfl, by simpa using h1⟩

theorem methods_defined : Whole.Defined (load [methodsInput]) := by
  intro a b v hv k x hx
  obtain ⟨id, c, hc, rfl⟩ := Whole.typeAt_of_view (load_inv _) hv hx
  have h : ∀ c ∈ (load [methodsInput]).heap, c.kind ≠ .undefined := by decide +kernel
  exact h c (List.mem_of_getElem? hc.cell)

theorem methods_json : GoodJson (load [methodsInput]) exampleVersion := by
  have h0 : ∀ c ∈ (load [methodsInput]).heap, ofVersions exampleVersion c = true →
      c.kind ≠ .map ∧ '.' ∉ camel c.name ∧ '.' ∉ goName c ∧ ∀ a ∈ c.attributes, a.link = false := by decide +kernel
  have h1 : (load [methodsInput]).heap.all (fun c =>
      !ofVersions exampleVersion c || c.kind != .list || c.element.toList.all fun e =>
        (load [methodsInput]).heap[e]?.toList.all fun u => u.kind != .list && u.kind != .map) = true := by decide +kernel
  rw [List.all_eq_true] at h1
  refine ⟨fun id c hc hT hk e u he hu => ?_, fun id c hc hT hk => absurd hk (h0 c (List.mem_of_getElem? hc) hT).1,
    fun id c hc hT a ha hl => absurd hl (by rw [(h0 c (List.mem_of_getElem? hc) hT).2.2.2 a ha]; simp),
    fun id c hc hT _ => ⟨(h0 c (List.mem_of_getElem? hc) hT).2.1, (h0 c (List.mem_of_getElem? hc) hT).2.2.1⟩⟩
  have := h1 c (List.mem_of_getElem? hc)
  simp only [hT, hk, he, Option.toList_some, List.all_cons, hu, List.all_nil, Bool.and_true] at this
  simpa using this

/-- The program: the code of the types and that of the methods. -/
def methodsProgram : Program := fun pkg =>
  jsonProgram (load [methodsInput]) (ofVersions exampleVersion) exampleBase pkg ++
    if pkg = t!"v1" then
      ((load [methodsInput]).graph.flatMap fun r => r.methods.flatMap fun m =>
        (messageOf (TypesCode.contextOf (load [methodsInput]) exampleBase 0) r m).items).map (·.decl)
    else []

theorem methods_legal : ∀ pkg, Legal (methodsProgram pkg) := by
  intro pkg
  by_cases h : pkg = t!"v1"
  · subst h
    unfold Legal
    decide +kernel
  · have hnone : ∀ c ∈ (load [methodsInput]).heap, ofVersions exampleVersion c = true →
        packageOf (load [methodsInput]) c = t!"v1" := by decide +kernel
    have : methodsProgram pkg = [] := by
      rw [methodsProgram, if_neg h, List.append_nil]
      unfold jsonProgram
      rw [List.filter_eq_nil_iff.mpr]
      · rfl
      · intro c hc hk
        simp only [Bool.and_eq_true, beq_iff_eq] at hk
        exact h (hk.2.symm.trans (hnone c hc hk.1))
    rw [this]
    exact List.nodup_nil

theorem methods_ready : Ready methodsProgram [methodsInput] exampleBase exampleVersion := by
  have hjson : ∀ pkg, Legal (jsonProgram (load [methodsInput]) (ofVersions exampleVersion) exampleBase pkg) :=
    fun pkg => by
      have := methods_legal pkg
      rw [Legal, methodsProgram, List.flatMap_append] at this
      exact (List.pairwise_append.mp this).1
  obtain ⟨h1, h2⟩ := c98_program (load [methodsInput]) (ofVersions exampleVersion) exampleBase hjson
  exact ⟨by decide, methods_defined, methods_versions, methods_names, methods_json,
    ⟨methods_legal, fun id c hc hT hk d hd => List.mem_append_left _ (h1.objects id c hc hT hk d hd),
      fun id c hc hT hk i hi => List.mem_append_left _ (h1.enums id c hc hT hk i hi)⟩,
    ⟨fun id c hc hT hk i hi => List.mem_append_left _ (h2.objects id c hc hT hk i hi),
      fun id c hc hT hk e u he hu g1 g2 i hi => List.mem_append_left _ (h2.lists id c hc hT hk e u he hu g1 g2 i hi)⟩⟩

theorem methods_contain : MethodsContain methodsProgram (load [methodsInput]) exampleVersion exampleBase := by
  intro a b v n r hr hK m hm i hi
  obtain ⟨id, -, hg⟩ := hr.resource
  have h0 : v.id = 0 := by simpa [exampleVersion] using hK
  rw [packageFor, h0, show GoRef.versionSelector (Whole.ownerOf (load [methodsInput]) (some 0)) = t!"v1" by
    decide +kernel]
  rw [h0] at hi
  refine List.mem_append_right _ ?_
  rw [if_pos rfl]
  exact List.mem_map.mpr ⟨i, List.mem_flatMap.mpr ⟨r, List.mem_of_getElem? hg, List.mem_flatMap.mpr ⟨m, hm, hi⟩⟩, rfl⟩

/-- The resource of the example. -/
def methodsResource : Resource := (load [methodsInput]).graph[0]'(by decide +kernel)

/-- The version of the example. -/
def methodsVersion : LoadedVersion := ((load [methodsInput]).version t!"clusters_mgmt" t!"v1").get (by decide +kernel)

theorem methods_resource : ResourceOf (load [methodsInput]) t!"clusters_mgmt" t!"v1" methodsVersion t!"clusters"
    methodsResource :=
  ⟨(Option.some_get _).symm, 0, by decide +kernel, List.getElem?_eq_getElem _⟩

theorem methods_good : ∀ m ∈ methodsResource.methods, GoodMethod (load [methodsInput]) methodsResource m := by
  have h1 : methodsResource.methods.all (fun m => !(camel m.name).contains '.' &&
      ((obtained m).all fun p => (obtained m).all fun q =>
        decide (Go.privateName p.name = Go.privateName q.name → p = q)) &&
      (wholes m).all fun p => ((load [methodsInput]).heap[p.typ.id]?).toList.all fun c =>
        c.kind.isStruct || c.kind == .list) = true := by decide +kernel
  have h2 : '.' ∉ camel methodsResource.name := by decide +kernel
  rw [List.all_eq_true] at h1
  intro m hm
  have h := h1 m hm
  simp only [Bool.and_eq_true] at h
  obtain ⟨⟨h3, h4⟩, h5⟩ := h
  refine ⟨h2, by simpa using h3, fun p hp q hq => ?_, fun p hp c hc => ?_⟩
  · exact of_decide_eq_true (List.all_eq_true.mp (List.all_eq_true.mp h4 p hp) q hq)
  · have := List.all_eq_true.mp h5 p hp
    rw [hc] at this
    simpa using this

/-- The action of the example. -/
def methodsPurge : Method := methodsResource.methods[2]'(by decide +kernel)

/-- The parameter of the action. -/
def methodsFast : Parameter := methodsPurge.parameters[1]'(by decide +kernel)

/-- The result of the action. -/
def methodsDone : Parameter := methodsPurge.parameters[0]'(by decide +kernel)

/-- The schema of the example. -/
abbrev methodsSchema : Schema := schemaOf (load [methodsInput]) (ofVersions exampleVersion)

/-- A memory with a request and a response of the action. -/
def methodsMemory (ts : Option (List Tok)) : State Val Library :=
  { structs := [[(t!"fast", .pointer 1)], [([], .bool true)], [(t!"status", .int 200), (t!"done", .nil)]]
    arrays := [], maps := [], vars := [], user := { source := ts } }

theorem purge_mem : methodsPurge ∈ methodsResource.methods := List.getElem_mem _

theorem fast_boolean : methodsSchema methodsFast.typ.id = .boolean := by decide +kernel

theorem done_boolean : methodsSchema methodsDone.typ.id = .boolean := by decide +kernel

/-- The function that writes the request of the action of that model. -/
example : Sends (methodsMemory none) (call methodsProgram (goZero methodsProgram) (fun _ => none) 0 102 t!"v1"
      t!"writeClustersPurgeRequest" [.pointer 0, .other .nil] (methodsMemory none))
    (some [.objectStart, .str t!"fast", .colon, .bool true, .objectEnd]) := by
  have hw : written methodsPurge = [methodsFast] := by decide +kernel
  have hreq : RequestAt methodsSchema (codeOf (load [methodsInput]) exampleBase) (fun _ => True) (methodsMemory none)
      methodsPurge (fun _ => .bool true) (.pointer 0) := by
    refine ⟨0, _, rfl, rfl, ?_⟩
    rw [hw]
    intro p hp
    cases List.mem_singleton.mp hp
    refine ⟨.pointer 1, by rw [show Go.privateName methodsFast.name = t!"fast" by decide +kernel]; rfl,
      .inr ⟨nofun, ?_, ?_⟩⟩
    · show GoBuilder.typed methodsSchema methodsFast.typ.id false (.bool true) = true
      decide +kernel
    · rw [fast_boolean, if_neg (by simp), if_pos (show GoJson.Shape.isScalar .boolean = true from rfl)]
      exact ⟨1, rfl, rfl⟩
  have h := c102_write (D := fun _ => none) (limit := 0) methods_ready methods_contain methods_resource
    (by decide +kernel) purge_mem (methods_good _ purge_mem) hreq (.other .nil) (fuel := 100)
    (fun p _ => by simp)
  rw [show requestFunction methodsResource methodsPurge = t!"writeClustersPurgeRequest" by decide +kernel,
    show packageFor (load [methodsInput]) methodsVersion = t!"v1" by decide +kernel,
    show writeRequest methodsSchema methodsPurge (fun _ => .bool true) =
      .body [.objectStart, .str t!"fast", .colon, .bool true, .objectEnd] by decide +kernel] at h
  exact h

/-- The function that reads the response of the action of that model. -/
example : ∃ t fs b, call methodsProgram (goZero methodsProgram) (fun _ => none) 100 102 t!"v1"
      t!"readClustersPurgeResponse" [.pointer 2, .other .nil]
      (methodsMemory (some [.objectStart, .str t!"done", .colon, .bool true, .objectEnd])) = .ok ([.nil], t) ∧
    t.structs[2]? = some fs ∧ fs.lookup t!"done" = some (.pointer b) ∧ t.structs[b]? = some [([], .bool true)] := by
  have ho : obtained methodsPurge = [methodsDone] := by decide +kernel
  have hn : Go.privateName methodsDone.name = t!"done" := by decide +kernel
  have hres : ResponseAt methodsSchema (codeOf (load [methodsInput]) exampleBase)
      (methodsMemory (some [.objectStart, .str t!"done", .colon, .bool true, .objectEnd])) methodsPurge (fun _ => .nil) 2 := by
    refine ⟨_, rfl, ?_⟩
    rw [ho]
    intro p hp
    cases List.mem_singleton.mp hp
    refine ⟨.nil, by rw [hn]; rfl, ?_⟩
    rw [MethodsRun.Stored, done_boolean, if_pos (show GoJson.Shape.isScalar .boolean = true from rfl)]
    exact .inl ⟨rfl, rfl⟩
  obtain ⟨o, hs, hr⟩ := c102_read (D := fun _ => none) (limit := 100) methods_ready methods_contain methods_resource
    (by decide +kernel) purge_mem (methods_good _ purge_mem) hres rfl (.other .nil) (fuel := 100) (by decide) (by decide)
  have hs' : Settles (fun n => readResponse (fun _ => none) methodsSchema n methodsPurge (fun _ => .nil)
      [.objectStart, .str t!"done", .colon, .bool true, .objectEnd])
      (.fields (GoJson.setField (fun _ => .nil) methodsDone (.bool true))) := by
    refine ⟨20, fun f hf => ?_⟩
    obtain ⟨g, rfl⟩ := Nat.exists_eq_add_of_le' hf
    rfl
  rw [hs.unique hs', show responseFunction methodsResource methodsPurge = t!"readClustersPurgeResponse" by decide +kernel,
    show packageFor (load [methodsInput]) methodsVersion = t!"v1" by decide +kernel] at hr
  obtain ⟨t, h1, -, -, -, -, fs, h3, h4⟩ := hr
  rw [ho] at h4
  obtain ⟨y, hy, hd⟩ := h4 methodsDone (by simp)
  rw [MethodsRun.Stored, show schemaOf (load [methodsInput]) (ofVersions exampleVersion) methodsDone.typ.id = .boolean
    from done_boolean, if_pos (show GoJson.Shape.isScalar .boolean = true from rfl)] at hd
  rw [hn] at hy
  rcases hd with ⟨h, -⟩ | ⟨-, b, rfl, -, hb⟩
  · simp [GoJson.setField] at h
  · refine ⟨t, fs, b, h1, h3, hy, ?_⟩
    rw [hb]
    simp [GoJson.setField, TypesRun.value]

end Verif.ModelRun
