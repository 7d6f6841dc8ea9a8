import Verif.Lemmas.MethodsAnswer

/-!
# C100: running the generated code that writes requests and reads responses

The functions that the JSON generator writes for the methods of a resource (`writeXRequest` and `readXResponse`) do what
the model of the bodies of requests and responses says: the same JSON is sent, and the same fields of the response are
set, in any memory and for any source. The code that is run is that of the files of C99.
-/

namespace Verif.MethodsRun

open GoJson (Val Schema DateParser Received Written writeRequest readResponse setField)
open GoProgram hiding given
open TypesRun (Legal value)
open BuildersRun (Program Code isObject Holds exampleTypes exampleCode exampleZeros)
open JsonCode (Entity)
open JsonRun (Library ListCode Whole Flat Settles Sends exampleJson exampleLists exampleProgram)
open MethodsCode (Context messageOf Complete)

variable {P : Program} {zero : Text → Text → Value Val} {Dt : DateParser} {limit : Nat} {S : Schema}
  {U : TypeId → Code} {J : TypeId → Entity} {L : TypeId → ListCode}

/-- The function that writes the request of a method sends what the model says, for every request in the memory and
every writer. It returns the error of the writer if there is one. It panics exactly when the model says so, and it
doesn't do anything when the request of the method doesn't have a body. -/
theorem c100_write (hw : Whole P zero S U J L) {x : Context} {r : Resource} {m : Method} {pkg : Text}
    (hl : Linked P S U J L x r m pkg) {s : State Val Library} {D : Value Val → Prop} {fields : Parameter → Val}
    {request : Value Val} (hr : RequestAt S U D s m fields request) (writer : Value Val) {fuel : Nat}
    (hf : ∀ p ∈ written m, sizeOf (fields p) ≤ fuel) :
    Submits s (JsonRun.call P zero Dt limit (fuel + 2) pkg (messageOf x r m).write [request, writer] s)
      (writeRequest S m fields) :=
  submits_request hw hl hr writer hf

/-- The function that reads the response of a method sets the fields that the model says, and returns an error exactly
when the model says so, for every source that can be read. The other fields of the response and the rest of the memory
don't change. It never panics. -/
theorem c100_read (hw : Whole P zero S U J L) (hflat : Flat S) {x : Context} {r : Resource} {m : Method}
    {pkg : Text} (hl : Linked P S U J L x r m pkg) {s : State Val Library} {fields : Parameter → Val} {a : Nat}
    (hR : ResponseAt S U s m fields a) {ts : List Tok} (hsrc : s.user.source = some ts) (reader : Value Val)
    {fuel : Nat} (hf : ts.length < fuel) (hlim : ts.length < limit) :
    ∃ o, Settles (fun n => readResponse Dt S n m fields ts) o ∧
      Answers S U s m a
        (JsonRun.call P zero Dt limit (fuel + 2) pkg (messageOf x r m).read [.pointer a, reader] s) o :=
  answers_response hw hflat hl hR hsrc reader hf hlim

/-- If the source can't be read then the function that reads the response of a method that has one returns an error,
and the memory doesn't change except for the response. -/
theorem c100_read_no_source (hw : Whole P zero S U J L) {x : Context} {r : Resource} {m : Method}
    {pkg : Text} (hl : Linked P S U J L x r m pkg) {s : State Val Library} {fields : Parameter → Val} {a : Nat}
    (hR : ResponseAt S U s m fields a) (hsrc : s.user.source = none) (reader : Value Val) (fuel : Nat)
    (hc : Complete m) (ho : obtained m ≠ []) :
    Answers S U s m a
      (JsonRun.call P zero Dt limit (fuel + 2) pkg (messageOf x r m).read [.pointer a, reader] s) .error :=
  no_source_response hw hl hR hsrc reader fuel hc ho

/-! ## A program -/

/-- The context of the methods of the example. -/
def exampleContext : Context :=
  let owner : GoRef.Owner := { service := parseUsingCase t!"ClustersMgmt", version := parseUsingCase t!"V1" }
  let decl := fun name => ({ owner := owner, name := parseUsingCase name } : GoRef.Decl)
  { base := t!"example.com/sdk"
    pkg := t!"example.com/sdk/clustersmgmt/v1"
    owner := owner
    typeOf := fun
      | 0 => .struct (decl t!"Cluster")
      | 1 => .basic .string
      | 3 => .list (decl t!"StringList") (.basic .string)
      | 4 => .list (decl t!"ClusterList") (.struct (decl t!"Cluster"))
      | 5 => .map (decl t!"StringMap") (.basic .string)
      | _ => .basic .boolean
    ownerOf := fun _ => owner }

/-- The parameters of the example. -/
def exampleParameter (name : Text) (ty : TypeId) (kind : Verif.Kind) (isIn isOut : Bool) : Parameter :=
  { name := parseUsingCase name, typ := ⟨ty, kind⟩, isIn := isIn, isOut := isOut }

/-- The flag of the action of the example. -/
def exampleForce : Parameter := exampleParameter t!"Force" 7 .scalar true false
/-- The labels of the action of the example. -/
def exampleLabels : Parameter := exampleParameter t!"Labels" 5 .map true false
/-- The result of the action of the example. -/
def exampleDone : Parameter := exampleParameter t!"Done" 7 .scalar false true
/-- The cluster returned by the action of the example. -/
def exampleTarget : Parameter := exampleParameter t!"Target" 0 .class false true
/-- The items of the page of the example. -/
def exampleItems : Parameter := exampleParameter t!"Items" 4 .list false true
/-- The other field of the page of the example. -/
def exampleNote : Parameter := exampleParameter t!"Note" 1 .scalar false true
/-- The body of the method of the example. -/
def exampleBody : Parameter := exampleParameter t!"Body" 0 .class true true

/-- An action. -/
def exampleMove : Method :=
  { name := parseUsingCase t!"Move", parameters := [exampleForce, exampleLabels, exampleDone, exampleTarget] }

/-- A method that returns a page. -/
def exampleList : Method := { name := Nom.list, parameters := [exampleItems, exampleNote] }

/-- A method whose body is an object. -/
def exampleAdd : Method := { name := Nom.add, parameters := [exampleBody] }

/-- The resource. -/
def exampleResource : Resource :=
  { name := parseUsingCase t!"Clusters", methods := [exampleAdd, exampleList, exampleMove] }

/-- The program: the types, their JSON support, and that of the resource. -/
def exampleMethods : Program := fun pkg =>
  exampleProgram pkg ++ if pkg = t!"v1" then
    (exampleResource.methods.flatMap fun m => (messageOf exampleContext exampleResource m).items).map (·.decl) else []

set_option maxRecDepth 40000 in
theorem methods_legal1 : Legal (exampleMethods t!"v1") := by
  unfold Legal
  decide +kernel

theorem methods_legal (pkg : Text) : Legal (exampleMethods pkg) := by
  by_cases h1 : pkg = t!"v1"
  · subst h1
    exact methods_legal1
  · have : exampleMethods pkg = exampleProgram pkg := by
      rw [exampleMethods, if_neg h1, List.append_nil]
    rw [this]
    by_cases h2 : pkg = t!"v2"
    · subst h2
      exact JsonRun.example_legal2
    · have : exampleProgram pkg = [] := by rw [exampleProgram, if_neg h1, if_neg h2]
      rw [this]
      exact List.Pairwise.nil

theorem methods_whole : Whole exampleMethods exampleZeros exampleTypes exampleCode exampleJson exampleLists := by
  have hw := JsonRun.example_whole
  have hmore : ∀ pkg d, d ∈ exampleProgram pkg → d ∈ exampleMethods pkg := fun _ _ h => List.mem_append_left _ h
  refine ⟨⟨hw.base.zeros, fun ty c n as h => ?_⟩, fun ty c n as h => ?_, fun ty n e h => ?_⟩
  · exact { hw.base.linked ty c n as h with
      legal := methods_legal _
      declared := fun d hd => hmore _ d ((hw.base.linked ty c n as h).declared d hd) }
  · exact { hw.objects ty c n as h with
      declared := fun i hi => hmore _ _ ((hw.objects ty c n as h).declared i hi) }
  · exact { hw.lists ty n e h with
      legal := methods_legal _
      declared := fun i hi => hmore _ _ ((hw.lists ty n e h).declared i hi) }

theorem methods_declared (m : Method) (hm : m ∈ exampleResource.methods) :
    ∀ i ∈ (messageOf exampleContext exampleResource m).items, i.decl ∈ exampleMethods t!"v1" := by
  intro i hi
  refine List.mem_append_right _ ?_
  rw [if_pos rfl]
  exact List.mem_map.mpr ⟨i, List.mem_flatMap.mpr ⟨m, hm, hi⟩, rfl⟩

theorem example_distinct (m : Method) (h : ((obtained m).all fun p => (obtained m).all fun q =>
    decide (Go.privateName p.name = Go.privateName q.name → p = q)) = true) :
    ∀ p ∈ obtained m, ∀ q ∈ obtained m, Go.privateName p.name = Go.privateName q.name → p = q := by
  intro p hp q hq
  exact of_decide_eq_true (List.all_eq_true.mp (List.all_eq_true.mp h p hp) q hq)

theorem move_members : members exampleMove = [exampleForce, exampleLabels, exampleDone, exampleTarget] := by
  decide +kernel

theorem move_linked : Linked exampleMethods exampleTypes exampleCode exampleJson exampleLists exampleContext
    exampleResource exampleMove t!"v1" where
  legal := methods_legal1
  declared := methods_declared _ (by simp [exampleResource])
  write := by decide +kernel
  read := by decide +kernel
  scalar := by
    rw [move_members]
    decide +kernel
  anything := by
    rw [move_members]
    intro p hp
    simp only [List.mem_cons, List.not_mem_nil, or_false] at hp
    rcases hp with rfl | rfl | rfl | rfl <;> exact ⟨nofun, nofun⟩
  forms := by
    rw [move_members]
    intro p hp
    simp only [List.mem_cons, List.not_mem_nil, or_false] at hp
    rcases hp with rfl | rfl | rfl | rfl
    · exact rfl
    · exact ⟨1, rfl, rfl⟩
    · exact rfl
    · exact ⟨rfl, by decide +kernel, by decide +kernel⟩
  functions := by
    intro p hp
    have : wholes exampleMove = [] := by decide +kernel
    rw [this] at hp
    cases hp
  distinct := example_distinct _ (by decide +kernel)
  items := by
    intro p n e h
    have : MethodsCode.itemsOf exampleMove = none := by decide +kernel
    rw [this] at h
    cases h

theorem list_linked : Linked exampleMethods exampleTypes exampleCode exampleJson exampleLists exampleContext
    exampleResource exampleList t!"v1" where
  legal := methods_legal1
  declared := methods_declared _ (by simp [exampleResource])
  write := by decide +kernel
  read := by decide +kernel
  scalar := by
    rw [show members exampleList = [exampleNote, exampleItems] by decide +kernel]
    decide +kernel
  anything := by
    rw [show members exampleList = [exampleNote, exampleItems] by decide +kernel]
    intro p hp
    simp only [List.mem_cons, List.not_mem_nil, or_false] at hp
    rcases hp with rfl | rfl <;> exact ⟨nofun, nofun⟩
  forms := by
    rw [show members exampleList = [exampleNote, exampleItems] by decide +kernel]
    intro p hp
    simp only [List.mem_cons, List.not_mem_nil, or_false] at hp
    rcases hp with rfl | rfl
    · exact rfl
    · exact ⟨_, _, rfl, rfl, by decide +kernel, by decide +kernel⟩
  functions := by
    intro p hp
    have : wholes exampleList = [] := by decide +kernel
    rw [this] at hp
    cases hp
  distinct := example_distinct _ (by decide +kernel)
  items := by
    intro p n e h hS
    have : MethodsCode.itemsOf exampleList = some exampleItems := by decide +kernel
    rw [this] at h
    cases h
    cases hS
    rw [show MethodsCode.pageList exampleContext (exampleContext.typeOf exampleItems.typ.id) = some t!"ClusterList" by
      decide +kernel]
    exact ⟨rfl, by decide +kernel⟩

theorem add_linked : Linked exampleMethods exampleTypes exampleCode exampleJson exampleLists exampleContext
    exampleResource exampleAdd t!"v1" where
  legal := methods_legal1
  declared := methods_declared _ (by simp [exampleResource])
  write := by decide +kernel
  read := by decide +kernel
  scalar := by
    rw [show members exampleAdd = [] by decide +kernel]
    nofun
  anything := by
    rw [show members exampleAdd = [] by decide +kernel]
    nofun
  forms := by
    rw [show members exampleAdd = [] by decide +kernel]
    nofun
  functions := by
    rw [show wholes exampleAdd = [exampleBody] by decide +kernel]
    intro p hp
    cases List.mem_singleton.mp hp
    exact .inl ⟨rfl, by decide +kernel, by decide +kernel⟩
  distinct := example_distinct _ (by decide +kernel)
  items := by
    intro p n e h
    have : MethodsCode.itemsOf exampleAdd = none := by decide +kernel
    rw [this] at h
    cases h

theorem example_names : Go.privateName exampleForce.name = t!"force" ∧ Go.privateName exampleLabels.name = t!"labels" ∧
    Go.privateName exampleDone.name = t!"done" ∧ Go.privateName exampleTarget.name = t!"target" ∧
    Go.privateName exampleNote.name = t!"note" ∧ Go.privateName exampleItems.name = t!"items" := by
  decide +kernel

/-! ## A request -/

/-- The values of the parameters of the request. -/
def exampleFields (p : Parameter) : Val :=
  if p.typ.id = 7 then .bool true else if p.typ.id = 5 then .map [(t!"b", .str t!"2"), (t!"a", .str t!"1")] else .nil

/-- A memory that contains a request for the action, and an empty response. -/
def exampleMemory : State Val Library :=
  { structs := [
      [(t!"force", .pointer 1), (t!"labels", .map 0)],
      [([], .bool true)],
      [(t!"status", .int 200), (t!"done", .nil), (t!"target", .nil)],
      [(t!"status", .int 200), (t!"note", .nil), (t!"items", .nil)]]
    arrays := []
    maps := [[(t!"b", .str t!"2"), (t!"a", .str t!"1")]]
    vars := []
    user := {} }

theorem exampleRequest : RequestAt exampleTypes exampleCode (fun _ => True) exampleMemory exampleMove exampleFields
    (.pointer 0) := by
  refine ⟨0, _, rfl, rfl, ?_⟩
  rw [show written exampleMove = [exampleForce, exampleLabels] by decide +kernel]
  intro p hp
  simp only [List.mem_cons, List.not_mem_nil, or_false] at hp
  rcases hp with rfl | rfl
  · refine ⟨.pointer 1, by rw [example_names.1]; rfl, .inr ⟨nofun, by decide +kernel, ?_⟩⟩
    exact ⟨1, rfl, rfl⟩
  · refine ⟨.map 0, by rw [example_names.2.1]; rfl, .inr ⟨nofun, by decide +kernel, ?_⟩⟩
    change Holds exampleTypes exampleCode (fun _ => True) exampleMemory 5
      (.map [(t!"b", .str t!"2"), (t!"a", .str t!"1")]) (.map 0)
    rw [Holds]
    exact ⟨0, _, rfl, trivial, rfl, by decide, ⟨rfl, rfl, rfl, rfl, trivial⟩⟩

/-- The function that writes the request of the action of the example. -/
example : Sends exampleMemory (JsonRun.call exampleMethods exampleZeros (fun _ => none) 0 1002 t!"v1"
      t!"writeClustersMoveRequest" [.pointer 0, .other .nil] exampleMemory)
    (some [.objectStart, .str t!"force", .colon, .bool true, .comma, .str t!"labels", .colon,
      .objectStart, .str t!"a", .colon, .str t!"1", .comma, .str t!"b", .colon, .str t!"2", .objectEnd,
      .objectEnd]) := by
  have h := c100_write (Dt := fun _ => none) (limit := 0) methods_whole move_linked exampleRequest (.other .nil)
    (fuel := 1000) (by
      rw [show written exampleMove = [exampleForce, exampleLabels] by decide +kernel]
      decide +kernel)
  rw [show writeRequest exampleTypes exampleMove exampleFields =
    .body [.objectStart, .str t!"force", .colon, .bool true, .comma, .str t!"labels", .colon,
      .objectStart, .str t!"a", .colon, .str t!"1", .comma, .str t!"b", .colon, .str t!"2", .objectEnd,
      .objectEnd] by decide +kernel,
    show (messageOf exampleContext exampleResource exampleMove).write = t!"writeClustersMoveRequest" by
      decide +kernel] at h
  exact h

/-! ## Responses -/

/-- The memory when a response is received. -/
def exampleReceived (ts : Option (List Tok)) : State Val Library := { exampleMemory with user := { source := ts } }

theorem exampleResponse (ts : Option (List Tok)) :
    ResponseAt exampleTypes exampleCode (exampleReceived ts) exampleMove (fun _ => .nil) 2 := by
  refine ⟨_, rfl, ?_⟩
  rw [show obtained exampleMove = [exampleDone, exampleTarget] by decide +kernel]
  intro p hp
  simp only [List.mem_cons, List.not_mem_nil, or_false] at hp
  rcases hp with rfl | rfl
  · refine ⟨.nil, by rw [example_names.2.2.1]; rfl, .inl ⟨rfl, rfl⟩⟩
  · refine ⟨.nil, by rw [example_names.2.2.2.1]; rfl, ?_⟩
    change Holds exampleTypes exampleCode (· ≠ .pointer 2) (exampleReceived ts) 0 Val.nil .nil
    simp [Holds, value]

theorem examplePage (ts : Option (List Tok)) :
    ResponseAt exampleTypes exampleCode (exampleReceived ts) exampleList (fun _ => .nil) 3 := by
  refine ⟨_, rfl, ?_⟩
  rw [show obtained exampleList = [exampleNote, exampleItems] by decide +kernel]
  intro p hp
  simp only [List.mem_cons, List.not_mem_nil, or_false] at hp
  rcases hp with rfl | rfl
  · refine ⟨.nil, by rw [example_names.2.2.2.2.1]; rfl, .inl ⟨rfl, rfl⟩⟩
  · refine ⟨.nil, by rw [example_names.2.2.2.2.2]; rfl, ?_⟩
    change Holds exampleTypes exampleCode (· ≠ .pointer 3) (exampleReceived ts) 4 Val.nil .nil
    simp [Holds, value]

/-- The response of the action: an object with a field that isn't known, a flag and a cluster. The flag is set, behind
a pointer, and so is the cluster. The status doesn't change. -/
example : ∃ t fs b c, JsonRun.call exampleMethods exampleZeros (fun _ => none) 100 102 t!"v1"
      t!"readClustersMoveResponse" [.pointer 2, .other .nil]
      (exampleReceived (some [.objectStart, .str t!"other", .colon, .bool false, .comma, .str t!"done", .colon, .bool true,
        .comma, .str t!"target", .colon, .objectStart, .str t!"id", .colon, .str t!"123", .objectEnd, .objectEnd])) =
        .ok ([.nil], t) ∧
    t.structs[2]? = some fs ∧ fs.lookup t!"status" = some (.int 200) ∧
    fs.lookup t!"done" = some (.pointer b) ∧ t.structs[b]? = some [([], .bool true)] ∧
    fs.lookup t!"target" = some c ∧
    Holds exampleTypes exampleCode (· ≠ .pointer 2) t 0
      (.obj 2 t!"123" [] [.str [], .nil, .nil, .nil, .nil, .nil, .nil]) c := by
  obtain ⟨o, ho, hr⟩ := c100_read (Dt := fun _ => none) (limit := 100) (fuel := 100) methods_whole JsonRun.example_flat
    move_linked (exampleResponse (some [.objectStart, .str t!"other", .colon, .bool false, .comma, .str t!"done", .colon,
      .bool true, .comma, .str t!"target", .colon, .objectStart, .str t!"id", .colon, .str t!"123", .objectEnd,
      .objectEnd])) rfl (.other .nil) (by decide) (by decide)
  have hs : Settles (fun n => readResponse (fun _ => none) exampleTypes n exampleMove (fun _ => .nil)
      [.objectStart, .str t!"other", .colon, .bool false, .comma, .str t!"done", .colon,
        .bool true, .comma, .str t!"target", .colon, .objectStart, .str t!"id", .colon, .str t!"123", .objectEnd,
        .objectEnd]) (.fields (setField (setField (fun _ => .nil) exampleDone (.bool true)) exampleTarget
          (.obj 2 t!"123" [] [.str [], .nil, .nil, .nil, .nil, .nil, .nil]))) := by
    refine ⟨20, fun f hf => ?_⟩
    obtain ⟨g, rfl⟩ := Nat.exists_eq_add_of_le' hf
    rfl
  rw [ho.unique hs] at hr
  obtain ⟨t, h1, -, h2, -, -, fs, h3, h4⟩ := hr
  rw [show obtained exampleMove = [exampleDone, exampleTarget] by decide +kernel] at h4
  obtain ⟨y, hy, hd⟩ := h4 exampleDone (by simp)
  obtain ⟨c, hc, ht⟩ := h4 exampleTarget (by simp)
  obtain ⟨fs', h5, -, h6⟩ := h2.response _ rfl
  rw [h3] at h5
  cases h5
  rw [show (messageOf exampleContext exampleResource exampleMove).read = t!"readClustersMoveResponse" by
    decide +kernel] at h1
  rcases hd with ⟨h, -⟩ | ⟨-, b, rfl, -, hb⟩
  · cases h
  · refine ⟨t, fs, b, c, h1, h3, ?_, ?_, hb, ?_, ht⟩
    · rw [h6 _ (by decide +kernel)]
      rfl
    · rw [← hy, example_names.2.2.1]
    · rw [← hc, example_names.2.2.2.1]

/-- A response where the flag isn't a boolean is an error. So is one that can't be read. -/
example : (∃ t, JsonRun.call exampleMethods exampleZeros (fun _ => none) 100 102 t!"v1"
      t!"readClustersMoveResponse" [.pointer 2, .other .nil]
      (exampleReceived (some [.objectStart, .str t!"done", .colon, .str t!"x", .objectEnd])) = .ok ([.error []], t)) ∧
    ∃ t, JsonRun.call exampleMethods exampleZeros (fun _ => none) 100 102 t!"v1"
      t!"readClustersMoveResponse" [.pointer 2, .other .nil] (exampleReceived none) = .ok ([.error []], t) := by
  have hname : (messageOf exampleContext exampleResource exampleMove).read = t!"readClustersMoveResponse" := by
    decide +kernel
  constructor
  · obtain ⟨o, ho, hr⟩ := c100_read (Dt := fun _ => none) (limit := 100) (fuel := 100) methods_whole
      JsonRun.example_flat move_linked (exampleResponse (some [.objectStart, .str t!"done", .colon, .str t!"x", .objectEnd]))
      rfl (.other .nil) (by decide) (by decide)
    have hs : Settles (fun n => readResponse (fun _ => none) exampleTypes n exampleMove (fun _ => .nil)
        [.objectStart, .str t!"done", .colon, .str t!"x", .objectEnd]) .error := by
      refine ⟨20, fun f hf => ?_⟩
      obtain ⟨g, rfl⟩ := Nat.exists_eq_add_of_le' hf
      rfl
    rw [ho.unique hs, hname] at hr
    obtain ⟨t, h1, -⟩ := hr
    exact ⟨t, h1⟩
  · have hr := c100_read_no_source (Dt := fun _ => none) (limit := 100) methods_whole move_linked (exampleResponse none)
      rfl (.other .nil) 100 trivial (by
        rw [show obtained exampleMove = [exampleDone, exampleTarget] by decide +kernel]
        nofun)
    rw [hname] at hr
    obtain ⟨t, h1, -⟩ := hr
    exact ⟨t, h1⟩

/-- The response of the method that returns a page: the items are an object with the slice of the clusters. -/
example : ∃ t fs c, JsonRun.call exampleMethods exampleZeros (fun _ => none) 100 102 t!"v1"
      t!"readClustersListResponse" [.pointer 3, .other .nil]
      (exampleReceived (some [.objectStart, .str t!"items", .colon, .arrayStart, .objectStart, .str t!"id", .colon,
        .str t!"123", .objectEnd, .arrayEnd, .objectEnd])) = .ok ([.nil], t) ∧
    t.structs[3]? = some fs ∧ fs.lookup t!"items" = some c ∧
    Holds exampleTypes exampleCode (· ≠ .pointer 3) t 4
      (.linkList false [] (.list [.obj 2 t!"123" [] [.str [], .nil, .nil, .nil, .nil, .nil, .nil]])) c := by
  obtain ⟨o, ho, hr⟩ := c100_read (Dt := fun _ => none) (limit := 100) (fuel := 100) methods_whole JsonRun.example_flat
    list_linked (examplePage (some [.objectStart, .str t!"items", .colon, .arrayStart, .objectStart, .str t!"id", .colon,
        .str t!"123", .objectEnd, .arrayEnd, .objectEnd])) rfl (.other .nil) (by decide) (by decide)
  have hs : Settles (fun n => readResponse (fun _ => none) exampleTypes n exampleList (fun _ => .nil)
      [.objectStart, .str t!"items", .colon, .arrayStart, .objectStart, .str t!"id", .colon,
        .str t!"123", .objectEnd, .arrayEnd, .objectEnd]) (.fields (setField (fun _ => .nil) exampleItems
          (.linkList false [] (.list [.obj 2 t!"123" [] [.str [], .nil, .nil, .nil, .nil, .nil, .nil]])))) := by
    refine ⟨20, fun f hf => ?_⟩
    obtain ⟨g, rfl⟩ := Nat.exists_eq_add_of_le' hf
    rfl
  rw [ho.unique hs] at hr
  obtain ⟨t, h1, -, -, -, -, fs, h3, h4⟩ := hr
  rw [show obtained exampleList = [exampleNote, exampleItems] by decide +kernel] at h4
  obtain ⟨c, hc, ht⟩ := h4 exampleItems (by simp)
  rw [show (messageOf exampleContext exampleResource exampleList).read = t!"readClustersListResponse" by
    decide +kernel] at h1
  exact ⟨t, fs, c, h1, h3, by rw [← hc, example_names.2.2.2.2.2], ht⟩

end Verif.MethodsRun
