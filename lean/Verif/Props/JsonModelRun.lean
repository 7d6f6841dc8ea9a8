import Verif.Lemmas.JsonModelRun
import Verif.Props.ModelRun
import Verif.Props.JsonReadRun

/-!
# The generated JSON support of a model

**C98.** The generated JSON support of the types of every model that is read is code like the one that the properties
C96 and C97 are about: the functions that the code of a type calls are those of the code of the types of its
attributes and elements. So writing an object to a writer and reading it back from what the writer has received gives
the same object.
-/

namespace Verif.ModelRun

open GoJson (Val Schema Shape AttrShape DateParser Proper Normal writeVal readVal unmarshal)
open GoBuilder (typed)
open GoProgram
open TypesRun (Legal)
open BuildersRun (Program Holds Valid)
open JsonCode (camel)
open JsonRun (Library call Writes Sends Settles Obtains Receives Grows Flat)
open Whole (HeapOk Defined load_inv)
open Session (load)

/-- The types of some versions of every model that is read can be written and read, if the elements of lists and maps
are those that have code and the names can be used. -/
theorem c98_loaded (inputs : List SourceModel) (K : VersionId → Bool) (hj : GoodJson (load inputs) K) :
    Portable (load inputs) (ofVersions K) := by
  have i := load_inv inputs
  refine ⟨hj.lists, hj.maps, hj.links, fun id c hc hT a ha => ?_, fun id c hc hT e u he hu => ?_, hj.names⟩
  · obtain ⟨⟨u, hu, ho⟩, hl⟩ := (i.locals.cells id c hc).attributes a ha
    refine ⟨hl, fun w hw => ?_⟩
    rw [hu] at hw
    cases hw
    exact ho
  · obtain ⟨w, hw, ho⟩ := (i.locals.cells id c hc).element e he
    rw [hu] at hw
    cases hw
    exact ho

/-- The program that contains the code of the types of a part of a model and of their JSON support, and nothing else,
contains them. The Go compiler accepts it if the names of each package are different. -/
theorem c98_program (s : Session) (T : TypeCell → Bool) (base : Text)
    (hl : ∀ pkg, Legal (jsonProgram s T base pkg)) :
    Contains (jsonProgram s T base) s T base ∧ JsonContains (jsonProgram s T base) s T base := by
  have mem : ∀ (id : Nat) c, s.heap[id]? = some c → T c = true → ∀ d ∈ declarationsOf s base c ++ jsonDeclarations s base c,
      d ∈ jsonProgram s T base (packageOf s c) := by
    intro id c hc hT d hd
    exact List.mem_flatMap.mpr ⟨c, List.mem_filter.mpr ⟨List.mem_of_getElem? hc, by simp [hT]⟩, hd⟩
  refine ⟨⟨hl, fun id c hc hT hk d hd => mem id c hc hT d (List.mem_append_left _ ?_),
    fun id c hc hT hk i hi => mem id c hc hT _ (List.mem_append_left _ ?_)⟩,
    ⟨fun id c hc hT hk i hi => mem id c hc hT _ (List.mem_append_right _ ?_),
     fun id c hc hT hk e u _ _ _ _ i hi => mem id c hc hT _ (List.mem_append_right _ ?_)⟩⟩
  · rw [declarationsOf, if_pos hk]
    exact hd
  · rw [declarationsOf, if_neg (by rw [hk]; decide), if_pos hk]
    exact List.mem_map.mpr ⟨i, hi, rfl⟩
  · rw [jsonDeclarations, if_pos hk]
    exact List.mem_map.mpr ⟨i, hi, rfl⟩
  · rw [jsonDeclarations, if_neg (by rw [hk]; decide), if_pos hk]
    exact List.mem_map.mpr ⟨i, hi, rfl⟩

/-- The JSON support of a model, when it is part of a Go program, is code like the one that the properties C96 and
C97 are about. -/
theorem c98_whole (P : Program) (s : Session) (T : TypeCell → Bool) (base : Text) (h : HeapOk s.heap)
    (hu : Usable s T base) (hp : Portable s T) (hP : Contains P s T base) (hJ : JsonContains P s T base) :
    JsonRun.Whole P (goZero P) (schemaOf s T) (codeOf s base) (jsonOf s base) (listsOf s base) ∧ Flat (schemaOf s T) :=
  ⟨json_whole h hu hp hP hJ, json_flat h hu hp⟩

/-- The shape of the structs and classes. -/
theorem schema_object {s : Session} {T : TypeCell → Bool} {base : Text} (h : HeapOk s.heap) (hu : Usable s T base)
    {id : TypeId} {c : TypeCell} (hc : s.heap[id]? = some c) (hT : T c = true) (hk : c.kind.isStruct = true) :
    schemaOf s T id = .struct (c.kind == .class) (goName c) (c.attributes.mapIdx (GoJson.attrShape c)) := by
  cases seen h hu hc hT with
  | basic b h1 h2 =>
    have := typeOf_struct h hc hk
    rw [h1] at this
    cases this
  | enum hk' h1 h2 => rw [hk'] at hk; cases hk
  | struct hk h1 h2 => exact h2
  | list e u n hk' => rw [hk'] at hk; cases hk
  | map e u hk' => rw [hk'] at hk; cases hk

/-- The shape of the lists. -/
theorem schema_list {s : Session} {T : TypeCell → Bool} {base : Text} (h : HeapOk s.heap) (hu : Usable s T base)
    {id : TypeId} {c : TypeCell} (hc : s.heap[id]? = some c) (hT : T c = true) (hk : c.kind = .list) :
    ∃ n e, schemaOf s T id = .list n e := by
  cases seen h hu hc hT with
  | basic b h1 h2 =>
    obtain ⟨e, he, -⟩ := (h id c hc).element (.inl hk)
    rw [schemaOf_eq hc hT, hk, he] at h2
    cases b <;> cases h2
  | enum hk' h1 h2 => rw [hk'] at hk; cases hk
  | struct hk' h1 h2 => rw [hk] at hk'; cases hk'
  | list e u n _ _ _ _ _ _ h2 => exact ⟨n, e, h2⟩
  | map e u hk' => rw [hk'] at hk; cases hk

/-- The attributes of each type can be told apart in JSON documents and in the bitmap. -/
theorem c98_proper (inputs : List SourceModel) (base : Text) (K : VersionId → Bool)
    (hu : Usable (load inputs) (ofVersions K) base) (ht : GoodTags (load inputs) K) :
    Proper (schemaOf (load inputs) (ofVersions K)) := by
  intro id isClass name as hS
  obtain ⟨c, hc, hT⟩ := cell_of_schema (s := load inputs) (T := ofVersions K) (id := id) (by rw [hS]; simp)
  have h := (load_inv inputs).ok.heap
  have hk : c.kind.isStruct = true := by
    cases seen h hu hc hT with
    | basic b h1 h2 => rw [h2] at hS; cases b <;> cases hS
    | enum _ h1 h2 => rw [h2] at hS; cases hS
    | struct hk h1 h2 => exact hk
    | list e u n _ _ _ _ _ h1 h2 => rw [h2] at hS; cases hS
    | map e u _ _ _ _ _ h1 h2 => rw [h2] at hS; cases hS
  rw [schema_object h hu hc hT hk] at hS
  cases hS
  have mem : ∀ a ∈ c.attributes.mapIdx (GoJson.attrShape c), ∃ i b, c.attributes[i]? = some b ∧
      a = GoJson.attrShape c i b := by
    intro a ha
    obtain ⟨i, hi⟩ := List.getElem?_of_mem ha
    rw [List.getElem?_mapIdx] at hi
    cases hb : c.attributes[i]? with
    | none => rw [hb] at hi; cases hi
    | some b => rw [hb] at hi; cases hi; exact ⟨i, b, hb, rfl⟩
  have bit : ∀ i b, c.attributes[i]? = some b → (GoJson.attrShape c i b).bit = reservedBits c + i :=
    fun i b hb => bitIndex_eq c i (List.getElem?_eq_some_iff.mp hb).1
  refine ⟨?_, ?_, ?_, ?_, ?_⟩
  · have hd := ht.different id c hc hT
    rw [List.Nodup, List.pairwise_iff_getElem] at hd
    rw [List.pairwise_iff_getElem]
    intro i j hi hj hij
    simp only [List.length_mapIdx] at hi hj
    simp only [List.getElem_mapIdx]
    have := hd i j (by simpa using hi) (by simpa using hj) hij
    rw [List.getElem_map, List.getElem_map] at this
    exact this
  · intro a ha
    obtain ⟨i, b, hb, rfl⟩ := mem a ha
    exact ht.named id c hc hT b (List.mem_of_getElem? hb)
  · intro hcl a ha
    obtain ⟨i, b, hb, rfl⟩ := mem a ha
    have := ht.reserved id c hc hT (by simpa using hcl) b (List.mem_of_getElem? hb)
    simpa [GoJson.attrShape] using this
  · rw [List.pairwise_iff_getElem]
    intro i j hi hj hij
    simp only [List.length_mapIdx] at hi hj
    simp only [List.getElem_mapIdx]
    rw [bit i _ (List.getElem?_eq_getElem hi), bit j _ (List.getElem?_eq_getElem hj)]
    omega
  · intro hcl a ha
    obtain ⟨i, b, hb, rfl⟩ := mem a ha
    rw [bit i b hb, reservedBits, if_pos (by simpa using hcl)]
    omega

/-- The names of the functions of a struct or class: only those of `Marshal` and `Unmarshal` use the annotations. -/
theorem c98_names (s : Session) (base : Text) (id : TypeId) (c : TypeCell) (hc : s.heap[id]? = some c)
    (hk : c.kind.isStruct = true) :
    (codeOf s base id).pkg = packageOf s c ∧
    (jsonOf s base id).functions.marshal = t!"Marshal" ++ goName c ∧
    (jsonOf s base id).functions.unmarshal = t!"Unmarshal" ++ goName c ∧
    (jsonOf s base id).functions.write = t!"Write" ++ camel c.name ∧
    (jsonOf s base id).functions.read = t!"Read" ++ camel c.name := by
  have ht := context_typ (TypesCode.contextOf s base (c.owner.getD 0)) hk
  rw [codeOf_eq hc, jsonOf_eq hc]
  have hf : (jsonCell s base c).functions = JsonCode.functionsOf (.struct
      { owner := (TypesCode.contextOf s base (c.owner.getD 0)).owner, name := c.name, annotations := c.annotations }) := by
    show JsonCode.functionsOf (TypesCode.Context.typ _ c) = _
    rw [ht]
  rw [hf]
  exact ⟨rfl, rfl, rfl, rfl, rfl⟩

variable {inputs : List SourceModel} {base : Text} {K : VersionId → Bool} {P : Program} {D : DateParser} {limit : Nat}

theorem Ready.whole (r : Ready P inputs base K) :
    JsonRun.Whole P (goZero P) (schemaOf (load inputs) (ofVersions K)) (codeOf (load inputs) base)
      (jsonOf (load inputs) base) (listsOf (load inputs) base) ∧ Flat (schemaOf (load inputs) (ofVersions K)) :=
  c98_whole P _ _ _ (load_inv inputs).ok.heap (c94_loaded inputs base r.root K r.defined r.versions r.names)
    (c98_loaded inputs K r.json) r.code r.support

/-- The function that writes an object of a model to a writer sends what the property C36 and those that follow it say,
and returns the error of the writer. -/
theorem c98_marshal (r : Ready P inputs base K) (id : TypeId) (c : TypeCell)
    (hc : (load inputs).heap[id]? = some c) (hT : ofVersions K c = true) (hk : c.kind.isStruct = true)
    (v : Val) (ht : typed (schemaOf (load inputs) (ofVersions K)) id false v = true) (s : State Val Library)
    (x writer : Value Val) (N : Value Val → Prop)
    (hh : Holds (schemaOf (load inputs) (ofVersions K)) (codeOf (load inputs) base) N s id v x)
    (fuel : Nat) (hf : sizeOf v ≤ fuel) :
    Sends s (call P (goZero P) D limit (fuel + 1) (packageOf (load inputs) c) (t!"Marshal" ++ goName c) [x, writer] s)
      (writeVal (schemaOf (load inputs) (ofVersions K)) id false v) := by
  obtain ⟨hw, -⟩ := r.whole
  have hu := c94_loaded inputs base r.root K r.defined r.versions r.names
  have hS := schema_object (load_inv inputs).ok.heap hu hc hT hk
  obtain ⟨n1, n2, -⟩ := c98_names (load inputs) base id c hc hk
  have := JsonRun.c96_marshal (Dt := D) (limit := limit) hw hS ht hh writer hf
  rw [n1, n2] at this
  exact this

/-- The function that reads an object of a model from a source returns what the property C37 and those that follow it
say, in new positions of the memory, and an error when they say so. -/
theorem c98_unmarshal (r : Ready P inputs base K) (id : TypeId) (c : TypeCell)
    (hc : (load inputs).heap[id]? = some c) (hT : ofVersions K c = true) (hk : c.kind.isStruct = true)
    (s : State Val Library) (ts : List Tok) (hsrc : s.user.source = some ts) (source : Value Val) (fuel : Nat)
    (hf : ts.length < fuel) (hl : ts.length < limit) :
    ∃ o, Settles (fun f => unmarshal D (schemaOf (load inputs) (ofVersions K)) f id ts) o ∧
      Receives (schemaOf (load inputs) (ofVersions K)) (codeOf (load inputs) base) s id
        (call P (goZero P) D limit (fuel + 1) (packageOf (load inputs) c) (t!"Unmarshal" ++ goName c) [source] s) o := by
  obtain ⟨hw, hflat⟩ := r.whole
  have hu := c94_loaded inputs base r.root K r.defined r.versions r.names
  have hS := schema_object (load_inv inputs).ok.heap hu hc hT hk
  obtain ⟨n1, -, n3, -⟩ := c98_names (load inputs) base id c hc hk
  have := JsonRun.c97_unmarshal (Dt := D) (limit := limit) hw hflat hS hsrc source hf hl
  rw [n1, n3] at this
  exact this

/-- The function that writes a list of a model to a writer sends what the property C36 and those that follow it say. -/
theorem c98_marshal_list (r : Ready P inputs base K) (id : TypeId) (c : TypeCell)
    (hc : (load inputs).heap[id]? = some c) (hT : ofVersions K c = true) (hk : c.kind = .list)
    (v : Val) (ht : typed (schemaOf (load inputs) (ofVersions K)) id false v = true) (s : State Val Library)
    (x writer : Value Val) (N : Value Val → Prop)
    (hh : Holds (schemaOf (load inputs) (ofVersions K)) (codeOf (load inputs) base) N s id v x)
    (fuel : Nat) (hf : sizeOf v ≤ fuel) :
    Sends s (call P (goZero P) D limit (fuel + 1) (packageOf (load inputs) c) (t!"Marshal" ++ goName c) [x, writer] s)
      (writeVal (schemaOf (load inputs) (ofVersions K)) id false v) := by
  obtain ⟨hw, -⟩ := r.whole
  have hu := c94_loaded inputs base r.root K r.defined r.versions r.names
  obtain ⟨n, e, hS⟩ := schema_list (load_inv inputs).ok.heap hu hc hT hk
  have := JsonRun.c96_marshal_list (Dt := D) (limit := limit) hw hS ht hh writer hf
  rw [listsOf_eq hc] at this
  exact this

/-- The function that reads a list of a model from a source returns what the property C37 and those that follow it
say. -/
theorem c98_unmarshal_list (r : Ready P inputs base K) (id : TypeId) (c : TypeCell)
    (hc : (load inputs).heap[id]? = some c) (hT : ofVersions K c = true) (hk : c.kind = .list)
    (s : State Val Library) (ts : List Tok) (hsrc : s.user.source = some ts) (source : Value Val) (fuel : Nat)
    (hf : ts.length < fuel) (hl : ts.length < limit) :
    ∃ o, Settles (fun f => unmarshal D (schemaOf (load inputs) (ofVersions K)) f id ts) o ∧
      Receives (schemaOf (load inputs) (ofVersions K)) (codeOf (load inputs) base) s id
        (call P (goZero P) D limit (fuel + 1) (packageOf (load inputs) c) (t!"Unmarshal" ++ goName c) [source] s) o := by
  obtain ⟨hw, hflat⟩ := r.whole
  have hu := c94_loaded inputs base r.root K r.defined r.versions r.names
  obtain ⟨n, e, hS⟩ := schema_list (load_inv inputs).ok.heap hu hc hT hk
  have := JsonRun.c97_unmarshal_list (Dt := D) (limit := limit) hw hflat hS hsrc source hf hl
  rw [listsOf_eq hc] at this
  exact this

/-- Writing an object of a model to a writer and reading it back, in any state of the memory where the source has what
the writer received, gives the same object in new positions of the memory. -/
theorem c98_round_trip (r : Ready P inputs base K) (hg : GoodTags (load inputs) K)
    (id : TypeId) (c : TypeCell)
    (hc : (load inputs).heap[id]? = some c) (hT : ofVersions K c = true) (hk : c.kind.isStruct = true)
    (v : Val) (ht : typed (schemaOf (load inputs) (ofVersions K)) id false v = true)
    (hn : Normal D (schemaOf (load inputs) (ofVersions K)) id false v) (s : State Val Library)
    (x writer : Value Val) (N : Value Val → Prop)
    (hh : Holds (schemaOf (load inputs) (ofVersions K)) (codeOf (load inputs) base) N s id v x)
    (fuel : Nat) (hf : sizeOf v ≤ fuel) (hb : s.user.broken = false) :
    ∃ t ts, call P (goZero P) D limit (fuel + 1) (packageOf (load inputs) c) (t!"Marshal" ++ goName c) [x, writer] s =
        .ok ([.nil], t) ∧ t.user.sent = s.user.sent ++ ts ∧
      ∀ (s' : State Val Library) (source : Value Val) (fuel' : Nat), s'.user.source = some ts → ts.length < fuel' →
        ts.length < limit →
        ∃ t' y, call P (goZero P) D limit (fuel' + 1) (packageOf (load inputs) c) (t!"Unmarshal" ++ goName c)
            [source] s' = .ok ([y, .nil], t') ∧ Grows s' t' ∧
          Holds (schemaOf (load inputs) (ofVersions K)) (codeOf (load inputs) base) (fun l => ¬ Valid s' l) t' id v y := by
  obtain ⟨hw, hflat⟩ := r.whole
  have hu := c94_loaded inputs base r.root K r.defined r.versions r.names
  have hS := schema_object (load_inv inputs).ok.heap hu hc hT hk
  obtain ⟨n1, n2, n3, -⟩ := c98_names (load inputs) base id c hc hk
  have := JsonRun.c97_round_trip (Dt := D) (limit := limit) hw hflat (c98_proper inputs base K hu hg) hS ht hn hh writer hf hb
  rw [n1, n2, n3] at this
  exact this

/-! ## An example -/

theorem example_json : GoodJson (load [exampleInput]) exampleVersion := by
  have h0 : ∀ c ∈ (load [exampleInput]).heap, ofVersions exampleVersion c = true →
      c.kind ≠ .map ∧ '.' ∉ camel c.name ∧ '.' ∉ goName c := by decide +kernel
  have h1 : (load [exampleInput]).heap.all (fun c =>
      !ofVersions exampleVersion c || c.kind != .list || c.element.toList.all fun e =>
        (load [exampleInput]).heap[e]?.toList.all fun u => u.kind != .list && u.kind != .map) = true := by decide +kernel
  have h2 : (load [exampleInput]).heap.all (fun c =>
      !ofVersions exampleVersion c || c.attributes.all fun a => !a.link ||
        (load [exampleInput]).heap[a.typ]?.toList.all fun w => w.element.toList.all fun e =>
          (load [exampleInput]).heap[e]?.toList.all fun u => u.kind.isStruct) = true := by decide +kernel
  rw [List.all_eq_true] at h1 h2
  refine ⟨fun id c hc hT hk e u he hu => ?_, fun id c hc hT hk => absurd hk (h0 c (List.mem_of_getElem? hc) hT).1,
    fun id c hc hT a ha hl w e u hw _ he hu => ?_, fun id c hc hT _ => (h0 c (List.mem_of_getElem? hc) hT).2⟩
  · have := h1 c (List.mem_of_getElem? hc)
    simp only [hT, hk, he, Option.toList_some, List.all_cons, hu, List.all_nil, Bool.and_true] at this
    simpa using this
  · have := h2 c (List.mem_of_getElem? hc)
    simp only [hT, Bool.not_true, Bool.false_or, List.all_eq_true] at this
    have := this a ha
    simpa [hl, hw, he, hu] using this

theorem example_ready : Ready (jsonProgram (load [exampleInput]) (ofVersions exampleVersion) exampleBase)
    [exampleInput] exampleBase exampleVersion := by
  obtain ⟨h1, h2⟩ := c98_program (load [exampleInput]) (ofVersions exampleVersion) exampleBase (by
    intro pkg
    by_cases h : pkg = t!"v1"
    · subst h
      unfold Legal
      decide +kernel
    · have hnone : ∀ c ∈ (load [exampleInput]).heap, ofVersions exampleVersion c = true →
          packageOf (load [exampleInput]) c = t!"v1" := by decide +kernel
      have : jsonProgram (load [exampleInput]) (ofVersions exampleVersion) exampleBase pkg = [] := by
        unfold jsonProgram
        rw [List.filter_eq_nil_iff.mpr]
        · rfl
        · intro c hc hk
          simp only [Bool.and_eq_true, beq_iff_eq] at hk
          exact h (hk.2.symm.trans (hnone c hc hk.1))
      rw [this]
      exact List.nodup_nil)
  exact ⟨by decide, example_defined, example_versions, example_names, example_json, h1, h2⟩

theorem example_tags : GoodTags (load [exampleInput]) exampleVersion := by
  have h : ∀ c ∈ (load [exampleInput]).heap, ofVersions exampleVersion c = true →
      (c.attributes.map Binding.attributeName).Nodup ∧ ∀ a ∈ c.attributes,
        Binding.attributeName a ∉ [[], t!"kind", t!"id", t!"href"] := by decide +kernel
  refine ⟨fun id c hc hT => (h c (List.mem_of_getElem? hc) hT).1, fun id c hc hT a ha => ?_,
    fun id c hc hT _ a ha => ?_⟩
  · have := (h c (List.mem_of_getElem? hc) hT).2 a ha
    simp only [List.mem_cons, not_or] at this
    exact this.1
  · have := (h c (List.mem_of_getElem? hc) hT).2 a ha
    exact fun hm => this (List.mem_cons_of_mem _ hm)

deriving instance DecidableEq for JsonCode.Form

/-- The class of the example has JSON support: a link to a list of groups and a value of an enumerated type. -/
example : ∃ (id : TypeId) (c : TypeCell), (load [exampleInput]).heap[id]? = some c ∧
    ofVersions exampleVersion c = true ∧ c.kind.isStruct = true ∧
    t!"Marshal" ++ goName c = t!"MarshalCluster" ∧
    (jsonOf (load [exampleInput]) exampleBase id).members.map (fun m => (m.tag, m.bit, m.form)) =
      [(t!"groups", 3, .linkList t!"GroupList" t!"WriteGroupList" t!"ReadGroupList"),
       (t!"state", 4, .enum t!"State")] := by
  refine ⟨17, (load [exampleInput]).heap[17]'(by decide +kernel), by rw [List.getElem?_eq_getElem], by decide +kernel,
    by decide +kernel, by decide +kernel, by decide +kernel⟩

/-- An object of that class. -/
def exampleCluster : Val := .obj 0b10010 t!"123" [] [.nil, .str t!"ready"]

/-- A memory with that object. -/
def exampleMemory : State Val Library :=
  { structs := [[(t!"bitmap_", .int 0b10010), (t!"id", .str t!"123"), (t!"href", .str []), (t!"groups", .nil),
      (t!"state", .str t!"ready")]]
    arrays := [], maps := [], vars := [], user := {} }

/-- The hypotheses can be met: that object, in that memory, is written and read back. -/
example : ∃ c, (load [exampleInput]).heap[17]? = some c ∧
    Holds (schemaOf (load [exampleInput]) (ofVersions exampleVersion)) (codeOf (load [exampleInput]) exampleBase)
      (fun _ => True) exampleMemory 17 exampleCluster (.pointer 0) ∧
    typed (schemaOf (load [exampleInput]) (ofVersions exampleVersion)) 17 false exampleCluster = true ∧
    Normal (fun _ => none) (schemaOf (load [exampleInput]) (ofVersions exampleVersion)) 17 false exampleCluster := by
  refine ⟨(load [exampleInput]).heap[17]'(by decide +kernel), by rw [List.getElem?_eq_getElem], ?_,
    by decide +kernel, ?_⟩
  · have hn : (BuildersRun.fieldNames (schemaOf (load [exampleInput]) (ofVersions exampleVersion))
        (codeOf (load [exampleInput]) exampleBase) 17).map Prod.snd = [t!"groups", t!"state"] := by decide +kernel
    rw [exampleCluster, Holds]
    refine ⟨0, _, rfl, trivial, rfl, by decide +kernel, rfl, fun _ => ⟨rfl, rfl⟩, ?_⟩
    generalize BuildersRun.fieldNames _ _ _ = l at hn
    match l, hn with
    | [(a1, _), (a2, _)], rfl => exact ⟨⟨_, rfl, rfl⟩, ⟨_, rfl, rfl⟩, trivial⟩
  · generalize hS : schemaOf (load [exampleInput]) (ofVersions exampleVersion) = S
    have h17 : S 17 = .struct true t!"Cluster" [{ tag := t!"groups", typ := 15, link := true, bit := 3 },
        { tag := t!"state", typ := 16, link := false, bit := 4 }] := by rw [← hS]; decide +kernel
    have h15 : GoJson.zero (S 15) = .nil := by
      have : ∃ e, S 15 = .list t!"GroupList" e := ⟨14, by rw [← hS]; decide +kernel⟩
      obtain ⟨e, he⟩ := this
      rw [he]
      rfl
    have h16 : S 16 = .enum := by rw [← hS]; decide +kernel
    rw [exampleCluster, Normal]
    refine ⟨_, _, _, h17, .inl ⟨by decide, rfl⟩, .inr rfl, fun b hb => ?_, ?_⟩
    · have hlt : b < 5 := by
        rcases Nat.lt_or_ge b 5 with h | h
        · exact h
        · rw [Nat.testBit_lt_two_pow (Nat.lt_of_lt_of_le (by decide : 0b10010 < 2 ^ 5) (Nat.pow_le_pow_right (by decide) h))] at hb
          cases hb
      match b, hlt, hb with
      | 0, _, hb => exact absurd hb (by decide)
      | 1, _, _ => exact .inl ⟨rfl, by decide⟩
      | 2, _, hb => exact absurd hb (by decide)
      | 3, _, hb => exact absurd hb (by decide)
      | 4, _, _ => exact .inr ⟨_, List.mem_cons_of_mem _ List.mem_cons_self, rfl⟩
    · refine ⟨?_, ?_, trivial⟩
      · rw [if_neg (by decide), h15]
      · rw [if_pos (by decide), Normal]
        exact .inr h16

end Verif.ModelRun
