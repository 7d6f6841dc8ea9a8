import Verif.Lemmas.JsonWriteObject
import Verif.Props.BuildersRun
import Verif.Props.Json

/-!
# C96: running the generated code that writes JSON

The state of a Go program that contains a value of a type, when one of the generated functions that write the values
of that type is called, and what has been written when it returns.
-/

namespace Verif.JsonRun

open GoJson (Val Schema Shape AttrShape DateParser writeVal)
open GoProgram
open TypesRun (Legal value)
open BuildersRun (Program Code resolve isObject Holds)
open JsonCode (Form Entity Listing Functions Member)
open GoBuilder (typed)

variable {P : Program} {zero : Text → Text → Value Val} {Dt : DateParser} {limit : Nat} {S : Schema}
  {U : TypeId → Code} {J : TypeId → Entity} {L : TypeId → ListCode}

/-- The function that writes an object to a stream writes what the model says, and panics when it says so. -/
theorem c96_write (hw : Whole P zero S U J L) {ty : TypeId} {c : Bool} {n : Text} {as : List AttrShape}
    (hS : S ty = .struct c n as) {v : Val} (ht : typed S ty false v = true) {s : State Val Library} {x : Value Val}
    {D : Value Val → Prop} (hh : Holds S U D s ty v x) (stream : Value Val) {fuel : Nat} (hf : sizeOf v ≤ fuel) :
    Writes s (call P zero Dt limit fuel (U ty).pkg (J ty).functions.write [x, stream] s) (writeVal S ty false v) :=
  call_object hw (by simp [hS, isObject])
    (BuildersRun.resolve_simple _ _ ((hw.objects ty _ _ _ hS).simple _ (by simp))) hf ht hh

/-- The function that writes a list to a stream writes what the model says, and panics when it says so. -/
theorem c96_write_list (hw : Whole P zero S U J L) {ty e : TypeId} {n : Text} (hS : S ty = .list n e) {v : Val}
    (ht : typed S ty false v = true) {s : State Val Library} {x : Value Val} {D : Value Val → Prop}
    (hh : Holds S U D s ty v x) (stream : Value Val) {fuel : Nat} (hf : sizeOf v ≤ fuel) :
    Writes s (call P zero Dt limit fuel (L ty).pkg (L ty).listing.functions.write [x, stream] s)
      (writeVal S ty false v) :=
  call_list hw hS (BuildersRun.resolve_simple _ _ ((hw.lists ty _ _ hS).simple _ (by simp))) hf ht hh

/-- The function that writes an object to a writer sends what the model says, and returns the error of the writer. -/
theorem c96_marshal (hw : Whole P zero S U J L) {ty : TypeId} {c : Bool} {n : Text} {as : List AttrShape}
    (hS : S ty = .struct c n as) {v : Val} (ht : typed S ty false v = true) {s : State Val Library} {x : Value Val}
    {D : Value Val → Prop} (hh : Holds S U D s ty v x) (writer : Value Val) {fuel : Nat} (hf : sizeOf v ≤ fuel) :
    Sends s (call P zero Dt limit (fuel + 1) (U ty).pkg (J ty).functions.marshal [x, writer] s)
      (writeVal S ty false v) := by
  have hj := hw.objects ty _ _ _ hS
  have hl := hw.base.linked ty _ _ _ hS
  have hmem : JsonCode.marshalFunc (J ty).functions t!"object" (t!"*" ++ (J ty).object) ∈ P (U ty).pkg :=
    hj.declared _ (List.getElem_mem (n := 0) (by simp [Entity.items]))
  rw [call, apply_eq fuel [x, writer] s (BuildersRun.resolve_simple _ _ (hj.simple _ (by simp))) hl.legal hmem rfl]
  refine call_marshal (fs := (J ty).functions) (y := t!"object") (by simp) rfl fun s' h1 h2 h3 => ?_
  refine c96_write hw hS ht (D := D) ?_ _ hf
  exact Holds.move (s := s) (t := s') ⟨fun _ h _ => h, fun _ _ _ h => by rw [h1]; exact h,
    fun _ _ _ h => by rw [h2]; exact h, fun _ _ _ h => by rw [h3]; exact h⟩ ty v x hh

/-- The function that writes a list to a writer sends what the model says, and returns the error of the writer. -/
theorem c96_marshal_list (hw : Whole P zero S U J L) {ty e : TypeId} {n : Text} (hS : S ty = .list n e) {v : Val}
    (ht : typed S ty false v = true) {s : State Val Library} {x : Value Val} {D : Value Val → Prop}
    (hh : Holds S U D s ty v x) (writer : Value Val) {fuel : Nat} (hf : sizeOf v ≤ fuel) :
    Sends s (call P zero Dt limit (fuel + 1) (L ty).pkg (L ty).listing.functions.marshal [x, writer] s)
      (writeVal S ty false v) := by
  have hl := hw.lists ty _ _ hS
  have hmem : JsonCode.marshalFunc (L ty).listing.functions t!"list" (L ty).listing.typ ∈ P (L ty).pkg :=
    hl.declared _ (List.getElem_mem (n := 0) (by simp [Listing.items]))
  rw [call, apply_eq fuel [x, writer] s (BuildersRun.resolve_simple _ _ (hl.simple _ (by simp))) hl.legal hmem rfl]
  refine call_marshal (fs := (L ty).listing.functions) (y := t!"list") (by simp) rfl fun s' h1 h2 h3 => ?_
  refine c96_write_list hw hS ht (D := D) ?_ _ hf
  exact Holds.move (s := s) (t := s') ⟨fun _ h _ => h, fun _ _ _ h => by rw [h1]; exact h,
    fun _ _ _ h => by rw [h2]; exact h, fun _ _ _ h => by rw [h3]; exact h⟩ ty v x hh

/-- What the writer receives is a JSON document, or the function panics; and if there is no document nothing is
sent. -/
theorem c96_document (hw : Whole P zero S U J L) {ty : TypeId} {c : Bool} {n : Text} {as : List AttrShape}
    (hS : S ty = .struct c n as) {v : Val} (ht : typed S ty false v = true) {s : State Val Library} {x : Value Val}
    {D : Value Val → Prop} (hh : Holds S U D s ty v x) (writer : Value Val) {fuel : Nat} (hf : sizeOf v ≤ fuel)
    (hb : s.user.broken = false) :
    call P zero Dt limit (fuel + 1) (U ty).pkg (J ty).functions.marshal [x, writer] s = .panic ∨
    ∃ t ts, call P zero Dt limit (fuel + 1) (U ty).pkg (J ty).functions.marshal [x, writer] s = .ok ([.nil], t) ∧
      t.user.sent = s.user.sent ++ ts ∧ IsValue ts ∧ Holds S U D t ty v x := by
  have h := c96_marshal (Dt := Dt) (limit := limit) hw hS ht hh writer hf
  cases ho : writeVal S ty false v with
  | none =>
    rw [ho] at h
    exact .inl h
  | some ts =>
    rw [ho] at h
    obtain ⟨A, h⟩ := h
    refine .inr ⟨_, ts, by rw [h, hb]; rfl, by simp, c36_well_formed S ty false v ts ho, ?_⟩
    generalize hs' : ({ s with arrays := _, user := _ } : State Val Library) = s'
    refine Holds.move (s := s) (t := s') ⟨fun _ h _ => h, fun _ _ _ h => by rw [← hs']; exact h, fun a xs _ h => ?_,
      fun _ _ _ h => by rw [← hs']; exact h⟩ ty v x hh
    rw [← hs']
    dsimp only
    rw [List.getElem?_append_left (List.getElem?_eq_some_iff.mp h).1]
    exact h

/-! ## A program -/

open BuildersRun (exampleTypes exampleCode exampleZeros)

/-- The names of the functions of a type. -/
def exampleFunctions (name : Text) : Functions :=
  { marshal := t!"Marshal" ++ name, write := t!"Write" ++ name, unmarshal := t!"Unmarshal" ++ name
    read := t!"Read" ++ name }

/-- The code of the JSON support of the types of the example of the builders. -/
def exampleJson (ty : TypeId) : Entity :=
  if ty = 0 then
    { name := t!"Cluster", object := t!"Cluster", isClass := true, functions := exampleFunctions t!"Cluster"
      members := [
        { field := t!"name", tag := t!"name", bit := 3, scalar := true, form := .string },
        { field := t!"version", tag := t!"version", bit := 4, scalar := false
          form := .object t!"v2.WriteVersion" t!"v2.ReadVersion" },
        { field := t!"tags", tag := t!"tags", bit := 5, scalar := false
          form := .list t!"WriteStringList" t!"ReadStringList" },
        { field := t!"siblings", tag := t!"siblings", bit := 6, scalar := false
          form := .linkList t!"ClusterList" t!"WriteClusterList" t!"ReadClusterList" },
        { field := t!"peers", tag := t!"peers", bit := 7, scalar := false
          form := .list t!"WriteClusterList" t!"ReadClusterList" },
        { field := t!"labels", tag := t!"labels", bit := 8, scalar := false
          form := .map t!"map[string]string" t!"string" .string },
        { field := t!"versions", tag := t!"versions", bit := 9, scalar := false
          form := .map t!"map[string]*v2.Version" t!"*v2.Version" (.object t!"v2.WriteVersion" t!"v2.ReadVersion") }] }
  else
    { name := t!"Version", object := t!"Version", isClass := false
      functions := { marshal := t!"MarshalVersion", write := t!"WriteVersion", unmarshal := t!"UnmarshalVersion"
                     read := t!"ReadVersion" }
      members := [{ field := t!"enabled", tag := t!"enabled", bit := 0, scalar := true, form := .boolean }] }

/-- The code of the JSON support of the lists. -/
def exampleLists (ty : TypeId) : ListCode :=
  { pkg := t!"v1"
    listing :=
      if ty = 3 then
        { element := t!"String", typ := t!"[]string", functions := exampleFunctions t!"StringList", form := .string }
      else
        { element := t!"Cluster", typ := t!"[]*Cluster", functions := exampleFunctions t!"ClusterList"
          form := .object t!"WriteCluster" t!"ReadCluster" } }

/-- The program, with the JSON support. -/
def exampleProgram : Program := fun pkg =>
  if pkg = t!"v1" then
    (exampleCode 0).declarations ++ ((exampleJson 0).items ++ (exampleLists 3).listing.items ++
      (exampleLists 4).listing.items).map (·.decl)
  else if pkg = t!"v2" then (exampleCode 2).declarations ++ (exampleJson 2).items.map (·.decl) else []

set_option maxRecDepth 20000 in
theorem example_legal1 : Legal (exampleProgram t!"v1") := by
  unfold Legal
  decide +kernel

set_option maxRecDepth 20000 in
theorem example_legal2 : Legal (exampleProgram t!"v2") := by
  unfold Legal
  decide +kernel

theorem example_base : BuildersRun.Whole exampleProgram exampleZeros exampleTypes exampleCode := by
  refine ⟨BuildersRun.example_zeros, fun ty c n as h => ?_⟩
  have hl := BuildersRun.example_whole.linked ty c n as h
  have hty : ty = 0 ∨ ty = 2 := by
    match ty, h with
    | 0, _ => exact .inl rfl
    | 2, _ => exact .inr rfl
    | 1, h => nomatch h
    | 3, h => nomatch h
    | 4, h => nomatch h
    | 5, h => nomatch h
    | 6, h => nomatch h
    | _ + 7, h => nomatch h
  rcases hty with rfl | rfl
  · exact { hl with
      legal := example_legal1
      declared := fun d hd => List.mem_append_left _ hd }
  · exact { hl with
      legal := example_legal2
      declared := fun d hd => List.mem_append_left _ hd }

theorem example_simple (f : Functions) (h : ([f.marshal, f.write, f.unmarshal, f.read].all fun n => !n.contains '.') = true) :
    Simple f := by
  intro n hn hd
  have := List.all_eq_true.mp h n hn
  simp [hd] at this

theorem example_whole : Whole exampleProgram exampleZeros exampleTypes exampleCode exampleJson exampleLists := by
  refine ⟨example_base, fun ty c n as h => ?_, fun ty n e h => ?_⟩
  · match ty, h with
    | 0, h =>
      cases h
      refine ⟨fun i hi => List.mem_append_right _ (List.mem_map.mpr ⟨i, by simp [hi], rfl⟩),
        example_simple _ (by decide), rfl, rfl, rfl, rfl, fun i a m f ha hm hf => ?_⟩
      match i, ha, hm, hf with
      | 0, ha, hm, hf => cases ha; cases hm; cases hf; exact ⟨rfl, rfl, rfl, rfl, rfl⟩
      | 1, ha, hm, hf => cases ha; cases hm; cases hf; exact ⟨rfl, rfl, rfl, rfl, rfl, rfl, rfl⟩
      | 2, ha, hm, hf => cases ha; cases hm; cases hf; exact ⟨rfl, rfl, rfl, rfl, _, _, rfl, rfl, rfl, rfl⟩
      | 3, ha, hm, hf =>
        cases ha; cases hm; cases hf
        exact ⟨rfl, rfl, rfl, rfl, _, _, rfl, rfl, rfl, rfl, rfl, rfl, rfl⟩
      | 4, ha, hm, hf => cases ha; cases hm; cases hf; exact ⟨rfl, rfl, rfl, rfl, _, _, rfl, rfl, rfl, rfl⟩
      | 5, ha, hm, hf => cases ha; cases hm; cases hf; exact ⟨rfl, rfl, rfl, rfl, _, rfl, rfl⟩
      | 6, ha, hm, hf => cases ha; cases hm; cases hf; exact ⟨rfl, rfl, rfl, rfl, _, rfl, rfl, rfl, rfl⟩
    | 2, h =>
      cases h
      refine ⟨fun i hi => List.mem_append_right _ (List.mem_map.mpr ⟨i, by simp [hi], rfl⟩),
        example_simple _ (by decide), rfl, rfl, rfl, rfl, fun i a m f ha hm hf => ?_⟩
      match i, ha, hm, hf with
      | 0, ha, hm, hf => cases ha; cases hm; cases hf; exact ⟨rfl, rfl, rfl, rfl, rfl⟩
    | 1, h => nomatch h
    | 3, h => nomatch h
    | 4, h => nomatch h
    | 5, h => nomatch h
    | 6, h => nomatch h
    | _ + 7, h => nomatch h
  · match ty, h with
    | 3, h =>
      cases h
      exact ⟨example_legal1, fun i hi => List.mem_append_right _ (List.mem_map.mpr ⟨i, by simp [hi], rfl⟩),
        example_simple _ (by decide), rfl⟩
    | 4, h =>
      cases h
      exact ⟨example_legal1, fun i hi => List.mem_append_right _ (List.mem_map.mpr ⟨i, by simp [hi], rfl⟩),
        example_simple _ (by decide), rfl, rfl, rfl⟩
    | 0, h => nomatch h
    | 1, h => nomatch h
    | 2, h => nomatch h
    | 5, h => nomatch h
    | 6, h => nomatch h
    | _ + 7, h => nomatch h

/-- A cluster with a name, a version, a list of clusters that is a link, and labels. -/
def exampleCluster : Val :=
  .obj 0b101011010 t!"123" [] [.str t!"my", .obj 1 [] [] [.bool true], .nil,
    .linkList false [] (.list [.obj 9 [] [] [.str t!"x", .nil, .nil, .nil, .nil, .nil, .nil]]), .nil,
    .map [(t!"b", .str t!"2"), (t!"a", .str t!"1")], .nil]

/-- The fields of a cluster in memory. -/
def clusterFields (bitmap : Int) (id : Text) (fields : List (Value Val)) : List (Text × Value Val) :=
  ([t!"bitmap_", t!"id", t!"href"].zip [.int bitmap, .str id, .str []]) ++
    [t!"name", t!"version", t!"tags", t!"siblings", t!"peers", t!"labels", t!"versions"].zip fields

/-- A memory that contains it. -/
def exampleState : State Val Library :=
  { structs := [
      clusterFields 0b101011010 t!"123" [.str t!"my", .pointer 1, .nil, .pointer 2, .nil, .map 0, .nil],
      [(t!"bitmap_", .int 1), (t!"enabled", .bool true)],
      [(t!"href", .str []), (t!"link", .bool false), (t!"items", .slice 0)],
      clusterFields 9 [] [.str t!"x", .nil, .nil, .nil, .nil, .nil, .nil]]
    arrays := [[.pointer 3]]
    maps := [[(t!"b", .str t!"2"), (t!"a", .str t!"1")]]
    vars := []
    user := {} }

/-- What is written. -/
def exampleDocument : List Tok :=
  [.objectStart, .str t!"kind", .colon, .str t!"Cluster", .comma, .str t!"id", .colon, .str t!"123",
    .comma, .str t!"name", .colon, .str t!"my", .comma, .str t!"version", .colon,
    .objectStart, .str t!"enabled", .colon, .bool true, .objectEnd,
    .comma, .str t!"siblings", .colon, .objectStart, .str t!"items", .colon,
    .arrayStart, .objectStart, .str t!"kind", .colon, .str t!"ClusterLink", .comma, .str t!"name", .colon,
    .str t!"x", .objectEnd, .arrayEnd, .objectEnd,
    .comma, .str t!"labels", .colon,
    .objectStart, .str t!"a", .colon, .str t!"1", .comma, .str t!"b", .colon, .str t!"2", .objectEnd,
    .objectEnd]

/-- The hypotheses can be met, and the document isn't trivial. -/
example : Holds exampleTypes exampleCode (fun _ => True) exampleState 0 exampleCluster (.pointer 0) ∧
    typed exampleTypes 0 false exampleCluster = true ∧
    Sends exampleState (call exampleProgram exampleZeros (fun _ => none) 0 (sizeOf exampleCluster + 1) t!"v1"
        t!"MarshalCluster" [.pointer 0, .other .nil] exampleState)
      (some exampleDocument) := by
  have hv : Holds exampleTypes exampleCode (fun _ => True) exampleState 2 (.obj 1 [] [] [.bool true]) (.pointer 1) := by
    rw [Holds]
    exact ⟨1, _, rfl, trivial, rfl, rfl, rfl, (fun h => nomatch h), ⟨_, rfl, rfl⟩, trivial⟩
  have hc : Holds exampleTypes exampleCode (fun _ => True) exampleState 0
      (.obj 9 [] [] [.str t!"x", .nil, .nil, .nil, .nil, .nil, .nil]) (.pointer 3) := by
    rw [Holds]
    exact ⟨3, _, rfl, trivial, rfl, rfl, rfl, fun _ => ⟨rfl, rfl⟩, ⟨_, rfl, rfl⟩, ⟨_, rfl, rfl⟩, ⟨_, rfl, rfl⟩,
      ⟨_, rfl, rfl⟩, ⟨_, rfl, rfl⟩, ⟨_, rfl, rfl⟩, ⟨_, rfl, rfl⟩, trivial⟩
  have hl : Holds exampleTypes exampleCode (fun _ => True) exampleState 4
      (.linkList false [] (.list [.obj 9 [] [] [.str t!"x", .nil, .nil, .nil, .nil, .nil, .nil]])) (.pointer 2) := by
    rw [Holds]
    refine ⟨2, _, rfl, trivial, rfl, ?_⟩
    rw [Holds]
    exact ⟨0, _, rfl, trivial, rfl, hc, trivial⟩
  have hm : Holds exampleTypes exampleCode (fun _ => True) exampleState 5
      (.map [(t!"b", .str t!"2"), (t!"a", .str t!"1")]) (.map 0) := by
    rw [Holds]
    exact ⟨0, _, rfl, trivial, rfl, by decide, ⟨rfl, rfl, rfl, rfl, trivial⟩⟩
  have hh : Holds exampleTypes exampleCode (fun _ => True) exampleState 0 exampleCluster (.pointer 0) := by
    rw [exampleCluster, Holds]
    exact ⟨0, _, rfl, trivial, rfl, rfl, rfl, fun _ => ⟨rfl, rfl⟩, ⟨_, rfl, rfl⟩, ⟨_, rfl, hv⟩, ⟨_, rfl, rfl⟩,
      ⟨_, rfl, hl⟩, ⟨_, rfl, rfl⟩, ⟨_, rfl, hm⟩, ⟨_, rfl, rfl⟩, trivial⟩
  have ht : typed exampleTypes 0 false exampleCluster = true := by decide +kernel
  refine ⟨hh, ht, ?_⟩
  have := c96_marshal (Dt := fun _ => none) (limit := 0) example_whole (ty := 0) rfl ht hh (.other .nil) (Nat.le_refl _)
  have hw : writeVal exampleTypes 0 false exampleCluster = some exampleDocument := by decide +kernel
  rw [hw] at this
  exact this

end Verif.JsonRun
