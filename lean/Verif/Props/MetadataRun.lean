import Verif.Lemmas.MetadataRun
import Verif.Props.MetadataCode
import Verif.Props.BuildersRun

/-!
# C101: running the generated JSON support of the metadata

Executing the functions of the file of the JSON support of the metadata, as the specification of that file says that
they are, does what the model of the reading and writing of the metadata says.
-/

namespace Verif.JsonRun

open GoJson (Val DateParser Metadata)
open GoProgram hiding given
open BuildersRun (Program)

variable {P : Program} {zero : Text → Text → Value Val} {Dt : DateParser} {limit : Nat} {pkg : Text}

/-- The function that writes the metadata sends to the writer what the model says, and returns an error only if the
writer fails. It panics if the pointer is nil. -/
theorem c101_marshal (hl : MetadataLinked P zero pkg) {s : State Val Library} {x : Value Val} {o : Option Metadata}
    (hx : MetadataAt s x o) (writer : Value Val) (fuel : Nat) :
    Sends s (call P zero Dt limit (fuel + 2) pkg t!"MarshalMetadata" [x, writer] s) (o.map GoJson.writeMetadata) := by
  have hmem : JsonCode.marshalFunc JsonCode.metadataFunctions t!"object" t!"*Metadata" ∈ P pkg :=
    hl.json _ (List.getElem_mem (l := JsonCode.metadataJson) (n := 0) (by decide))
  rw [call, apply_eq (fuel + 1) [x, writer] s (BuildersRun.resolve_simple pkg t!"MarshalMetadata" (by decide)) hl.legal
    hmem rfl]
  refine call_marshal (fs := JsonCode.metadataFunctions) (y := t!"object") (by simp) rfl fun s' h1 _ _ => ?_
  refine write_metadata hl ?_
  cases x <;> cases o <;> simp only [MetadataAt] at hx ⊢
  rw [h1]
  exact hx

/-- The function that reads the metadata from a source returns what the model says, in a new position of the memory,
and no error, or an error when the model says so. It never panics. -/
theorem c101_unmarshal (hl : MetadataLinked P zero pkg) {s : State Val Library} {r : List Tok}
    (hsrc : s.user.source = some r) (source : Value Val) (fuel : Nat) (hr : r.length < limit) :
    ∃ o, Settles (fun f => GoJson.readMetadata f r) o ∧
      ReceivesMetadata s (call P zero Dt limit (fuel + 2) pkg t!"UnmarshalMetadata" [source] s) o := by
  have hmem : JsonCode.unmarshalFunc JsonCode.metadataFunctions t!"object" t!"*Metadata" ∈ P pkg :=
    hl.json _ (List.getElem_mem (l := JsonCode.metadataJson) (n := 2) (by decide))
  rw [call, apply_eq (fuel + 1) [source] s (BuildersRun.resolve_simple pkg t!"UnmarshalMetadata" (by decide)) hl.legal
    hmem rfl]
  obtain ⟨s1, h1, h2, h3, h4, h5⟩ := unmarshal_call (P := P) (zero := zero) (Dt := Dt) (limit := limit) (k := fuel + 1)
    (q := pkg) (src := source) (fs := JsonCode.metadataFunctions) (x := t!"object") (typ := t!"*Metadata") (by simp) rfl
    hsrc
  obtain ⟨o, h6, h7⟩ := read_metadata (Dt := Dt) (limit := limit) (k := fuel) (s := s1) (h := .other .nil) hl
    (by rw [h4]; exact hr)
  have hb : s1.user.failed = false := by rw [h4]
  have hi : s1.user.input = r := by rw [h4]
  simp only [Says, hb, Bool.false_eq_true, if_false, hi] at h6
  refine ⟨o.map Prod.fst, h6.1.map (Option.map Prod.fst), ?_⟩
  have hg : Grows s s1 := ⟨fun _ _ h => by rw [h1]; exact h, fun _ _ h => by rw [h2]; exact h,
    fun _ _ h => by rw [h3]; exact h⟩
  cases o with
  | none =>
    obtain ⟨t, y, rest, g1, g2, g3, g4⟩ := h7
    refine ⟨{ t with vars := s.vars }, y, ?_, rfl,
      (hg.trans g3).trans ⟨fun _ _ h => h, fun _ _ h => h, fun _ _ h => h⟩, ?_, ?_⟩
    · refine (h5 y t g1 g2).trans ?_
      rw [g4]
      rfl
    · dsimp only
      rw [g4, h4]
    · dsimp only
      rw [g4, h4]
  | some p =>
    obtain ⟨m, rest⟩ := p
    obtain ⟨t, g1, g2, g3, g4, g5⟩ := h7
    rw [h1] at g1 g5
    refine ⟨{ t with vars := s.vars }, ?_, rfl,
      (hg.trans g3).trans ⟨fun _ _ h => h, fun _ _ h => h, fun _ _ h => h⟩, ?_, ?_, g5⟩
    · refine (h5 _ t g1 g2).trans ?_
      rw [g4, hb]
      rfl
    · dsimp only
      rw [g4, h4]
    · dsimp only
      rw [g4, h4]

/-- If no iterator can be created for the source then the function returns an error. -/
theorem c101_source (hl : MetadataLinked P zero pkg) {s : State Val Library} (hsrc : s.user.source = none)
    (source : Value Val) (fuel : Nat) :
    ReceivesMetadata s (call P zero Dt limit (fuel + 1) pkg t!"UnmarshalMetadata" [source] s) none := by
  have hmem : JsonCode.unmarshalFunc JsonCode.metadataFunctions t!"object" t!"*Metadata" ∈ P pkg :=
    hl.json _ (List.getElem_mem (l := JsonCode.metadataJson) (n := 2) (by decide))
  rw [call, apply_eq fuel [source] s (BuildersRun.resolve_simple pkg t!"UnmarshalMetadata" (by decide)) hl.legal
    hmem rfl]
  exact call_unmarshal_none (S := fun _ => .boolean) (U := BuildersRun.exampleCode) (ty := 0)
    (fs := JsonCode.metadataFunctions) (x := t!"object") (by simp) rfl hsrc

/-- Metadata that is written and then read back, by the generated code, is the same. -/
theorem c101_round (hl : MetadataLinked P zero pkg) {s : State Val Library} {x : Value Val} {version : Text}
    {m : Metadata} (hm : m = {} ∨ m = { bitmap := 1, serverVersion := version }) (hx : MetadataAt s x (some m))
    (hb : s.user.broken = false) (hs : s.user.sent = []) (writer source : Value Val) (fuel : Nat) (hlim : 6 ≤ limit) :
    ∃ t ts, call P zero Dt limit (fuel + 2) pkg t!"MarshalMetadata" [x, writer] s = .ok ([.nil], t) ∧
      t.user.sent = ts ∧
      ∀ u : State Val Library, u.user.source = some ts →
        ReceivesMetadata u (call P zero Dt limit (fuel + 2) pkg t!"UnmarshalMetadata" [source] u) (some m) := by
  obtain ⟨A, hw⟩ := c101_marshal (Dt := Dt) (limit := limit) hl hx writer fuel
  refine ⟨_, GoJson.writeMetadata m, hw.trans (by rw [hb]; rfl), ?_, fun u hu => ?_⟩
  · simp [hs]
  · have hlen : (GoJson.writeMetadata m).length < limit := by
      rcases hm with rfl | rfl
      · change 2 < limit; omega
      · simp [GoJson.writeMetadata]; omega
    obtain ⟨o, ⟨F, hF⟩, ho⟩ := c101_unmarshal (Dt := Dt) (limit := limit) hl hu source fuel hlen
    have := hF (F + 3) (by omega)
    have hr : GoJson.readMetadata (F + 3) (GoJson.writeMetadata m) = some m := by
      rcases hm with rfl | rfl
      · simp [GoJson.readMetadata, GoJson.writeMetadata, GoJson.readLoop, GoJson.readObject]
      · simp [GoJson.readMetadata, GoJson.writeMetadata, GoJson.readLoop, GoJson.readObject, GoJson.readString]
    dsimp only at this
    rw [hr] at this
    rw [← this] at ho
    exact ho

/-! ## Examples -/

/-- A program with only the metadata. -/
def metadataProgram : Program := fun pkg =>
  if pkg = t!"v1" then (TypesCode.metadataItems ++ JsonCode.metadataJson).map (·.decl) else []

/-- The zero values of its types. -/
def metadataZero : Text → Text → Value Val := fun _ t =>
  if t = t!"uint32" then .int 0 else if t = t!"string" then .str [] else .nil

theorem metadata_linked : MetadataLinked metadataProgram metadataZero t!"v1" := by
  refine ⟨?_, fun i hi => ?_, fun i hi => ?_, rfl, rfl⟩
  · unfold TypesRun.Legal
    decide +kernel
  · exact List.mem_map.mpr ⟨i, List.mem_append_left _ hi, rfl⟩
  · exact List.mem_map.mpr ⟨i, List.mem_append_right _ hi, rfl⟩

/-- A memory with metadata. -/
def metadataState : State Val Library :=
  { structs := [[(t!"bitmap_", .int 1), (t!"serverVersion", .str t!"1.2")]], user := {} }

example : ∃ t ts, call metadataProgram metadataZero (fun _ => none) 10 2 t!"v1" t!"MarshalMetadata"
      [.pointer 0, .nil] metadataState = .ok ([.nil], t) ∧ t.user.sent = ts ∧
    ∀ u : State Val Library, u.user.source = some ts →
      ReceivesMetadata u (call metadataProgram metadataZero (fun _ => none) 10 2 t!"v1" t!"UnmarshalMetadata" [.nil] u)
        (some { bitmap := 1, serverVersion := t!"1.2" }) :=
  c101_round (s := metadataState) (x := .pointer 0) (version := t!"1.2") metadata_linked (.inr rfl)
    (show metadataState.structs[0]? = _ from rfl) rfl rfl .nil .nil 0 (by decide)

end Verif.JsonRun
