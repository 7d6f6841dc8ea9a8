import Verif.Lemmas.ServiceClient
import Verif.Lemmas.GoRefs
import Verif.Props.JsonCode
import Verif.Props.Binding
import Verif.Props.GoNames
import Verif.Props.Outcome

/-!
# C105: the file of the client of a service

The file of the client of a service has, for each version, one method that returns the client of the root of that
version, for the path that results from adding the segment of the version. It is written if and only if all the versions
have a root.
-/

namespace Verif.ServiceClient

open GoTemplate GoCode GoFile
open Docs (Short)
open TypesCode (errorCount effects_foldl emit_eq)
open JsonCode (importEffects imports_effects importErrors imports_order import_mem written)
open GoRef (UsableOwner)

/-- The imports that the client of a service needs. -/
def clientImports (x : Context) : List (Text × Text) :=
  [(t!"net/http", []), (t!"path", [])] ++
    x.service.versions.map fun v => (x.base ++ t!"/" ++ x.service.name.lowerJoined [] ++ t!"/" ++ v.name.lowerJoined [], [])

theorem partOf_eq (x : Context) (v : Version) (h : UsableOwner (x.owner v)) : partOf x v = partFor v := by
  rw [partOf, GoRef.versionSelector_eq h]
  rfl

theorem clientSource_imports (x : Context) (b : Buffer) (hb : x.base ≠ [])
    (hu : ∀ v ∈ x.service.versions, UsableOwner (x.owner v)) :
    clientSource x b = ((importEffects (clientImports x)).foldl Buffer.effect b).emit x.env clientTemplate
      [(t!"Service", .service x.service)] := by
  have : (x.service.versions.map fun v => (GoRef.versionImport x.base (x.owner v), ([] : Text))) =
      x.service.versions.map fun v =>
        (x.base ++ t!"/" ++ x.service.name.lowerJoined [] ++ t!"/" ++ v.name.lowerJoined [], []) := by
    apply List.map_congr_left
    intro v hv
    rw [GoRef.versionImport_eq hb (hu v hv)]
    rfl
  rw [clientSource, imports_effects, this]
  rfl

/-- The import path of the package of the client: the base package, and the name of the service in lower case. -/
def home (x : Context) : Text := x.base ++ t!"/" ++ x.service.name.lowerJoined []

theorem pkg_eq (x : Context) (hb : x.base ≠ []) (hn : x.service.name.lowerJoined [] ≠ []) :
    GoRef.pathJoin x.base (Go.servicePackage x.service.name) = home x := by
  rw [GoRef.pathJoin, if_neg hb, Go.servicePackage, if_neg hn]
  rfl

theorem clientSource_eq (x : Context) (pkg : Text) (hb : x.base ≠ [])
    (hu : ∀ v ∈ x.service.versions, UsableOwner (x.owner v)) (hr : ∀ v ∈ x.service.versions, v.root ≠ none) :
    ∃ t, clientSource x { pkg := pkg } =
        { (importEffects (clientImports x)).foldl Buffer.effect { pkg := pkg } with code := t ++ t!"\n" } ∧
      ∀ r, significant (t ++ r) =
        code (clientLines x.service.name.toText (x.service.versions.map partFor)) ++ significant r := by
  rw [clientSource_imports x _ hb hu]
  obtain ⟨b, hb⟩ : ∃ b, b = (importEffects (clientImports x)).foldl Buffer.effect { pkg := pkg } := ⟨_, rfl⟩
  have he : b.errors = 0 := by rw [hb, (effects_foldl _ _).1, importErrors]
  have hc : b.code = [] := by rw [hb, (effects_foldl _ _).2.2]
  rw [← hb]
  obtain ⟨t, h1, h2⟩ := emit_eq x.env b clientTemplate [(t!"Service", .service x.service)] templateLines _ _ he
    client_lines (run_client x hr)
  have hm : x.service.versions.map (partOf x) = x.service.versions.map partFor :=
    List.map_congr_left fun v hv => partOf_eq x v (hu v hv)
  rw [hm] at h2
  refine ⟨t, ?_, h2⟩
  rw [h1, hc]
  rfl

/-- **C105.** If all the versions have a root then the file is written, unless a line is too long, and contains the lines
of the specification: the type of the client, the function that creates it, and one method for each version. -/
theorem c105_file (x : Context) (order : List (Text × Text)) (hb : x.base ≠ [])
    (hn : x.service.name.lowerJoined [] ≠ []) (hu : ∀ v ∈ x.service.versions, UsableOwner (x.owner v))
    (hr : ∀ v ∈ x.service.versions, v.root ≠ none) :
    ∃ text ok, clientFile x 0 order = (some text, ok) ∧
      (ok = true ↔ Short (clientSource x { pkg := home x }).code) ∧
      (ok = true → significant text = code (fileLines (home x) order
        (clientLines x.service.name.toText (x.service.versions.map partFor)))) := by
  obtain ⟨t, h1, h2⟩ := clientSource_eq x (home x) hb hu hr
  obtain ⟨h4, h5, h6⟩ := written _ _ _ _ _ order h1 h2
  rw [importErrors] at h4
  obtain ⟨text, ht⟩ := Option.ne_none_iff_exists'.mp (h4.mpr rfl)
  obtain ⟨ok, hok⟩ : ∃ ok, ok = ((clientSource x { pkg := home x }).write order).2 := ⟨_, rfl⟩
  have h8 : (clientSource x { pkg := home x }).write order = (some text, ok) := Prod.ext ht hok.symm
  refine ⟨text, ok, by rw [clientFile, pkg_eq x hb hn, h8], ?_, ?_⟩
  · rw [hok, h5]
    simp [h4]
  · rintro rfl
    rw [h6 text h8, ← code_append]
    simp [fileLines]

/-- The imports of the file, in whatever order they are written: the packages that the code uses, which are those of all
the versions and two more, once each. -/
theorem c105_imports (x : Context) (order : List (Text × Text)) (hb : x.base ≠ [])
    (hu : ∀ v ∈ x.service.versions, UsableOwner (x.owner v)) (hr : ∀ v ∈ x.service.versions, v.root ≠ none)
    (ho : order.Perm (clientSource x { pkg := home x }).imports) :
    (order.map Prod.fst).Nodup ∧
    (∀ path, path ∈ order.map Prod.fst ↔ path ≠ home x ∧ path ∈ (clientImports x).map Prod.fst) ∧
    ∀ i ∈ order, i ∈ clientImports x := by
  obtain ⟨t, h1, -⟩ := clientSource_eq x (home x) hb hu hr
  rw [h1] at ho
  obtain ⟨h2, h3, h4⟩ := imports_order _ _ _ ho
  refine ⟨h2, fun p => ?_, fun i hp => (import_mem _ _ _).mp (h4 i.1 i.2 hp)⟩
  rw [h3]
  simp only [import_mem, List.mem_map]
  constructor
  · rintro ⟨-, hp, sel, hm⟩
    exact ⟨hp, _, hm, rfl⟩
  · rintro ⟨hp, i, hm, rfl⟩
    refine ⟨fun e => ?_, hp, i.2, hm⟩
    rcases List.mem_append.mp hm with hm | hm
    · simp only [List.mem_cons, List.not_mem_nil, or_false] at hm
      rcases hm with rfl | rfl
      · exact absurd e (by decide)
      · exact absurd e (by decide)
    · obtain ⟨v, -, rfl⟩ := List.mem_map.mp hm
      exact absurd e (by simp)

/-- The packages of the versions are always imported: they are never the package of the service. -/
theorem c105_versions_imported (x : Context) (order : List (Text × Text)) (hb : x.base ≠ [])
    (hu : ∀ v ∈ x.service.versions, UsableOwner (x.owner v)) (hr : ∀ v ∈ x.service.versions, v.root ≠ none)
    (ho : order.Perm (clientSource x { pkg := home x }).imports) (v : Version) (hv : v ∈ x.service.versions) :
    home x ++ t!"/" ++ (partFor v).package ∈ order.map Prod.fst := by
  refine ((c105_imports x order hb hu hr ho).2.1 _).mpr ⟨?_, ?_⟩
  · intro h
    have := congrArg List.length h
    simp [home] at this
  · refine List.mem_map.mpr ⟨(home x ++ t!"/" ++ (partFor v).package, []), ?_, rfl⟩
    exact List.mem_append_right _ (List.mem_map.mpr ⟨v, hv, rfl⟩)

/-- The file is written exactly if there aren't problems reported before and all the versions have a root. -/
theorem c105_written_iff (x : Context) (problems : Nat) (order : List (Text × Text)) (hb : x.base ≠ [])
    (hn : x.service.name.lowerJoined [] ≠ []) (hu : ∀ v ∈ x.service.versions, UsableOwner (x.owner v)) :
    (clientFile x problems order).1 ≠ none ↔ problems = 0 ∧ ∀ v ∈ x.service.versions, v.root ≠ none := by
  have herr : ∀ k, ((importEffects (clientImports x)).foldl Buffer.effect { pkg := home x, errors := k }).errors = k := by
    intro k
    rw [(effects_foldl _ _).1, importErrors, Nat.add_zero]
  by_cases h0 : problems = 0
  · subst h0
    constructor
    · intro h
      refine ⟨rfl, fun v hv hr => h ?_⟩
      rw [clientFile, pkg_eq x hb hn, clientSource_imports x _ hb hu, Buffer.emit, if_neg (by rw [herr]; omega),
        run_fails x v hv hr, Buffer.write, if_pos (by simp)]
    · rintro ⟨-, hr⟩
      obtain ⟨text, ok, h1, -⟩ := c105_file x order hb hn hu hr
      rw [h1]
      simp
  · have : clientFile x problems order = (none, false) := by
      rw [clientFile, pkg_eq x hb hn, clientSource_imports x _ hb hu, Buffer.emit,
        if_pos (by rw [herr]; omega), Buffer.write, if_pos (by simp [herr]; omega)]
    rw [this]
    simp [h0]

/-- The file fails when the model of the outcome of the generators says that it does. -/
theorem c105_reports (x : Context) (s : Outcome.ServiceInfo) (order : List (Text × Text)) (hb : x.base ≠ [])
    (hn : x.service.name.lowerJoined [] ≠ []) (hu : ∀ v ∈ x.service.versions, UsableOwner (x.owner v))
    (hs : s.versions.map (fun v => v.root.isNone) = x.service.versions.map fun v => v.root.isNone) :
    (clientFile x 0 order).1 = none ↔ Outcome.serviceClientReports s = true := by
  have h1 := c105_written_iff x 0 order hb hn hu
  have h2 : Outcome.serviceClientReports s = (s.versions.map fun v => v.root.isNone).any id := by
    rw [Outcome.serviceClientReports, List.any_map]
    rfl
  rw [h2, hs, List.any_map, ← Decidable.not_iff_not, ← ne_eq, h1]
  simp [List.any_eq_true]

/-- What the names of the methods and the segments are: those of the annotations, or else the name of the version in camel
case and in snake case. -/
theorem c105_names (v : Version) :
    (∀ name, name ≠ [] → NamedBy v.annotations t!"go" name → (partFor v).method = name) ∧
    (NotNamedBy v.annotations t!"go" → upperCamel v.name ∉ goKeywords → (partFor v).method = upperCamel v.name) ∧
    (∀ text, text ≠ [] → NamedBy v.annotations t!"http" text → (partFor v).segment = text) ∧
    (NotNamedBy v.annotations t!"http" → (partFor v).segment = snakeCase v.name) := by
  refine ⟨fun name hne h => (c29_annotation v.annotations v.name).1 name hne h, fun h hk => ?_,
    fun text hne h => ((c28_annotation_wins _ text hne).2 h).2.1 v.name,
    fun h => ((c28_default_is_snake _).2 h).1 v.name⟩
  have := (c29_annotation v.annotations v.name).2 h
  rw [show (partFor v).method = Go.nameOf v.annotations v.name from rfl, this]
  exact (c29_public v.name).2.1 hk

/-- Different versions can have the same method and the same package: then the file has two methods with the same name,
and Go rejects it. -/
theorem c105_distinct_refuted : ∃ v w : Version, v.name.toText ≠ w.name.toText ∧
    (partFor v).method = (partFor w).method ∧ (partFor v).package = (partFor w).package :=
  ⟨{ name := parseUsingSeparator t!"v1" '_', root := none }, { name := parseUsingSeparator t!"v_1" '_', root := none },
    by decide, by decide, by decide⟩

/-! ## Examples -/

/-- A service with two versions. -/
def exContext : Context :=
  { base := t!"example.com/sdk"
    service := { name := parseUsingSeparator t!"clusters_mgmt" '_', versions := [
      { name := parseUsingSeparator t!"v1" '_', root := some { name := Nom.root } },
      { name := parseUsingSeparator t!"v2" '_', root := some { name := Nom.root },
        annotations := [{ name := t!"http", parameters := [(t!"name", .str t!"two")] }] }] } }

theorem exContext_usable : ∀ v ∈ exContext.service.versions, UsableOwner (exContext.owner v) := by
  intro v hv
  simp only [exContext, List.mem_cons, List.not_mem_nil, or_false] at hv
  rcases hv with rfl | rfl
  · exact ⟨by decide, by decide, by decide, by decide⟩
  · exact ⟨by decide, by decide, by decide, by decide⟩

example : ∃ text ok, clientFile exContext 0 [] = (some text, ok) ∧
      (ok = true ↔ Short (clientSource exContext { pkg := home exContext }).code) ∧
      (ok = true → significant text = code (fileLines (home exContext) []
        (clientLines exContext.service.name.toText (exContext.service.versions.map partFor)))) :=
  c105_file exContext [] (by decide) (by decide) exContext_usable (by decide)

example : (exContext.service.versions.map partFor).map Part.segment = [t!"v1", t!"two"] := by decide

example : (exContext.service.versions.flatMap fun v => (partFor v).lines) = [
    t!"// V1 returns a reference to a client for version 'v1'.",
    t!"func (c *Client) V1() *v1.Client {",
    t!"return v1.NewClient(",
    t!"c.transport,",
    t!"path.Join(c.path, \"v1\"),",
    t!")",
    t!"}",
    t!"// V2 returns a reference to a client for version 'v2'.",
    t!"func (c *Client) V2() *v2.Client {",
    t!"return v2.NewClient(",
    t!"c.transport,",
    t!"path.Join(c.path, \"two\"),",
    t!")",
    t!"}"] := by decide +kernel

example (order : List (Text × Text)) : (clientFile { exContext with
    service := { exContext.service with versions := [{ name := parseUsingSeparator t!"v1" '_', root := none }] } } 0 order).1 =
    none := by
  by_cases h : (clientFile { exContext with
    service := { exContext.service with versions := [{ name := parseUsingSeparator t!"v1" '_', root := none }] } } 0 order).1 = none
  · exact h
  · have := (c105_written_iff _ 0 order (by decide) (by decide) (by
      intro v hv
      obtain rfl := List.mem_singleton.mp hv
      exact ⟨by decide, by decide, by decide, by decide⟩)).mp h
    exact absurd rfl (this.2 _ (List.mem_singleton.mpr rfl))

end Verif.ServiceClient
