import Verif.Lemmas.MetricsCode
import Verif.Props.Resources

/-!
# Property C103: the file of the metrics support
-/

namespace Verif.MetricsCode

open Docs (Short)
open GoTemplate GoCode
open GoFile (code_one)

/-- The outcomes: nothing is written after an error, and otherwise the file is written, with its exact text, unless the
document has a line that is too long for the code that removes blank lines. -/
theorem c103_file (pkg : Text) (tree : PathTree) (errors : Nat) :
    (errors > 0 → metricsFile pkg tree errors = (none, false)) ∧
    ((metricsFile pkg tree 0).2 = true ↔ Short (document tree)) ∧
    (∀ file, metricsFile pkg tree 0 = (some file, true) →
      ∃ before, file = before ++ t!"\t\t// pathTreeData is the JSON representation of the tree of URL paths.\n" ++
          t!"\t\tvar pathTreeData = `" ++ document tree ++ t!"`\n" ∧
        code [before] = code (GoFile.fileLines pkg [] [])) := by
  refine ⟨metrics_errors pkg tree errors, ?_, ?_⟩
  · by_cases h : Short (document tree)
    · rw [metrics_write pkg tree h]; simp [h]
    · rw [metrics_long pkg tree h]; simp [h]
  · intro file hf
    by_cases h : Short (document tree)
    · rw [metrics_write pkg tree h] at hf
      cases hf
      refine ⟨GoFile.preamble pkg [], by simp [commentLine, varStart], ?_⟩
      have := GoFile.sig_preamble pkg [] []
      rw [List.append_nil, sig_nil, List.append_nil] at this
      rw [code_one, this]
    · rw [metrics_long pkg tree h] at hf
      cases hf

/-- The text is a JSON document with exactly one value, which has exactly the paths of the tree, and its labels are
in order. -/
theorem c103_document (tree : PathTree) :
    ∃ json, Document (document tree) json ∧ SortedTree json ∧ (∀ p, json.Has p ↔ tree.Has p) ∧
      ∀ other, Document (document tree) other → other = json :=
  ⟨sortTree tree, read_document tree, sorted_tree tree, sortTree_has tree, fun _ h =>
    document_unique _ _ _ h (read_document tree)⟩

/-- The file declares the variable exactly when no label contains a backtick. Then its value is the document, and no
other. -/
theorem c103_declares_iff (pkg : Text) (tree : PathTree) (hp : '`' ∉ pkg) (file : Text)
    (hf : metricsFile pkg tree 0 = (some file, true)) :
    ((∃ value, Declares file t!"pathTreeData" value) ↔ ¬ InTree '`' tree) ∧
    ∀ value, Declares file t!"pathTreeData" value → value = document tree := by
  by_cases h : Short (document tree)
  · rw [metrics_write pkg tree h] at hf
    cases hf
    have hpre := mt (preamble_tick pkg).mp hp
    have e : GoFile.preamble pkg [] ++ (commentLine ++ t!"\n" ++ varStart ++ document tree ++ t!"`\n") =
        (GoFile.preamble pkg [] ++ (commentLine ++ t!"\n\t\t")) ++ t!"var " ++ t!"pathTreeData" ++ t!" = `" ++
          (document tree ++ t!"`\n") := by
      simp [varStart]
    have hb : '`' ∉ GoFile.preamble pkg [] ++ (commentLine ++ t!"\n\t\t") := by
      rw [List.mem_append, not_or]
      exact ⟨hpre, by decide +kernel⟩
    have hyes : ¬ InTree '`' tree → Declares (GoFile.preamble pkg [] ++
        (commentLine ++ t!"\n" ++ varStart ++ document tree ++ t!"`\n")) t!"pathTreeData" (document tree) := fun ht =>
      ⟨_, _, e, hb, raw_eq _ _ (mt (document_tick tree).mp ht) (document_return tree)⟩
    have hno : (∃ value, Declares (GoFile.preamble pkg [] ++
        (commentLine ++ t!"\n" ++ varStart ++ document tree ++ t!"`\n")) t!"pathTreeData" value) → ¬ InTree '`' tree := by
      rintro ⟨value, hd⟩ ht
      obtain ⟨a, x, e', ha, hr, -⟩ := declares_tick _ _ _ hd (by decide)
      rw [e] at e'
      have e'' : (GoFile.preamble pkg [] ++ (commentLine ++ t!"\n\t\t") ++ t!"var pathTreeData = ") ++
          '`' :: (document tree ++ t!"`\n") = a ++ '`' :: x := by
        rw [← e']; simp
      obtain ⟨-, rfl⟩ := first_tick _ _ _ _ (by
        rw [List.mem_append, not_or]
        exact ⟨hb, by decide⟩) ha e''
      exact raw_none _ _ ((document_tick tree).mpr ht) hr
    refine ⟨⟨hno, fun h => ⟨_, hyes h⟩⟩, fun value hd => ?_⟩
    exact declares_unique _ _ _ _ (by decide) hd (hyes (hno ⟨value, hd⟩))
  · rw [metrics_long pkg tree h] at hf
    cases hf

variable {g : Graph}

/-- What the program that uses the file sees: the JSON document in the variable has exactly the paths that the model
serves. The labels must not contain backticks. -/
theorem c103_paths_partial (hc : NoClash g) (fuel : Nat) (services : List ServiceRoots)
    (hs : (services.map ServiceRoots.segment).Nodup)
    (hv : ∀ s ∈ services, (s.versions.map VersionRoot.segment).Nodup)
    (tree : PathTree) (h : metricsTree g fuel services = .done tree) (ht : ¬ InTree '`' tree)
    (pkg : Text) (hp : '`' ∉ pkg) (file : Text) (hf : metricsFile pkg tree 0 = (some file, true)) :
    ∃ value json, Declares file t!"pathTreeData" value ∧ Document value json ∧
      (∀ value', Declares file t!"pathTreeData" value' → value' = value) ∧
      (∀ json', Document value json' → json' = json) ∧
      ∀ s v p, json.Has (t!"api" :: s :: v :: p) ↔
        ∃ service ∈ services, service.segment = s ∧
          ∃ version ∈ service.versions, version.segment = v ∧
            ∃ root, version.root = some root ∧ IsServedPath g root p := by
  obtain ⟨h1, h2⟩ := c103_declares_iff pkg tree hp file hf
  obtain ⟨value, hd⟩ := h1.mpr ht
  have := h2 value hd
  subst this
  obtain ⟨json, h3, -, h4, h5⟩ := c103_document tree
  exact ⟨_, json, hd, h3, h2, h5, fun s v p => (h4 _).trans (c59_tree_iff hc fuel services hs hv tree h s v p)⟩

/-! ## Examples -/

/-- The services of the example. -/
def exServices : List ServiceRoots := [{ segment := t!"clusters_mgmt", versions := [{ segment := t!"v1", root := some 0 }] }]

/-- The tree of the example. -/
def exTree : PathTree :=
  .branch [(t!"api", .branch [(t!"clusters_mgmt", .branch [(t!"v1", .branch [(t!"clusters", .branch [(t!"-",
    .branch [(t!"hibernate", .none), (t!"nodes", .none)])])])])])]

/-- The document of the example. -/
def exDocument : Text :=
  List.flatten [
    t!"{\n",
    t!"  \"api\": {\n",
    t!"    \"clusters_mgmt\": {\n",
    t!"      \"v1\": {\n",
    t!"        \"clusters\": {\n",
    t!"          \"-\": {\n",
    t!"            \"hibernate\": null,\n",
    t!"            \"nodes\": null\n",
    t!"          }\n",
    t!"        }\n",
    t!"      }\n",
    t!"    }\n",
    t!"  }\n",
    t!"}\n"]

theorem exTree_eq : metricsTree exGraph 10 exServices = .done exTree := by rfl

theorem exDocument_eq : document exTree = exDocument := by decide +kernel

theorem exDocument_short : Short (document exTree) := by
  rw [exDocument_eq]
  intro l hl
  have : (splitOn '\n' exDocument).all fun l => decide (l.length < 65536) := by decide +kernel
  exact of_decide_eq_true (List.all_eq_true.mp this l hl)

/-- The hypotheses hold for the example. -/
example : NoClash exGraph ∧ (exServices.map ServiceRoots.segment).Nodup ∧
    (∀ s ∈ exServices, (s.versions.map VersionRoot.segment).Nodup) ∧ metricsTree exGraph 10 exServices = .done exTree ∧
    ¬ InTree '`' exTree ∧ '`' ∉ t!"example.com/metrics" ∧
    ∃ file, metricsFile t!"example.com/metrics" exTree 0 = (some file, true) :=
  ⟨exGraph_noClash, by decide, by
    intro s hs
    rw [List.mem_singleton.mp hs]
    decide, exTree_eq, by simp [exTree, InTree, InEntries], by decide, _, metrics_write _ _ exDocument_short⟩

/-- The labels are sorted, and the special characters are escaped. -/
example : document (.branch [(t!"b", .none), (t!"a\"<\n", .branch [])]) =
    t!"{\n  \"a\\\"\\u003c\\n\": {},\n  \"b\": null\n}\n" := by decide +kernel

/-! ## Backticks -/

/-- A model where the segment of a locator, given with the `@http` annotation, contains a backtick. -/
def tickGraph : Graph :=
  [{ name := parseUsingCase t!"Root",
     locators := [{ name := parseUsingCase t!"Clusters", owner := 0, target := some 1,
                    annotations := [{ name := t!"http", parameters := [(t!"name", .str t!"a`b")] }] }] },
   { name := parseUsingCase t!"Clusters" }]

/-- The tree of that model. -/
def tickTree : PathTree :=
  .branch [(t!"api", .branch [(t!"clusters_mgmt", .branch [(t!"v1", .branch [(t!"a`b", .none)])])])]

theorem tickTree_short : Short (document tickTree) := by
  intro l hl
  have : (splitOn '\n' (document tickTree)).all fun l => decide (l.length < 65536) := by decide +kernel
  exact of_decide_eq_true (List.all_eq_true.mp this l hl)

/-- The file isn't always correct: there are models without clashes for which it is written, without errors, and it
doesn't declare the variable, because the raw string ends in the middle. -/
theorem c103_backtick_refuted :
    ¬ ∀ (g : Graph) (fuel : Nat) (services : List ServiceRoots) (tree : PathTree) (pkg file : Text),
      NoClash g → (services.map ServiceRoots.segment).Nodup →
      (∀ s ∈ services, (s.versions.map VersionRoot.segment).Nodup) →
      metricsTree g fuel services = .done tree → '`' ∉ pkg → metricsFile pkg tree 0 = (some file, true) →
      ∃ value, Declares file t!"pathTreeData" value := by
  intro h
  have hc : NoClash tickGraph := by
    intro r
    match r with
    | 0 => decide
    | 1 => decide
    | n + 2 => simp [tickGraph, Graph.locators, Graph.methods]
  have hf := metrics_write t!"m" tickTree tickTree_short
  have hd := h tickGraph 10 exServices tickTree t!"m" _ hc (by decide) (by
    intro s hs
    rw [List.mem_singleton.mp hs]
    decide) (by rfl) (by decide) hf
  exact (c103_declares_iff t!"m" tickTree (by decide) _ hf).1.mp hd (by simp [tickTree, InTree, InEntries])

end Verif.MetricsCode
