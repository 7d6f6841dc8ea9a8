import Verif.Lemmas.ResourceClient
import Verif.Props.JsonCode
import Verif.Props.ClientPaths
import Verif.Props.Binding
import Verif.Props.Outcome

/-!
# C106: the client of a resource

The code of the client of a resource has one method for each method of the resource, that creates the request, and one
for each locator, that returns the client of its target. The paths of the requests and of the clients are those of C48.
-/

namespace Verif.ResourceClient

open GoTemplate GoCode GoFile
open TypesCode (errorCount effects_foldl emit_eq)
open JsonCode (importEffects imports_effects importErrors imports_order import_mem)

/-- The imports that the client of a resource needs. -/
def clientImports : List (Text × Text) := [(t!"net/http", []), (t!"path", [])]

/-- The locators that can be used: those with a target. -/
def Linked (g : Graph) (r : Resource) : Prop := ∀ l ∈ r.locators, ∃ k t, l.target = some k ∧ g[k]? = some t

theorem linked_iff (g : Graph) (l : Locator) :
    l.target.bind (g[·]?) ≠ none ↔ ∃ k t, l.target = some k ∧ g[k]? = some t := by
  cases l.target with
  | none => simp
  | some k =>
    rw [Option.bind_some, Option.ne_none_iff_exists']
    simp

/-- **C106.** If all the locators have a target then the code of the client consists of the lines of the specification, no
problems are reported, and the two packages that are needed are imported. -/
theorem c106_client (g : Graph) (r : Resource) (pkg : Text) (h : Linked g r) :
    (clientSource g r { pkg := pkg }).errors = 0 ∧
    significant (clientSource g r { pkg := pkg }).code =
      code (clientLines (nameFor r) r.name.toText r.doc (r.name.toText = t!"root") (r.methods.map (callFor r))
        (r.locators.filterMap fun l => (l.target.bind (g[·]?)).map (stepFor l))) ∧
    ∀ order : List (Text × Text), order.Perm (clientSource g r { pkg := pkg }).imports →
      (order.map Prod.fst).Nodup ∧ (∀ path, path ∈ order.map Prod.fst ↔ path ≠ pkg ∧ path ∈ [t!"net/http", t!"path"]) ∧
      ∀ i ∈ order, i.2 = [] := by
  have hroot : decide (r.name.toText = t!"root") = Decls.isRoot r := by
    rw [Decls.isRoot, show Nom.root.toText = t!"root" by decide]
    by_cases h : r.name.toText = t!"root" <;> simp [h]
  have hs : clientSource g r { pkg := pkg } = ((importEffects clientImports).foldl Buffer.effect { pkg := pkg }).emit
      (env g) clientTemplate [(t!"Resource", .resource r), (t!"Root", .flag (Decls.isRoot r))] := by
    rw [clientSource, imports_effects]
    rfl
  obtain ⟨b, hb⟩ : ∃ b, b = (importEffects clientImports).foldl Buffer.effect { pkg := pkg } := ⟨_, rfl⟩
  have he : b.errors = 0 := by rw [hb, (effects_foldl _ _).1, importErrors]
  have hc : b.code = [] := by rw [hb, (effects_foldl _ _).2.2]
  rw [← hb] at hs
  obtain ⟨t, h1, h2⟩ := emit_eq (env g) b clientTemplate _ templateLines _ _ he client_lines
    (run_client g r fun l hl => (linked_iff g l).mpr (h l hl))
  rw [hs, h1]
  refine ⟨he, ?_, fun order ho => ?_⟩
  · change significant (b.code ++ t ++ t!"\n") = _
    rw [hc, List.nil_append, h2, hroot]
    have : significant t!"\n" = [] := by decide
    rw [this, List.append_nil]
    rfl
  · change order.Perm b.imports at ho
    rw [hb] at ho
    obtain ⟨h3, h4, h5⟩ := imports_order _ _ _ ho
    refine ⟨h3, fun p => ?_, fun i hi => ?_⟩
    · rw [h4]
      simp only [import_mem, clientImports, List.mem_cons, List.not_mem_nil, or_false, Prod.mk.injEq]
      constructor
      · rintro ⟨-, hp, sel, ⟨rfl, -⟩ | ⟨rfl, -⟩⟩
        · exact ⟨hp, .inl rfl⟩
        · exact ⟨hp, .inr rfl⟩
      · rintro ⟨hp, rfl | rfl⟩
        · exact ⟨by decide, hp, [], .inl ⟨rfl, rfl⟩⟩
        · exact ⟨by decide, hp, [], .inr ⟨rfl, rfl⟩⟩
    · have := (import_mem _ _ _).mp (h5 i.1 i.2 hi)
      simp only [clientImports, List.mem_cons, List.not_mem_nil, or_false, Prod.mk.injEq] at this
      rcases this with ⟨-, h⟩ | ⟨-, h⟩ <;> exact h

/-- A problem is reported exactly if there is a locator without target. -/
theorem c106_errors_iff (g : Graph) (r : Resource) (pkg : Text) :
    (clientSource g r { pkg := pkg }).errors = 0 ↔ Linked g r := by
  constructor
  · intro h0 l hl
    rw [← linked_iff]
    intro hn
    have he : ((importEffects clientImports).foldl Buffer.effect { pkg := pkg }).errors = 0 := by
      rw [(effects_foldl _ _).1, importErrors]
    have hs : clientSource g r { pkg := pkg } = ((importEffects clientImports).foldl Buffer.effect { pkg := pkg }).emit
        (env g) clientTemplate [(t!"Resource", .resource r), (t!"Root", .flag (Decls.isRoot r))] := by
      rw [clientSource, imports_effects]
      rfl
    have hf := run_fails g r l hl hn
    rw [clientArgs] at hf
    rw [hs, Buffer.emit, if_neg (by omega), hf] at h0
    simp at h0
  · exact fun h => (c106_client g r pkg h).1

/-- It agrees with the model of the outcome of the generators: a locator without target makes it fail. -/
theorem c106_reports (g : Graph) (r : Resource) (pkg : Text)
    (hg : ∀ l ∈ r.locators, ∀ k, l.target = some k → k < g.length) :
    (clientSource g r { pkg := pkg }).errors ≠ 0 ↔ (r.locators.any fun l => l.target.isNone) = true := by
  rw [Ne, c106_errors_iff, List.any_eq_true]
  constructor
  · intro h
    apply Classical.byContradiction
    intro hn
    refine h fun l hl => ?_
    cases ht : l.target with
    | none => exact absurd ⟨l, hl, by simp [ht]⟩ hn
    | some k => exact ⟨k, g[k]'(hg l hl k ht), rfl, List.getElem?_eq_getElem _⟩
  · rintro ⟨l, hl, hn⟩ h
    obtain ⟨k, t, hk, -⟩ := h l hl
    rw [hk] at hn
    cases hn

/-- The paths that the code calculates are those of C48: that of the request of a method, and that of the client of the
target of a locator. -/
theorem c106_paths (r : Resource) (path : Text) :
    (∀ m id, (callFor r m).path.value path id = GoClient.methodPath path m) ∧
    ∀ (hop : GoClient.Hop) (t : Resource), (stepFor hop.locator t).path.value path hop.id =
      GoClient.locatorPath path hop := by
  constructor
  · intro m id
    rw [callFor, GoClient.methodPath]
    by_cases h : Binding.methodSegment m = []
    · simp [h, PathExpr.value]
    · simp [h, PathExpr.value]
  · intro hop t
    rw [stepFor, GoClient.locatorPath]
    cases h : hop.locator.isVariable
    · simp [PathExpr.value]
    · simp [PathExpr.value]

/-- Following a chain of locators, and then calling a method, the code calculates the path of C48. -/
theorem c106_chain (r : Resource) (base : Text) (hops : List (GoClient.Hop × Resource)) (m : Method) (id : Text) :
    (callFor r m).path.value
      (hops.foldl (fun path h => (stepFor h.1.locator h.2).path.value path h.1.id) base) id =
      GoClient.methodPath (GoClient.clientPath base (hops.map Prod.fst)) m := by
  rw [(c106_paths r _).1, GoClient.clientPath, List.foldl_map]
  congr 1
  congr 1
  funext path h
  exact (c106_paths r path).2 h.1 h.2

/-- Methods that aren't actions use the path of the client, and the methods for variable locators are the only ones that
receive the identifier. -/
theorem c106_shapes (r : Resource) :
    (∀ m : Method, m.name ∈ standardMethods → (callFor r m).path = .same) ∧
    ∀ (l : Locator) (t : Resource), (stepFor l t).path = .id ↔ l.isVariable = true := by
  constructor
  · intro m hm
    simp [callFor, c28_standard_methods m hm]
  · intro l t
    cases h : l.isVariable <;> simp [stepFor, h]

/-! ## Examples -/

/-- The clusters, the cluster that their variable locator references, and the root. -/
def exGraph : Graph := [
  { name := parseUsingCase t!"Clusters"
    methods := [{ name := Nom.add }, { name := parseUsingCase t!"ImportAll" }]
    locators := [{ name := parseUsingCase t!"Cluster", owner := 0, target := some 1, isVariable := true }] },
  { name := parseUsingCase t!"Cluster" },
  { name := Nom.root
    locators := [{ name := parseUsingCase t!"Clusters", owner := 2, target := some 0, doc := t!"The clusters." }] }]

example : Linked exGraph exGraph[0] ∧ Linked exGraph exGraph[2] := by
  constructor
  · intro l hl
    obtain rfl := List.mem_singleton.mp hl
    exact ⟨1, _, rfl, rfl⟩
  · intro l hl
    obtain rfl := List.mem_singleton.mp hl
    exact ⟨0, _, rfl, rfl⟩

example : (callFor exGraph[0] { name := parseUsingCase t!"ImportAll" }).lines t!"ClustersClient" = [
    t!"// ImportAll creates a request for the 'import_all' method.",
    t!"//",
    t!"// ",
    t!"func (c *ClustersClient) ImportAll() *ClustersImportAllRequest {",
    t!"return &ClustersImportAllRequest{",
    t!"transport: c.transport,",
    t!"path: path.Join(c.path, \"import_all\"),",
    t!"}",
    t!"}"] := by decide +kernel

example : (stepFor { name := parseUsingCase t!"Cluster", owner := 0, target := some 1, isVariable := true }
    exGraph[1]).lines t!"ClustersClient" = [
    t!"// Cluster returns the target 'cluster' resource for the given identifier.",
    t!"//",
    t!"// ",
    t!"func (c *ClustersClient) Cluster(id string) *ClusterClient {",
    t!"return NewClusterClient(",
    t!"c.transport,",
    t!"path.Join(c.path, id),",
    t!")",
    t!"}"] := by decide +kernel

example : nameFor exGraph[2] = t!"Client" := by decide +kernel

end Verif.ResourceClient
