import Verif.Model.ResourceClient
import Verif.Spec.ResourceClient
import Verif.Lemmas.ServiceClient
import Verif.Lemmas.ErrorsCode

/-! The code that the template of the clients of resources produces. -/

namespace Verif.ResourceClient

open GoTemplate GoCode GoFile
open TypesCode (runLines_nil run_range run_set commentOf)
open JsonCode (after_nil)
open ErrorsCode (run_truth)
open ServiceClient (runNodes_rest runNodes_set runNodes_range)

/-- The lines of the part of the template for each method. -/
def methodBody : List Line := [
  .set t!"$methodName" [t!"methodName", t!"."],
  .set t!"$methodSegment" [t!"methodSegment", t!"."],
  .set t!"$requestName" [t!"requestName", t!"."],
  .line [.lit t!"// ", .print [t!"$methodName"], .lit t!" creates a request for the '", .print [t!".Name"],
    .lit t!"' method."],
  .line [.lit t!"//"],
  .line [.print [t!"lineComment", t!".Doc"]],
  .line [.lit t!"func (c *", .print [t!"$clientName"], .lit t!") ", .print [t!"$methodName"], .lit t!"() *",
    .print [t!"$requestName"], .lit t!" {"],
  .line [.lit t!"return &", .print [t!"$requestName"], .lit t!"{"],
  .line [.lit t!"transport: c.transport,"],
  .branch [t!"$methodSegment"]
    [.line [.lit t!"path: path.Join(c.path, \"", .print [t!"$methodSegment"], .lit t!"\"),"]]
    [.line [.lit t!"path: c.path,"]],
  .line [.lit t!"}"],
  .line [.lit t!"}"]]

/-- The lines of the part of the template for the root. -/
def rootBody : List Line := [
  .line [.lit t!"// Creates a new request for the method that retrieves the metadata."],
  .line [.lit t!"func (c *", .print [t!"$clientName"], .lit t!") Get() *MetadataRequest {"],
  .line [.lit t!"return &MetadataRequest{"],
  .line [.lit t!"transport: c.transport,"],
  .line [.lit t!"path:      c.path,"],
  .line [.lit t!"}"],
  .line [.lit t!"}"]]

/-- The lines of the part of the template for each locator. -/
def locatorBody : List Line := [
  .set t!"$locatorName" [t!"locatorName", t!"."],
  .set t!"$locatorSegment" [t!"locatorSegment", t!"."],
  .set t!"$targetName" [t!"clientName", t!".Target"],
  .branch [t!".Variable"]
    [
      .line [.lit t!"// ", .print [t!"$locatorName"], .lit t!" returns the target '", .print [t!".Target.Name"],
        .lit t!"' resource for the given identifier."],
      .line [.lit t!"//"],
      .line [.print [t!"lineComment", t!".Doc"]],
      .line [.lit t!"func (c *", .print [t!"$clientName"], .lit t!") ", .print [t!"$locatorName"],
        .lit t!"(id string) *", .print [t!"$targetName"], .lit t!" {"],
      .line [.lit t!"return New", .print [t!"$targetName"], .lit t!"("],
      .line [.lit t!"c.transport,"],
      .line [.lit t!"path.Join(c.path, id),"],
      .line [.lit t!")"],
      .line [.lit t!"}"]]
    [
      .line [.lit t!"// ", .print [t!"$locatorName"], .lit t!" returns the target '", .print [t!".Target.Name"],
        .lit t!"' resource."],
      .line [.lit t!"//"],
      .line [.print [t!"lineComment", t!".Doc"]],
      .line [.lit t!"func (c *", .print [t!"$clientName"], .lit t!") ", .print [t!"$locatorName"],
        .lit t!"() *", .print [t!"$targetName"], .lit t!" {"],
      .line [.lit t!"return New", .print [t!"$targetName"], .lit t!"("],
      .line [.lit t!"c.transport,"],
      .line [.lit t!"path.Join(c.path, \"", .print [t!"$locatorSegment"], .lit t!"\"),"],
      .line [.lit t!")"],
      .line [.lit t!"}"]]]

/-- The lines of the template. -/
def templateLines : List Line := [
  .set t!"$clientName" [t!"clientName", t!".Resource"],
  .line [.lit t!"// ", .print [t!"$clientName"], .lit t!" is the client of the '", .print [t!".Resource.Name"],
    .lit t!"' resource."],
  .line [.lit t!"//"],
  .line [.print [t!"lineComment", t!".Resource.Doc"]],
  .line [.lit t!"type ", .print [t!"$clientName"], .lit t!" struct {"],
  .line [.lit t!"transport http.RoundTripper"],
  .line [.lit t!"path string"],
  .line [.lit t!"}"],
  .line [.lit t!"// New", .print [t!"$clientName"], .lit t!" creates a new client for the '", .print [t!".Resource.Name"],
    .lit t!"'"],
  .line [.lit t!"// resource using the given transport to send the requests and receive the"],
  .line [.lit t!"// responses."],
  .line [.lit t!"func New", .print [t!"$clientName"], .lit t!"(transport http.RoundTripper, path string) *",
    .print [t!"$clientName"], .lit t!" {"],
  .line [.lit t!"return &", .print [t!"$clientName"], .lit t!"{"],
  .line [.lit t!"transport: transport,"],
  .line [.lit t!"path:      path,"],
  .line [.lit t!"}"],
  .line [.lit t!"}"],
  .range [t!".Resource.Methods"] methodBody,
  .branch [t!".Root"] rootBody [],
  .range [t!".Resource.Locators"] locatorBody]

set_option maxRecDepth 100000 in
theorem client_lines : hasLines clientTemplate templateLines = true := by decide +kernel

theorem name_eq (r : Resource) : Decls.clientName r = nameFor r := by
  rw [Decls.clientName, Decls.isRoot, nameFor]
  have : Nom.root.toText = t!"root" := by decide
  rw [this]
  by_cases h : r.name.toText = t!"root"
  · simp [h]
  · simp [h]

theorem request_eq (r : Resource) (m : Method) :
    Go.messageName t!"Request" (Decls.isRoot r) r m = requestFor r m := by
  rw [Decls.isRoot, Go.messageName, requestFor]
  have : Nom.root.toText = t!"root" := by decide
  rw [this]
  by_cases h : r.name.toText = t!"root"
  · simp [h]
  · simp [h]

/-- The variables, when the loops are executed. -/
def clientVars (client : Text) : List (Text × GoTemplate.Value Obj) := [(t!"$clientName", .text client)]

theorem run_method (g : Graph) (r : Resource) (client : Text) (m : Method) :
    runLines (env g) (.obj (.method r m)) (clientVars client) methodBody =
      some ((callFor r m).lines client, []) := by
  rw [methodBody]
  rw [run_set (he := (rfl : eval (env g) (.obj (.method r m)) _ [t!"methodName", t!"."] =
    some (.text (Go.nameOf m.annotations m.name), [])))]
  rw [run_set (he := (rfl : eval (env g) (.obj (.method r m)) _ [t!"methodSegment", t!"."] =
    some (.text (Binding.methodSegment m), [])))]
  rw [run_set (he := (rfl : eval (env g) (.obj (.method r m)) _ [t!"requestName", t!"."] =
    some (.text (Go.messageName t!"Request" (Decls.isRoot r) r m), [])))]
  simp only [after_nil, request_eq]
  obtain ⟨vars, hvars⟩ : ∃ vars : List (Text × GoTemplate.Value Obj), vars =
    (t!"$requestName", .text (requestFor r m)) ::
    (t!"$methodSegment", .text (Binding.methodSegment m)) ::
    (t!"$methodName", .text (Go.nameOf m.annotations m.name)) :: clientVars client := ⟨_, rfl⟩
  rw [← hvars]
  have h1 : printed (env g) (.obj (.method r m)) vars [t!"$methodName"] =
    some (Go.nameOf m.annotations m.name, []) := by rw [hvars]; rfl
  have h2 : printed (env g) (.obj (.method r m)) vars [t!"$methodSegment"] =
    some (Binding.methodSegment m, []) := by rw [hvars]; rfl
  have h3 : printed (env g) (.obj (.method r m)) vars [t!"$requestName"] =
    some (requestFor r m, []) := by rw [hvars]; rfl
  have h4 : printed (env g) (.obj (.method r m)) vars [t!"$clientName"] = some (client, []) := by rw [hvars]; rfl
  have h5 : printed (env g) (.obj (.method r m)) vars [t!".Name"] = some (m.name.toText, []) := rfl
  have h6 : printed (env g) (.obj (.method r m)) vars [t!"lineComment", t!".Doc"] = some (commentOf m.doc, []) := rfl
  have h7 : eval (env g) (.obj (.method r m)) vars [t!"$methodSegment"] =
    some (.text (Binding.methodSegment m), []) := by rw [hvars]; rfl
  clear hvars
  simp only [runLines_line, run_truth (he := h7), runLines_nil, runParts, h1, h2, h3, h4, h5, h6, andThen_some,
    Option.map_some]
  by_cases hs : Binding.methodSegment m = []
  · rw [show (GoTemplate.Value.text (Binding.methodSegment m) : GoTemplate.Value Obj).truth = false by
      simp [GoTemplate.Value.truth, hs]]
    simp [Call.lines, callFor, hs, PathExpr.text, andThen_some]
  · rw [show (GoTemplate.Value.text (Binding.methodSegment m) : GoTemplate.Value Obj).truth = true by
      simp [GoTemplate.Value.truth, hs]]
    simp [Call.lines, callFor, hs, PathExpr.text, andThen_some]

theorem run_locator (g : Graph) (client : Text) (l : Locator) (t : Resource) (ht : l.target.bind (g[·]?) = some t) :
    runLines (env g) (.obj (.locator l)) (clientVars client) locatorBody =
      some ((stepFor l t).lines client, []) := by
  have he : ∀ vars, eval (env g) (.obj (.locator l)) vars [t!"clientName", t!".Target"] =
      some (.text (Decls.clientName t), []) := by
    intro vars
    have : eval (env g) (.obj (.locator l)) vars [t!"clientName", t!".Target"] =
      (((((l.target.bind (g[·]?)).map fun r => (.obj (.resource r) : GoTemplate.Value Obj)).bind
        fun v => some [v])).bind fun
          | [.obj (.resource r)] => some (.text (Decls.clientName r), [])
          | _ => none) := rfl
    rw [this, ht]
    rfl
  rw [locatorBody]
  rw [run_set (he := (rfl : eval (env g) (.obj (.locator l)) _ [t!"locatorName", t!"."] =
    some (.text (Go.nameOf l.annotations l.name), [])))]
  rw [run_set (he := (rfl : eval (env g) (.obj (.locator l)) _ [t!"locatorSegment", t!"."] =
    some (.text (Binding.locatorSegment l), [])))]
  rw [run_set (he := he _)]
  simp only [after_nil, name_eq]
  obtain ⟨vars, hvars⟩ : ∃ vars : List (Text × GoTemplate.Value Obj), vars =
    (t!"$targetName", .text (nameFor t)) ::
    (t!"$locatorSegment", .text (Binding.locatorSegment l)) ::
    (t!"$locatorName", .text (Go.nameOf l.annotations l.name)) :: clientVars client := ⟨_, rfl⟩
  rw [← hvars]
  have h1 : printed (env g) (.obj (.locator l)) vars [t!"$locatorName"] =
    some (Go.nameOf l.annotations l.name, []) := by rw [hvars]; rfl
  have h2 : printed (env g) (.obj (.locator l)) vars [t!"$locatorSegment"] =
    some (Binding.locatorSegment l, []) := by rw [hvars]; rfl
  have h3 : printed (env g) (.obj (.locator l)) vars [t!"$targetName"] = some (nameFor t, []) := by rw [hvars]; rfl
  have h4 : printed (env g) (.obj (.locator l)) vars [t!"$clientName"] = some (client, []) := by rw [hvars]; rfl
  have h5 : printed (env g) (.obj (.locator l)) vars [t!".Target.Name"] = some (t.name.toText, []) := by
    have : printed (env g) (.obj (.locator l)) vars [t!".Target.Name"] =
      ((((l.target.bind (g[·]?)).map fun r => (.obj (.resource r) : GoTemplate.Value Obj)).bind
        (Value.member (env g) t!"Name")).map fun v => (v, ([] : List Effect))).bind
          fun (v, fx) => (v.print (env g)).map fun t => (t, fx) := rfl
    rw [this, ht]
    rfl
  have h6 : printed (env g) (.obj (.locator l)) vars [t!"lineComment", t!".Doc"] = some (commentOf l.doc, []) := rfl
  have h7 : eval (env g) (.obj (.locator l)) vars [t!".Variable"] = some (.flag l.isVariable, []) := rfl
  clear hvars
  simp only [runLines_line, run_truth (he := h7), runLines_nil, runParts, h1, h2, h3, h4, h5, h6, andThen_some,
    Option.map_some]
  cases hv : l.isVariable
  · rw [show (GoTemplate.Value.flag false : GoTemplate.Value Obj).truth = false from rfl]
    simp [Step.lines, stepFor, hv, PathExpr.text, andThen_some]
  · rw [show (GoTemplate.Value.flag true : GoTemplate.Value Obj).truth = true from rfl]
    simp [Step.lines, stepFor, hv, PathExpr.text, andThen_some]

/-- The methods of the client for the locators. -/
def stepsOf (g : Graph) (r : Resource) : List Step :=
  r.locators.filterMap fun l => (l.target.bind (g[·]?)).map (stepFor l)

/-- The arguments of the template. -/
def clientArgs (r : Resource) : GoTemplate.Value Obj :=
  .args [(t!"Resource", .resource r), (t!"Root", .flag (Decls.isRoot r))]

theorem run_client (g : Graph) (r : Resource) (h : ∀ l ∈ r.locators, l.target.bind (g[·]?) ≠ none) :
    runLines (env g) (clientArgs r) [] templateLines =
      some (clientLines (nameFor r) r.name.toText r.doc (Decls.isRoot r) (r.methods.map (callFor r)) (stepsOf g r),
        []) := by
  have he : eval (env g) (clientArgs r) [] [t!"clientName", t!".Resource"] = some (.text (Decls.clientName r), []) := rfl
  have hn : printed (env g) (clientArgs r) (clientVars (nameFor r)) [t!".Resource.Name"] =
    some (r.name.toText, []) := rfl
  have hd : printed (env g) (clientArgs r) (clientVars (nameFor r)) [t!"lineComment", t!".Resource.Doc"] =
    some (commentOf r.doc, []) := rfl
  have hc : printed (env g) (clientArgs r) (clientVars (nameFor r)) [t!"$clientName"] = some (nameFor r, []) := rfl
  have hm : eval (env g) (clientArgs r) (clientVars (nameFor r)) [t!".Resource.Methods"] =
    some (.list (r.methods.map (.method r)), []) := rfl
  have hl : eval (env g) (clientArgs r) (clientVars (nameFor r)) [t!".Resource.Locators"] =
    some (.list (r.locators.map .locator), []) := rfl
  have hr : eval (env g) (clientArgs r) (clientVars (nameFor r)) [t!".Root"] =
    some (.flag (Decls.isRoot r), []) := rfl
  have hm1 : ∀ o ∈ r.methods.map (Obj.method r), runLines (env g) (.obj o) (clientVars (nameFor r)) methodBody =
      some ((match o with
        | .method r m => (callFor r m).lines (nameFor r)
        | _ => []), []) := by
    intro o ho
    obtain ⟨m, -, rfl⟩ := List.mem_map.mp ho
    exact run_method g r _ m
  have hl1 : ∀ o ∈ r.locators.map Obj.locator, runLines (env g) (.obj o) (clientVars (nameFor r)) locatorBody =
      some ((match o with
        | .locator l => ((l.target.bind (g[·]?)).map fun t => (stepFor l t).lines (nameFor r)).getD []
        | _ => []), []) := by
    intro o ho
    obtain ⟨l, hm, rfl⟩ := List.mem_map.mp ho
    obtain ⟨t, ht⟩ := Option.ne_none_iff_exists'.mp (h l hm)
    rw [run_locator g _ l t ht]
    simp [ht]
  have hs : (r.locators.flatMap fun l =>
      ((l.target.bind (g[·]?)).map fun t => (stepFor l t).lines (nameFor r)).getD []) =
      (stepsOf g r).flatMap (Step.lines (nameFor r)) := by
    rw [stepsOf]
    generalize r.locators = ls
    induction ls with
    | nil => rfl
    | cons l ls ih =>
      rw [List.flatMap_cons, List.filterMap_cons, ih]
      cases l.target.bind (g[·]?) <;> simp
  have r1 := fun ls => run_range (he := hm) (hb := hm1) (ls := ls)
  have r2 := fun ls => run_range (he := hl) (hb := hl1) (ls := ls)
  rw [templateLines, run_set (he := he), after_nil, name_eq]
  change runLines (env g) (clientArgs r) (clientVars (nameFor r)) _ = _
  simp only [runLines_line, r1, r2, run_truth (he := hr), runLines_nil, runParts, hn, hd, hc, andThen_some,
    Option.map_some, rootBody, List.flatMap_map, hs]
  cases hb : Decls.isRoot r
  · rw [show (GoTemplate.Value.flag false : GoTemplate.Value Obj).truth = false from rfl]
    simp [clientLines, andThen_some, List.flatMap_map]
  · rw [show (GoTemplate.Value.flag true : GoTemplate.Value Obj).truth = true from rfl]
    simp [clientLines, metadataLines, andThen_some, List.flatMap_map]

/-! ## When it fails -/

/-- The nodes calculate the name of the client of the target. -/
def usesTarget (ns : List Node) : Bool :=
  ns.any fun
    | .set _ e => decide (e = [t!"clientName", t!".Target"])
    | _ => false

/-- The template has a loop for the locators where the name of the client of the target is calculated. -/
def loopsTarget : Option (List Node) → Bool
  | some ns => ns.any fun
    | .range e body => decide (e = [t!".Resource.Locators"]) && usesTarget body
    | _ => false
  | none => false

set_option maxRecDepth 100000 in
theorem parse_client : loopsTarget (parse clientTemplate) = true := by decide +kernel

theorem run_fails (g : Graph) (r : Resource) (l : Locator) (hl : l ∈ r.locators) (h : l.target.bind (g[·]?) = none) :
    (parse clientTemplate).bind (runNodes (env g) (clientArgs r) []) = none := by
  have hp := parse_client
  cases hn : parse clientTemplate with
  | none => rfl
  | some ns =>
    rw [hn, loopsTarget, List.any_eq_true] at hp
    obtain ⟨n, hm, hc⟩ := hp
    split at hc
    · rename_i e body
      rw [Bool.and_eq_true, decide_eq_true_eq] at hc
      obtain ⟨rfl, hc⟩ := hc
      rw [usesTarget, List.any_eq_true] at hc
      obtain ⟨s, hs, hd⟩ := hc
      split at hd
      · rename_i y e
        obtain rfl := of_decide_eq_true hd
        rw [Option.bind_some]
        refine runNodes_range (env g) _ _ body ns (r.locators.map .locator) (.locator l) (fun _ => rfl)
          (List.mem_map_of_mem hl) (fun vars => ?_) hm []
        refine runNodes_set (env g) _ y _ body (fun vars => ?_) hs vars
        have : eval (env g) (.obj (.locator l)) vars [t!"clientName", t!".Target"] =
          (((((l.target.bind (g[·]?)).map fun r => (.obj (.resource r) : GoTemplate.Value Obj)).bind
            fun v => some [v])).bind fun
              | [.obj (.resource r)] => some (.text (Decls.clientName r), [])
              | _ => none) := rfl
        rw [this, h]
        rfl
      · cases hd
    · cases hc

end Verif.ResourceClient
