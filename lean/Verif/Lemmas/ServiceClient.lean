import Verif.Model.ServiceClient
import Verif.Spec.ServiceClient
import Verif.Lemmas.JsonCode

/-! The code that the template of the clients of services produces. -/

namespace Verif.ServiceClient

open GoTemplate GoCode GoFile
open TypesCode (runLines_nil run_range run_set)
open JsonCode (after_nil)

/-- The lines of the part of the template for each version. -/
def versionBody : List Line := [
  .set t!"$versionName" [t!"versionName", t!"."],
  .set t!"$versionSelector" [t!"versionSelector", t!"."],
  .set t!"$versionSegment" [t!"versionSegment", t!"."],
  .set t!"$rootName" [t!"clientName", t!".Root"],
  .line [.lit t!"// ", .print [t!"$versionName"], .lit t!" returns a reference to a client for version '",
    .print [t!".Name"], .lit t!"'."],
  .line [.lit t!"func (c *Client) ", .print [t!"$versionName"], .lit t!"() *", .print [t!"$versionSelector"], .lit t!".",
    .print [t!"$rootName"], .lit t!" {"],
  .line [.lit t!"return ", .print [t!"$versionSelector"], .lit t!".New", .print [t!"$rootName"], .lit t!"("],
  .line [.lit t!"c.transport,"],
  .line [.lit t!"path.Join(c.path, \"", .print [t!"$versionSegment"], .lit t!"\"),"],
  .line [.lit t!")"],
  .line [.lit t!"}"]]

/-- The lines of the template. -/
def templateLines : List Line := [
  .line [.lit t!"// Client is the client for service '", .print [t!".Service.Name"], .lit t!"'."],
  .line [.lit t!"type Client struct {"],
  .line [.lit t!"transport http.RoundTripper"],
  .line [.lit t!"path string"],
  .line [.lit t!"}"],
  .line [.lit t!"// NewClient creates a new client for the service '", .print [t!".Service.Name"], .lit t!"' using the"],
  .line [.lit t!"// given transport to send the requests and receive the responses."],
  .line [.lit t!"func NewClient(transport http.RoundTripper, path string) *Client {"],
  .line [.lit t!"client := new(Client)"],
  .line [.lit t!"client.transport = transport"],
  .line [.lit t!"client.path = path"],
  .line [.lit t!"return client"],
  .line [.lit t!"}"],
  .range [t!".Service.Versions"] versionBody]

set_option maxRecDepth 100000 in
theorem client_lines : hasLines clientTemplate templateLines = true := by decide +kernel

/-- What is said of a version. -/
def partOf (x : Context) (v : Version) : Part :=
  { name := v.name.toText, method := Go.nameOf v.annotations v.name, package := GoRef.versionSelector (x.owner v),
    segment := Binding.segment v.name v.annotations }

theorem run_version (x : Context) (v : Version) (h : v.root ≠ none) :
    runLines x.env (.obj (.version v)) [] versionBody = some ((partOf x v).lines, []) := by
  obtain ⟨r, hr⟩ := Option.ne_none_iff_exists'.mp h
  have he : ∀ vars, eval x.env (.obj (.version v)) vars [t!"clientName", t!".Root"] = some (.text t!"Client", []) := by
    intro vars
    obtain ⟨n, as, root⟩ := v
    cases hr
    rfl
  rw [versionBody]
  rw [run_set (he := (rfl : eval x.env (.obj (.version v)) _ [t!"versionName", t!"."] =
    some (.text (Go.nameOf v.annotations v.name), [])))]
  rw [run_set (he := (rfl : eval x.env (.obj (.version v)) _ [t!"versionSelector", t!"."] =
    some (.text (GoRef.versionSelector (x.owner v)), [])))]
  rw [run_set (he := (rfl : eval x.env (.obj (.version v)) _ [t!"versionSegment", t!"."] =
    some (.text (Binding.segment v.name v.annotations), [])))]
  rw [run_set (he := he _)]
  simp only [after_nil]
  obtain ⟨vars, hvars⟩ : ∃ vars : List (Text × GoTemplate.Value Obj), vars = [(t!"$rootName", .text t!"Client"),
    (t!"$versionSegment", .text (Binding.segment v.name v.annotations)),
    (t!"$versionSelector", .text (GoRef.versionSelector (x.owner v))),
    (t!"$versionName", .text (Go.nameOf v.annotations v.name))] := ⟨_, rfl⟩
  rw [← hvars]
  have h1 : printed x.env (.obj (.version v)) vars [t!"$versionName"] =
    some (Go.nameOf v.annotations v.name, []) := by rw [hvars]; rfl
  have h2 : printed x.env (.obj (.version v)) vars [t!"$versionSelector"] =
    some (GoRef.versionSelector (x.owner v), []) := by rw [hvars]; rfl
  have h3 : printed x.env (.obj (.version v)) vars [t!"$versionSegment"] =
    some (Binding.segment v.name v.annotations, []) := by rw [hvars]; rfl
  have h4 : printed x.env (.obj (.version v)) vars [t!"$rootName"] = some (t!"Client", []) := by rw [hvars]; rfl
  have h5 : printed x.env (.obj (.version v)) vars [t!".Name"] = some (v.name.toText, []) := rfl
  simp only [runLines_line, runLines_nil, runParts, h1, h2, h3, h4, h5, andThen_some, Option.map_some]
  simp [Part.lines, partOf]

theorem run_client (x : Context) (h : ∀ v ∈ x.service.versions, v.root ≠ none) :
    runLines x.env (.args [(t!"Service", .service x.service)]) [] templateLines =
      some (clientLines x.service.name.toText (x.service.versions.map (partOf x)), []) := by
  have hn : printed x.env (.args [(t!"Service", .service x.service)]) [] [t!".Service.Name"] =
    some (x.service.name.toText, []) := rfl
  have hl : eval x.env (.args [(t!"Service", .service x.service)]) [] [t!".Service.Versions"] =
    some (.list (x.service.versions.map .version), []) := rfl
  have hv : ∀ o ∈ x.service.versions.map Obj.version, runLines x.env (.obj o) [] versionBody = some ((match o with
      | .version v => (partOf x v).lines
      | _ => []), []) := by
    intro o ho
    obtain ⟨v, hm, rfl⟩ := List.mem_map.mp ho
    exact run_version x v (h v hm)
  have hr := run_range (he := hl) (hb := hv) (ls := [])
  simp only [templateLines, runLines_line, hr, runLines_nil, runParts, hn, andThen_some, Option.map_some]
  simp [clientLines, List.flatMap_map]

/-! ## When it fails -/

theorem runNodes_rest {α : Type} (E : Env α) (dot : GoTemplate.Value α) (n : Node) (ns : List Node)
    (h : ∀ vars, runNodes E dot vars ns = none) (vars : List (Text × GoTemplate.Value α)) :
    runNodes E dot vars (n :: ns) = none := by
  have ha : ∀ a : Option (Text × List Effect), andThen a none = none := by
    intro a
    cases a <;> rfl
  cases n with
  | set y f =>
    rw [runNodes]
    cases hf : eval E dot vars f with
    | none => rfl
    | some p =>
      obtain ⟨v, fx⟩ := p
      simp only [Option.bind_some]
      rw [h]
      rfl
  | text t => rw [runNodes, h, ha]; intro _ _ h; cases h
  | print e => rw [runNodes, h, ha]; intro _ _ h; cases h
  | branch e yes no => rw [runNodes, h, ha]; intro _ _ h; cases h
  | range e body => rw [runNodes, h, ha]; intro _ _ h; cases h

theorem runNodes_set {α : Type} (E : Env α) (dot : GoTemplate.Value α) (x : Text) (e : List Text) (ns : List Node)
    (he : ∀ vars, eval E dot vars e = none) (h : Node.set x e ∈ ns) (vars : List (Text × GoTemplate.Value α)) :
    runNodes E dot vars ns = none := by
  induction ns generalizing vars with
  | nil => cases h
  | cons n ns ih =>
    rcases List.mem_cons.mp h with rfl | hm
    · rw [runNodes, he]
      rfl
    · exact runNodes_rest E dot n ns (ih hm) vars

theorem each_none {α β : Type} (f : α → Option (List β × List Effect)) (l : List α) (a : α) (ha : a ∈ l) (h : f a = none) :
    each f l = none := by
  induction l with
  | nil => cases ha
  | cons b l ih =>
    rw [each]
    rcases List.mem_cons.mp ha with rfl | ha
    · rw [h]; rfl
    · rw [ih ha]
      cases f b <;> rfl

theorem runNodes_range {α : Type} (E : Env α) (dot : GoTemplate.Value α) (w : Text) (body ns : List Node)
    (as : List α) (a : α) (he : ∀ vars, eval E dot vars [w] = some (.list as, [])) (ha : a ∈ as)
    (hb : ∀ vars, runNodes E (.obj a) vars body = none) (h : Node.range [w] body ∈ ns)
    (vars : List (Text × GoTemplate.Value α)) : runNodes E dot vars ns = none := by
  induction ns generalizing vars with
  | nil => cases h
  | cons n ns ih =>
    rcases List.mem_cons.mp h with rfl | hm
    · rw [runNodes]
      · have : Node.run E dot vars (.range [w] body) = none := by
          rw [Node.run, rangeValue, he, Option.bind_some]
          · obtain ⟨i, hi⟩ := List.getElem?_of_mem ha
            have hz : (a, i) ∈ as.zipIdx := List.mem_zipIdx_iff_getElem?.mpr hi
            change after [] (each (fun p : α × Nat => runNodes E (.obj p.1) (rangeVars [w] p ++ vars) body) as.zipIdx) = _
            rw [each_none _ _ _ hz (hb _)]
            rfl
          · intro _ _ _ _ h
            cases h
        rw [this]
        rfl
      · intro _ _ h
        cases h
    · exact runNodes_rest E dot n ns (ih hm) vars

/-- The nodes calculate the name of the client of the root. -/
def usesRoot (ns : List Node) : Bool :=
  ns.any fun
    | .set _ e => decide (e = [t!"clientName", t!".Root"])
    | _ => false

/-- The template has a loop for the versions where the name of the client of the root is calculated. -/
def loopsRoot : Option (List Node) → Bool
  | some ns => ns.any fun
    | .range e body => decide (e = [t!".Service.Versions"]) && usesRoot body
    | _ => false
  | none => false

set_option maxRecDepth 100000 in
theorem parse_client : loopsRoot (parse clientTemplate) = true := by decide +kernel

theorem run_fails (x : Context) (v : Version) (hv : v ∈ x.service.versions) (h : v.root = none) :
    (parse clientTemplate).bind (runNodes x.env (.args [(t!"Service", .service x.service)]) []) = none := by
  have hp := parse_client
  cases hn : parse clientTemplate with
  | none => rfl
  | some ns =>
    rw [hn, loopsRoot, List.any_eq_true] at hp
    obtain ⟨n, hm, hc⟩ := hp
    split at hc
    · rename_i e body
      rw [Bool.and_eq_true, decide_eq_true_eq] at hc
      obtain ⟨rfl, hc⟩ := hc
      rw [usesRoot, List.any_eq_true] at hc
      obtain ⟨s, hs, hd⟩ := hc
      split at hd
      · rename_i y e
        obtain rfl := of_decide_eq_true hd
        rw [Option.bind_some]
        refine runNodes_range x.env _ _ body ns (x.service.versions.map .version) (.version v) (fun _ => rfl)
          (List.mem_map_of_mem hv) (fun vars => ?_) hm []
        refine runNodes_set x.env _ y _ body (fun vars => ?_) hs vars
        obtain ⟨n, as, root⟩ := v
        cases h
        rfl
      · cases hd
    · cases hc

end Verif.ServiceClient
