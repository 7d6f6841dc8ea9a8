import Verif.Lemmas.MethodsCode
import Verif.Props.JsonCode
import Verif.Props.Checks

/-!
# C99: the files of the JSON support of resources

The files that the JSON support generator writes for the resources contain exactly, for each method, the function
that writes the body of the request and the function that reads the body of the response, in the order of the model,
except for blank lines and indentation.
-/

namespace Verif.MethodsCode

open GoTemplate GoCode GoFile
open Docs (Short)
open Check (checkMethod)
open TypesCode (errorCount errorCount_append errorCount_flatMap effects_foldl short_newline)
open JsonCode (importErrors imports_order import_mem written)

theorem all_errors (x : Context) (ms : List Method) (h : ∀ m ∈ ms, Generable x m) :
    errorCount (allEffects x ms) = 0 := by
  rw [allEffects, errorCount_flatMap]
  intro m hm
  rw [errorCount_append, importErrors, (methodErrors x m (h m hm).1).mpr (h m hm).2]

theorem source_eq (x : Context) (r : Resource) (h : ∀ m ∈ r.methods, Generable x m) (hne : r.methods ≠ []) :
    ∃ t, resourceSource x r { pkg := x.pkg } =
        { (allEffects x r.methods).foldl Buffer.effect { pkg := x.pkg } with code := t ++ t!"\n" } ∧
      ∀ s, significant (t ++ s) =
        code (TypesCode.itemsLines (r.methods.flatMap fun m => (messageOf x r m).items)) ++ significant s := by
  obtain ⟨t, h1, u, h2, h3, h4⟩ := (methods_run x r r.methods { pkg := x.pkg } [] [] rfl (.inr ⟨rfl, rfl⟩)
    (fun _ => rfl)).1 h
  rcases h2 with rfl | ⟨ht, -⟩
  · exact ⟨u, h1, fun s => by rw [h4, List.nil_append]⟩
  · exact absurd (h3 ht) hne

theorem empty_eq (x : Context) (r : Resource) (order : List (Text × Text)) (h : r.methods = []) :
    resourceFile x r 0 order = (some (preamble x.pkg order), true) := by
  rw [resourceFile, resourceSource, h]
  change (some (preamble x.pkg order ++ []), true) = _
  rw [List.append_nil]

/-- The file of a resource is written if and only if the code of all its methods can be generated: they have the
parameters that they need, and all the types that they refer to can be calculated. Otherwise nothing is written and an
error is reported. -/
theorem c99_written_iff (x : Context) (r : Resource) (order : List (Text × Text)) :
    ((resourceFile x r 0 order).1 ≠ none ↔ ∀ m ∈ r.methods, Generable x m) ∧
    ((resourceFile x r 0 order).2 = true ↔ (resourceFile x r 0 order).1 ≠ none ∧
      Short (resourceSource x r { pkg := x.pkg }).code) := by
  by_cases hg : ∀ m ∈ r.methods, Generable x m
  · by_cases hne : r.methods = []
    · rw [empty_eq x r order hne]
      refine ⟨⟨fun _ => hg, fun _ => by simp⟩, ?_⟩
      have : Short (resourceSource x r { pkg := x.pkg }).code := by
        rw [resourceSource, hne]
        intro line hl
        rw [show splitOn '\n' (List.foldl (methodSource x r) { pkg := x.pkg } []).code = [[]] from rfl] at hl
        rw [List.mem_singleton.mp hl]
        decide
      simp [this]
    · obtain ⟨t, h1, h2⟩ := source_eq x r hg hne
      obtain ⟨h3, h4, -⟩ := written _ _ _ _ _ order h1 h2
      exact ⟨⟨fun _ => hg, fun _ => h3.mpr (all_errors x _ hg)⟩, h4⟩
  · have he := (methods_run x r r.methods { pkg := x.pkg } [] [] rfl (.inr ⟨rfl, rfl⟩) (fun _ => rfl)).2 hg
    have : resourceFile x r 0 order = (none, false) := by
      rw [resourceFile, resourceSource, Buffer.write, if_pos]
      exact Nat.pos_of_ne_zero he
    rw [this]
    refine ⟨⟨fun h => absurd rfl h, fun h => absurd h hg⟩, by simp⟩

/-- The file of a resource contains the declarations of the specification: for each method, in the order of the model,
the function that writes the request and the function that reads the response. -/
theorem c99_code (x : Context) (r : Resource) (order : List (Text × Text)) (text : Text)
    (h : resourceFile x r 0 order = (some text, true)) :
    significant text = code (fileLines x.pkg order
      (TypesCode.itemsLines (r.methods.flatMap fun m => (messageOf x r m).items))) := by
  have hg := (c99_written_iff x r order).1.mp (by rw [h]; simp)
  by_cases hne : r.methods = []
  · rw [empty_eq x r order hne] at h
    cases h
    have := sig_preamble x.pkg order []
    rw [List.append_nil, sig_nil, List.append_nil] at this
    rw [this, hne]
    rfl
  · obtain ⟨t, h1, h2⟩ := source_eq x r hg hne
    obtain ⟨-, -, h5⟩ := written _ _ _ _ _ order h1 h2
    rw [h5 text h, ← code_append]
    simp [fileLines]

/-- If an error has been reported before then nothing is written. -/
theorem c99_errors (x : Context) (r : Resource) (errors : Nat) (order : List (Text × Text)) (h : errors ≠ 0) :
    resourceFile x r errors order = (none, false) := by
  have := methods_fail x r r.methods { pkg := x.pkg, errors := errors } h
  rw [resourceFile, resourceSource, Buffer.write, if_pos (Nat.pos_of_ne_zero this)]

/-- The imports of the file of a resource, in whatever order they are written: one for each package that its methods
need, other than that of the file. -/
theorem c99_imports (x : Context) (r : Resource) (order : List (Text × Text))
    (hg : ∀ m ∈ r.methods, Generable x m)
    (ho : order.Perm (resourceSource x r { pkg := x.pkg }).imports) :
    (order.map Prod.fst).Nodup ∧
    (∀ path, path ∈ order.map Prod.fst ↔ path ≠ [] ∧ path ≠ x.pkg ∧
      ∃ m ∈ r.methods, ∃ selector, Needs x m path selector) ∧
    ∀ path selector, (path, selector) ∈ order → ∃ m ∈ r.methods, Needs x m path selector := by
  have hmem : ∀ p sel, Effect.imports p sel ∈ allEffects x r.methods ↔ ∃ m ∈ r.methods, Needs x m p sel := by
    intro p sel
    rw [allEffects, List.mem_flatMap]
    constructor
    · rintro ⟨m, hm, h⟩
      exact ⟨m, hm, (methodImports x m (hg m hm).1 p sel).mp h⟩
    · rintro ⟨m, hm, h⟩
      exact ⟨m, hm, (methodImports x m (hg m hm).1 p sel).mpr h⟩
  have hs : (resourceSource x r { pkg := x.pkg }).imports =
      ((allEffects x r.methods).foldl Buffer.effect { pkg := x.pkg }).imports := by
    obtain ⟨t, h1, -⟩ := (methods_run x r r.methods { pkg := x.pkg } [] [] rfl (.inr ⟨rfl, rfl⟩)
      (fun _ => rfl)).1 hg
    rw [resourceSource, h1]
  rw [hs] at ho
  obtain ⟨h2, h3, h4⟩ := imports_order _ _ _ ho
  refine ⟨h2, fun p => ?_, fun p sel hp => (hmem p sel).mp (h4 p sel hp)⟩
  rw [h3]
  simp only [hmem]
  grind

/-- The methods that the checks of the model accept have the parameters that the generator needs, so that their code is
generated if the types that it refers to can be calculated. -/
theorem c99_accepted (b : Builtins) (hb : b.Present) (x : Context) (r : Resource) (order : List (Text × Text))
    (h : ∀ m ∈ r.methods, Accepted (checkMethod b m)) :
    (resourceFile x r 0 order).1 ≠ none ↔ ∀ m ∈ r.methods, ∀ ref, Uses x m ref → ref.errors = 0 := by
  rw [(c99_written_iff x r order).1]
  refine ⟨fun hg m hm => (hg m hm).2, fun hg m hm => ⟨?_, hg m hm⟩⟩
  have ha := h m hm
  have first : ∀ p ∈ m.parameters, p.name = Nom.body → bodyOf m ≠ none := fun p hp hn he =>
    absurd (List.find?_eq_none.mp he p hp) (by simp [hn])
  have last : ∀ p ∈ m.parameters, p.name = Nom.items → itemsOf m ≠ none := fun p hp hn he =>
    absurd (List.find?_eq_none.mp he p (List.mem_reverse.mpr hp)) (by simp [hn])
  unfold Complete kindOf
  split
  · rename_i h0
    have h1 : m.name = Nom.add := by grind
    obtain ⟨hr, -⟩ := (c11_add_accepted_iff b hb m h1).mp ha
    obtain ⟨p, hp, hs⟩ := exactlyOne_mem hr.one
    exact first p hp (hr.body p hp hs).2
  · rename_i h0
    have h1 : m.name = Nom.get := by grind
    obtain ⟨hr, -⟩ := (c13_get_accepted_iff b hb m h1).mp ha
    obtain ⟨p, hp, hs⟩ := exactlyOne_mem hr.one
    exact first p hp (hr.body p hp hs).2
  · rename_i h0
    have h1 : m.name = Nom.update ∨ m.name = Nom.asyncUpdate := by grind
    obtain ⟨hr, -⟩ := (c16_update_accepted_iff b hb m h1).mp ha
    obtain ⟨p, hp, hs⟩ := exactlyOne_mem hr.one
    exact first p hp (hr.body p hp hs).2
  · rename_i h0
    have h1 : m.name = Nom.list := by grind
    obtain ⟨hr, -⟩ := (c14_list_accepted_iff b hb m h1).mp ha
    obtain ⟨p, hp, hs⟩ := exactlyOne_mem hr.one
    exact last p hp (hr.items p hp hs).2
  · rename_i h0
    have h1 : m.name = Nom.search := by grind
    obtain ⟨hr, -⟩ := (c15_search_accepted_iff b hb m h1).mp ha
    obtain ⟨p, hp, hs⟩ := exactlyOne_mem hr.oneItems
    exact last p hp (hr.items p hp hs).2
  all_goals trivial

/-! ## Examples -/

/-- A parameter of the example. -/
def exampleParameter (name : Text) (typ : TypeRef) (isIn isOut : Bool) : Parameter :=
  { name := parseUsingCase name, typ := typ, isIn := isIn, isOut := isOut }

/-- A resource with a method of each kind. -/
def exampleResource : Resource :=
  let body := exampleParameter t!"Body" ⟨1, .class⟩ true true
  let page := fun (extra : List Parameter) => extra ++ [
    exampleParameter t!"Page" ⟨0, .scalar⟩ true true, exampleParameter t!"Size" ⟨0, .scalar⟩ true true,
    exampleParameter t!"Note" ⟨4, .map⟩ false true, exampleParameter t!"Query" ⟨0, .scalar⟩ true false,
    exampleParameter t!"Items" ⟨2, .list⟩ false true]
  { name := parseUsingCase t!"Groups"
    methods := [
      { name := Nom.add, parameters := [body] },
      { name := Nom.list, parameters := page [] },
      { name := Nom.get, parameters := [body] },
      { name := Nom.update, parameters := [body] },
      { name := Nom.delete },
      { name := Nom.post, parameters := [exampleParameter t!"Request" ⟨1, .class⟩ true false] },
      { name := Nom.search, parameters := page [body] },
      { name := parseUsingCase t!"Move", parameters := [
          exampleParameter t!"Force" ⟨0, .scalar⟩ true false, exampleParameter t!"Target" ⟨1, .class⟩ true true,
          exampleParameter t!"Done" ⟨0, .scalar⟩ false true] }] }

/-- The imports of the file of the example. -/
def exampleOrder : List (Text × Text) := [
  (t!"net/http", []), (t!"example.com/sdk/helpers", []), (t!"time", []), (t!"sort", [])]

set_option maxRecDepth 100000 in
example : (resourceFile JsonCode.exampleContext exampleResource 0 exampleOrder).2 = true ∧
    (resourceSource JsonCode.exampleContext exampleResource { pkg := JsonCode.exampleContext.pkg }).imports =
      exampleOrder := by
  decide +kernel

/-- A method that has no body can't be generated. -/
example : ¬ Generable JsonCode.exampleContext { name := Nom.get } := fun h => h.1 rfl

/-- The code of the action of the example. -/
example : TypesCode.itemsLines (messageOf JsonCode.exampleContext exampleResource
      { name := parseUsingCase t!"Move", parameters := [
          exampleParameter t!"Force" ⟨0, .scalar⟩ true false,
          exampleParameter t!"Done" ⟨0, .scalar⟩ false true] }).items = [
    t!"func writeGroupsMoveRequest(request *GroupsMoveRequest, writer io.Writer) error {",
    t!"count := 0",
    t!"stream := helpers.NewStream(writer)",
    t!"stream.WriteObjectStart()",
    t!"if request.force != nil {",
    t!"if count > 0 {",
    t!"stream.WriteMore()",
    t!"}",
    t!"stream.WriteObjectField(\"force\")",
    t!"stream.WriteBool(*request.force)",
    t!"count++",
    t!"}",
    t!"stream.WriteObjectEnd()",
    t!"err := stream.Flush()",
    t!"if err != nil {",
    t!"return err",
    t!"}",
    t!"return stream.Error",
    t!"}",
    t!"func readGroupsMoveResponse(response *GroupsMoveResponse, reader io.Reader) error {",
    t!"iterator, err := helpers.NewIterator(reader)",
    t!"if err != nil {",
    t!"return err",
    t!"}",
    t!"for {",
    t!"field := iterator.ReadObject()",
    t!"if field == \"\" {",
    t!"break",
    t!"}",
    t!"switch field {",
    t!"case \"done\":",
    t!"value := iterator.ReadBool()",
    t!"response.done = &value",
    t!"default:",
    t!"iterator.ReadAny()",
    t!"}",
    t!"}",
    t!"return iterator.Error",
    t!"}"] := by
  decide +kernel

/-- The code that reads the items of a page. -/
example : GoProgram.blockLines [readItems (JsonCode.formOf JsonCode.exampleContext false none
      (JsonCode.exampleContext.typeOf 2)) (pageList JsonCode.exampleContext (JsonCode.exampleContext.typeOf 2))] = [
    t!"case \"items\":",
    t!"items := ReadGroupList(iterator)",
    t!"response.items = &GroupList{",
    t!"items: items,",
    t!"}"] := by
  decide +kernel

end Verif.MethodsCode
