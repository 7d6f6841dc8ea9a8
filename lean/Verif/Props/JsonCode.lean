import Verif.Lemmas.JsonCode
import Verif.Props.BuildersCode
import Verif.Lemmas.GoRefs

/-!
# C95: the files of the JSON support

The files that the JSON support generator writes for the types contain exactly the declarations of the
specification, in that order, except for blank lines and indentation.
-/

namespace Verif.JsonCode

open GoTemplate GoCode GoFile
open Docs (Short)
open TypesCode (itemsLines errorCount errorCount_append effects_foldl emit_eq short_newline mask_text)

/-- All the effects of writing the file of a struct or class. -/
def structAll (x : Context) (c : TypeCell) (links : List (Text × Text)) : List Effect :=
  importEffects links ++ (importEffects [(t!"fmt", []), (t!"io", []), (t!"time", []),
    (t!"github.com/json-iterator/go", t!"jsoniter"), (Go.helpersImport x.base, [])] ++ structEffects x c)

/-- All the effects of writing the file of a list. -/
def listAll (x : Context) (d : GoRef.Decl) (e : GoRef.Typ) (links : List (Text × Text)) : List Effect :=
  importEffects links ++ (importEffects [(t!"fmt", []), (Go.helpersImport x.base, []),
    (t!"github.com/json-iterator/go", t!"jsoniter")] ++ listEffects x d e)

theorem structSource_eq (x : Context) (c : TypeCell) (links : List (Text × Text)) : ∃ cs,
    (reservedBits c + c.attributes.length ≤ 63 → cs = code (itemsLines (entityOf x c).items)) ∧
    ∃ t, structSource x c (Buffer.imports { pkg := x.pkg } links) =
        { (structAll x c links).foldl Buffer.effect { pkg := x.pkg } with code := t ++ t!"\n" } ∧
      ∀ r, significant (t ++ r) = cs ++ significant r := by
  obtain ⟨ks, hr, hk⟩ := run_struct x c
  refine ⟨code ks, fun h => hk fun i hi => mask_text c h i hi, ?_⟩
  obtain ⟨b, hb⟩ : ∃ b, b = (importEffects [(t!"fmt", []), (t!"io", []), (t!"time", []),
      (t!"github.com/json-iterator/go", t!"jsoniter"), (Go.helpersImport x.base, [])]).foldl Buffer.effect
    ((importEffects links).foldl Buffer.effect { pkg := x.pkg }) := ⟨_, rfl⟩
  have he : b.errors = 0 := by
    rw [hb, (effects_foldl _ _).1, (effects_foldl _ _).1, importErrors, importErrors]
  have hc : b.code = [] := by
    rw [hb, (effects_foldl _ _).2.2, (effects_foldl _ _).2.2]
  obtain ⟨t, h1, h2⟩ := emit_eq (typeEnv x) b structTemplate [(t!"Type", .typ c)] structLines _ _ he struct_lines hr
  refine ⟨t, ?_, h2⟩
  rw [structSource, imports_effects, imports_effects, ← hb, h1, hc, hb, structAll, List.foldl_append,
    List.foldl_append]
  rfl

theorem listSource_eq (x : Context) (d : GoRef.Decl) (e : GoRef.Typ) (links : List (Text × Text)) :
    ∃ t, listSource x (.list d e) (Buffer.imports { pkg := x.pkg } links) =
        { (listAll x d e links).foldl Buffer.effect { pkg := x.pkg } with code := t ++ t!"\n" } ∧
      ∀ r, significant (t ++ r) = code (itemsLines (listingOf x d e).items) ++ significant r := by
  obtain ⟨ks, hr, hk⟩ := run_list x d e
  obtain ⟨b, hb⟩ : ∃ b, b = (importEffects [(t!"fmt", []), (Go.helpersImport x.base, []),
      (t!"github.com/json-iterator/go", t!"jsoniter")]).foldl Buffer.effect
    ((importEffects links).foldl Buffer.effect { pkg := x.pkg }) := ⟨_, rfl⟩
  have he : b.errors = 0 := by
    rw [hb, (effects_foldl _ _).1, (effects_foldl _ _).1, importErrors, importErrors]
  have hc : b.code = [] := by
    rw [hb, (effects_foldl _ _).2.2, (effects_foldl _ _).2.2]
  obtain ⟨t, h1, h2⟩ := emit_eq (typeEnv x) b listTemplate
    [(t!"Type", .ref (.list d e)), (t!"linkOwner", .owner none)] listLines _ _ he list_lines hr
  refine ⟨t, ?_, fun r => by rw [h2, hk trivial]⟩
  rw [listSource, imports_effects, imports_effects, ← hb, h1, hc, hb, listAll, List.foldl_append,
    List.foldl_append]
  rfl

theorem structAll_errors (x : Context) (c : TypeCell) (links : List (Text × Text)) :
    errorCount (structAll x c links) = 0 ↔ ∀ ref, Uses x c ref → ref.errors = 0 := by
  rw [structAll, errorCount_append, errorCount_append, importErrors, importErrors, Nat.zero_add, Nat.zero_add,
    structErrors]

theorem listAll_errors (x : Context) (d : GoRef.Decl) (e : GoRef.Typ) (links : List (Text × Text)) :
    errorCount (listAll x d e links) = 0 ↔ ∀ ref, ListUses x d e ref → ref.errors = 0 := by
  rw [listAll, errorCount_append, errorCount_append, importErrors, importErrors, Nat.zero_add, Nat.zero_add,
    listErrors]

/-- What is written, given the effects. -/
theorem written (b : Buffer) (fx : List Effect) (pkg t : Text) (cs : List Text) (order : List (Text × Text))
    (h1 : b = { fx.foldl Buffer.effect { pkg := pkg } with code := t ++ t!"\n" })
    (h2 : ∀ r, significant (t ++ r) = cs ++ significant r) :
    ((b.write order).1 ≠ none ↔ errorCount fx = 0) ∧
    ((b.write order).2 = true ↔ (b.write order).1 ≠ none ∧ Short b.code) ∧
    ∀ text, b.write order = (some text, true) → significant text = code (fileLines pkg order []) ++ cs := by
  obtain ⟨f1, f2, -⟩ := effects_foldl fx { pkg := pkg }
  have he : b.errors = errorCount fx := by rw [h1, f1, Nat.zero_add]
  have hp : b.pkg = pkg := by rw [h1, f2]
  by_cases h0 : errorCount fx = 0
  · obtain ⟨text, ok, h3, h4, h5⟩ := write_eq b order t cs (by rw [he, h0]) (by rw [h1]) h2
    rw [h3]
    refine ⟨by simp [h0], ?_, ?_⟩
    · rw [h4, h1, short_newline]
      simp
    · intro text' h
      cases h
      rw [h5, if_pos rfl, hp]
  · have : b.write order = (none, false) := by
      rw [Buffer.write, if_pos (by omega)]
    rw [this]
    exact ⟨by simp [h0], by simp, fun text h => by cases h⟩

/-- The file of the JSON support of a struct or class is written if and only if all the types that it refers to can be
calculated. -/
theorem c95_written_iff (x : Context) (c : TypeCell) (links order : List (Text × Text)) :
    ((structFile x c links 0 order).1 ≠ none ↔ ∀ ref, Uses x c ref → ref.errors = 0) ∧
    ((structFile x c links 0 order).2 = true ↔ (structFile x c links 0 order).1 ≠ none ∧
      Short (structSource x c (Buffer.imports { pkg := x.pkg } links)).code) := by
  obtain ⟨cs, -, t, h1, h2⟩ := structSource_eq x c links
  obtain ⟨h3, h4, -⟩ := written _ _ _ _ _ order h1 h2
  exact ⟨h3.trans (structAll_errors x c links), h4⟩

/-- The file of the JSON support of a list is written if and only if all the types that it refers to can be
calculated. -/
theorem c95_list_written_iff (x : Context) (d : GoRef.Decl) (e : GoRef.Typ) (links order : List (Text × Text)) :
    ((listFile x (.list d e) links 0 order).1 ≠ none ↔ ∀ ref, ListUses x d e ref → ref.errors = 0) ∧
    ((listFile x (.list d e) links 0 order).2 = true ↔ (listFile x (.list d e) links 0 order).1 ≠ none ∧
      Short (listSource x (.list d e) (Buffer.imports { pkg := x.pkg } links)).code) := by
  obtain ⟨t, h1, h2⟩ := listSource_eq x d e links
  obtain ⟨h3, h4, -⟩ := written _ _ _ _ _ order h1 h2
  exact ⟨h3.trans (listAll_errors x d e links), h4⟩

/-- The file of the JSON support of a struct or class contains the declarations of the specification. Missing: when
there are 64 bits in use the mask of the last attribute isn't the one of the specification, see
`c31_bit63_refuted`. -/
theorem c95_struct_partial (x : Context) (c : TypeCell) (links order : List (Text × Text))
    (h63 : reservedBits c + c.attributes.length ≤ 63)
    (text : Text) (h : structFile x c links 0 order = (some text, true)) :
    significant text = code (fileLines x.pkg order (itemsLines (entityOf x c).items)) := by
  obtain ⟨cs, hcs, t, h1, h2⟩ := structSource_eq x c links
  obtain ⟨-, -, h5⟩ := written _ _ _ _ _ order h1 h2
  rw [h5 text h, hcs h63, ← code_append]
  simp [fileLines]

/-- The file of the JSON support of a list contains the declarations of the specification. -/
theorem c95_list (x : Context) (d : GoRef.Decl) (e : GoRef.Typ) (links order : List (Text × Text))
    (text : Text) (h : listFile x (.list d e) links 0 order = (some text, true)) :
    significant text = code (fileLines x.pkg order (itemsLines (listingOf x d e).items)) := by
  obtain ⟨t, h1, h2⟩ := listSource_eq x d e links
  obtain ⟨-, -, h5⟩ := written _ _ _ _ _ order h1 h2
  rw [h5 text h, ← code_append]
  simp [fileLines]

/-- If an error has been reported before then nothing is written. -/
theorem c95_errors (x : Context) (c : TypeCell) (t : GoRef.Typ) (links : List (Text × Text)) (errors : Nat)
    (order : List (Text × Text)) (h : errors ≠ 0) :
    structFile x c links errors order = (none, false) ∧ listFile x t links errors order = (none, false) := by
  have hi : ∀ (b : Buffer) (l : List (Text × Text)), (Buffer.imports b l).errors = b.errors := by
    intro b l
    rw [imports_effects, (effects_foldl _ _).1, importErrors, Nat.add_zero]
  have hemit : ∀ (b : Buffer) (t : Text) (args : List (Text × Obj)), b.errors = errors →
      (Buffer.emit (typeEnv x) b t args).errors = errors := by
    intro b t args hb
    rw [Buffer.emit, if_pos (by omega), hb]
  have hw : ∀ b : Buffer, b.errors = errors → b.write order = (none, false) := by
    intro b hb
    rw [Buffer.write, if_pos (by omega)]
  exact ⟨hw _ (hemit _ _ _ (by rw [hi, hi])), hw _ (hemit _ _ _ (by rw [hi, hi]))⟩

/-- The imports of the files of the JSON support, in whatever order they are written: one for each package that they
need, other than that of the file. -/
theorem c95_imports (x : Context) (c : TypeCell) (links order : List (Text × Text))
    (ho : order.Perm (structSource x c (Buffer.imports { pkg := x.pkg } links)).imports) :
    (order.map Prod.fst).Nodup ∧
    (∀ path, path ∈ order.map Prod.fst ↔ path ≠ [] ∧ path ≠ x.pkg ∧ ∃ selector, Needs x c links path selector) ∧
    ∀ path selector, (path, selector) ∈ order → Needs x c links path selector := by
  obtain ⟨cs, -, t, h1, -⟩ := structSource_eq x c links
  rw [h1] at ho
  obtain ⟨h2, h3, h4⟩ := imports_order _ _ _ ho
  refine ⟨h2, fun p => ?_, fun p sel hp => (structImports x c links p sel).mp (h4 p sel hp)⟩
  rw [h3]
  simp only [structAll, structImports]

/-- The same for the files of lists. -/
theorem c95_list_imports (x : Context) (d : GoRef.Decl) (e : GoRef.Typ) (links order : List (Text × Text))
    (ho : order.Perm (listSource x (.list d e) (Buffer.imports { pkg := x.pkg } links)).imports) :
    (order.map Prod.fst).Nodup ∧
    (∀ path, path ∈ order.map Prod.fst ↔ path ≠ [] ∧ path ≠ x.pkg ∧ ∃ selector, ListNeeds x d e links path selector) ∧
    ∀ path selector, (path, selector) ∈ order → ListNeeds x d e links path selector := by
  obtain ⟨t, h1, -⟩ := listSource_eq x d e links
  rw [h1] at ho
  obtain ⟨h2, h3, h4⟩ := imports_order _ _ _ ho
  refine ⟨h2, fun p => ?_, fun p sel hp => (listImports x d e links p sel).mp (h4 p sel hp)⟩
  rw [h3]
  simp only [listAll, listImports]

/-- The name of the Go type of a struct or class is the one of the model or the annotations, if it has no dots. -/
theorem c95_object (x : Context) (c : TypeCell) (hk : c.kind = .class ∨ c.kind = .struct)
    (h : '.' ∉ GoRef.goTypeName { owner := x.owner, name := c.name, annotations := c.annotations }) :
    (entityOf x c).object = GoRef.goTypeName { owner := x.owner, name := c.name, annotations := c.annotations } := by
  have ht : x.typ c = .struct { owner := x.owner, name := c.name, annotations := c.annotations } := by
    rw [TypesCode.Context.typ]
    rcases hk with hk | hk <;> simp [TypeCell.isEnum, hk]
  rw [entityOf]
  simp only [ht]
  exact GoRef.emit_bare _ _ h

/-! ## Examples -/

/-- The context of the examples of the builders. -/
def exampleContext : Context :=
  let x := BuildersCode.exampleContext
  { base := x.base, pkg := x.pkg, owner := x.owner, typeOf := x.typeOf, ownerOf := x.ownerOf }

/-- The imports of the file of the class used in the examples of the builders. -/
def exampleOrder : List (Text × Text) := [
  (t!"fmt", []), (t!"io", []), (t!"time", []), (t!"github.com/json-iterator/go", t!"jsoniter"),
  (t!"example.com/sdk/helpers", []), (t!"sort", [])]

set_option maxRecDepth 100000 in
example : (structFile exampleContext BuildersCode.exampleClass [] 0 exampleOrder).2 = true ∧
    (structSource exampleContext BuildersCode.exampleClass
      (Buffer.imports { pkg := exampleContext.pkg } [])).imports = exampleOrder ∧
    reservedBits BuildersCode.exampleClass + BuildersCode.exampleClass.attributes.length ≤ 63 := by
  decide +kernel

set_option maxRecDepth 100000 in
example : (listFile exampleContext (exampleContext.typeOf 2) [] 0 []).2 = true := by
  decide +kernel

/-- The function that writes the lists of the example. -/
example : ((itemsLines (listingOf exampleContext
      { owner := exampleContext.owner, name := parseUsingCase t!"GroupList" }
      (exampleContext.typeOf 1)).items).drop 11).take 12 = [
    t!"// WriteGroupList writes a list of value of the 'group' type to",
    t!"// the given stream.",
    t!"func WriteGroupList(list []*Group, stream *jsoniter.Stream) {",
    t!"stream.WriteArrayStart()",
    t!"for i, value := range list {",
    t!"if i > 0 {",
    t!"stream.WriteMore()",
    t!"}",
    t!"WriteGroup(value, stream)",
    t!"}",
    t!"stream.WriteArrayEnd()",
    t!"}"] := by
  decide +kernel

/-- The code that reads the fields of an attribute that is a map. -/
example : GoProgram.blockLines [(memberOf exampleContext BuildersCode.exampleClass 4
      { name := parseUsingCase t!"Zones", typ := 4 }).read] = [
    t!"case \"zones\":",
    t!"value := map[string]*Group{}",
    t!"for {",
    t!"key := iterator.ReadObject()",
    t!"if key == \"\" {",
    t!"break",
    t!"}",
    t!"item := ReadGroup(iterator)",
    t!"value[key] = item",
    t!"}",
    t!"object.zones = value",
    t!"object.bitmap_ |= 128"] := by
  decide +kernel

end Verif.JsonCode
