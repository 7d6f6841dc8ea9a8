import Verif.Lemmas.BuildersCode
import Verif.Props.TypesCode

/-!
# C91: the files of the builders

The files that the builders generator writes contain exactly the declarations of the specification, in that
order, except for blank lines and indentation.
-/

namespace Verif.BuildersCode

open GoTemplate GoCode GoFile
open Docs (Short)
open TypesCode (itemsLines errorCount effects_foldl emit_eq imports_foldl keys_nodup short_newline)

theorem builderSource_eq (x : Context) (c : TypeCell) (hk : c.kind = .class ∨ c.kind = .struct) : ∃ ls,
    (reservedBits c + c.attributes.length ≤ 63 → ls = itemsLines (builderOf x c).items) ∧
    ∃ t, builderSource x c { pkg := x.pkg } =
        { (builderEffects x c).foldl Buffer.effect { pkg := x.pkg } with code := t ++ t!"\n" } ∧
      ∀ r, significant (t ++ r) = code ls ++ significant r := by
  obtain ⟨ls, h0, hr⟩ := run_builder x c hk
  refine ⟨ls, h0, ?_⟩
  obtain ⟨t, h1, h2⟩ := emit_eq x.env { pkg := x.pkg } builderTemplate [(t!"Type", .typ c)] builderLines _ _ rfl
    builder_lines hr
  refine ⟨t, ?_, h2⟩
  rw [builderSource, h1]
  rfl

/-- The file of the builder of a struct or class is written if and only if there is room in the bitmap for
all the attributes and all the types of the fields and setters can be calculated. -/
theorem c91_written_iff (x : Context) (c : TypeCell) (order : List (Text × Text))
    (hk : c.kind = .class ∨ c.kind = .struct) :
    ((builderFile x c 0 order).1 ≠ none ↔
      reservedBits c + c.attributes.length ≤ 64 ∧ ∀ ref, Uses x c ref → ref.errors = 0) ∧
    ((builderFile x c 0 order).2 = true ↔
      (builderFile x c 0 order).1 ≠ none ∧ Short (builderSource x c { pkg := x.pkg }).code) := by
  obtain ⟨ls, -, t, h1, h2⟩ := builderSource_eq x c hk
  obtain ⟨f1, f2, -⟩ := effects_foldl (builderEffects x c) { pkg := x.pkg }
  have he : (builderSource x c { pkg := x.pkg }).errors = errorCount (builderEffects x c) := by
    rw [h1, f1, Nat.zero_add]
  have hw : Bitmap.width c ≠ none ↔ reservedBits c + c.attributes.length ≤ 64 := by
    rw [Option.ne_none_iff_exists']
    simp only [width_some]
    constructor
    · rintro ⟨w, -, h, -⟩; exact h
    · exact fun h => ⟨_, hk, h, rfl⟩
  have hs := builderErrors x c
  rw [hw] at hs
  rw [← hs, builderFile]
  by_cases h0 : errorCount (builderEffects x c) = 0
  · obtain ⟨text, ok, h3, h4, -⟩ := write_eq (builderSource x c { pkg := x.pkg }) order t _ (by rw [he, h0])
      (by rw [h1]) h2
    rw [h3]
    refine ⟨by simp [h0], ?_⟩
    rw [h4, h1, short_newline]
    simp
  · have : (builderSource x c { pkg := x.pkg }).write order = (none, false) := by
      rw [Buffer.write, if_pos (by omega)]
    rw [this]
    exact ⟨by simp [h0], by simp⟩

/-- The file of the builder of a struct or class contains the declarations of the specification. Missing:
when there are 64 bits in use the mask of the last attribute isn't the one of the specification, see
`c31_bit63_refuted`. -/
theorem c91_builder_partial (x : Context) (c : TypeCell) (order : List (Text × Text))
    (hk : c.kind = .class ∨ c.kind = .struct) (h63 : reservedBits c + c.attributes.length ≤ 63)
    (text : Text) (h : builderFile x c 0 order = (some text, true)) :
    significant text = code (fileLines x.pkg order (itemsLines (builderOf x c).items)) := by
  obtain ⟨ls, h0, t, h1, h2⟩ := builderSource_eq x c hk
  cases h0 h63
  obtain ⟨f1, f2, -⟩ := effects_foldl (builderEffects x c) { pkg := x.pkg }
  have he : (builderSource x c { pkg := x.pkg }).errors = 0 := by
    rw [builderFile, Buffer.write] at h
    split at h
    · cases h
    · omega
  obtain ⟨text', ok, h3, h4, h5⟩ := write_eq (builderSource x c { pkg := x.pkg }) order t _ he (by rw [h1]) h2
  rw [builderFile, h3] at h
  cases h
  rw [h5, if_pos rfl, ← code_append]
  have hp : (builderSource x c { pkg := x.pkg }).pkg = x.pkg := by rw [h1, f2]
  rw [hp]
  simp [fileLines]

/-- The file of the builder of the lists of a struct or class: it is always written, unless a line is too
long, it contains the declarations of the specification, and it has no imports. -/
theorem c91_list (x : Context) (l d : GoRef.Decl) (order : List (Text × Text)) :
    (listBuilderSource x (.list l (.struct d)) { pkg := x.pkg }).imports = [] ∧
    ∃ text ok, listBuilderFile x (.list l (.struct d)) 0 order = (some text, ok) ∧
      (ok = true ↔ Short (listBuilderSource x (.list l (.struct d)) { pkg := x.pkg }).code) ∧
      (ok = true → significant text =
        code (fileLines x.pkg order (itemsLines (listBuilderOf d).items))) := by
  obtain ⟨t, h1, h2⟩ := emit_eq x.env { pkg := x.pkg } listBuilderTemplate
    [(t!"Type", .ref (.list l (.struct d)) [])] listBuilderLines _ _ rfl listBuilder_lines (run_listBuilder x l d)
  have hsrc : listBuilderSource x (.list l (.struct d)) { pkg := x.pkg } =
      { pkg := x.pkg, code := t ++ t!"\n" } := by
    rw [listBuilderSource]
    simp only [GoRef.Typ.isStruct, if_true]
    rw [h1]
    rfl
  refine ⟨by rw [hsrc], ?_⟩
  obtain ⟨text, ok, h3, h4, h5⟩ := write_eq { pkg := x.pkg, code := t ++ t!"\n" } order t _ rfl rfl h2
  refine ⟨text, ok, by rw [listBuilderFile, hsrc, h3], by rw [h4, hsrc, short_newline], fun h => ?_⟩
  rw [h5, h, if_pos rfl, ← code_append]
  simp [fileLines]

/-- If an error has been reported before then nothing is written. -/
theorem c91_errors (x : Context) (c : TypeCell) (t : GoRef.Typ) (errors : Nat) (order : List (Text × Text))
    (h : errors ≠ 0) :
    builderFile x c errors order = (none, false) ∧ listBuilderFile x t errors order = (none, false) := by
  have hemit : ∀ (t : Text) (args : List (Text × Obj)),
      (Buffer.emit x.env { pkg := x.pkg, errors := errors } t args).errors = errors := by
    intro t args
    rw [Buffer.emit, if_pos (by simp only; omega)]
  have hw : ∀ b : Buffer, b.errors = errors → b.write order = (none, false) := by
    intro b hb
    rw [Buffer.write, if_pos (by omega)]
  refine ⟨hw _ (hemit _ _), hw _ ?_⟩
  cases t with
  | list d e =>
    rw [listBuilderSource]
    split
    · exact hemit _ _
    · rfl
  | _ => rfl

/-- The imports of the file of the builder of a struct or class, in whatever order they are written: one for
each package that the types of the fields and setters refer to, other than that of the file. -/
theorem c91_imports (x : Context) (c : TypeCell) (hk : c.kind = .class ∨ c.kind = .struct)
    (order : List (Text × Text)) (ho : order.Perm (builderSource x c { pkg := x.pkg }).imports) :
    (order.map Prod.fst).Nodup ∧
    (∀ path, path ∈ order.map Prod.fst ↔
      path ≠ [] ∧ path ≠ x.pkg ∧ ∃ ref, Uses x c ref ∧ ref.imprt = path) ∧
    ∀ path selector, (path, selector) ∈ order →
      ∃ ref, Uses x c ref ∧ ref.imprt = path ∧ ref.selector = selector := by
  obtain ⟨ls, -, t, h1, -⟩ := builderSource_eq x c hk
  rw [h1] at ho
  have hn := keys_nodup (builderEffects x c) { pkg := x.pkg } List.nodup_nil
  generalize hm : ((builderEffects x c).foldl Buffer.effect { pkg := x.pkg }).imports = m at ho hn
  have hf := fun p => imports_foldl p (builderEffects x c) { pkg := x.pkg }
  simp only [hm] at hf
  have hmem : ∀ p, p ∈ order.map Prod.fst ↔ m.find p ≠ none := by
    intro p
    rw [Ne, GoMap.find_none, Classical.not_not]
    exact (ho.map Prod.fst).mem_iff
  have hstart : ∀ p, GoMap.find ([] : GoMap Text) p = none := fun _ => rfl
  refine ⟨(ho.map Prod.fst).nodup_iff.mpr hn, fun p => ?_, fun p sel hp => ?_⟩
  · rw [hmem]
    constructor
    · intro h
      obtain ⟨sel, hs⟩ := Option.ne_none_iff_exists'.mp h
      rcases (hf p).1 sel hs with h | ⟨h3, h4, h5⟩
      · rw [hstart] at h
        cases h
      · obtain ⟨ref, hu, hr, -⟩ := (builderImports x c p sel h3).mp h5
        exact ⟨h3, h4, ref, hu, hr⟩
    · rintro ⟨h3, h4, ref, hu, rfl⟩ hn
      obtain ⟨h6, h7⟩ := (hf _).2 hn
      rcases h7 ref.selector ((builderImports x c _ _ h3).mpr ⟨ref, hu, rfl, rfl⟩) with h | h
      · exact h3 h
      · exact h4 h
  · have hs : m.find p = some sel := GoMap.find_of_mem hn (ho.mem_iff.mp hp)
    rcases (hf p).1 sel hs with h | ⟨h3, h4, h5⟩
    · rw [hstart] at h
      cases h
    · exact (builderImports x c p sel h3).mp h5

/-! ## Examples -/

/-- A context with a boolean, a class of the same version, a list of objects, a list of texts, a map of
objects and a list of lists. -/
def exampleContext : Context :=
  let owner : GoRef.Owner := { service := parseUsingCase t!"ClustersMgmt", version := parseUsingCase t!"V1" }
  let decl := fun name => ({ owner := owner, name := parseUsingCase name } : GoRef.Decl)
  { base := t!"example.com/sdk"
    pkg := t!"example.com/sdk/clustersmgmt/v1"
    owner := owner
    typeOf := fun
      | 0 => .basic .boolean
      | 1 => .struct (decl t!"Group")
      | 2 => .list (decl t!"GroupList") (.struct (decl t!"Group"))
      | 3 => .list (decl t!"StringList") (.basic .string)
      | 4 => .map (decl t!"GroupMap") (.struct (decl t!"Group"))
      | _ => .list (decl t!"GroupListList") (.list (decl t!"GroupList") (.struct (decl t!"Group")))
    ownerOf := fun _ => owner
    docOf := fun
      | 1 => t!"A group of nodes."
      | _ => [] }

/-- A class with attributes of several kinds. -/
def exampleClass : TypeCell :=
  { name := parseUsingCase t!"Cluster"
    kind := .class
    doc := t!"A cluster."
    attributes := [
      { name := parseUsingCase t!"Managed", typ := 0, doc := t!"Flag." },
      { name := parseUsingCase t!"Main", typ := 1, doc := t!"The main group." },
      { name := parseUsingCase t!"Groups", typ := 2, link := true },
      { name := parseUsingCase t!"Tags", typ := 3 },
      { name := parseUsingCase t!"Zones", typ := 4 }] }

set_option maxRecDepth 100000 in
example : (builderFile exampleContext exampleClass 0 []).2 = true ∧
    (builderSource exampleContext exampleClass { pkg := exampleContext.pkg }).imports = [] ∧
    reservedBits exampleClass + exampleClass.attributes.length ≤ 63 := by
  decide +kernel

/-- The specification of the builder of the example: the structure and the constructor, as text. -/
example : (itemsLines (builderOf exampleContext exampleClass).items).take 17 = [
    t!"// ClusterBuilder contains the data and logic needed to build 'cluster' objects.",
    t!"//",
    t!"// A cluster.",
    t!"type  ClusterBuilder struct {",
    t!"bitmap_ uint32",
    t!"id   string",
    t!"href string",
    t!"main *GroupBuilder",
    t!"groups *GroupListBuilder",
    t!"tags []string",
    t!"zones map[string]*GroupBuilder",
    t!"managed bool",
    t!"}",
    t!"// NewCluster creates a new builder of 'cluster' objects.",
    t!"func NewCluster() *ClusterBuilder {",
    t!"return &ClusterBuilder{}",
    t!"}"] := by
  decide +kernel

/-- The setter of an attribute of the example: it has the documentation of the type of the attribute. -/
example : itemsLines [(builderOf exampleContext exampleClass).setter
      (memberOf exampleContext exampleClass 1 { name := parseUsingCase t!"Main", typ := 1, doc := t!"The main group." })] = [
    t!"// Main sets the value of the 'main' attribute to the given value.",
    t!"//",
    t!"// A group of nodes.",
    t!"func (b *ClusterBuilder) Main(value *GroupBuilder) *ClusterBuilder {",
    t!"b.main = value",
    t!"if value != nil {",
    t!"b.bitmap_ |= 16",
    t!"} else {",
    t!"b.bitmap_ &^= 16",
    t!"}",
    t!"return b",
    t!"}"] := by
  decide +kernel

set_option maxRecDepth 100000 in
example : (listBuilderFile exampleContext (exampleContext.typeOf 2) 0 []).2 = true := by decide +kernel

/-- An attribute that is a list of lists: `Copy` and `Build` do nothing with its values. -/
example : GoProgram.blockLines ((memberOf exampleContext exampleClass 5 { name := parseUsingCase t!"Grid", typ := 5 }).copy) = [
    t!"if object.grid != nil {", t!"} else {", t!"b.grid = nil", t!"}"] ∧
    GoProgram.blockLines ((memberOf exampleContext exampleClass 5 { name := parseUsingCase t!"Grid", typ := 5 }).build) = [
      t!"if b.grid != nil {", t!"}"] := by
  decide +kernel

end Verif.BuildersCode
