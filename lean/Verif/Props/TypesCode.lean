import Verif.Lemmas.TypesCode

/-!
# C89: the files of the Go types

The files that the types generator writes contain exactly the declarations of the specification, in that
order, except for blank lines and indentation.
-/

namespace Verif.TypesCode

open GoTemplate GoCode GoFile
open Docs (Short)

theorem typeSource_enum (x : Context) (c : TypeCell) (hk : c.kind = .enum) :
    ∃ t, typeSource x c { pkg := x.pkg } = { pkg := x.pkg, code := t ++ t!"\n" } ∧
      ∀ r, significant (t ++ r) = code (itemsLines (enumerationOf c).items) ++ significant r := by
  obtain ⟨t, h1, h2⟩ := emit_eq x.env { pkg := x.pkg } enumTemplate [(t!"Type", .typ c)] enumLines _ _ rfl enum_lines
    (run_enum x c hk)
  refine ⟨t, ?_, h2⟩
  rw [typeSource, if_pos (by simp [TypeCell.isEnum, hk]), h1]
  rfl

theorem typeSource_struct (x : Context) (c : TypeCell) (hk : c.kind = .class ∨ c.kind = .struct) : ∃ ls,
    (reservedBits c + c.attributes.length ≤ 63 → ls = itemsLines (entityOf x c).items) ∧
    ∃ t, typeSource x c { pkg := x.pkg } =
        { (structEffects x c).foldl Buffer.effect (Buffer.imprt { pkg := x.pkg } t!"time" []) with
          code := t ++ t!"\n" } ∧
      ∀ r, significant (t ++ r) = code ls ++ significant r := by
  obtain ⟨ls, h0, hr⟩ := run_struct x c
  refine ⟨ls, h0 hk, ?_⟩
  have hi : Buffer.imprt { pkg := x.pkg } t!"time" [] =
      { pkg := x.pkg, imports := if x.pkg = t!"time" then [] else [(t!"time", [])] } := by
    rw [Buffer.imprt]
    by_cases h : x.pkg = t!"time"
    · rw [if_pos h, if_neg (by simp [h])]
    · rw [if_neg h, if_pos ⟨by decide, fun h' => h h'.symm⟩]
      rfl
  obtain ⟨t, h1, h2⟩ := emit_eq x.env (Buffer.imprt { pkg := x.pkg } t!"time" []) structTemplate
    [(t!"Type", .typ c)] structLines _ _ (by rw [hi]) struct_lines hr
  refine ⟨t, ?_, h2⟩
  rw [typeSource, if_neg (by rcases hk with hk | hk <;> simp [TypeCell.isEnum, hk]),
    if_pos (by rcases hk with hk | hk <;> simp [hk, Kind.isStruct]), h1]
  rw [hi]
  rfl

theorem short_newline (t : Text) : Short (t ++ t!"\n") ↔ Short t := by
  rw [Short, Short, splitOn_append_sep]
  constructor
  · exact fun h l hl => h l (List.mem_append_left _ hl)
  · intro h l hl
    rcases List.mem_append.mp hl with hl | hl
    · exact h l hl
    · rw [show splitOn '\n' [] = [[]] from rfl, List.mem_singleton] at hl
      subst hl
      decide

theorem imprt_time (pkg : Text) : (Buffer.imprt { pkg := pkg } t!"time" []).errors = 0 ∧
    (Buffer.imprt { pkg := pkg } t!"time" []).pkg = pkg ∧
    (Buffer.imprt { pkg := pkg } t!"time" []).imports.keys.Nodup ∧
    ∀ p, (Buffer.imprt { pkg := pkg } t!"time" []).imports.find p =
      if p = t!"time" ∧ p ≠ pkg then some [] else none := by
  rw [Buffer.imprt]
  by_cases h : t!"time" = pkg
  · rw [if_neg (by simp [h])]
    refine ⟨rfl, rfl, List.nodup_nil, fun p => ?_⟩
    rw [if_neg (by rintro ⟨rfl, h'⟩; exact h' h)]
    rfl
  · rw [if_pos ⟨by decide, h⟩]
    refine ⟨rfl, rfl, by simp [GoMap.insert, GoMap.keys], fun p => ?_⟩
    rw [GoMap.find_insert]
    by_cases hp : t!"time" = p
    · subst hp
      rw [if_pos rfl, if_pos ⟨rfl, h⟩]
    · rw [if_neg hp, if_neg (fun h' => hp h'.1.symm)]
      rfl

/-- The file of an enumerated type: it is always written, unless a line is too long, and it contains the
declarations of the type and of its values. -/
theorem c89_enum (x : Context) (c : TypeCell) (order : List (Text × Text)) (hk : c.kind = .enum) :
    ∃ text ok, typeFile x c 0 order = (some text, ok) ∧
      (ok = true ↔ Short (typeSource x c { pkg := x.pkg }).code) ∧
      (ok = true → significant text =
        code (fileLines x.pkg order (itemsLines (enumerationOf c).items))) := by
  obtain ⟨t, h1, h2⟩ := typeSource_enum x c hk
  obtain ⟨text, ok, h3, h4, h5⟩ := write_eq { pkg := x.pkg, code := t ++ t!"\n" } order t _ rfl rfl h2
  refine ⟨text, ok, by rw [typeFile, h1, h3], by rw [h4, h1, short_newline], fun h => ?_⟩
  rw [h5, h, if_pos rfl, ← code_append]
  simp [fileLines]

/-- The file of a struct or class is written if and only if there is room in the bitmap for all the
attributes and all the types of the fields and getters can be calculated. -/
theorem c89_written_iff (x : Context) (c : TypeCell) (order : List (Text × Text))
    (hk : c.kind = .class ∨ c.kind = .struct) :
    ((typeFile x c 0 order).1 ≠ none ↔
      reservedBits c + c.attributes.length ≤ 64 ∧ ∀ ref, Uses x c ref → ref.errors = 0) ∧
    ((typeFile x c 0 order).2 = true ↔
      (typeFile x c 0 order).1 ≠ none ∧ Short (typeSource x c { pkg := x.pkg }).code) := by
  obtain ⟨ls, -, t, h1, h2⟩ := typeSource_struct x c hk
  obtain ⟨i1, i2, -⟩ := imprt_time x.pkg
  obtain ⟨f1, f2, -⟩ := effects_foldl (structEffects x c) (Buffer.imprt { pkg := x.pkg } t!"time" [])
  have he : (typeSource x c { pkg := x.pkg }).errors = errorCount (structEffects x c) := by
    rw [h1, f1, i1, Nat.zero_add]
  have hw : Bitmap.width c ≠ none ↔ reservedBits c + c.attributes.length ≤ 64 := by
    rw [Option.ne_none_iff_exists']
    simp only [width_some]
    constructor
    · rintro ⟨w, -, h, -⟩; exact h
    · exact fun h => ⟨_, hk, h, rfl⟩
  have hs := structErrors x c
  rw [hw] at hs
  have hu : (∀ a ∈ c.attributes, (GoRef.fieldType x.base (x.attr a)).errors = 0 ∧
      (GoRef.getterType x.base (x.attr a)).errors = 0) ↔ ∀ ref, Uses x c ref → ref.errors = 0 := by
    constructor
    · rintro h ref ⟨a, ha, rfl | rfl⟩
      · exact (h a ha).1
      · exact (h a ha).2
    · exact fun h a ha => ⟨h _ ⟨a, ha, .inl rfl⟩, h _ ⟨a, ha, .inr rfl⟩⟩
  rw [← hu, ← hs, typeFile]
  by_cases h0 : errorCount (structEffects x c) = 0
  · obtain ⟨text, ok, h3, h4, -⟩ := write_eq (typeSource x c { pkg := x.pkg }) order t _ (by rw [he, h0])
      (by rw [h1]) h2
    rw [h3]
    refine ⟨by simp [h0], ?_⟩
    rw [h4, h1, short_newline]
    simp
  · have : (typeSource x c { pkg := x.pkg }).write order = (none, false) := by
      rw [Buffer.write, if_pos (by omega)]
    rw [this]
    exact ⟨by simp [h0], by simp⟩

/-- The file of a struct or class contains the declarations of the specification. Missing: when there are
64 bits in use the mask of the last attribute isn't the one of the specification, see
`c31_bit63_refuted`. -/
theorem c89_struct_partial (x : Context) (c : TypeCell) (order : List (Text × Text))
    (hk : c.kind = .class ∨ c.kind = .struct) (h63 : reservedBits c + c.attributes.length ≤ 63)
    (text : Text) (h : typeFile x c 0 order = (some text, true)) :
    significant text = code (fileLines x.pkg order (itemsLines (entityOf x c).items)) := by
  obtain ⟨ls, h0, t, h1, h2⟩ := typeSource_struct x c hk
  cases h0 h63
  obtain ⟨i1, i2, -⟩ := imprt_time x.pkg
  obtain ⟨f1, f2, -⟩ := effects_foldl (structEffects x c) (Buffer.imprt { pkg := x.pkg } t!"time" [])
  have he : (typeSource x c { pkg := x.pkg }).errors = 0 := by
    rw [typeFile, Buffer.write] at h
    split at h
    · cases h
    · omega
  obtain ⟨text', ok, h3, h4, h5⟩ := write_eq (typeSource x c { pkg := x.pkg }) order t _ he (by rw [h1]) h2
  rw [typeFile, h3] at h
  cases h
  rw [h5, if_pos rfl, ← code_append]
  have hp : (typeSource x c { pkg := x.pkg }).pkg = x.pkg := by rw [h1, f2, i2]
  rw [hp]
  simp [fileLines]

/-- If an error has been reported before then nothing is written. -/
theorem c89_errors (x : Context) (c : TypeCell) (errors : Nat) (order : List (Text × Text))
    (h : errors ≠ 0) : typeFile x c errors order = (none, false) ∧ metadataFile x errors order = (none, false) := by
  have hemit : ∀ (b : Buffer) (t : Text) (args : List (Text × Obj)), b.errors = errors →
      (b.emit x.env t args).errors = errors := by
    intro b t args hb
    rw [Buffer.emit, if_pos (by omega)]
    exact hb
  have hi : (Buffer.imprt { pkg := x.pkg, errors := errors } t!"time" []).errors = errors := by
    rw [Buffer.imprt]
    split <;> rfl
  have hw : ∀ b : Buffer, b.errors = errors → b.write order = (none, false) := by
    intro b hb
    rw [Buffer.write, if_pos (by omega)]
  refine ⟨hw _ ?_, hw _ (hemit _ _ _ rfl)⟩
  rw [typeSource]
  split
  · exact hemit _ _ _ rfl
  · split
    · exact hemit _ _ _ hi
    · rfl

/-- The imports of the file of a struct or class, in whatever order they are written: one for each package
that the types of the fields and getters refer to, other than that of the file, and one for the time
package. -/
theorem c89_imports (x : Context) (c : TypeCell) (hk : c.kind = .class ∨ c.kind = .struct)
    (order : List (Text × Text)) (ho : order.Perm (typeSource x c { pkg := x.pkg }).imports) :
    (order.map Prod.fst).Nodup ∧
    (∀ path, path ∈ order.map Prod.fst ↔
      path ≠ [] ∧ path ≠ x.pkg ∧ (path = t!"time" ∨ ∃ ref, Uses x c ref ∧ ref.imprt = path)) ∧
    ∀ path selector, (path, selector) ∈ order →
      (path = t!"time" ∧ selector = []) ∨
        ∃ ref, Uses x c ref ∧ ref.imprt = path ∧ ref.selector = selector := by
  obtain ⟨ls, -, t, h1, -⟩ := typeSource_struct x c hk
  obtain ⟨-, i2, i3, i4⟩ := imprt_time x.pkg
  rw [h1] at ho
  have hn := keys_nodup (structEffects x c) _ i3
  generalize hm : ((structEffects x c).foldl Buffer.effect (Buffer.imprt { pkg := x.pkg } t!"time" [])).imports = m
    at ho hn
  have hf := fun p => imports_foldl p (structEffects x c) (Buffer.imprt { pkg := x.pkg } t!"time" [])
  simp only [hm, i2, i4] at hf
  have hmem : ∀ p, p ∈ order.map Prod.fst ↔ m.find p ≠ none := by
    intro p
    rw [Ne, GoMap.find_none, Classical.not_not]
    exact (ho.map Prod.fst).mem_iff
  refine ⟨(ho.map Prod.fst).nodup_iff.mpr hn, fun p => ?_, fun p sel hp => ?_⟩
  · rw [hmem]
    constructor
    · intro h
      obtain ⟨sel, hs⟩ := Option.ne_none_iff_exists'.mp h
      rcases (hf p).1 sel hs with h | ⟨h3, h4, h5⟩
      · split at h
        · rename_i ht
          exact ⟨by rw [ht.1]; decide, ht.2, .inl ht.1⟩
        · cases h
      · obtain ⟨ref, hu, hr, -⟩ := (structImports x c p sel h3).mp h5
        exact ⟨h3, h4, .inr ⟨ref, hu, hr⟩⟩
    · rintro ⟨h3, h4, h5⟩ hn
      obtain ⟨h6, h7⟩ := (hf p).2 hn
      rcases h5 with rfl | ⟨ref, hu, rfl⟩
      · rw [if_pos ⟨rfl, h4⟩] at h6
        cases h6
      · rcases h7 ref.selector ((structImports x c _ _ h3).mpr ⟨ref, hu, rfl, rfl⟩) with h | h
        · exact h3 h
        · exact h4 h
  · have hs : m.find p = some sel := GoMap.find_of_mem hn (ho.mem_iff.mp hp)
    rcases (hf p).1 sel hs with h | ⟨h3, h4, h5⟩
    · split at h
      · rename_i ht
        cases h
        exact .inl ⟨ht.1, rfl⟩
      · cases h
    · exact .inr ((structImports x c p sel h3).mp h5)

/-- A single text. -/
def isText (t : Text) : Option (List Node) → Bool
  | some [.text t'] => t == t'
  | _ => false

theorem isText_eq (t : Text) : ∀ o, isText t o = true → o = some [.text t]
  | none, h => by cases h
  | some [], h => by cases h
  | some [.text t'], h => by rw [← eq_of_beq h]
  | some (.text _ :: _ :: _), h => by cases h
  | some (.print _ :: _), h => by cases h
  | some (.set _ _ :: _), h => by cases h
  | some (.branch _ _ _ :: _), h => by cases h
  | some (.range _ _ :: _), h => by cases h

theorem emit_text {α : Type} (E : Env α) (pkg t : Text) (h : parse t = some [.text t]) :
    Buffer.emit E { pkg := pkg } t [] = { pkg := pkg, code := t ++ t!"\n" } := by
  rw [Buffer.emit, h]
  simp [runNodes, Node.run, andThen]

set_option maxRecDepth 100000 in
theorem metadata_parse : isText metadataTemplate (parse metadataTemplate) = true := by decide +kernel

set_option maxRecDepth 100000 in
theorem metadata_short : (splitOn '\n' metadataTemplate).all (fun l => decide (l.length < 65536)) = true := by
  decide +kernel

/-- The file of the metadata of a version, which has no imports: it is always written, and it contains the
declarations of the specification. -/
theorem c89_metadata (x : Context) :
    (metadataSource x { pkg := x.pkg }).imports = [] ∧
    ∃ text, metadataFile x 0 [] = (some text, true) ∧
      significant text = code (fileLines x.pkg [] (itemsLines metadataItems)) := by
  obtain ⟨t, h1, h2⟩ := emit_eq x.env { pkg := x.pkg } metadataTemplate [] metadataLines _ _ rfl metadata_lines
    (metadata_run x)
  have hsrc : metadataSource x { pkg := x.pkg } = { pkg := x.pkg, code := t ++ t!"\n" } := by
    rw [metadataSource, h1]
    rfl
  refine ⟨by rw [hsrc], ?_⟩
  obtain ⟨text, ok, h3, h4, h5⟩ := write_eq { pkg := x.pkg, code := t ++ t!"\n" } [] t _ rfl rfl h2
  have ht : t = metadataTemplate := by
    have : metadataSource x { pkg := x.pkg } = { pkg := x.pkg, code := metadataTemplate ++ t!"\n" } :=
      emit_text x.env x.pkg _ (isText_eq _ _ metadata_parse)
    rw [hsrc] at this
    have := congrArg Buffer.code this
    simpa using this
  have hok : ok = true := h4.mpr (by
    rw [ht]
    intro l hl
    have := List.all_eq_true.mp metadata_short l hl
    simpa using this)
  refine ⟨text, by rw [metadataFile, hsrc, h3, hok], ?_⟩
  rw [h5, hok, if_pos rfl, ← code_append]
  simp [fileLines]

/-- Actions that start something that has to be ended. -/
def starts (ps : List Template.Piece) : Nat :=
  ps.countP fun
    | .action (w :: _) => w = t!"if" || w = t!"range"
    | _ => false

/-- Actions that end something. -/
def ends (ps : List Template.Piece) : Nat :=
  ps.countP fun
    | .action (w :: _) => w = t!"end"
    | _ => false

/-- Actions that have been opened and need their own `end`. -/
def pending (stack : List Open) : Nat :=
  stack.countP fun
    | .yes _ _ chained => !chained
    | .no _ _ _ chained => !chained
    | .range _ _ => true

theorem close_pending : ∀ (stack : List Open) (nodes : List Node) (r : List Node × List Open),
    close nodes stack = some r → pending stack = pending r.2 + 1
  | [], _, _, h => by simp [close] at h
  | .yes e before chained :: stack, nodes, r, h => by
    rw [close] at h
    cases chained with
    | true =>
      simp only [if_pos] at h
      have := close_pending stack _ r h
      simpa [pending] using this
    | false => simp at h; subst h; simp [pending]
  | .no e yes before chained :: stack, nodes, r, h => by
    rw [close] at h
    cases chained with
    | true =>
      simp only [if_pos] at h
      have := close_pending stack _ r h
      simpa [pending] using this
    | false => simp at h; subst h; simp [pending]
  | .range e before :: stack, nodes, r, h => by
    rw [close] at h
    simp at h; subst h; simp [pending]

theorem tree_balanced : ∀ (ps : List Template.Piece) (nodes : List Node) (stack : List Open) (r : List Node),
    tree ps nodes stack = some r →
    ends ps = starts ps + pending stack ∧ ∀ n, ends (ps.take n) ≤ starts (ps.take n) + pending stack
  | [], nodes, [], r, h => by simp [starts, ends, pending]
  | [], _, _ :: _, r, h => by simp [tree] at h
  | .text t :: rest, nodes, stack, r, h => by
    rw [tree] at h
    obtain ⟨h1, h2⟩ := tree_balanced rest _ _ _ h
    refine ⟨by simpa [ends, starts] using h1, fun n => ?_⟩
    cases n with
    | zero => simp [ends]
    | succ n => simpa [ends, starts] using h2 n
  | .action [] :: _, _, _, r, h => by simp [tree] at h
  | .action (w :: ws) :: rest, nodes, stack, r, h => by
    have key : ∀ stack', (∃ nodes', tree rest nodes' stack' = some r) →
        (if w = t!"end" then 1 else 0) + pending stack' =
          (if w = t!"if" ∨ w = t!"range" then 1 else 0) + pending stack →
        ends (.action (w :: ws) :: rest) = starts (.action (w :: ws) :: rest) + pending stack ∧
          ∀ n, ends ((.action (w :: ws) :: rest).take n) ≤
            starts ((.action (w :: ws) :: rest).take n) + pending stack := by
      rintro stack' ⟨nodes', h'⟩ hp
      obtain ⟨h1, h2⟩ := tree_balanced rest _ _ _ h'
      have he : ∀ q, ends (.action (w :: ws) :: q) = ends q + (if w = t!"end" then 1 else 0) := by
        intro q
        simp [ends, List.countP_cons]
      have hs : ∀ q, starts (.action (w :: ws) :: q) =
          starts q + (if w = t!"if" ∨ w = t!"range" then 1 else 0) := by
        intro q
        simp [starts, List.countP_cons]
      refine ⟨by rw [he, hs]; omega, fun n => ?_⟩
      cases n with
      | zero => simp [ends]
      | succ n =>
        rw [List.take_succ_cons, he, hs]
        have := h2 n
        omega
    rw [tree.eq_def] at h
    dsimp only at h
    split at h
    · rename_i hw
      subst hw
      split at h
      · rename_i nodes' stack' hc
        exact key stack' ⟨_, h⟩ (by
          have := close_pending _ _ _ hc
          simp at this
          simp
          omega)
      · cases h
    · rename_i h1
      split at h
      · rename_i hw
        subst hw
        split at h
        · rename_i e before chained stack
          split at h
          · exact key _ ⟨_, h⟩ (by simp [pending, List.countP_cons])
          · exact key _ ⟨_, h⟩ (by simp [pending, List.countP_cons])
        · cases h
      · rename_i h2
        split at h
        · rename_i hw
          subst hw
          exact key _ ⟨_, h⟩ (by simp [pending]; omega)
        · rename_i h3
          split at h
          · rename_i hw
            subst hw
            exact key _ ⟨_, h⟩ (by simp [pending]; omega)
          · rename_i h4
            split at h
            · split at h
              · exact key _ ⟨_, h⟩ (by simp [h1, h3, h4])
              · exact key _ ⟨_, h⟩ (by simp [h1, h3, h4])
            · exact key _ ⟨_, h⟩ (by simp [h1, h3, h4])

/-- A template is only accepted if every `if` and `range` is ended, and nothing else is. -/
theorem c89_balanced (template : Text) (nodes : List Node) (h : parse template = some nodes) :
    ∃ ts, Template.split false [] template = some ts ∧
      ends (Template.pieces false ts) = starts (Template.pieces false ts) ∧
      ∀ n, ends ((Template.pieces false ts).take n) ≤ starts ((Template.pieces false ts).take n) := by
  rw [parse] at h
  cases hs : Template.split false [] template with
  | none => rw [hs] at h; cases h
  | some ts =>
    rw [hs] at h
    obtain ⟨h1, h2⟩ := tree_balanced _ _ _ _ h
    exact ⟨ts, rfl, by simpa [pending] using h1, fun n => by simpa [pending] using h2 n⟩

example : parse t!"{{ if .A }}a{{ end }}" ≠ none ∧ parse t!"a{{ end }}" = none := by decide +kernel

/-- The type of the field where the types record which attributes are set: one error and no type if there
are too many attributes or the type isn't a struct, otherwise a basic type. -/
theorem c89_bitmap (c : TypeCell) :
    (Bitmap.width c = none → bitmapType c = { errors := 1 }) ∧
    ∀ size, Bitmap.width c = some size →
      (bitmapType c).errors = 0 ∧ (bitmapType c).imprt = [] ∧ (bitmapType c).name = (bitmapType c).text := by
  refine ⟨fun h => by rw [bitmapType, h], fun size h => ?_⟩
  rw [bitmapType, h]
  exact ⟨rfl, rfl, rfl⟩

/-! ## Examples -/

/-- A context where the first type is the boolean type, the second the date type, and the others a class of
the same version. -/
def exampleContext : Context :=
  let owner : GoRef.Owner := { service := parseUsingCase t!"ClustersMgmt", version := parseUsingCase t!"V1" }
  { base := t!"example.com/sdk"
    pkg := t!"example.com/sdk/clustersmgmt/v1"
    owner := owner
    typeOf := fun
      | 0 => .basic .boolean
      | 1 => .basic .date
      | _ => .struct { owner := owner, name := parseUsingCase t!"Cluster" }
    ownerOf := fun _ => owner }

/-- A class with three attributes. -/
def exampleClass : TypeCell :=
  { name := parseUsingCase t!"Cluster"
    kind := .class
    doc := t!"Definition of an OpenShift cluster.\n\nIt has many attributes."
    attributes := [
      { name := parseUsingCase t!"Managed", typ := 0, doc := t!"Flag." },
      { name := parseUsingCase t!"CreationTimestamp", typ := 1 },
      { name := parseUsingCase t!"Parent", typ := 2, link := true }] }

/-- An enumerated type. -/
def exampleEnum : TypeCell :=
  { name := parseUsingCase t!"ClusterState"
    kind := .enum
    values := [{ name := parseUsingCase t!"Ready", doc := t!"It is ready.\nAt last." },
      { name := parseUsingCase t!"InstallError" }] }

set_option maxRecDepth 100000 in
example : (typeFile exampleContext exampleClass 0 [(t!"time", t!"time")]).2 = true ∧
    (typeSource exampleContext exampleClass { pkg := exampleContext.pkg }).imports = [(t!"time", t!"time")] := by
  decide +kernel

set_option maxRecDepth 100000 in
example : (typeFile exampleContext exampleEnum 0 []).2 = true ∧
    significant ((typeFile exampleContext exampleEnum 0 []).1.getD []) = headerLines ++ [
      t!"package v1 // example.com/sdk/clustersmgmt/v1",
      t!"// ClusterState represents the values of the 'cluster_state' enumerated type.",
      t!"type ClusterState string",
      t!"const (",
      t!"// It is ready.",
      t!"// At last.",
      t!"ClusterStateReady ClusterState = \"ready\"",
      t!"//",
      t!"ClusterStateInstallError ClusterState = \"install_error\"",
      t!")"] := by
  decide +kernel

/-- The specification of the class of the example: some of the declarations, as text. -/
example : (itemsLines ((entityOf exampleContext exampleClass).items)).take 22 = [
    t!"// ClusterKind is the name of the type used to represent objects",
    t!"// of type 'cluster'.",
    t!"const ClusterKind = \"Cluster\"",
    t!"// ClusterLinkKind is the name of the type used to represent links",
    t!"// to objects of type 'cluster'.",
    t!"const ClusterLinkKind = \"ClusterLink\"",
    t!"// ClusterNilKind is the name of the type used to nil references",
    t!"// to objects of type 'cluster'.",
    t!"const ClusterNilKind = \"ClusterNil\"",
    t!"// Cluster represents the values of the 'cluster' type.",
    t!"//",
    t!"// Definition of an OpenShift cluster.\n// \n// It has many attributes.",
    t!"type  Cluster struct {",
    t!"bitmap_ uint32",
    t!"id   string",
    t!"href string",
    t!"creationTimestamp time.Time",
    t!"parent *Cluster",
    t!"managed bool",
    t!"}",
    t!"// Kind returns the name of the type of the object.",
    t!"func (o *Cluster) Kind() string {"] := by
  decide +kernel

end Verif.TypesCode
