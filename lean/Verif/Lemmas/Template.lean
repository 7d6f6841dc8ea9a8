import Verif.Spec.Template
import Verif.Lemmas.ClientPaths
import Verif.Lemmas.Files
import Verif.Lemmas.Checks
import Verif.Props.Docs
import Verif.Props.GoBuffer

/-! # Lemmas about the pages of the documentation -/

namespace Verif

namespace Template

open Docs

/-! ## Trees of the templates -/

/-- The tree of the template. -/
def indexNodes : List Node := [
  .text t!"\n\t\t# Model\n\n\t\t## Resources\n\n\t\t",
  .range t!".Model.Services" [
    .text t!"\n\t\t\t",
    .range t!".Versions" [
      .text t!"\n\t\t\t\t",
      .range t!".Resources" [
        .text t!"\n\t\t\t\t\t[",
        .call t!"displayName" t!".",
        .text t!"](",
        .call t!"resourceFile" t!".",
        .text t!".md)\n\t\t\t\t"],
      .text t!"\n\t\t\t"],
    .text t!"\n\t\t"],
  .text t!"\n\n\t\t## Types\n\n\t\t",
  .range t!".Model.Services" [
    .text t!"\n\t\t\t",
    .range t!".Versions" [
      .text t!"\n\t\t\t\t",
      .range t!".Types" [
        .text t!"\n\t\t\t\t\t[",
        .call t!"displayName" t!".",
        .text t!"](",
        .call t!"resourceFile" t!".",
        .text t!".md)\n\t\t\t\t"],
      .text t!"\n\t\t\t"],
    .text t!"\n\t\t"],
  .text t!"\n\t\t"]

/-- The tree of the template. -/
def resourceNodes : List Node := [
  .text t!"\n\t\t# ",
  .call t!"displayName" t!".Resource",
  .text t!"\n\n\t\t",
  .call t!"docDetail" t!".Resource",
  .text t!"\n\n\t\t",
  .branch t!".Resource.Methods" [
    .text t!"\n\t\t\t| Name | Summary |\n\t\t\t| ---- | ------- |\n\t\t\t",
    .range t!".Resource.Methods" [
      .text t!"| ",
      .call t!"displayName" t!".",
      .text t!" | ",
      .call t!"docSummary" t!".",
      .text t!" |\n\t\t\t"],
    .text t!""],
  .text t!"\n\n\t\t",
  .range t!".Resource.Methods" [
    .text t!"\n\t\t\t## ",
    .call t!"displayName" t!".",
    .text t!" - ",
    .call t!"httpMethod" t!".",
    .text t!"\n\n\t\t\t",
    .call t!"docDetail" t!".",
    .text t!"\n\n\t\t\t",
    .branch t!".Parameters" [
      .text t!"\n\t\t\t\t| Name | Type | Direction | Summary |\n\t\t\t\t| ---- | ---- | --------- | ------- |\n\t\t\t\t",
      .range t!".Parameters" [
        .text t!"| ",
        .call t!"tagName" t!".",
        .text t!" | - | - | ",
        .call t!"docSummary" t!".",
        .text t!" |\n\t\t\t\t"],
      .text t!""],
    .text t!"\n\n\t\t\t",
    .range t!".Parameters" [
      .text t!"\n\t\t\t\t### ",
      .call t!"displayName" t!".",
      .text t!"\n\n\t\t\t\t",
      .call t!"docDetail" t!".",
      .text t!"\n\t\t\t"],
    .text t!"\n\t\t"],
  .text t!"\n\t\t"]

/-- The tree of the template. -/
def enumNodes : List Node := [
  .text t!"\n\t\t# ",
  .call t!"displayName" t!".Type",
  .text t!"\n\n\t\t",
  .call t!"docDetail" t!".Type",
  .text t!"\n\n\t\t",
  .branch t!".Type.Values" [
    .text t!"\n\t\t\t| Name | Summary |\n\t\t\t| ---- | ------- |\n\t\t\t",
    .range t!".Type.Values" [
      .text t!"| ",
      .call t!"tagName" t!".",
      .text t!" | ",
      .call t!"docSummary" t!".",
      .text t!" |\n\t\t\t"],
    .text t!""],
  .text t!"\n\n\t\t",
  .range t!".Type.Values" [
    .text t!"\n\t\t\t### ",
    .call t!"tagName" t!".",
    .text t!"\n\n\t\t\t",
    .call t!"docDetail" t!".",
    .text t!"\n\t\t"],
  .text t!"\n\t\t"]

/-- The tree of the template. -/
def structNodes : List Node := [
  .text t!"\n\t\t# ",
  .call t!"displayName" t!".Type",
  .text t!"\n\n\t\t",
  .call t!"docDetail" t!".Type",
  .text t!"\n\n\t\t",
  .branch t!".Type.Attributes" [
    .text t!"\n\t\t\t| Name | Type | Summary |\n\t\t\t| ---- | ---- | ------- |\n\t\t\t",
    .branch t!".Type.IsClass" [
      .text t!"| ",
      .call t!"backTicks" t!"\"kind\"",
      .text t!" | String | Name of the type of the object. |\n\t\t\t\t| ",
      .call t!"backTicks" t!"\"id\"",
      .text t!" | String | Unique identifier of the object. |\n\t\t\t\t| ",
      .call t!"backTicks" t!"\"href\"",
      .text t!" | String | Link to the object. |\n\t\t\t"],
    .text t!"",
    .range t!".Type.Attributes" [
      .text t!"| ",
      .call t!"tagName" t!".",
      .text t!" | - | ",
      .call t!"docSummary" t!".",
      .text t!" |\n\t\t\t"],
    .text t!""],
  .text t!"\n\n\t\t",
  .range t!".Type.Attributes" [
    .text t!"\n\t\t\t## ",
    .call t!"tagName" t!".",
    .text t!"\n\n\t\t\t",
    .call t!"docDetail" t!".",
    .text t!"\n\t\t"],
  .text t!"\n\t\t"]

set_option maxRecDepth 20000 in
theorem parse_index : parse indexTemplate = some indexNodes := rfl

set_option maxRecDepth 20000 in
theorem parse_resource : parse resourceTemplate = some resourceNodes := rfl

set_option maxRecDepth 20000 in
theorem parse_enum : parse enumTemplate = some enumNodes := rfl

set_option maxRecDepth 20000 in
theorem parse_struct : parse structTemplate = some structNodes := rfl

/-! ## Execution -/

theorem mapM_some {α β : Type} (f : α → Option β) (g : α → β) : ∀ l : List α,
    (∀ x ∈ l, f x = some (g x)) → l.mapM f = some (l.map g)
  | [], _ => rfl
  | x :: l, h => by
    rw [List.mapM_cons, h x List.mem_cons_self, mapM_some f g l fun y hy =>
      h y (List.mem_cons_of_mem _ hy)]
    rfl

theorem range_run {α : Type} {fs : Functions} {dot : Value} {list : Text} {body : List Node}
    (xs : List α) (item : α → Item) (g : α → Text)
    (ha : dot.argument list = some (.list (xs.map item)))
    (hb : ∀ x, runNodes fs (.item (item x)) body = some (g x)) :
    (Node.range list body).run fs dot = some (xs.map g).flatten := by
  rw [Node.run, ha]
  simp only [Option.bind_some]
  rw [List.mapM_map, mapM_some ((fun i => runNodes fs (.item i) body) ∘ item) g xs fun x _ => hb x]
  rfl

theorem branch_run {fs : Functions} {dot : Value} {condition : Text} {body : List Node}
    (b : Bool) (v : Value) (t : Text)
    (ha : dot.argument condition = some v) (hv : v.isTrue = some b)
    (hb : b = true → runNodes fs dot body = some t) :
    (Node.branch condition body).run fs dot = some (if b then t else []) := by
  rw [Node.run, ha]
  simp only [Option.bind_some, hv]
  cases b with
  | false => rfl
  | true => simpa using hb rfl

theorem text_run {fs : Functions} {dot : Value} (t : Text) : (Node.text t).run fs dot = some t := by
  rw [Node.run]

theorem nodes_cons {fs : Functions} {dot : Value} {n : Node} {ns : List Node} {a b : Text}
    (h : n.run fs dot = some a) (hs : runNodes fs dot ns = some b) :
    runNodes fs dot (n :: ns) = some (a ++ b) := by
  rw [runNodes, h, hs]
  rfl

theorem nodes_nil {fs : Functions} {dot : Value} : runNodes fs dot [] = some [] := by
  rw [runNodes]

theorem call_run {fs : Functions} {dot : Value} {function argument : Text}
    {f : Value → Option Text} {v : Value} {t : Text} (hf : fs.lookup function = some f)
    (ha : dot.argument argument = some v) (hv : f v = some t) :
    (Node.call function argument).run fs dot = some t := by
  rw [Node.run, hf]
  simp only [Option.bind_some, ha]
  exact hv

end Template

namespace Docs

open Template

/-! ## Lines -/

theorem dropEnd_append_space (l : Text) (c : Char) (h : Space c) : dropEnd (l ++ [c]) = dropEnd l := by
  induction l with
  | nil => simp [dropEnd, h]
  | cons x l ih => simp only [List.cons_append, dropEnd, ih]

theorem dropEnd_nil_iff (l : Text) : dropEnd l = [] ↔ ∀ c ∈ l, Space c := by
  induction l with
  | nil => simp [dropEnd]
  | cons x l ih =>
    rw [dropEnd]
    split
    · rename_i h
      by_cases hx : Space x <;> simp [hx, ih.mp h]
      exact fun a ha => ih.mp h a ha
    · rename_i h
      constructor
      · intro h'
        cases h'
      · intro h'
        exact absurd (ih.mpr fun c hc => h' c (List.mem_cons_of_mem _ hc)) h

theorem tidy_tab (l : Text) : tidy ('\t' :: l) = tidy l := by
  rw [tidy, tidy, dropEnd]
  split
  · rename_i h
    rw [h, if_pos (by decide)]
  · rw [dropTabs]

theorem shown_nl (a b : Text) : shown (a ++ '\n' :: b) = shown a ++ shown b := by
  rw [shown, splitOn_append_sep, List.map_append]
  rfl

theorem shown_tab (t : Text) : shown ('\t' :: t) = shown t := by
  obtain ⟨w, ws, h1, h2⟩ := splitOn_cons_ne '\n' '\t' t (by decide)
  rw [shown, shown, h1, h2]
  simp [tidy_tab]

theorem shown_nil : shown [] = blank := rfl

/-- Only tabs. -/
def Tabs (w : Text) : Prop := ∀ t, shown (w ++ t) = shown t

theorem tabs_replicate (n : Nat) : Tabs (List.replicate n '\t') := by
  intro t
  induction n with
  | zero => rfl
  | succ n ih => rw [List.replicate_succ, List.cons_append, shown_tab, ih]

theorem tabs1 : Tabs t!"\t" := tabs_replicate 1
theorem tabs2 : Tabs t!"\t\t" := tabs_replicate 2
theorem tabs3 : Tabs t!"\t\t\t" := tabs_replicate 3
theorem tabs4 : Tabs t!"\t\t\t\t" := tabs_replicate 4
theorem tabs5 : Tabs t!"\t\t\t\t\t" := tabs_replicate 5

theorem Tabs.self {w : Text} (h : Tabs w) : shown w = blank := by
  have := h []
  rwa [List.append_nil] at this

theorem shown_lines (x : Text) (xs : List Text) :
    shown (List.intercalate ['\n'] (x :: xs)) = (x :: xs).flatMap shown := by
  induction xs generalizing x with
  | nil => simp [List.intercalate]
  | cons y xs ih =>
    have : List.intercalate ['\n'] (x :: y :: xs) = x ++ '\n' :: List.intercalate ['\n'] (y :: xs) := by
      simp [List.intercalate, List.intersperse]
    rw [this, shown_nl, ih]
    rfl

theorem shown_sections {α : Type} (w w' : Text) (hw : Tabs w) (hw' : Tabs w') (body : α → Text)
    (xs : List α) :
    shown (w ++ (xs.map fun x => '\n' :: (body x ++ '\n' :: w')).flatten) =
      sections (xs.map fun x => shown (body x)) := by
  induction xs generalizing w with
  | nil =>
    simp only [List.map_nil, List.flatten_nil, List.append_nil]
    rw [hw.self]
    rfl
  | cons x xs ih =>
    have : w ++ ((x :: xs).map fun x => '\n' :: (body x ++ '\n' :: w')).flatten =
        w ++ '\n' :: (body x ++ '\n' :: (w' ++ (xs.map fun x => '\n' :: (body x ++ '\n' :: w')).flatten)) := by
      simp
    rw [this, shown_nl, shown_nl, ih w' hw', hw.self]
    simp [sections]

theorem shown_rows {α : Type} (w : Text) (hw : Tabs w) (body : α → Text)
    (xs : List α) :
    shown (w ++ (xs.map fun x => body x ++ '\n' :: w).flatten) =
      xs.flatMap (fun x => shown (body x)) ++ blank := by
  induction xs with
  | nil =>
    simp only [List.map_nil, List.flatten_nil, List.append_nil]
    rw [hw.self]
    rfl
  | cons x xs ih =>
    have : w ++ ((x :: xs).map fun x => body x ++ '\n' :: w).flatten =
        w ++ (body x ++ '\n' :: (w ++ (xs.map fun x => body x ++ '\n' :: w).flatten)) := by
      simp
    rw [this, hw, shown_nl, ih]
    simp

theorem space_iff (c : Char) : isSpaceChar c = true ↔ Space c := by
  simp [isSpaceChar, Space, or_assoc]

theorem dropTabs_eq (l : Text) : l.dropWhile (· == '\t') = dropTabs l := by
  induction l with
  | nil => rfl
  | cons c l ih =>
    by_cases h : c = '\t'
    · subst h
      rw [List.dropWhile_cons_of_pos (by decide), ih, dropTabs]
    · rw [List.dropWhile_cons_of_neg (by simpa using h), dropTabs]
      intro _ h'
      cases h'
      exact h rfl

theorem dropEnd_eq (l : Text) : (l.reverse.dropWhile isSpaceChar).reverse = dropEnd l := by
  suffices h : ∀ r : Text, (r.dropWhile isSpaceChar).reverse = dropEnd r.reverse by
    simpa using h l.reverse
  intro r
  induction r with
  | nil => rfl
  | cons c r ih =>
    by_cases h : Space c
    · rw [List.dropWhile_cons_of_pos ((space_iff c).mpr h), ih, List.reverse_cons,
        dropEnd_append_space _ _ h]
    · rw [List.dropWhile_cons_of_neg (fun h' => h ((space_iff c).mp h')), List.reverse_cons]
      clear ih
      induction r.reverse with
      | nil => simp [dropEnd, h]
      | cons x l ih =>
        rw [List.cons_append, dropEnd, ← ih]
        cases l <;> rfl

theorem clean_eq (l : Text) : Markdown.clean l = tidy l := by
  rw [Markdown.clean, dropTabs_eq, dropEnd_eq, tidy]

theorem scan_acc : ∀ (l rest acc : Text), '\n' ∉ l → acc.length + l.length < 65536 →
    Markdown.scan (l ++ rest) acc = Markdown.scan rest (l.reverse ++ acc)
  | [], _, _, _, _ => rfl
  | c :: l, rest, acc, hn, hl => by
    have hc : ¬ c = '\n' := fun h => hn (h ▸ List.mem_cons_self)
    rw [List.cons_append, Markdown.scan, if_neg hc, if_neg (by
        simp only [Markdown.maxLine, List.length_cons] at *
        omega), scan_acc l rest (c :: acc) (fun h => hn (List.mem_cons_of_mem _ h)) (by
        simp only [List.length_cons] at *
        omega)]
    simp

theorem scan_line (l rest : Text) (hn : '\n' ∉ l) (hl : l.length < 65536) :
    Markdown.scan (l ++ '\n' :: rest) [] =
      (l :: (Markdown.scan rest []).1, (Markdown.scan rest []).2) := by
  rw [scan_acc l _ [] hn (by simpa using hl), Markdown.scan, if_pos rfl]
  simp

theorem scan_lines : ∀ (ls : List Text) (rest : Text), (∀ l ∈ ls, '\n' ∉ l ∧ l.length < 65536) →
    Markdown.scan (unlines ls ++ rest) [] =
      (ls ++ (Markdown.scan rest []).1, (Markdown.scan rest []).2)
  | [], _, _ => rfl
  | l :: ls, rest, h => by
    have : unlines (l :: ls) ++ rest = l ++ '\n' :: (unlines ls ++ rest) := by simp [unlines]
    rw [this, scan_line _ _ (h l List.mem_cons_self).1 (h l List.mem_cons_self).2,
      scan_lines ls rest fun x hx => h x (List.mem_cons_of_mem _ hx)]
    rfl

theorem unlines_splitOn (t : Text) : unlines (splitOn '\n' t) = t ++ ['\n'] := by
  induction t with
  | nil => rfl
  | cons c t ih =>
    by_cases h : c = '\n'
    · subst h
      have : splitOn '\n' ('\n' :: t) = [] :: splitOn '\n' t := by simp [splitOn]
      rw [this, unlines, List.flatMap_cons, ← unlines, ih]
      rfl
    · obtain ⟨w, ws, h1, h2⟩ := splitOn_cons_ne '\n' c t h
      rw [h2]
      rw [h1] at ih
      simp only [unlines, List.flatMap_cons, List.cons_append] at *
      rw [ih]

theorem removeTabs_lines (t : Text) (h : Short t) :
    Markdown.removeTabs (t ++ ['\n']) = unlines (shown t) := by
  have hs : Markdown.scan (t ++ ['\n']) [] = (splitOn '\n' t, none) := by
    have := scan_lines (splitOn '\n' t) [] fun l hl => ⟨splitOn_no_sep _ _ _ hl, h l hl⟩
    rw [List.append_nil, unlines_splitOn] at this
    rw [this]
    simp [Markdown.scan]
  rw [Markdown.removeTabs, hs]
  simp only [unlines, shown, List.flatMap_map]
  congr 1
  funext l
  rw [clean_eq]

theorem scan_long (long rest : Text) (hn : '\n' ∉ long) (hl : long.length = 65536) :
    Markdown.scan (long ++ rest) [] = ([], some rest) := by
  obtain ⟨l, c, rfl⟩ : ∃ l c, long = l ++ [c] :=
    ⟨long.dropLast, long.getLast (by intro h; subst h; cases hl), (List.dropLast_concat_getLast _).symm⟩
  rw [List.append_assoc, scan_acc l _ [] (fun h => hn (List.mem_append_left _ h)) (by
    simp at hl; simp; omega)]
  rw [List.singleton_append, Markdown.scan, if_neg (fun h => hn (by simp [h])), if_pos (by
    simp at hl; simp [Markdown.maxLine, hl])]

theorem removeTabs_long (ls : List Text) (long rest : Text)
    (h : ∀ l ∈ ls, '\n' ∉ l ∧ l.length < 65536) (hn : '\n' ∉ long) (hl : long.length = 65536) :
    Markdown.removeTabs (unlines ls ++ (long ++ rest)) = rest := by
  rw [Markdown.removeTabs, scan_lines _ _ h, scan_long _ _ hn hl]

/-! ## Pages -/

theorem display_eq (n : Name) : Markdown.display n = n.camel := rfl

theorem tag_eq (n : Name) : Markdown.tag n = ticked n := (c58_display n).2

theorem httpMethod_eq (n : Name) (ps : List Parameter) :
    httpMethod { name := n, parameters := ps } = verb n := by
  have hn : ∀ k, Method.named { name := n, parameters := ps } k = true ↔ n = k :=
    fun k => named_iff _ k
  simp only [httpMethod, verb, Bool.or_eq_true, hn]
  by_cases h : n = Nom.add
  · subst h
    decide
  · rw [if_neg h]

theorem some_trans {α : Type} {o : Option α} {x y : α} (h : o = some x) (e : x = y) : o = some y :=
  e ▸ h

theorem emit_run {fs : Functions} {template : Text} {ns : List Node} {args : List (Text × Item)}
    {t : Text} (hp : parse template = some ns)
    (hr : runNodes ((t!"backTicks", Markdown.backTicks) :: fs) (.args args) ns = some t) :
    Markdown.emit fs template args = some (t ++ ['\n']) := by
  rw [Markdown.emit, hp]
  simp only [Option.bind_some, hr]
  rfl

/-- Proves that the nodes can be executed. -/
macro "nodes" : tactic => `(tactic| (
  repeat (first
    | exact nodes_nil
    | apply nodes_cons (text_run _)
    | apply nodes_cons (call_run rfl rfl rfl))))

/-- The table of the page of a resource. -/
def methodTable (r : ResourceView) : Text :=
  t!"\n\t\t\t" ++ (row [t!"Name", t!"Summary"] ++ '\n' :: (t!"\t\t\t" ++
    (row [t!"----", t!"-------"] ++ '\n' :: (t!"\t\t\t" ++ (r.methods.map fun m =>
      row [m.name.camel, summary m.doc] ++ '\n' :: t!"\t\t\t").flatten))))

/-- The table of a method. -/
def parameterTable (m : MethodView) : Text :=
  t!"\n\t\t\t\t" ++ (row [t!"Name", t!"Type", t!"Direction", t!"Summary"] ++ '\n' :: (t!"\t\t\t\t" ++
    (row [t!"----", t!"----", t!"---------", t!"-------"] ++ '\n' :: (t!"\t\t\t\t" ++
      (m.parameters.map fun p =>
        row [ticked p.name, t!"-", t!"-", summary p.doc] ++ '\n' :: t!"\t\t\t\t").flatten))))

/-- The part of the page of a resource about a method. -/
def methodText (m : MethodView) : Text :=
  List.intercalate ['\n'] [
    t!"\t\t\t" ++ heading 2 (m.name.camel ++ t!" - " ++ verb m.name), [], t!"\t\t\t" ++ m.doc, [],
    t!"\t\t\t" ++ (if m.parameters.isEmpty then [] else parameterTable m), [],
    t!"\t\t\t" ++ (m.parameters.map fun p => '\n' :: (List.intercalate ['\n']
      [t!"\t\t\t\t" ++ heading 3 p.name.camel, [], t!"\t\t\t\t" ++ p.doc] ++
        '\n' :: t!"\t\t\t")).flatten]

/-- The page of a resource. -/
def resourceText (r : ResourceView) : Text :=
  List.intercalate ['\n'] [[], t!"\t\t" ++ heading 1 r.name.camel, [], t!"\t\t" ++ r.doc, [],
    t!"\t\t" ++ (if r.methods.isEmpty then [] else methodTable r), [],
    t!"\t\t" ++ (r.methods.map fun m => '\n' :: (methodText m ++ '\n' :: t!"\t\t")).flatten,
    t!"\t\t"]

theorem bool_if (l : List α) (t : Text) :
    (if (!l.isEmpty) = true then t else []) = if l.isEmpty = true then [] else t := by
  cases l <;> rfl

theorem resource_run (r : ResourceView) :
    documentResource r = some (resourceText r ++ ['\n']) := by
  refine emit_run parse_resource ?_
  apply some_trans
  · unfold resourceNodes
    nodes
    apply nodes_cons (branch_run (!r.methods.isEmpty) (.list (r.methods.map MethodView.item))
      (methodTable r) rfl (by cases r.methods <;> rfl) ?_)
    rotate_right
    · intro _
      apply some_trans
      · nodes
        apply nodes_cons (range_run r.methods MethodView.item (fun m =>
          row [m.name.camel, summary m.doc] ++ '\n' :: t!"\t\t\t") rfl ?_)
        rotate_right
        · intro m
          apply some_trans
          · nodes
          · simp [row, display_eq, MethodView.item, Item.name, Item.doc]
        · nodes
      · simp [methodTable, row]
    nodes
    apply nodes_cons (range_run r.methods MethodView.item (fun m =>
      '\n' :: (methodText m ++ '\n' :: t!"\t\t")) rfl ?_)
    rotate_right
    · intro m
      apply some_trans
      · nodes
        apply nodes_cons (branch_run (!m.parameters.isEmpty) (.list (m.parameters.map ParameterView.item))
          (parameterTable m) rfl (by cases m.parameters <;> rfl) ?_)
        rotate_right
        · intro _
          apply some_trans
          · nodes
            apply nodes_cons (range_run m.parameters ParameterView.item (fun p =>
              row [ticked p.name, t!"-", t!"-", summary p.doc] ++ '\n' :: t!"\t\t\t\t") rfl ?_)
            rotate_right
            · intro p
              apply some_trans
              · nodes
              · simp [row, tag_eq, ParameterView.item, Item.name, Item.doc]
            · nodes
          · simp [parameterTable, row]
        nodes
        apply nodes_cons (range_run m.parameters ParameterView.item (fun p =>
          '\n' :: (List.intercalate ['\n']
            [t!"\t\t\t\t" ++ heading 3 p.name.camel, [], t!"\t\t\t\t" ++ p.doc] ++
              '\n' :: t!"\t\t\t")) rfl ?_)
        rotate_right
        · intro p
          apply some_trans
          · nodes
          · simp [List.intercalate, List.intersperse, heading, List.replicate, display_eq,
              ParameterView.item, Item.name, Item.doc]
        · nodes
      · simp [methodText, List.intercalate, List.intersperse, heading, List.replicate,
          display_eq, httpMethod_eq, MethodView.item, Item.name, Item.doc]
    · nodes
  · simp [resourceText, List.intercalate, List.intersperse, heading, List.replicate,
      display_eq, ResourceView.item, Item.name, Item.doc]

/-- The tables are shown as tables. -/
theorem shown_table {α : Type} (w w' : Text) (hw : Tabs w) (hw' : Tabs w') (header : List Text)
    (xs : List α) (cells : α → List Text) :
    shown (w ++ '\n' :: (w' ++ (row header ++ '\n' :: (w' ++
      (row (header.map fun h => List.replicate h.length '-') ++ '\n' :: (w' ++ (xs.map fun x =>
        row (cells x) ++ '\n' :: w').flatten)))))) =
      blank ++ (table header (xs.map cells) ++ blank) := by
  rw [shown_nl, hw', shown_nl, hw', shown_nl, shown_rows _ hw', hw.self]
  simp [table, List.flatMap_map]

theorem described_shown (w : Text) (hw : Tabs w) (level : Nat) (title doc : Text) :
    shown (List.intercalate ['\n'] [w ++ heading level title, [], w ++ doc]) =
      described level title doc := by
  rw [shown_lines]
  simp [hw _, shown_nil, described]

theorem method_shown (m : MethodView) : shown (methodText m) = methodPart m := by
  rw [methodText, shown_lines]
  have h := shown_sections t!"\t\t\t" t!"\t\t\t" tabs3 tabs3 (fun p : ParameterView =>
    List.intercalate ['\n'] [t!"\t\t\t\t" ++ heading 3 p.name.camel, [], t!"\t\t\t\t" ++ p.doc])
    m.parameters
  simp only [described_shown _ tabs4] at h
  have ht : shown (t!"\t\t\t" ++ (if m.parameters.isEmpty then [] else parameterTable m)) =
      tablePart [t!"Name", t!"Type", t!"Direction", t!"Summary"]
        (m.parameters.map fun p => [ticked p.name, t!"-", t!"-", summary p.doc]) := by
    cases hp : m.parameters with
    | nil => rfl
    | cons p ps =>
      rw [← hp, tablePart, if_neg (by rw [hp]; simp), if_neg (by rw [hp]; simp)]
      exact shown_table t!"\t\t\t" t!"\t\t\t\t" tabs3 tabs4 _ m.parameters _
  simp only [List.flatMap_cons, List.flatMap_nil, ht, h, tabs3 _, shown_nil, methodPart, described,
    List.append_assoc, List.append_nil]

theorem resource_shown (r : ResourceView) : shown (resourceText r) = resourcePage r := by
  rw [resourceText, shown_lines]
  have h := shown_sections t!"\t\t" t!"\t\t" tabs2 tabs2 methodText r.methods
  simp only [method_shown] at h
  have ht : shown (t!"\t\t" ++ (if r.methods.isEmpty then [] else methodTable r)) =
      tablePart [t!"Name", t!"Summary"] (r.methods.map fun m => [m.name.camel, summary m.doc]) := by
    cases hp : r.methods with
    | nil => rfl
    | cons p ps =>
      rw [← hp, tablePart, if_neg (by rw [hp]; simp), if_neg (by rw [hp]; simp)]
      exact shown_table t!"\t\t" t!"\t\t\t" tabs2 tabs3 _ r.methods _
  simp only [List.flatMap_cons, List.flatMap_nil, ht, h, tabs2 _, tabs2.self, shown_nil, resourcePage,
    described, List.append_assoc, List.append_nil]

/-! ### Enumerated types -/

/-- The table of the page of an enumerated type. -/
def valueTable (ms : List MemberView) : Text :=
  t!"\n\t\t\t" ++ (row [t!"Name", t!"Summary"] ++ '\n' :: (t!"\t\t\t" ++
    (row [t!"----", t!"-------"] ++ '\n' :: (t!"\t\t\t" ++ (ms.map fun m =>
      row [ticked m.name, summary m.doc] ++ '\n' :: t!"\t\t\t").flatten))))

/-- The page of an enumerated type. -/
def enumText (t : TypeView) : Text :=
  List.intercalate ['\n'] [[], t!"\t\t" ++ heading 1 t.name.camel, [], t!"\t\t" ++ t.doc, [],
    t!"\t\t" ++ (if t.members.isEmpty then [] else valueTable t.members), [],
    t!"\t\t" ++ (t.members.map fun m => '\n' :: (List.intercalate ['\n']
      [t!"\t\t\t" ++ heading 3 (ticked m.name), [], t!"\t\t\t" ++ m.doc] ++ '\n' :: t!"\t\t")).flatten,
    t!"\t\t"]

theorem enum_run (t : TypeView) (hk : t.kind = .enum) :
    documentType t = some (enumText t ++ ['\n']) := by
  obtain ⟨name, doc, kind, ms⟩ := t
  cases hk
  refine emit_run parse_enum ?_
  apply some_trans
  · unfold enumNodes
    nodes
    apply nodes_cons (branch_run (!ms.isEmpty) (.list (ms.map MemberView.value))
      (valueTable ms) rfl (by cases ms <;> rfl) ?_)
    rotate_right
    · intro _
      apply some_trans
      · nodes
        apply nodes_cons (range_run ms MemberView.value (fun m =>
          row [ticked m.name, summary m.doc] ++ '\n' :: t!"\t\t\t") rfl ?_)
        rotate_right
        · intro m
          apply some_trans
          · nodes
          · simp [row, tag_eq, MemberView.value, Item.name, Item.doc]
        · nodes
      · simp [valueTable, row]
    nodes
    apply nodes_cons (range_run ms MemberView.value (fun m => '\n' :: (List.intercalate ['\n']
      [t!"\t\t\t" ++ heading 3 (ticked m.name), [], t!"\t\t\t" ++ m.doc] ++ '\n' :: t!"\t\t")) rfl ?_)
    rotate_right
    · intro m
      apply some_trans
      · nodes
      · simp [List.intercalate, List.intersperse, heading, List.replicate, tag_eq,
          MemberView.value, Item.name, Item.doc]
    · nodes
  · simp [enumText, List.intercalate, List.intersperse, heading, List.replicate,
      display_eq, TypeView.item, Item.name, Item.doc]

theorem enum_shown (t : TypeView) : shown (enumText t) = enumPage t := by
  rw [enumText, shown_lines]
  have h := shown_sections t!"\t\t" t!"\t\t" tabs2 tabs2 (fun m : MemberView =>
    List.intercalate ['\n'] [t!"\t\t\t" ++ heading 3 (ticked m.name), [], t!"\t\t\t" ++ m.doc]) t.members
  simp only [described_shown _ tabs3] at h
  have ht : shown (t!"\t\t" ++ (if t.members.isEmpty then [] else valueTable t.members)) =
      tablePart [t!"Name", t!"Summary"] (t.members.map fun m => [ticked m.name, summary m.doc]) := by
    cases hp : t.members with
    | nil => rfl
    | cons p ps =>
      rw [← hp, tablePart, if_neg (by rw [hp]; simp), if_neg (by rw [hp]; simp)]
      exact shown_table t!"\t\t" t!"\t\t\t" tabs2 tabs3 _ t.members _
  simp only [List.flatMap_cons, List.flatMap_nil, ht, h, tabs2 _, tabs2.self, shown_nil, enumPage,
    described, List.append_assoc, List.append_nil]

/-! ### Structs and classes -/

/-- The rows of the attributes that all classes have. -/
def classText : Text :=
  row [t!"`kind`", t!"String", t!"Name of the type of the object."] ++ '\n' :: (t!"\t\t\t\t" ++
  (row [t!"`id`", t!"String", t!"Unique identifier of the object."] ++ '\n' :: (t!"\t\t\t\t" ++
  (row [t!"`href`", t!"String", t!"Link to the object."] ++ '\n' :: t!"\t\t\t"))))

/-- The rows of the attributes. -/
def attributeRows (ms : List MemberView) : Text :=
  (ms.map fun m => row [ticked m.name, t!"-", summary m.doc] ++ '\n' :: t!"\t\t\t").flatten

/-- The table of the page of a struct. -/
def attributeTable (isClass : Bool) (ms : List MemberView) : Text :=
  t!"\n\t\t\t" ++ (row [t!"Name", t!"Type", t!"Summary"] ++ '\n' :: (t!"\t\t\t" ++
    (row [t!"----", t!"----", t!"-------"] ++ '\n' :: (t!"\t\t\t" ++
      ((if isClass then classText else []) ++ attributeRows ms)))))

/-- The page of a struct. -/
def structText (t : TypeView) : Text :=
  List.intercalate ['\n'] [[], t!"\t\t" ++ heading 1 t.name.camel, [], t!"\t\t" ++ t.doc, [],
    t!"\t\t" ++ (if t.members.isEmpty then [] else attributeTable (t.kind == .class) t.members), [],
    t!"\t\t" ++ (t.members.map fun m => '\n' :: (List.intercalate ['\n']
      [t!"\t\t\t" ++ heading 2 (ticked m.name), [], t!"\t\t\t" ++ m.doc] ++ '\n' :: t!"\t\t")).flatten,
    t!"\t\t"]

theorem struct_run (t : TypeView) (hk : t.kind = .class ∨ t.kind = .struct) :
    documentType t = some (structText t ++ ['\n']) := by
  obtain ⟨name, doc, kind, ms⟩ := t
  have he : documentType ⟨name, doc, kind, ms⟩ = Markdown.emit typeFunctions structTemplate
      [(t!"Type", TypeView.item ⟨name, doc, kind, ms⟩)] := by
    rcases hk with rfl | rfl <;> rfl
  have ha : (Value.args [(t!"Type", TypeView.item ⟨name, doc, kind, ms⟩)]).argument
      t!".Type.Attributes" = some (.list (ms.map MemberView.attribute)) := by
    rcases hk with rfl | rfl <;> rfl
  rw [he]
  refine emit_run parse_struct ?_
  apply some_trans
  · unfold structNodes
    nodes
    apply nodes_cons (branch_run (!ms.isEmpty) (.list (ms.map MemberView.attribute))
      (attributeTable (kind == .class) ms) ha (by cases ms <;> rfl) ?_)
    rotate_right
    · intro _
      apply some_trans
      · nodes
        apply nodes_cons (branch_run (kind == .class) (.flag (kind == .class)) classText rfl rfl ?_)
        rotate_right
        · intro _
          apply some_trans
          · nodes
          · simp [classText, row]
        nodes
        apply nodes_cons (range_run ms MemberView.attribute (fun m =>
          row [ticked m.name, t!"-", summary m.doc] ++ '\n' :: t!"\t\t\t") ha ?_)
        rotate_right
        · intro m
          apply some_trans
          · nodes
          · simp [row, tag_eq, MemberView.attribute, Item.name, Item.doc]
        · nodes
      · simp [attributeTable, attributeRows, row]
    nodes
    apply nodes_cons (range_run ms MemberView.attribute (fun m => '\n' :: (List.intercalate ['\n']
      [t!"\t\t\t" ++ heading 2 (ticked m.name), [], t!"\t\t\t" ++ m.doc] ++ '\n' :: t!"\t\t")) ha ?_)
    rotate_right
    · intro m
      apply some_trans
      · nodes
      · simp [List.intercalate, List.intersperse, heading, List.replicate, tag_eq,
          MemberView.attribute, Item.name, Item.doc]
    · nodes
  · simp [structText, List.intercalate, List.intersperse, heading, List.replicate,
      display_eq, TypeView.item, Item.name, Item.doc]

theorem shown_attributes (isClass : Bool) (ms : List MemberView) :
    shown (t!"\t\t\t" ++ ((if isClass then classText else []) ++ attributeRows ms)) =
      (if isClass then classRows.flatMap fun r => shown (row r) else []) ++
        (ms.flatMap (fun m => shown (row [ticked m.name, t!"-", summary m.doc])) ++ blank) := by
  have hr := shown_rows t!"\t\t\t" tabs3 (fun m : MemberView => row [ticked m.name, t!"-", summary m.doc]) ms
  cases isClass with
  | false => exact hr
  | true =>
    have he : classText ++ attributeRows ms =
        row [t!"`kind`", t!"String", t!"Name of the type of the object."] ++ '\n' :: (t!"\t\t\t\t" ++
        (row [t!"`id`", t!"String", t!"Unique identifier of the object."] ++ '\n' :: (t!"\t\t\t\t" ++
        (row [t!"`href`", t!"String", t!"Link to the object."] ++ '\n' :: (t!"\t\t\t" ++
          attributeRows ms))))) := by
      simp only [classText, List.append_assoc, List.cons_append]
    rw [if_pos rfl, if_pos rfl, tabs3, he, shown_nl, tabs4, shown_nl, tabs4, shown_nl, attributeRows, hr]
    simp [classRows]

theorem struct_shown (t : TypeView) : shown (structText t) = structPage t := by
  rw [structText, shown_lines]
  have h := shown_sections t!"\t\t" t!"\t\t" tabs2 tabs2 (fun m : MemberView =>
    List.intercalate ['\n'] [t!"\t\t\t" ++ heading 2 (ticked m.name), [], t!"\t\t\t" ++ m.doc]) t.members
  simp only [described_shown _ tabs3] at h
  have ht : shown (t!"\t\t" ++ (if t.members.isEmpty then [] else
      attributeTable (t.kind == .class) t.members)) =
      tablePart [t!"Name", t!"Type", t!"Summary"] (if t.members = [] then []
        else (if t.kind = .class then classRows else []) ++
          t.members.map fun m => [ticked m.name, t!"-", summary m.doc]) := by
    cases hp : t.members with
    | nil => rfl
    | cons p ps =>
      have hne : t.members ≠ [] := by rw [hp]; exact List.cons_ne_nil _ _
      rw [← hp, tablePart, if_neg hne, if_neg (by simp [hne]), if_neg (by simp [hne])]
      show shown (t!"\t\t" ++ '\n' :: (t!"\t\t\t" ++ _)) = _
      rw [shown_nl, tabs3, shown_nl, tabs3, shown_nl, shown_attributes, tabs2.self]
      by_cases hc : t.kind = .class <;>
        simp [hc, table, List.flatMap_map, List.replicate, List.flatMap_append]
  simp only [List.flatMap_cons, List.flatMap_nil, ht, h, tabs2 _, tabs2.self, shown_nil, structPage,
    described, List.append_assoc, List.append_nil]

/-! ### Index -/

/-- The links of the index. -/
def linksText (m : List ServiceView) (elements : VersionView → List (Name × Text)) : Text :=
  (m.map fun s => '\n' :: (t!"\t\t\t" ++ (s.versions.map fun v => '\n' :: (t!"\t\t\t\t" ++
    ((elements v).map fun e => '\n' :: (t!"\t\t\t\t\t" ++ (t!"[" ++ e.1.camel ++ t!"](" ++ e.2 ++ t!".md)") ++
      '\n' :: t!"\t\t\t\t")).flatten ++ '\n' :: t!"\t\t\t")).flatten ++ '\n' :: t!"\t\t")).flatten

/-- The index. -/
def indexText (m : List ServiceView) : Text :=
  List.intercalate ['\n'] [[], t!"\t\t# Model", [], t!"\t\t## Resources", [],
    t!"\t\t" ++ linksText m (fun v => v.resources.map fun r => (r.name, resourceFile r.name)), [],
    t!"\t\t## Types", [],
    t!"\t\t" ++ linksText m (fun v => v.types.map fun t => (t.name, typeFile t.name)),
    t!"\t\t"]

theorem index_run (m : List ServiceView) : documentIndex m = some (indexText m ++ ['\n']) := by
  refine emit_run parse_index ?_
  apply some_trans
  · unfold indexNodes
    nodes
    apply nodes_cons (range_run m ServiceView.item (fun s =>
      '\n' :: (t!"\t\t\t" ++ (s.versions.map fun v => '\n' :: (t!"\t\t\t\t" ++
        (v.resources.map fun r => '\n' :: (t!"\t\t\t\t\t" ++
          (t!"[" ++ r.name.camel ++ t!"](" ++ resourceFile r.name ++ t!".md)") ++
            '\n' :: t!"\t\t\t\t")).flatten ++ '\n' :: t!"\t\t\t")).flatten ++ '\n' :: t!"\t\t")) rfl ?_)
    rotate_right
    · intro s
      apply some_trans
      · nodes
        apply nodes_cons (range_run s.versions VersionView.item (fun v => '\n' :: (t!"\t\t\t\t" ++
          (v.resources.map fun r => '\n' :: (t!"\t\t\t\t\t" ++
            (t!"[" ++ r.name.camel ++ t!"](" ++ resourceFile r.name ++ t!".md)") ++
              '\n' :: t!"\t\t\t\t")).flatten ++ '\n' :: t!"\t\t\t")) rfl ?_)
        rotate_right
        · intro v
          apply some_trans
          · nodes
            apply nodes_cons (range_run v.resources ResourceView.item (fun r => '\n' ::
              (t!"\t\t\t\t\t" ++ (t!"[" ++ r.name.camel ++ t!"](" ++ resourceFile r.name ++ t!".md)") ++
                '\n' :: t!"\t\t\t\t")) rfl ?_)
            rotate_right
            · intro r
              apply some_trans
              · nodes
              · simp [display_eq, ResourceView.item, Item.name]
            nodes
          · simp
        nodes
      · simp
    nodes
    apply nodes_cons (range_run m ServiceView.item (fun s =>
      '\n' :: (t!"\t\t\t" ++ (s.versions.map fun v => '\n' :: (t!"\t\t\t\t" ++
        (v.types.map fun r => '\n' :: (t!"\t\t\t\t\t" ++
          (t!"[" ++ r.name.camel ++ t!"](" ++ typeFile r.name ++ t!".md)") ++
            '\n' :: t!"\t\t\t\t")).flatten ++ '\n' :: t!"\t\t\t")).flatten ++ '\n' :: t!"\t\t")) rfl ?_)
    rotate_right
    · intro s
      apply some_trans
      · nodes
        apply nodes_cons (range_run s.versions VersionView.item (fun v => '\n' :: (t!"\t\t\t\t" ++
          (v.types.map fun r => '\n' :: (t!"\t\t\t\t\t" ++
            (t!"[" ++ r.name.camel ++ t!"](" ++ typeFile r.name ++ t!".md)") ++
              '\n' :: t!"\t\t\t\t")).flatten ++ '\n' :: t!"\t\t\t")) rfl ?_)
        rotate_right
        · intro v
          apply some_trans
          · nodes
            apply nodes_cons (range_run v.types TypeView.item (fun r => '\n' ::
              (t!"\t\t\t\t\t" ++ (t!"[" ++ r.name.camel ++ t!"](" ++ typeFile r.name ++ t!".md)") ++
                '\n' :: t!"\t\t\t\t")) rfl ?_)
            rotate_right
            · intro r
              apply some_trans
              · nodes
              · simp [display_eq, TypeView.item, Item.name]
            nodes
          · simp
        nodes
      · simp
    nodes
  · simp [indexText, linksText, List.intercalate, List.intersperse, List.map_map, Function.comp_def]

theorem links_shown (m : List ServiceView) (elements : VersionView → List (Name × Text)) :
    shown (t!"\t\t" ++ linksText m elements) = linksOf m elements := by
  have h1 : ∀ v : VersionView, shown (t!"\t\t\t\t" ++ ((elements v).map fun e => '\n' ::
      (t!"\t\t\t\t\t" ++ (t!"[" ++ e.1.camel ++ t!"](" ++ e.2 ++ t!".md)") ++ '\n' ::
        t!"\t\t\t\t")).flatten) = sections ((elements v).map fun e => link e.1 e.2) := by
    intro v
    rw [shown_sections t!"\t\t\t\t" t!"\t\t\t\t" tabs4 tabs4]
    simp only [tabs5 _, link]
  have h2 : ∀ s : ServiceView, shown (t!"\t\t\t" ++ (s.versions.map fun v => '\n' ::
      (t!"\t\t\t\t" ++ ((elements v).map fun e => '\n' ::
      (t!"\t\t\t\t\t" ++ (t!"[" ++ e.1.camel ++ t!"](" ++ e.2 ++ t!".md)") ++ '\n' ::
        t!"\t\t\t\t")).flatten ++ '\n' :: t!"\t\t\t")).flatten) =
      sections (s.versions.map fun v => sections ((elements v).map fun e => link e.1 e.2)) := by
    intro s
    rw [shown_sections t!"\t\t\t" t!"\t\t\t" tabs3 tabs3]
    simp only [h1]
  rw [linksText, shown_sections t!"\t\t" t!"\t\t" tabs2 tabs2]
  simp only [h2, linksOf]

theorem index_shown (m : List ServiceView) : shown (indexText m) = indexPage m := by
  rw [indexText, shown_lines]
  have h1 : shown t!"\t\t# Model" = [heading 1 t!"Model"] := by decide
  have h2 : shown t!"\t\t## Resources" = [heading 2 t!"Resources"] := by decide
  have h3 : shown t!"\t\t## Types" = [heading 2 t!"Types"] := by decide
  simp only [List.flatMap_cons, List.flatMap_nil, h1, h2, h3, links_shown, tabs2.self, shown_nil,
    indexPage, List.append_assoc, List.append_nil]

/-! ### Lengths of the lines -/

/-- The lines of a text are shorter than the given number. -/
def Below (n : Nat) (t : Text) : Prop := ∀ line ∈ splitOn '\n' t, line.length < n

theorem below_nl (n : Nat) (a b : Text) : Below n (a ++ '\n' :: b) ↔ Below n a ∧ Below n b := by
  simp only [Below, splitOn_append_sep, List.mem_append]
  grind

theorem below_nl' (n : Nat) (b : Text) : Below n ('\n' :: b) ↔ 0 < n ∧ Below n b := by
  have := below_nl n [] b
  rw [List.nil_append] at this
  rw [this]
  refine and_congr_left fun _ => ?_
  simp [Below, splitOn]

theorem below_tabs (n k : Nat) (t : Text) (h : Below n t) :
    Below (n + k) (List.replicate k '\t' ++ t) := by
  induction k with
  | zero => exact h
  | succ k ih =>
    rw [List.replicate_succ, List.cons_append]
    obtain ⟨w, ws, h1, h2⟩ := splitOn_cons_ne '\n' '\t' (List.replicate k '\t' ++ t) (by decide)
    intro line hl
    rw [h2] at hl
    rw [Below, h1] at ih
    rcases List.mem_cons.mp hl with rfl | hl
    · have := ih w List.mem_cons_self
      simp only [List.length_cons]
      omega
    · have := ih line (List.mem_cons_of_mem _ hl)
      omega

theorem Below.mono {n k : Nat} {t : Text} (h : Below n t) (hk : n ≤ k) : Below k t :=
  fun l hl => Nat.lt_of_lt_of_le (h l hl) hk

theorem fits_below {t : Text} (h : Fits t) : Below 65531 t := fun l hl => by
  have := h l hl
  omega

theorem short_tabs {t : Text} (k : Nat) (hk : k ≤ 5) (h : Below 65531 t) :
    Below 65536 (List.replicate k '\t' ++ t) :=
  (below_tabs _ k t h).mono (by omega)

theorem below_lines (n : Nat) : ∀ (x : Text) (xs : List Text), (∀ t ∈ x :: xs, Below n t) →
    Below n (List.intercalate ['\n'] (x :: xs))
  | x, [], h => by simpa [List.intercalate] using h
  | x, y :: xs, h => by
    have : List.intercalate ['\n'] (x :: y :: xs) = x ++ '\n' :: List.intercalate ['\n'] (y :: xs) := by
      simp [List.intercalate, List.intersperse]
    rw [this, below_nl]
    exact ⟨h x List.mem_cons_self, below_lines n y xs fun t ht => h t (List.mem_cons_of_mem _ ht)⟩

theorem below_sections {α : Type} (n : Nat) (w w' : Text) (hw : Below n w) (hw' : Below n w')
    (body : α → Text) (xs : List α) (h : ∀ x ∈ xs, Below n (body x)) :
    Below n (w ++ (xs.map fun x => '\n' :: (body x ++ '\n' :: w')).flatten) := by
  induction xs generalizing w with
  | nil => simpa using hw
  | cons x xs ih =>
    have : w ++ ((x :: xs).map fun x => '\n' :: (body x ++ '\n' :: w')).flatten =
        w ++ '\n' :: (body x ++ '\n' :: (w' ++ (xs.map fun x => '\n' :: (body x ++ '\n' :: w')).flatten)) := by
      simp
    rw [this, below_nl, below_nl]
    exact ⟨hw, h x List.mem_cons_self, ih w' hw' fun y hy => h y (List.mem_cons_of_mem _ hy)⟩

theorem below_rows {α : Type} (n : Nat) (w : Text) (hw : Below n w)
    (body : α → Text) (xs : List α) (h : ∀ x ∈ xs, Below n (w ++ body x)) :
    Below n (w ++ (xs.map fun x => body x ++ '\n' :: w).flatten) := by
  induction xs with
  | nil => simpa using hw
  | cons x xs ih =>
    have : w ++ ((x :: xs).map fun x => body x ++ '\n' :: w).flatten =
        (w ++ body x) ++ '\n' :: (w ++ (xs.map fun x => body x ++ '\n' :: w).flatten) := by
      simp
    rw [this, below_nl]
    exact ⟨h x List.mem_cons_self, ih fun y hy => h y (List.mem_cons_of_mem _ hy)⟩

instance (n : Nat) (t : Text) : Decidable (Below n t) := inferInstanceAs (Decidable (∀ _ ∈ _, _))

theorem short2 {t : Text} (h : Fits t) : Below 65536 (t!"\t\t" ++ t) := short_tabs 2 (by omega) (fits_below h)
theorem short3 {t : Text} (h : Fits t) : Below 65536 (t!"\t\t\t" ++ t) := short_tabs 3 (by omega) (fits_below h)
theorem short4 {t : Text} (h : Fits t) : Below 65536 (t!"\t\t\t\t" ++ t) := short_tabs 4 (by omega) (fits_below h)
theorem short5 {t : Text} (h : Fits t) : Below 65536 (t!"\t\t\t\t\t" ++ t) := short_tabs 5 (by omega) (fits_below h)

theorem short_blank : Below 65536 [] := by decide
theorem short_w2 : Below 65536 t!"\t\t" := by decide
theorem short_w3 : Below 65536 t!"\t\t\t" := by decide
theorem short_w4 : Below 65536 t!"\t\t\t\t" := by decide

/-- The lengths of the lines of a table. -/
theorem below_table {α : Type} (n : Nat) (w w' : Text) (hw : Below n w) (hw' : Below n w')
    (header : Text) (dashes : Text) (h1 : Below n (w' ++ header)) (h2 : Below n (w' ++ dashes))
    (xs : List α) (body : α → Text) (h : ∀ x ∈ xs, Below n (w' ++ body x)) :
    Below n (w ++ '\n' :: (w' ++ (header ++ '\n' :: (w' ++
      (dashes ++ '\n' :: (w' ++ (xs.map fun x => body x ++ '\n' :: w').flatten)))))) := by
  rw [below_nl, ← List.append_assoc w', below_nl, ← List.append_assoc w', below_nl]
  exact ⟨hw, h1, h2, below_rows n w' hw' body xs h⟩

theorem short_method (m : MethodView)
    (h2 : Fits (heading 2 (m.name.camel ++ t!" - " ++ verb m.name))) (h3 : Fits m.doc)
    (hp : ∀ p ∈ m.parameters, Fits (row [ticked p.name, t!"-", t!"-", summary p.doc]) ∧
      Fits (heading 3 p.name.camel) ∧ Fits p.doc) : Below 65536 (methodText m) := by
  refine below_lines _ _ _ ?_
  simp only [List.mem_cons, List.not_mem_nil, or_false]
  rintro t (rfl | rfl | rfl | rfl | rfl | rfl | rfl)
  · exact short3 h2
  · exact short_blank
  · exact short3 h3
  · exact short_blank
  · split
    · exact short_w3
    · exact below_table _ t!"\t\t\t" t!"\t\t\t\t" short_w3 short_w4 _ _ (by decide) (by decide) _ _
        fun p h => short4 (hp p h).1
  · exact short_blank
  · refine below_sections _ t!"\t\t\t" t!"\t\t\t" short_w3 short_w3 _ _ fun p h => below_lines _ _ _ ?_
    simp only [List.mem_cons, List.not_mem_nil, or_false]
    rintro t (rfl | rfl | rfl)
    · exact short4 (hp p h).2.1
    · exact short_blank
    · exact short4 (hp p h).2.2

theorem resource_short (r : ResourceView) (h : ∀ t ∈ resourceTexts r, Fits t) :
    Short (resourceText r) := by
  have hm : ∀ m ∈ r.methods, Fits (row [m.name.camel, summary m.doc]) ∧
      Fits (heading 2 (m.name.camel ++ t!" - " ++ verb m.name)) ∧ Fits m.doc ∧
      ∀ p ∈ m.parameters, Fits (row [ticked p.name, t!"-", t!"-", summary p.doc]) ∧
      Fits (heading 3 p.name.camel) ∧ Fits p.doc := by
    intro m hm
    simp only [resourceTexts, List.mem_append, List.mem_cons, List.not_mem_nil, List.mem_flatMap] at h
    refine ⟨h _ (.inr ⟨m, hm, ?_⟩), h _ (.inr ⟨m, hm, ?_⟩), h _ (.inr ⟨m, hm, ?_⟩), fun p hp =>
      ⟨h _ (.inr ⟨m, hm, .inr ⟨p, hp, ?_⟩⟩), h _ (.inr ⟨m, hm, .inr ⟨p, hp, ?_⟩⟩),
        h _ (.inr ⟨m, hm, .inr ⟨p, hp, ?_⟩⟩)⟩⟩ <;> simp
  refine below_lines _ _ _ ?_
  simp only [List.mem_cons, List.not_mem_nil, or_false]
  rintro t (rfl | rfl | rfl | rfl | rfl | rfl | rfl | rfl | rfl)
  · exact short_blank
  · exact short2 (h _ (by simp [resourceTexts]))
  · exact short_blank
  · exact short2 (h _ (by simp [resourceTexts]))
  · exact short_blank
  · split
    · exact short_w2
    · exact below_table _ t!"\t\t" t!"\t\t\t" short_w2 short_w3 _ _ (by decide) (by decide) _ _
        fun m h => short3 (hm m h).1
  · exact short_blank
  · exact below_sections _ t!"\t\t" t!"\t\t" short_w2 short_w2 _ _ fun m h =>
      short_method m (hm m h).2.1 (hm m h).2.2.1 (hm m h).2.2.2
  · exact short_w2

theorem enum_short (t : TypeView) (h : ∀ x ∈ enumTexts t, Fits x) : Short (enumText t) := by
  have hm : ∀ m ∈ t.members, Fits (row [ticked m.name, summary m.doc]) ∧
      Fits (heading 3 (ticked m.name)) ∧ Fits m.doc := by
    intro m hm
    simp only [enumTexts, List.mem_append, List.mem_cons, List.not_mem_nil, List.mem_flatMap] at h
    refine ⟨h _ (.inr ⟨m, hm, ?_⟩), h _ (.inr ⟨m, hm, ?_⟩), h _ (.inr ⟨m, hm, ?_⟩)⟩ <;> simp
  refine below_lines _ _ _ ?_
  simp only [List.mem_cons, List.not_mem_nil, or_false]
  rintro x (rfl | rfl | rfl | rfl | rfl | rfl | rfl | rfl | rfl)
  · exact short_blank
  · exact short2 (h _ (by simp [enumTexts]))
  · exact short_blank
  · exact short2 (h _ (by simp [enumTexts]))
  · exact short_blank
  · split
    · exact short_w2
    · exact below_table _ t!"\t\t" t!"\t\t\t" short_w2 short_w3 _ _ (by decide) (by decide) _ _
        fun m h => short3 (hm m h).1
  · exact short_blank
  · refine below_sections _ t!"\t\t" t!"\t\t" short_w2 short_w2 _ _ fun p h => below_lines _ _ _ ?_
    simp only [List.mem_cons, List.not_mem_nil, or_false]
    rintro t (rfl | rfl | rfl)
    · exact short3 (hm p h).2.1
    · exact short_blank
    · exact short3 (hm p h).2.2
  · exact short_w2

theorem struct_short (t : TypeView) (h : ∀ x ∈ structTexts t, Fits x) : Short (structText t) := by
  have hm : ∀ m ∈ t.members, Fits (row [ticked m.name, t!"-", summary m.doc]) ∧
      Fits (heading 2 (ticked m.name)) ∧ Fits m.doc := by
    intro m hm
    simp only [structTexts, List.mem_append, List.mem_cons, List.not_mem_nil, List.mem_flatMap] at h
    refine ⟨h _ (.inr ⟨m, hm, ?_⟩), h _ (.inr ⟨m, hm, ?_⟩), h _ (.inr ⟨m, hm, ?_⟩)⟩ <;> simp
  refine below_lines _ _ _ ?_
  simp only [List.mem_cons, List.not_mem_nil, or_false]
  rintro x (rfl | rfl | rfl | rfl | rfl | rfl | rfl | rfl | rfl)
  · exact short_blank
  · exact short2 (h _ (by simp [structTexts]))
  · exact short_blank
  · exact short2 (h _ (by simp [structTexts]))
  · exact short_blank
  · split
    · exact short_w2
    · have hr := below_rows 65536 t!"\t\t\t" short_w3 (fun m : MemberView =>
        row [ticked m.name, t!"-", summary m.doc]) t.members fun m h => short3 (hm m h).1
      have hc : Below 65536 (t!"\t\t\t" ++ ((if (t.kind == .class) = true then classText else []) ++
          attributeRows t.members)) := by
        split
        · have he : t!"\t\t\t" ++ (classText ++ attributeRows t.members) =
              (t!"\t\t\t" ++ row [t!"`kind`", t!"String", t!"Name of the type of the object."]) ++ '\n' ::
              ((t!"\t\t\t\t" ++ row [t!"`id`", t!"String", t!"Unique identifier of the object."]) ++ '\n' ::
              ((t!"\t\t\t\t" ++ row [t!"`href`", t!"String", t!"Link to the object."]) ++ '\n' ::
                (t!"\t\t\t" ++ attributeRows t.members))) := by
            simp only [classText, List.append_assoc, List.cons_append]
          rw [he, below_nl, below_nl, below_nl]
          exact ⟨by decide, by decide, by decide, hr⟩
        · exact hr
      show Below 65536 (t!"\t\t" ++ '\n' :: (t!"\t\t\t" ++ (row _ ++ '\n' :: (t!"\t\t\t" ++ (row _ ++ '\n' :: _)))))
      rw [below_nl, ← List.append_assoc t!"\t\t\t", below_nl, ← List.append_assoc t!"\t\t\t", below_nl]
      exact ⟨short_w2, by decide, by decide, hc⟩
  · exact short_blank
  · refine below_sections _ t!"\t\t" t!"\t\t" short_w2 short_w2 _ _ fun p h => below_lines _ _ _ ?_
    simp only [List.mem_cons, List.not_mem_nil, or_false]
    rintro t (rfl | rfl | rfl)
    · exact short3 (hm p h).2.1
    · exact short_blank
    · exact short3 (hm p h).2.2
  · exact short_w2

theorem links_short (m : List ServiceView) (elements : VersionView → List (Name × Text))
    (h : ∀ s ∈ m, ∀ v ∈ s.versions, ∀ e ∈ elements v,
      Fits (t!"[" ++ e.1.camel ++ t!"](" ++ e.2 ++ t!".md)")) :
    Below 65536 (t!"\t\t" ++ linksText m elements) := by
  refine below_sections _ t!"\t\t" t!"\t\t" short_w2 short_w2 _ _ fun s hs => ?_
  refine below_sections _ t!"\t\t\t" t!"\t\t\t" short_w3 short_w3 _ _ fun v hv => ?_
  refine below_sections _ t!"\t\t\t\t" t!"\t\t\t\t" short_w4 short_w4 _ _ fun e he => ?_
  exact short5 (h s hs v hv e he)

theorem index_short (m : List ServiceView) (h : ∀ t ∈ indexTexts m, Fits t) : Short (indexText m) := by
  simp only [indexTexts, List.mem_flatMap, List.mem_append, List.mem_map] at h
  refine below_lines _ _ _ ?_
  simp only [List.mem_cons, List.not_mem_nil, or_false]
  rintro x (rfl | rfl | rfl | rfl | rfl | rfl | rfl | rfl | rfl | rfl | rfl)
  · exact short_blank
  · decide
  · exact short_blank
  · decide
  · exact short_blank
  · refine links_short m _ fun s hs v hv e he => ?_
    obtain ⟨r, hr, rfl⟩ := List.mem_map.mp he
    exact h _ ⟨s, hs, v, hv, .inl ⟨r, hr, rfl⟩⟩
  · exact short_blank
  · decide
  · exact short_blank
  · refine links_short m _ fun s hs v hv e he => ?_
    obtain ⟨r, hr, rfl⟩ := List.mem_map.mp he
    exact h _ ⟨s, hs, v, hv, .inr ⟨r, hr, rfl⟩⟩
  · exact short_w2

end Docs

end Verif
