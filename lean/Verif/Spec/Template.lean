import Verif.Model.Template
import Verif.Spec.Binding

/-!
# What the pages of the documentation should be

The pages are given line by line.
-/

namespace Verif.Docs

/-- Removes the tabs at the start of a line. -/
def dropTabs : Text → Text
  | '\t' :: rest => dropTabs rest
  | t => t

/-- White space. -/
def Space (c : Char) : Prop :=
  c ∈ [' ', '\t', '\n', '\x0b', '\x0c', '\r', '\x85', '\xa0']

instance (c : Char) : Decidable (Space c) := inferInstanceAs (Decidable (_ ∈ _))

/-- Removes the white space at the end of a line. -/
def dropEnd : Text → Text
  | [] => []
  | c :: rest =>
    match dropEnd rest with
    | [] => if Space c then [] else [c]
    | kept => c :: kept

/-- How a line is shown. -/
def tidy (line : Text) : Text := dropTabs (dropEnd line)

/-- How a text of one or more lines is shown. -/
def shown (t : Text) : List Text := (splitOn '\n' t).map tidy

/-- A text made of the given lines. -/
def unlines (lines : List Text) : Text := lines.flatMap fun l => l ++ ['\n']

/-- A blank line. -/
def blank : List Text := [[]]

/-- A heading of the given level. -/
def heading (level : Nat) (title : Text) : Text := List.replicate level '#' ++ t!" " ++ title

/-- A row of a table. -/
def row (cells : List Text) : Text := t!"|" ++ cells.flatMap fun c => t!" " ++ c ++ t!" |"

/-- A table. -/
def table (header : List Text) (rows : List (List Text)) : List Text :=
  shown (row header) ++ shown (row (header.map fun h => List.replicate h.length '-')) ++
    rows.flatMap fun r => shown (row r)

/-- The part of a page where there is a table, unless it has no rows. -/
def tablePart (header : List Text) (rows : List (List Text)) : List Text :=
  blank ++ if rows = [] then [] else table header rows ++ blank

/-- Parts of a page, separated by blank lines. -/
def sections (parts : List (List Text)) : List Text := blank ++ parts.flatMap fun p => p ++ blank

/-- A title and the documentation. -/
def described (level : Nat) (title doc : Text) : List Text :=
  shown (heading level title) ++ blank ++ shown doc

/-- The name of an element as it is written in JSON, between back ticks. -/
def ticked (n : Name) : Text := t!"`" ++ snakeCase n ++ t!"`"

/-- The verb of a method. -/
def verb (n : Name) : Text :=
  if n = Nom.get ∨ n = Nom.list then t!"GET"
  else if n = Nom.update ∨ n = Nom.asyncUpdate then t!"PATCH"
  else if n = Nom.delete ∨ n = Nom.asyncDelete then t!"DELETE"
  else t!"POST"

/-- The part of the page of a resource about a method. What `summary` is, is what C57 says. -/
def methodPart (m : MethodView) : List Text :=
  described 2 (m.name.camel ++ t!" - " ++ verb m.name) m.doc ++ blank ++
    tablePart [t!"Name", t!"Type", t!"Direction", t!"Summary"]
      (m.parameters.map fun p => [ticked p.name, t!"-", t!"-", summary p.doc]) ++ blank ++
    sections (m.parameters.map fun p => described 3 p.name.camel p.doc)

/-- The page of a resource. -/
def resourcePage (r : ResourceView) : List Text :=
  blank ++ described 1 r.name.camel r.doc ++ blank ++
    tablePart [t!"Name", t!"Summary"] (r.methods.map fun m => [m.name.camel, summary m.doc]) ++
    blank ++ sections (r.methods.map methodPart) ++ blank

/-- The page of an enumerated type. -/
def enumPage (t : TypeView) : List Text :=
  blank ++ described 1 t.name.camel t.doc ++ blank ++
    tablePart [t!"Name", t!"Summary"] (t.members.map fun m => [ticked m.name, summary m.doc]) ++
    blank ++ sections (t.members.map fun m => described 3 (ticked m.name) m.doc) ++ blank

/-- The rows of the attributes that all classes have. -/
def classRows : List (List Text) :=
  [[t!"`kind`", t!"String", t!"Name of the type of the object."],
    [t!"`id`", t!"String", t!"Unique identifier of the object."],
    [t!"`href`", t!"String", t!"Link to the object."]]

/-- The page of a struct or class. -/
def structPage (t : TypeView) : List Text :=
  blank ++ described 1 t.name.camel t.doc ++ blank ++
    tablePart [t!"Name", t!"Type", t!"Summary"]
      (if t.members = [] then []
        else (if t.kind = .class then classRows else []) ++
          t.members.map fun m => [ticked m.name, t!"-", summary m.doc]) ++
    blank ++ sections (t.members.map fun m => described 2 (ticked m.name) m.doc) ++ blank

/-- A link. -/
def link (n : Name) (file : Text) : List Text :=
  shown (t!"[" ++ n.camel ++ t!"](" ++ file ++ t!".md)")

/-- The links of the index to some elements of all the versions. -/
def linksOf (m : List ServiceView) (elements : VersionView → List (Name × Text)) : List Text :=
  sections (m.map fun s => sections (s.versions.map fun v =>
    sections ((elements v).map fun e => link e.1 e.2)))

/-- The index. -/
def indexPage (m : List ServiceView) : List Text :=
  blank ++ [heading 1 t!"Model"] ++ blank ++ [heading 2 t!"Resources"] ++ blank ++
    linksOf m (fun v => v.resources.map fun r => (r.name, resourceFile r.name)) ++
    blank ++ [heading 2 t!"Types"] ++ blank ++
    linksOf m (fun v => v.types.map fun t => (t.name, typeFile t.name)) ++ blank

/-- The page of a type, if it has one. -/
def typePage (t : TypeView) : Option (List Text) :=
  match t.kind with
  | .enum => some (enumPage t)
  | .struct | .class => some (structPage t)
  | _ => none

/-- The pages of a model, in order: the names of the files and the lines. What the names of the files
are, is what C58 says. -/
def pageList (m : List ServiceView) : List (Text × List Text) :=
  (t!"index.md", indexPage m) :: m.flatMap fun s => s.versions.flatMap fun v =>
    (v.resources.map fun r => (resourceFile r.name ++ t!".md", resourcePage r)) ++
      v.types.filterMap fun t => (typePage t).map fun p => (typeFile t.name ++ t!".md", p)

/-- The lines of a text are shorter than the limit of the scanner. -/
def Short (code : Text) : Prop := ∀ line ∈ splitOn '\n' code, line.length < 65536

/-- The lines of a text are short enough to be part of a page, where they have at most five tabs
before. -/
def Fits (t : Text) : Prop := ∀ line ∈ splitOn '\n' t, line.length + 5 < 65536

/-- The texts that are part of the page of a resource. -/
def resourceTexts (r : ResourceView) : List Text :=
  [heading 1 r.name.camel, r.doc] ++ r.methods.flatMap fun m =>
    [row [m.name.camel, summary m.doc], heading 2 (m.name.camel ++ t!" - " ++ verb m.name), m.doc] ++
      m.parameters.flatMap fun p =>
        [row [ticked p.name, t!"-", t!"-", summary p.doc], heading 3 p.name.camel, p.doc]

/-- The texts that are part of the page of an enumerated type. -/
def enumTexts (t : TypeView) : List Text :=
  [heading 1 t.name.camel, t.doc] ++ t.members.flatMap fun m =>
    [row [ticked m.name, summary m.doc], heading 3 (ticked m.name), m.doc]

/-- The texts that are part of the page of a struct or class. -/
def structTexts (t : TypeView) : List Text :=
  [heading 1 t.name.camel, t.doc] ++ t.members.flatMap fun m =>
    [row [ticked m.name, t!"-", summary m.doc], heading 2 (ticked m.name), m.doc]

/-- The texts that are part of the page of a type. -/
def typeTexts (t : TypeView) : List Text :=
  match t.kind with
  | .enum => enumTexts t
  | .struct | .class => structTexts t
  | _ => []

/-- The texts that are part of the index. -/
def indexTexts (m : List ServiceView) : List Text :=
  m.flatMap fun s => s.versions.flatMap fun v =>
    (v.resources.map fun r => t!"[" ++ r.name.camel ++ t!"](" ++ resourceFile r.name ++ t!".md)") ++
      v.types.map fun t => t!"[" ++ t.name.camel ++ t!"](" ++ typeFile t.name ++ t!".md)"

/-- All the texts of a model fit in their pages. -/
def ModelFits (m : List ServiceView) : Prop :=
  (∀ t ∈ indexTexts m, Fits t) ∧ ∀ s ∈ m, ∀ v ∈ s.versions,
    (∀ r ∈ v.resources, ∀ t ∈ resourceTexts r, Fits t) ∧
    ∀ y ∈ v.types, ∀ t ∈ typeTexts y, Fits t

end Verif.Docs
