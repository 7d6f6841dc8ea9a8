import Verif.Model.Binding

/-! Specification of the HTTP bindings. -/

namespace Verif

/-- The name made of the given lower case words. -/
def plainName (ws : List Text) : Name := ws.map fun w => { text := w, initialism := false }

/-- The documented verb and status of the methods that have a meaning of their own. -/
def verbTable : List (Name × Text × Nat) :=
  [ (plainName [t!"add"], t!"POST", 201),
    (plainName [t!"post"], t!"POST", 201),
    (plainName [t!"get"], t!"GET", 200),
    (plainName [t!"list"], t!"GET", 200),
    (plainName [t!"update"], t!"PATCH", 200),
    (plainName [t!"async", t!"update"], t!"PATCH", 202),
    (plainName [t!"delete"], t!"DELETE", 204),
    (plainName [t!"async", t!"delete"], t!"DELETE", 202) ]

/-- The methods that aren't actions. -/
def standardMethods : List Name :=
  plainName [t!"search"] :: verbTable.map Prod.fst

/-- The words of the name in lower case separated by underscores. -/
def snakeCase (n : Name) : Text :=
  List.intercalate ['_'] (n.map fun w => w.text.map Char.toLower)

/-- The first annotation with the given name has a `name` parameter with that text. -/
def NamedBy (as : List Annotation) (annotation name : Text) : Prop :=
  ∃ before a after, as = before ++ a :: after ∧ a.name = annotation ∧
    (∀ b ∈ before, b.name ≠ annotation) ∧ a.parameters.find t!"name" = some (.str name)

/-- No annotation with the given name says anything about the name. -/
def NotNamedBy (as : List Annotation) (annotation : Text) : Prop :=
  ∀ a ∈ as, a.name = annotation → a.parameters.find t!"name" = none

/-- The groups of methods that share verb and URL. -/
def sharedEndpoints : List (List Name) :=
  [ [plainName [t!"add"], plainName [t!"post"], plainName [t!"search"]],
    [plainName [t!"get"], plainName [t!"list"]],
    [plainName [t!"update"], plainName [t!"async", t!"update"]],
    [plainName [t!"delete"], plainName [t!"async", t!"delete"]] ]

end Verif
