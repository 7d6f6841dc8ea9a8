import Verif.Model.Members
import Verif.Spec.Declarations

/-!
# What it takes for the members of a generated type to have different names
-/

namespace Verif.Members

open Decls (Exported)

/-- The name of the field of a name: the first word in lower case, with an underscore if it is a keyword
of Go. -/
def privateField (n : Name) : Text :=
  if lowerCamel n ∈ goKeywords then lowerCamel n ++ t!"_" else lowerCamel n

/-- The name of the methods of an attribute. -/
def methodOf (a : Attr) : Text := Go.nameOf a.label.annotations a.label.name

/-- The name has a first word, and it isn't empty. -/
def Proper (n : Name) : Prop := ∃ w ws, n = w :: ws ∧ w.text ≠ []

/-- The names of the attributes are proper and their methods are exported: always true for names that
start with a letter and don't have annotations. -/
def Usual (as : List Attr) : Prop := ∀ a ∈ as, Proper a.label.name ∧ Exported (methodOf a)

/-- The name of the getter of a parameter of a method: those called like the methods of responses have
an underscore. -/
def getterOf (p : Parameter) : Text :=
  if Go.nameOf p.annotations p.name = t!"Error" then t!"Error_"
  else if Go.nameOf p.annotations p.name = t!"Status" then t!"Status_"
  else Go.nameOf p.annotations p.name

/-- The name of the field of a parameter of a method: those called like the fields of responses have an
underscore. -/
def fieldOf (p : Parameter) : Text :=
  if lowerCamel p.name = t!"err" then t!"err_"
  else if lowerCamel p.name = t!"status" then t!"status_"
  else privateField p.name

/-- The inputs of a method. -/
def inputs (m : Method) : List Parameter := m.parameters.filter fun p => p.isIn

/-- The outputs of a method. -/
def outputs (m : Method) : List Parameter := m.parameters.filter fun p => p.isOut

/-- The names of the parameters are proper and their methods are exported. -/
def UsualParameters (ps : List Parameter) : Prop :=
  ∀ p ∈ ps, Proper p.name ∧ Exported (Go.nameOf p.annotations p.name)

end Verif.Members
