import Verif.Model.Concepts

/-!
# Methods, parameters, locators and resources

After a model has been read the heap of types doesn't change any more, so parameters carry
the pointer to their type together with the kind of that type.
-/

namespace Verif

/-- A pointer to a type together with the kind that the type has. -/
structure TypeRef where
  id : TypeId
  kind : Kind
deriving DecidableEq, Repr

namespace TypeRef

/-- `IsScalar`, pkg/concepts/type.go:172-177. -/
def isScalar (t : TypeRef) : Bool := t.kind.isScalar
/-- `IsStruct`, pkg/concepts/type.go:189-191. -/
def isStruct (t : TypeRef) : Bool := t.kind.isStruct
/-- `IsList`, pkg/concepts/type.go:161-163. -/
def isList (t : TypeRef) : Bool := t.kind == .list

end TypeRef

/-- `Parameter`, pkg/concepts/parameter.go:25-35. -/
structure Parameter where
  name : Name
  typ : TypeRef
  isIn : Bool := false
  isOut : Bool := false
  dflt : Option Literal := none
  doc : Text := []
  annotations : List Annotation := []
deriving DecidableEq, Repr

/-- `Method`, pkg/concepts/method.go:27-34. -/
structure Method where
  name : Name
  parameters : List Parameter := []
  doc : Text := []
  annotations : List Annotation := []
deriving DecidableEq, Repr

namespace Method

/-- `GetParameter`, pkg/concepts/method.go:67-77, for a name that isn't nil. -/
def getParameter (m : Method) (name : Name) : Option Parameter :=
  findMember Parameter.name m.parameters (some name)

/-- Equality of two names that aren't nil: `Name.Equals`. -/
def named (m : Method) (name : Name) : Bool := Name.equals (some m.name) (some name)

/-- `IsAdd`, pkg/concepts/method.go:80-82. -/
def isAdd (m : Method) : Bool := m.named Nom.add
/-- `IsDelete`, pkg/concepts/method.go:85-87. -/
def isDelete (m : Method) : Bool := m.named Nom.delete
/-- `IsAsyncDelete`, pkg/concepts/method.go:90-92. -/
def isAsyncDelete (m : Method) : Bool := m.named Nom.asyncDelete
/-- `IsGet`, pkg/concepts/method.go:95-97. -/
def isGet (m : Method) : Bool := m.named Nom.get
/-- `IsList`, pkg/concepts/method.go:100-102. -/
def isList (m : Method) : Bool := m.named Nom.list
/-- `IsPost`, pkg/concepts/method.go:105-107. -/
def isPost (m : Method) : Bool := m.named Nom.post
/-- `IsSearch`, pkg/concepts/method.go:110-112. -/
def isSearch (m : Method) : Bool := m.named Nom.search
/-- `IsUpdate`, pkg/concepts/method.go:115-117. -/
def isUpdate (m : Method) : Bool := m.named Nom.update
/-- `IsAsyncUpdate`, pkg/concepts/method.go:120-122. -/
def isAsyncUpdate (m : Method) : Bool := m.named Nom.asyncUpdate

/-- `IsAction`, pkg/concepts/method.go:125-148. -/
def isAction (m : Method) : Bool :=
  if m.isAdd then false
  else if m.isDelete then false
  else if m.isAsyncDelete then false
  else if m.isGet then false
  else if m.isList then false
  else if m.isPost then false
  else if m.isSearch then false
  else if m.isUpdate then false
  else if m.isAsyncUpdate then false
  else true

end Method

/-- `IsItems`, pkg/concepts/parameter.go:83-85, for a parameter of the given method. -/
def Parameter.isItems (owner : Method) (p : Parameter) : Bool :=
  (owner.isList || owner.isSearch) && Name.equals (some p.name) (some Nom.items)

/-- `IsBody`, pkg/concepts/parameter.go:88-97, for a parameter of the given method. -/
def Parameter.isBody (owner : Method) (p : Parameter) : Bool :=
  let isRest := owner.isAdd || owner.isGet || owner.isSearch || owner.isUpdate ||
    owner.isAsyncUpdate
  isRest && Name.equals (some p.name) (some Nom.body)

/-- Pointer to a resource. -/
abbrev ResId := Nat

/-- `Locator`, pkg/concepts/locator.go:24-32. A nil target is `none`. -/
structure Locator where
  name : Name
  owner : ResId
  target : Option ResId := none
  isVariable : Bool := false
  doc : Text := []
  annotations : List Annotation := []
deriving DecidableEq, Repr

/-- `SetVariable`, pkg/concepts/locator.go:58-60: the argument is ignored. -/
def Locator.setVariable (l : Locator) (_value : Bool) : Locator := { l with isVariable := true }

/-- `Resource`, pkg/concepts/resource.go:26-34. -/
structure Resource where
  name : Name
  methods : List Method := []
  locators : List Locator := []
  doc : Text := []
  annotations : List Annotation := []
deriving DecidableEq, Repr

/-- `VariableLocator`, pkg/concepts/resource.go:82-89. -/
def Resource.variableLocator (r : Resource) : Option Locator := r.locators.find? Locator.isVariable

/-- `ConstantLocators`, pkg/concepts/resource.go:92-100. -/
def Resource.constantLocators (r : Resource) : List Locator :=
  r.locators.filter fun l => !l.isVariable

end Verif
