import Verif.Model.Outcome
import Verif.Spec.Checks
import Verif.Spec.Resources
import Verif.Spec.Files

/-!
# Specification of the models for which Go code can be generated
-/

namespace Verif.Outcome

open GoRef (Typ Attr)

/-- Predefined types, enumerated types, structs and classes. -/
inductive Simple : Typ → Prop
  | basic (b : GoRef.Basic) : Simple (.basic b)
  | enum (d : GoRef.Decl) : Simple (.enum d)
  | struct (d : GoRef.Decl) : Simple (.struct d)

/-- Maps. -/
inductive IsMap : Typ → Prop
  | map (d : GoRef.Decl) (element : Typ) : IsMap (.map d element)

/-- The types of attributes and parameters for which there is a Go type: simple types, and lists and
maps of simple types. -/
inductive Flat : Typ → Prop
  | simple {t : Typ} : Simple t → Flat t
  | list (d : GoRef.Decl) {element : Typ} : Simple element → Flat (.list d element)
  | map (d : GoRef.Decl) {element : Typ} : Simple element → Flat (.map d element)

/-- The types of collections of objects: lists of anything but maps. -/
inductive Collection : Typ → Prop
  | list (d : GoRef.Decl) {element : Typ} : ¬ IsMap element → Collection (.list d element)

/-- Attributes for which code can be generated: links to lists are collections. -/
def AttrOk (a : Attr) : Prop := if a.link ∧ a.typ.isList then Collection a.typ else Flat a.typ

/-- The parameter is the list of items of a `List` or `Search` method. -/
def IsItemsOf (m : Method) (p : Parameter) : Prop :=
  (m.name = Nom.list ∨ m.name = Nom.search) ∧ p.name = Nom.items

/-- Parameters for which code can be generated. -/
def ParamOk (api : Api) (m : Method) (p : Parameter) : Prop :=
  (IsItemsOf m p → Collection (api.typeOf p.typ.id)) ∧
  (¬ IsItemsOf m p → Flat (api.typeOf p.typ.id))

/-- Attributes for which a builder can be generated. Maps of lists are accepted, and lists of lists of
simple types too. -/
def BuilderOk (a : Attr) : Prop :=
  match a.typ with
  | .list _ element => if a.link then ¬ IsMap element else
      Simple element ∨ ∃ d inner, element = .list d inner ∧ Simple inner
  | .map _ element => Simple element ∨ Collection element
  | _ => True

/-- Types for which code that reads JSON can be generated: lists are accepted always. -/
def Readable (t : Typ) : Prop := ∀ d element, t = .map d element → Simple element

/-- The last parameter of the method with that name. -/
def IsLast (m : Method) (name : Name) (p : Parameter) : Prop :=
  ∃ before after, m.parameters = before ++ p :: after ∧ p.name = name ∧ ∀ q ∈ after, q.name ≠ name

/-- What the code that reads the response of a `List` or `Search` method needs, where `special` are the
names of the parameters treated in a special way: the page, the size, the total and the other output
parameters can be read, and the last parameter named `Items` is a collection or an object. -/
structure PageOk (api : Api) (m : Method) (special : List Name) : Prop where
  page : ∀ p, IsLast m Nom.page p → Readable (api.typeOf p.typ.id)
  size : ∀ p, IsLast m Nom.size p → Readable (api.typeOf p.typ.id)
  total : ∀ p, IsLast m Nom.total p → Readable (api.typeOf p.typ.id)
  other : ∀ p ∈ m.parameters, p.isOut = true → p.name ∉ special → Readable (api.typeOf p.typ.id)
  items : ∃ p, IsLast m Nom.items p ∧
    (Collection (api.typeOf p.typ.id) ∨ (api.typeOf p.typ.id).isStruct = true)

/-- The presence bits of the attributes, and the three that classes have for the link, the identifier
and the reference, fit in 64 bits. -/
def Fits (t : TypeInfo) : Prop := t.attributes.length + (if t.isClass then 3 else 0) ≤ 64

/-- The model contains the version. -/
def HasVersionInfo (api : Api) (s : ServiceInfo) (v : VersionInfo) : Prop :=
  s ∈ api.services ∧ v ∈ s.versions

/-- The model contains the resource. -/
def HasResourceInfo (api : Api) (s : ServiceInfo) (v : VersionInfo) (r : Resource) : Prop :=
  HasVersionInfo api s v ∧ ∃ id ∈ v.resources, api.graph[id]? = some r

/-- All the attributes of structs and classes, and all the parameters of methods, have types for which
there is a Go type, the structs and classes aren't too large, and no version has two errors. -/
structure Expressible (api : Api) : Prop where
  fits : ∀ s v, HasVersionInfo api s v → ∀ t ∈ v.types, t.typ.isStruct = true → Fits t
  attributes : ∀ s v, HasVersionInfo api s v → ∀ t ∈ v.types, t.typ.isStruct = true →
    ∀ a ∈ t.attributes, AttrOk a
  parameters : ∀ s v r, HasResourceInfo api s v r → ∀ m ∈ r.methods, ∀ p ∈ m.parameters,
    ParamOk api m p
  errors : ∀ s v, HasVersionInfo api s v → v.errors.length ≤ 1

/-- What the reader guarantees when it reports no error before the checks: the targets of the
locators exist, the resources of versions exist, the versions have the predefined types, parameters
without direction are output parameters, nothing assigns the second name of errors, and services, versions and types are found by name, so there
aren't two of them with the same name. -/
structure FromReader (api : Api) : Prop where
  serviceNames : (api.services.map fun s => s.name).Nodup
  versionNames : ∀ s ∈ api.services, (s.versions.map fun v => v.name).Nodup
  typeNames : ∀ s v, HasVersionInfo api s v → (v.types.map fun t => typeName t.typ).Nodup
  graph : WellFormed api.graph
  resources : ∀ s v, HasVersionInfo api s v → ∀ r ∈ v.resources, r < api.graph.length
  builtins : ∀ s v, HasVersionInfo api s v →
    v.builtins.boolean.isSome = true ∧ v.builtins.integer.isSome = true ∧ v.builtins.string.isSome = true
  directions : ∀ s v r, HasResourceInfo api s v r → ∀ m ∈ r.methods, ∀ p ∈ m.parameters,
    p.isIn = true ∨ p.isOut = true
  errors : ∀ s v, HasVersionInfo api s v → ∀ e ∈ v.errors, e.2.ownName = none

/-- The type is of that kind. -/
inductive OfKind : Typ → Kind → Prop
  | basic {b : GoRef.Basic} : b ≠ .interface → OfKind (.basic b) .scalar
  | interface : OfKind (.basic .interface) .interface
  | enum (d : GoRef.Decl) : OfKind (.enum d) .enum
  | struct (d : GoRef.Decl) : OfKind (.struct d) .struct
  | class (d : GoRef.Decl) : OfKind (.struct d) .class
  | list (d : GoRef.Decl) (element : Typ) : OfKind (.list d element) .list
  | map (d : GoRef.Decl) (element : Typ) : OfKind (.map d element) .map

/-- The kinds of the parameters of the method are those of their types. -/
def Coherent (api : Api) (m : Method) : Prop :=
  ∀ p ∈ m.parameters, OfKind (api.typeOf p.typ.id) p.typ.kind

/-- The checks of the reader finish without reporting errors. -/
def Checked (api : Api) : Prop :=
  ∃ fuel messages, Check.checkModel api.graph fuel api.checkViews = .done messages ∧ Accepted messages

end Verif.Outcome
