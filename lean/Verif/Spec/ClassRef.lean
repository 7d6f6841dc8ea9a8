import Verif.Model.ClassRef
import Verif.Spec.Reader

/-!
# Specification of the classes that refer to classes of other services

Everything is stated about the memory of types before the referenced type is added.
-/

namespace Verif

namespace ClassRef

open View (typeKey)

/-- The type is a list or a map with the given type of elements. -/
def Collection (h : Heap) (id element : TypeId) : Prop :=
  ∃ c, h[id]? = some c ∧ (c.kind = .list ∨ c.kind = .map) ∧ c.element = some element

/-- The type exists and isn't scalar or interface. -/
def Composite (h : Heap) (id : TypeId) : Prop :=
  ∃ c, h[id]? = some c ∧ c.kind ≠ .scalar ∧ c.kind ≠ .interface

/-- The attribute of a type at a position. -/
def HasAttribute (h : Heap) (id : TypeId) (position : Nat) (a : Attribute) : Prop :=
  ∃ c, h[id]? = some c ∧ c.attributes[position]? = some a

/-- The first type has an attribute that isn't a link and whose type is the second one, or a list or a
map of it. -/
def Needs (h : Heap) (x y : TypeId) : Prop :=
  Composite h x ∧ ∃ position a, HasAttribute h x position a ∧ a.link = false ∧
    (Collection h a.typ y ∨ ((∀ e, ¬ Collection h a.typ e) ∧ y = a.typ))

/-- Types that are needed, directly or indirectly. -/
inductive Reaches (h : Heap) : TypeId → TypeId → Prop
  | refl (x) : Reaches h x x
  | step {x y z} : Needs h x y → Reaches h y z → Reaches h x z

/-- The type needs itself, directly or indirectly. -/
def Circular (h : Heap) (x : TypeId) : Prop := ∃ y, Needs h x y ∧ Reaches h y x

/-- The types that a version needs in order to have the given type: those that it needs, except the
scalar ones, and the lists and the maps that it has in attributes that aren't links. -/
inductive Added (h : Heap) (root : TypeId) : TypeId → Prop
  | composite {x} : Reaches h root x → Composite h x → Added h root x
  | collection {y position a e} : Reaches h root y → Composite h y → HasAttribute h y position a →
      a.link = false → Collection h a.typ e → Added h root a.typ

/-- The version has a type with the given name that was declared with a reference to other service. -/
def ExplicitIn (t : TypeTable) (key : Text) : Prop :=
  ∃ x c, t.types.find key = some x ∧ t.heap[x]? = some c ∧ c.explicitDeclared = true

/-- The owner of a type, if it is in memory. -/
def OwnedBy (h : Heap) (x : TypeId) (v : VersionId) : Prop :=
  ∀ c, h[x]? = some c → c.owner = some v

/-- The owner of a type. -/
def ownerAt (h : Heap) (x : TypeId) : Option VersionId := h[x]?.bind TypeCell.owner

/-- The type has the flag of types declared with references. -/
def Explicit (h : Heap) (x : TypeId) : Prop := ∃ c, h[x]? = some c ∧ c.explicitDeclared = true

/-- What remains of an attribute without the owner of the link. -/
def attributeCore (a : Attribute) : Attribute := { a with linkOwner := none }

/-- What remains of a type without owners and without the flag of types declared with references. -/
def cellCore (c : TypeCell) : TypeCell :=
  { c with owner := none, explicitDeclared := false, attributes := c.attributes.map attributeCore }

/-- Both memories have the same types: only owners and the flag of types declared with references can
be different. -/
def SameTypes (h h' : Heap) : Prop := h'.map cellCore = h.map cellCore

/-- The type of the link, or of the elements of the link, is declared in the version with a
reference. -/
def LinkDeclared (t : TypeTable) (a : Attribute) : Prop :=
  ExplicitIn t (typeKey t.heap a.typ) ∨ ∃ e, Collection t.heap a.typ e ∧ ExplicitIn t (typeKey t.heap e)

/-- The types that have changed owner because there is a link to them, and the version declares them
with a reference. -/
def Claimed (t : TypeTable) (root x : TypeId) : Prop :=
  ∃ y position a, Reaches t.heap root y ∧ Composite t.heap y ∧ HasAttribute t.heap y position a ∧
    a.link = true ∧ ((x = a.typ ∧ LinkDeclared t a) ∨
      (Collection t.heap a.typ x ∧ ¬ ExplicitIn t (typeKey t.heap a.typ) ∧
        ExplicitIn t (typeKey t.heap x)))

/-- The usual situation when a type is added to a version: the types to add come from other version, so
they aren't declared with references, the names of the types of the version are right, and the version
doesn't have, declared with a reference, lists or maps like those that will be added. -/
structure Usual (t : TypeTable) (root : TypeId) : Prop where
  unflagged : ∀ x c, Added t.heap root x → t.heap[x]? = some c → c.explicitDeclared = false
  keyed : ∀ key x, t.types.find key = some x → typeKey t.heap x = key
  collections : ∀ x e, Added t.heap root x → Collection t.heap x e →
    ¬ ExplicitIn t (typeKey t.heap x)

/-! ## The class with the reference -/

/-- The attribute is of the given type, or of a list or a map of a type with the same name. -/
def Matches (h : Heap) (typ : TypeId) (a : Attribute) : Prop :=
  a.typ = typ ∨ ∃ e, Collection h a.typ e ∧ typeKey h e = typeKey h typ

/-- One of the types of the version has the attribute at the position. -/
def VersionAttribute (t : TypeTable) (y : TypeId) (position : Nat) (a : Attribute) : Prop :=
  y ∈ t.types.values ∧ HasAttribute t.heap y position a

/-- The types that are marked because there is an attribute that matches the class: the class, the lists
and the maps of it, and their elements. -/
def Marked (t : TypeTable) (typ x : TypeId) : Prop :=
  ∃ y position a, VersionAttribute t y position a ∧
    ((a.typ = typ ∧ x = typ) ∨
      ∃ e, Collection t.heap a.typ e ∧ typeKey t.heap e = typeKey t.heap typ ∧ (x = a.typ ∨ x = e))

/-- The type of the elements of an attribute of the version, with the name of the class. -/
def NamedElement (t : TypeTable) (typ x : TypeId) : Prop :=
  ∃ y position a, VersionAttribute t y position a ∧ Collection t.heap a.typ x ∧
    typeKey t.heap x = typeKey t.heap typ

/-- The version with the flag of types declared with references in one of the types. -/
def flagged (t : TypeTable) (id : TypeId) : TypeTable :=
  { t with heap := t.heap.modify id fun c => { c with explicitDeclared := true } }

/-- The state with other types. -/
def withTable (s : RefReader) (r : Reader) (t : TypeTable) : RefReader :=
  { s with reader := { r with table := t } }

/-- The state after loading a reference: the version has the given types, the rest of the version
and the undefined names don't change, and the resources in memory, the problems and the number of
versions are those of the nested reader. -/
def after (s : RefReader) (n : Session) (t : TypeTable) : RefReader :=
  { reader :=
      { table := t
        graph := n.graph
        resources := s.reader.resources
        errors := s.reader.errors
        undefinedTypes := s.reader.undefinedTypes
        undefinedResources := s.reader.undefinedResources
        problems := n.problems }
    created := n.created }

/-! ## Models without references -/

/-- The declaration doesn't declare a type with the annotation `ref`. -/
def DeclPlain (d : Decl) : Prop := ∀ a ∈ d.typeAnnotations, a.name ≠ t!"ref"

/-- There are no references in the files of a version. -/
def VersionPlain (v : SourceVersion) : Prop := ∀ f ∈ v.files, ∀ d ∈ f.decls, DeclPlain d

/-- There are no references in the files of a service. -/
def ServicePlain (s : SourceService) : Prop := ∀ v ∈ s.versions, VersionPlain v

/-- There are no references in the files of an input. -/
def ModelPlain (m : SourceModel) : Prop := ∀ s ∈ m.services, ServicePlain s

/-! ## The nested reader -/

/-- The versions that are created for an entry of the directory of a service. -/
def Creates (d : SourceVersion) (n : Text) : Prop :=
  d.isDir = true ∧ (d.status = .good ∨ d.status = .unlistable) ∧
    (parseUsingSeparator d.name '_').toText = n

/-- The second memory is the first one followed by other types, that don't point to those of the first
one, aren't declared with references and don't have the annotation `ref`. -/
structure Apart (h h' : Heap) : Prop where
  length : h.length ≤ h'.length
  old : ∀ (i : Nat), i < h.length → h'[i]? = h[i]?
  new : ∀ (i : Nat) c, h.length ≤ i → h'[i]? = some c →
    (∀ a ∈ c.annotations, a.name ≠ t!"ref") ∧ c.explicitDeclared = false ∧
    (∀ a ∈ c.attributes, h.length ≤ a.typ) ∧ ∀ e, c.element = some e → h.length ≤ e

end ClassRef

end Verif
