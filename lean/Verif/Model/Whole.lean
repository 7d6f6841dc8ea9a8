import Verif.Model.Outcome
import Verif.Model.Session

/-!
# From the files of a model to the generated Go code

The model that `Read` returns, as the generators of Go code see it, and the command that reads a model
and runs those generators.
-/

namespace Verif.Whole

open GoRef (Typ Owner)
open Outcome (TypeInfo VersionInfo ServiceInfo Api)

/-- The services and versions of a model, in the order of `Services` and `Versions`,
pkg/concepts/model.go:39-49 and pkg/concepts/service.go:57-67. -/
def pairs (s : Session) : List (Name × LoadedVersion) :=
  (listing LoadedService.name s.services).flatMap fun l =>
    (listing LoadedVersion.name l.versions).map fun v => (l.name, v)

/-- The names of the version that owns a type and of its service, pkg/concepts/type.go:95-98 and
pkg/concepts/version.go:71-73. -/
def ownerOf (s : Session) (id : Option VersionId) : Owner :=
  match (pairs s).find? fun p => id = some p.2.id with
  | some p => { service := p.1, version := p.2.name }
  | none => { service := [], version := [] }

/-- The predefined type with that name, pkg/concepts/version.go:53-63. The calculators tell them apart
by comparing pointers, for example pkg/generators/golang/types_calculator.go:167-200. -/
def basicOf (name : Name) : GoRef.Basic :=
  if name = Nom.boolean then .boolean
  else if name = Nom.integer then .integer
  else if name = Nom.long then .long
  else if name = Nom.float then .float
  else if name = Nom.string then .string
  else if name = Nom.date then .date
  else .interface

/-- The type that a pointer points to, pkg/concepts/type.go:70-83, with the types of the elements of
lists and maps. Elements are created before lists and maps, so their pointers are smaller. Pointers that
aren't in the memory and types that aren't defined don't have a Go type: the theorems exclude them. -/
def typeTree (s : Session) : Nat → TypeId → Typ
  | 0, _ => .basic .interface
  | fuel + 1, id =>
    match s.heap[id]? with
    | none => .basic .interface
    | some c =>
      let d : GoRef.Decl := { owner := ownerOf s c.owner, name := c.name, annotations := c.annotations }
      match c.kind with
      | .undefined => .basic .interface
      | .scalar => .basic (basicOf c.name)
      | .interface => .basic .interface
      | .enum => .enum d
      | .struct => .struct d
      | .class => .struct d
      | .list => .list d (match c.element with
        | some e => typeTree s fuel e
        | none => .basic .interface)
      | .map => .map d (match c.element with
        | some e => typeTree s fuel e
        | none => .basic .interface)

/-- The type that a pointer points to. -/
def typeOf (s : Session) (id : TypeId) : Typ := typeTree s (id + 1) id

/-- An attribute, pkg/concepts/attribute.go:23-33. -/
def attributeInfo (s : Session) (a : Attribute) : GoRef.Attr :=
  { typ := typeOf s a.typ
    link := a.link
    linkOwner := a.linkOwner.map fun v => ownerOf s (some v) }

/-- A type of a version. -/
def typeInfo (s : Session) (id : TypeId) : TypeInfo :=
  match s.heap[id]? with
  | none => { typ := typeOf s id }
  | some c =>
    { typ := typeOf s id, isClass := c.isClass, attributes := c.attributes.map (attributeInfo s) }

/-- A version, with `Types`, `Resources` and `Root` of pkg/concepts/version.go:81-91 and 152-190, and the map of errors,
pkg/concepts/version.go:34. -/
def versionInfo (s : Session) (v : LoadedVersion) : VersionInfo :=
  { name := v.name
    types := (listing (Reader.typeName s.heap) v.types).map (typeInfo s)
    root := v.resources.find Nom.root.toText
    resources := listing (Session.resourceName s.graph) v.resources
    builtins := TypeTable.builtins { version := v.id, heap := s.heap, types := v.types }
    errors := v.errors }

/-- The model, with `Services` and `Versions` of pkg/concepts/model.go:39-49 and
pkg/concepts/service.go:57-67. -/
def api (s : Session) : Api :=
  { services := (listing LoadedService.name s.services).map fun l =>
      { name := l.name
        versions := (listing LoadedVersion.name l.versions).map (versionInfo s) }
    graph := s.graph
    typeOf := typeOf s }

/-- `run` of the command that generates Go code, cmd/metamodel/generate/golang/cmd.go:76-318, without
the checks of the options and the formatter, which are in `Verif.Model.Files`: reads the model, and runs
the generators if that works. The result is the files and whether it worked. -/
def generate (base : Text) (writable specWritable : Text → Bool) (inputs : List SourceModel)
    (fuel : Nat) (disk : Text → Option Files.Content) : Run ((Text → Option Files.Content) × Bool) :=
  (Session.read (some 0) inputs fuel).bind fun o =>
    match o.result with
    | .error _ => .done (disk, false)
    | .model s =>
      let r := Files.generateGo ((api s).env base writable specWritable) (api s).view
        { disk := disk, errors := o.errors }
      .done (r.1.disk, r.2)

end Verif.Whole
