import Verif.Model.Files
import Verif.Spec.Binding

/-!
# Specification of the files written by the generators of Go code

Where each file lives, which files a model asks for, and when two of them have the same name.
-/

namespace Verif.Files

/-- The words of a name in lower case, one after the other. -/
def joined (n : Name) : Text := (n.map fun w => w.text.map Char.toLower).flatten

/-- The directory of a version. -/
def directory (service version : Name) : Text := joined service ++ t!"/" ++ joined version

/-- The file of each slot, relative to the output directory. -/
def location : Slot → Text
  | .commonErrors => t!"errors/errors.go"
  | .errors s v => directory s v ++ t!"/errors.go"
  | .helpers => t!"helpers/helpers.go"
  | .metadataType s v => directory s v ++ t!"/metadata_type.go"
  | .type s v t => directory s v ++ t!"/" ++ snakeCase t ++ t!"_type.go"
  | .builder s v t => directory s v ++ t!"/" ++ snakeCase t ++ t!"_builder.go"
  | .serviceClient s => joined s ++ t!"/client.go"
  | .metadataClient s v => directory s v ++ t!"/metadata_client.go"
  | .client s v r => directory s v ++ t!"/" ++ snakeCase r ++ t!"_client.go"
  | .jsonHelpers => t!"helpers/json_helpers.go"
  | .metadataReader s v => directory s v ++ t!"/metadata_reader.go"
  | .typeJson s v t => directory s v ++ t!"/" ++ snakeCase t ++ t!"_type_json.go"
  | .resourceJson s v r => directory s v ++ t!"/" ++ snakeCase r ++ t!"_resource_json.go"
  | .pathTree => t!"metrics/path_tree_data.go"
  | .openapi s v => directory s v ++ t!"/openapi.go"

/-- The file of the OpenAPI specification of a version. -/
def specLocation (service version : Name) : Text :=
  snakeCase service ++ t!"/" ++ snakeCase version ++ t!"/openapi.json"

/-- The model has that service. -/
def HasService (m : List ServiceView) (s : Name) : Prop := ∃ service ∈ m, service.name = s

/-- The model has that version. -/
def HasVersion (m : List ServiceView) (s v : Name) : Prop :=
  ∃ service ∈ m, service.name = s ∧ ∃ version ∈ service.versions, version.name = v

/-- The version has a type of that name and kind. -/
def HasType (m : List ServiceView) (s v t : Name) (k : Kind) : Prop :=
  ∃ service ∈ m, service.name = s ∧ ∃ version ∈ service.versions, version.name = v ∧
    { name := t, kind := k } ∈ version.types

/-- The version has that resource. -/
def HasResource (m : List ServiceView) (s v r : Name) : Prop :=
  ∃ service ∈ m, service.name = s ∧ ∃ version ∈ service.versions, version.name = v ∧
    r ∈ version.resources

/-- The version has a type of that name and of one of those kinds. -/
def HasTypeOf (ks : List Kind) (m : List ServiceView) (s v t : Name) : Prop :=
  ∃ k ∈ ks, HasType m s v t k

/-- The kinds of the types with a file for the type. -/
def declared : List Kind := [.enum, .struct]

/-- The kinds of the types with a file for the builder. -/
def built : List Kind := [.struct, .listOfStruct]

/-- The kinds of the types with a file for the readers and writers of JSON. -/
def serialized : List Kind := [.struct, .listOfScalar, .listOfEnum, .listOfStruct]

/-- The files that a model asks for. -/
def Wanted (m : List ServiceView) : Slot → Prop
  | .commonErrors | .helpers | .jsonHelpers | .pathTree => True
  | .errors s v | .metadataType s v | .metadataClient s v | .metadataReader s v
  | .openapi s v => HasVersion m s v
  | .serviceClient s => HasService m s
  | .type s v t => HasTypeOf declared m s v t
  | .builder s v t => HasTypeOf built m s v t
  | .typeJson s v t => HasTypeOf serialized m s v t
  | .client s v r | .resourceJson s v r => HasResource m s v r

/-- The order of the generators: the stage where the file of a slot is written. -/
def stage : Slot → Nat
  | .commonErrors | .errors _ _ => 1
  | .helpers => 2
  | .metadataType _ _ | .type _ _ _ => 3
  | .builder _ _ _ => 4
  | .serviceClient _ | .metadataClient _ _ | .client _ _ _ => 5
  | .jsonHelpers | .metadataReader _ _ | .typeJson _ _ _ | .resourceJson _ _ _ => 6
  | .pathTree => 7
  | .openapi _ _ => 8

/-- What each file should contain. -/
def proper : Slot → Content
  | .openapi s v => .spec s v
  | slot => .code slot

/-- A name that can be the name of a directory: it isn't empty and has no slashes. -/
def UsableName (n : Name) : Prop := joined n ≠ [] ∧ '/' ∉ joined n

/-- Services and versions have names that can be names of directories, and types and resources have
names that aren't empty and that have no slashes. -/
structure Usable (m : List ServiceView) : Prop where
  services : ∀ s, HasService m s → UsableName s
  versions : ∀ s v, HasVersion m s v → UsableName v
  types : ∀ s v t k, HasType m s v t k → t ≠ [] ∧ '/' ∉ snakeCase t
  resources : ∀ s v r, HasResource m s v r → r ≠ [] ∧ '/' ∉ snakeCase r

/-- Names that satisfy the condition are told apart by their text. -/
def ToldApart (text : Name → Text) (p : Name → Prop) : Prop :=
  ∀ a b, p a → p b → text a = text b → a = b

/-- The names of the model are told apart by the names of the files. -/
structure NoClash (m : List ServiceView) : Prop where
  services : ToldApart joined (HasService m)
  versions : ∀ s, ToldApart joined (HasVersion m s)
  types : ∀ s v, ToldApart snakeCase (HasTypeOf declared m s v)
  builders : ∀ s v, ToldApart snakeCase (HasTypeOf built m s v)
  json : ∀ s v, ToldApart snakeCase (HasTypeOf serialized m s v)
  resources : ∀ s v, ToldApart snakeCase (HasResource m s v)
  metadataType : ∀ s v t, HasTypeOf declared m s v t → snakeCase t ≠ t!"metadata"
  metadataResource : ∀ s v r, HasResource m s v r → snakeCase r ≠ t!"metadata"

/-- The content of the file is the last one among those with that path. -/
def LastAt {α : Type} (jobs : List (Job α)) (p : Text) (content : α) : Prop :=
  ∃ before j after, jobs = before ++ j :: after ∧ j.path = p ∧ j.content = content ∧
    ∀ k ∈ after, k.path ≠ p

/-- The files after writing those jobs on top of what there was. -/
def Overlaid {α : Type} (jobs : List (Job α)) (old new : Text → Option α) : Prop :=
  ∀ p, (∃ content, LastAt jobs p content ∧ new p = some content) ∨
    ((∀ j ∈ jobs, j.path ≠ p) ∧ new p = old p)

end Verif.Files
