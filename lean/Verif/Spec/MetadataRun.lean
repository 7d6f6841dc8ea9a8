import Verif.Spec.MetadataCode
import Verif.Spec.JsonReadRun
import Verif.Spec.TypesRun
import Verif.Model.Bodies

/-!
# What it means to run the generated JSON support of the metadata
-/

namespace Verif.JsonRun

open GoJson (Val DateParser)
open GoProgram
open TypesRun (Legal)
open BuildersRun (Program)

/-- The types and the JSON support of the metadata are part of the program, in a package. -/
structure MetadataLinked (P : Program) (zero : Text → Text → Value Val) (pkg : Text) : Prop where
  legal : Legal (P pkg)
  types : ∀ i ∈ TypesCode.metadataItems, i.decl ∈ P pkg
  json : ∀ i ∈ JsonCode.metadataJson, i.decl ∈ P pkg
  number : zero pkg t!"uint32" = .int 0
  text : zero pkg t!"string" = .str []

/-- The metadata that a pointer points to, if it isn't nil. -/
def MetadataAt (s : State Val Library) : Value Val → Option GoJson.Metadata → Prop
  | .nil, none => True
  | .pointer a, some m =>
    s.structs[a]? = some [(t!"bitmap_", .int m.bitmap), (t!"serverVersion", .str m.serverVersion)]
  | _, _ => False

/-- What a call of the function that reads the metadata from an iterator does: nothing that was in the memory changes,
and it returns a pointer to new metadata, or the iterator has an error. -/
def ObtainsMetadata (s : State Val Library) (r : Res (List (Value Val) × State Val Library)) :
    Option (GoJson.Metadata × List Tok) → Prop
  | some (m, rest) => ∃ t, r = .ok ([.pointer s.structs.length], t) ∧ t.vars = s.vars ∧ Grows s t ∧
      t.user = { s.user with input := rest } ∧ MetadataAt t (.pointer s.structs.length) (some m)
  | none => ∃ t y rest, r = .ok ([y], t) ∧ t.vars = s.vars ∧ Grows s t ∧
      t.user = { s.user with input := rest, failed := true }

/-- What a call of the function that creates an iterator and reads the metadata does: nothing that was in the memory
changes, and it returns a pointer to new metadata and no error, or an error. -/
def ReceivesMetadata (s : State Val Library) (r : Res (List (Value Val) × State Val Library)) :
    Option GoJson.Metadata → Prop
  | some m => ∃ t, r = .ok ([.pointer s.structs.length, .nil], t) ∧ t.vars = s.vars ∧ Grows s t ∧
      t.user.out = s.user.out ∧ t.user.sent = s.user.sent ∧ MetadataAt t (.pointer s.structs.length) (some m)
  | none => ∃ t y, r = .ok ([y, .error []], t) ∧ t.vars = s.vars ∧ Grows s t ∧
      t.user.out = s.user.out ∧ t.user.sent = s.user.sent

end Verif.JsonRun
