import Verif.Model.ClientPaths
import Verif.Model.GoNames

/-!
# Builders of the buffers

Model of the builders of the three kinds of buffers that the generators use to create files: Go code, OpenAPI
specifications and documentation. `ρ` is the type of the reporters and `φ` the type of the functions for templates.
-/

namespace Verif.Buffers

variable {ρ φ : Type}

/-- The builder of buffers for Go code, pkg/generators/golang/buffer.go:35-42. The packages calculator is the base
package that it contains. The map of functions is nothing for the names that haven't been added. -/
structure GoBuilder (ρ φ : Type) where
  reporter : Option ρ := none
  output : Text := []
  pkg : Text := []
  file : Text := []
  packages : Option Text := none
  functions : Text → Option φ := fun _ => none

/-- The functions for templates: the ones of the buffer, pkg/generators/golang/buffer.go:127-132 and
pkg/markdown/buffer.go:105, and those that have been added. -/
inductive Function (φ : Type)
  | lineComment
  | byteArray
  | backtick
  | sub
  | backTicks
  | added (f : φ)
  deriving DecidableEq

/-- A buffer for Go code, pkg/generators/golang/buffer.go:45-53. The imports and the code, empty when it is created,
aren't included. The packages calculator of the buffer isn't included either: the builder doesn't set it. -/
structure GoBuffer (ρ φ : Type) where
  reporter : ρ
  pkg : Text
  file : Text
  functions : Text → Option (Function φ)

/-- `Function`, pkg/generators/golang/buffer.go:93-99. -/
def GoBuilder.function (b : GoBuilder ρ φ) (name : Text) (f : φ) : GoBuilder ρ φ :=
  { b with functions := fun n => if n = name then some f else b.functions n }

/-- `Build`, pkg/generators/golang/buffer.go:102-140. The loop that adds functions visits each name once, so its order
doesn't matter. -/
def GoBuilder.build (b : GoBuilder ρ φ) : Except Text (GoBuffer ρ φ) :=
  match b.reporter with
  | none => .error t!"reporter is mandatory"
  | some reporter =>
    if b.output = [] then .error t!"output is mandatory"
    else
      match b.packages with
      | none => .error t!"packages calculator is mandatory"
      | some base =>
        if b.file = [] then .error t!"file is mandatory"
        else .ok
          { reporter := reporter
            pkg := GoPath.join [base, b.pkg]
            file := GoPath.join [b.output, b.pkg, b.file ++ t!".go"]
            functions := fun n =>
              match b.functions n with
              | some f => some (.added f)
              | none =>
                if n = t!"lineComment" then some .lineComment
                else if n = t!"byteArray" then some .byteArray
                else if n = t!"backtick" then some .backtick
                else if n = t!"sub" then some .sub
                else none }

/-- The builder of buffers for documentation, pkg/markdown/buffer.go:34-39. -/
structure DocBuilder (ρ φ : Type) where
  reporter : Option ρ := none
  output : Text := []
  file : Text := []
  functions : Text → Option φ := fun _ => none

/-- A buffer for documentation, pkg/markdown/buffer.go:42-50, without the fields that aren't used. -/
structure DocBuffer (ρ φ : Type) where
  reporter : ρ
  file : Text
  functions : Text → Option (Function φ)

/-- `Function`, pkg/markdown/buffer.go:76-82. -/
def DocBuilder.function (b : DocBuilder ρ φ) (name : Text) (f : φ) : DocBuilder ρ φ :=
  { b with functions := fun n => if n = name then some f else b.functions n }

/-- `Build`, pkg/markdown/buffer.go:85-112. -/
def DocBuilder.build (b : DocBuilder ρ φ) : Except Text (DocBuffer ρ φ) :=
  match b.reporter with
  | none => .error t!"reporter is mandatory"
  | some reporter =>
    if b.output = [] then .error t!"output is mandatory"
    else if b.file = [] then .error t!"file is mandatory"
    else .ok
      { reporter := reporter
        file := GoPath.join [b.output, b.file ++ t!".md"]
        functions := fun n =>
          match b.functions n with
          | some f => some (.added f)
          | none => if n = t!"backTicks" then some .backTicks else none }

/-- The builder of buffers for specifications, pkg/generators/openapi/buffer.go:32-35. -/
structure SpecBuilder (ρ : Type) where
  reporter : Option ρ := none
  output : Text := []

/-- A buffer for specifications, pkg/generators/openapi/buffer.go:38-43, without the stream. -/
structure SpecBuffer (ρ : Type) where
  reporter : ρ
  output : Text
  stack : List Nat

/-- `Build`, pkg/generators/openapi/buffer.go:63-92. -/
def SpecBuilder.build (b : SpecBuilder ρ) : Except Text (SpecBuffer ρ) :=
  match b.reporter with
  | none => .error t!"reporter is mandatory"
  | some reporter =>
    if b.output = [] then .error t!"output file is mandatory"
    else .ok { reporter := reporter, output := b.output, stack := [0] }

/-- `FileName`, pkg/generators/openapi/names_calculator.go:72-75. -/
def specFileName (service version : Name) : Text :=
  GoPath.join [service.lowerJoined t!"_", version.lowerJoined t!"_", t!"openapi.json"]

/-- The file of a specification, pkg/generators/openapi/openapi_generator.go:154-155, which is also the one that the
generator of Go code reads, pkg/generators/golang/openapi_generator.go:198-199. -/
def specPath (output : Text) (service version : Name) : Text := GoPath.join [output, specFileName service version]

end Verif.Buffers
