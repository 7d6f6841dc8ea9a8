import Verif.Spec.GoCode
import Verif.Model.GoRefs
import Verif.Model.GoBuffer

/-!
# What a generated Go file contains

A file has a header, the package, the imports, and then the code.
-/

namespace Verif.GoFile

/-- The header of the files: the license, and the warning that they are generated. -/
def headerLines : List Text := [
  t!"/*",
  t!"Copyright (c) 2020 Red Hat, Inc.",
  t!"Licensed under the Apache License, Version 2.0 (the \"License\");",
  t!"you may not use this file except in compliance with the License.",
  t!"You may obtain a copy of the License at",
  t!"http://www.apache.org/licenses/LICENSE-2.0",
  t!"Unless required by applicable law or agreed to in writing, software",
  t!"distributed under the License is distributed on an \"AS IS\" BASIS,",
  t!"WITHOUT WARRANTIES OR CONDITIONS OF ANY KIND, either express or implied.",
  t!"See the License for the specific language governing permissions and",
  t!"limitations under the License.",
  t!"*/",
  t!"// IMPORTANT: This file has been generated automatically, refrain from modifying it manually as all",
  t!"// your changes will be lost when the file is generated again."]

/-- The package clause of a file of the package with the given name and import path. -/
def packageLine (name path : Text) : Text := t!"package " ++ name ++ t!" // " ++ path

/-- An import: the path and the selector, which can be empty. -/
def importSpec (e : Text × Text) : Text :=
  (if e.2 = [] then [] else e.2 ++ t!" ") ++ t!"\"" ++ e.1 ++ t!"\""

/-- The import declaration. -/
def importLines (imports : List (Text × Text)) : List Text :=
  if imports = [] then [] else [t!"import ("] ++ imports.map importSpec ++ [t!")"]

/-- The lines of a file. The name of the package is the last part of the import path, without the
characters that can't be in names. -/
def fileLines (path : Text) (imports : List (Text × Text)) (code : List Text) : List Text :=
  headerLines ++ [packageLine (GoBuffer.cleanPkg (GoRef.pathBase path)) path] ++ importLines imports ++ code

end Verif.GoFile
