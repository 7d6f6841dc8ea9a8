import Verif.Model.Names

/-!
# Go maps with text keys, and sorted listings

A Go map is modelled as an association list. The order of the list carries no meaning: the
iteration order of a Go map is any permutation of the entries, and the properties that depend on
it quantify over all permutations.
-/

namespace Verif

/-- A Go `map[string]T`. -/
abbrev GoMap (α : Type) := List (Text × α)

namespace GoMap

variable {α : Type}

/-- `m[key]`, with the presence flag as an option. -/
def find (m : GoMap α) (key : Text) : Option α :=
  match m with
  | [] => none
  | (k, v) :: rest => if k = key then some v else find rest key

/-- `m[key] = value`. -/
def insert (m : GoMap α) (key : Text) (value : α) : GoMap α :=
  match m with
  | [] => [(key, value)]
  | (k, v) :: rest => if k = key then (key, value) :: rest else (k, v) :: insert rest key value

/-- `delete(m, key)`. -/
def delete (m : GoMap α) (key : Text) : GoMap α := m.filter fun e => e.1 ≠ key

/-- The keys. -/
def keys (m : GoMap α) : List Text := m.map Prod.fst

/-- The values, in the (arbitrary) order of the representation. -/
def values (m : GoMap α) : List α := m.map Prod.snd

end GoMap

section Named

variable {α : Type} (nameOf : α → Name)

/-- `AddType`, `AddResource`, `AddError` (pkg/concepts/version.go:102-107, 173-178, 214-219),
`AddVersion` (pkg/concepts/service.go:78-83) and `AddService` (pkg/concepts/model.go:60-65), the
part that changes the index: nil is ignored, anything else is stored using the string
representation of its name as key. -/
def addConcept (m : GoMap α) (c : Option α) : GoMap α :=
  match c with
  | none => m
  | some c => m.insert (nameOf c).toText c

/-- `AddTypes`, `AddResources`, `AddErrors` (pkg/concepts/version.go:110-114, 181-185, 222-226),
`AddVersions` (pkg/concepts/service.go:86-92) and `AddServices` (pkg/concepts/model.go:68-72). -/
def addConcepts (m : GoMap α) (cs : List (Option α)) : GoMap α := cs.foldl (addConcept nameOf) m

/-- `FindType`, `FindResource`, `FindError` (pkg/concepts/version.go:94-99, 165-170, 206-211),
`FindVersion` (pkg/concepts/service.go:70-75) and `FindService` (pkg/concepts/model.go:52-57). -/
def findConcept (m : GoMap α) (name : Option Name) : Option α :=
  match name with
  | none => none
  | some n => m.find n.toText

/-- Insertion of an element in a sorted list, after the elements with the same name. -/
def insertByName (x : α) : List α → List α
  | [] => [x]
  | y :: ys =>
    if Name.less (nameOf x) (nameOf y) then x :: y :: ys else y :: insertByName x ys

/-- `sort.Sort` with the `Less` of `TypeSlice` (pkg/concepts/type.go:270-272), `ResourceSlice`
(resource.go:123-125), `VersionSlice` (version.go:305-307), `ServiceSlice` (service.go:101-103),
`AttributeSlice` (attribute.go:75-77), `EnumValueSlice` (type.go:309-311), `MethodSlice`
(method.go:157-159), `ParameterSlice` (parameter.go:106-108) and `LocatorSlice`
(locator.go:79-81): all of them compare the names. Go doesn't say how equal elements are ordered;
this is a stable insertion sort, which is what Go does for slices of up to twelve elements. -/
def sortByName (l : List α) : List α := l.foldl (fun acc x => insertByName nameOf x acc) []

/-- `Types`, `Resources` (pkg/concepts/version.go:81-91, 152-162), `Versions`
(pkg/concepts/service.go:57-67) and `Services` (pkg/concepts/model.go:39-49), for the iteration
order in which the entries appear in the list. -/
def listing (m : GoMap α) : List α := sortByName nameOf m.values

/-- `AddAttribute`, `AddValue` (pkg/concepts/type.go:200-206, 233-239), `AddMethod`, `AddLocator`
(pkg/concepts/resource.go:57-63, 103-109) and `AddParameter` (pkg/concepts/method.go:57-63): nil
is ignored, anything else is appended and the slice is sorted. -/
def addMember (l : List α) (c : Option α) : List α :=
  match c with
  | none => l
  | some c => sortByName nameOf (l ++ [c])

/-- `FindAttribute` (pkg/concepts/type.go:217-224), `FindMethod` (resource.go:66-73) and
`GetParameter` (method.go:67-77): the first member with an equal name. -/
def findMember (l : List α) (name : Option Name) : Option α :=
  match name with
  | none => none
  | some n => l.find? fun c => Name.equals (some (nameOf c)) (some n)

end Named

end Verif
