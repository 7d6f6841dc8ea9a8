import Verif.Model.Json

/-!
# Helpers: query parameters and headers

Model of the code generated by pkg/generators/golang/helpers_generator.go:150-209. Maps and slices
are references in Go, so this needs a memory: adding a value to a set of parameters changes what
other variables see if they share the map, or the array of the slice.
-/

namespace Verif

namespace GoHelpers

open GoJson

/-- A slice that starts at the first element of its array: the array and the length. -/
structure Slice where
  array : Nat
  len : Nat
deriving DecidableEq, Repr

/-- The memory: the arrays, whose length is the capacity of the slices that use them, and the maps,
whose values are slices or nil. -/
structure Heap where
  arrays : List (List Text) := []
  maps : List (GoMap (Option Slice)) := []
deriving DecidableEq, Repr

namespace Heap

/-- The elements of a slice. -/
def elements (h : Heap) : Option Slice → List Text
  | none => []
  | some s => (h.arrays.getD s.array []).take s.len

/-- `make([]string, ...)` with the given content. -/
def newArray (h : Heap) (content : List Text) : Heap := { h with arrays := h.arrays ++ [content] }

/-- `append(slice, value)` (Go): the value is written to the array if there is space for it,
otherwise to a new array with the same elements. The function gives the space left in the new array
for each length. -/
def append (grow : Nat → Nat) (h : Heap) (slice : Option Slice) (value : Text) :
    Heap × Option Slice :=
  match slice with
  | none =>
    (h.newArray (value :: List.replicate (grow 0) []), some { array := h.arrays.length, len := 1 })
  | some s =>
    let array := h.arrays.getD s.array []
    if s.len < array.length then
      ({ h with arrays := h.arrays.set s.array (array.set s.len value) },
        some { s with len := s.len + 1 })
    else
      (h.newArray (array.take s.len ++ value :: List.replicate (grow s.len) []),
        some { array := h.arrays.length, len := s.len + 1 })

/-- The content of a map: the zero value of maps is nil, which has no entries. -/
def map (h : Heap) : Option Nat → GoMap (Option Slice)
  | none => []
  | some m => h.maps.getD m []

/-- What reading a map of slices with a name gives. -/
def values (h : Heap) (m : Option Nat) (name : Text) : List Text :=
  h.elements ((h.map m).find name).join

/-- `make(url.Values)` or `make(http.Header)` with the given content. -/
def newMap (h : Heap) (content : GoMap (Option Slice)) : Heap × Nat :=
  ({ h with maps := h.maps ++ [content] }, h.maps.length)

/-- `m[name] = slice`. -/
def put (h : Heap) (m : Nat) (name : Text) (slice : Option Slice) : Heap :=
  { h with maps := h.maps.set m ((h.map (some m)).insert name slice) }

/-- `Values.Add` (net/url, Go standard library) and `Header.Add` (net/http, Go standard library) when
the name is canonical: `v[key] = append(v[key], value)`. -/
def add (grow : Nat → Nat) (h : Heap) (m : Nat) (name value : Text) : Heap :=
  let (h, slice) := h.append grow ((h.map (some m)).find name).join value
  h.put m name slice

end Heap

/-- The functions of the Go standard library that convert values to text and aren't modelled:
`typed.UTC().Format(time.RFC3339)` and `fmt.Sprintf("%v", value)` for floating point numbers. -/
structure Formats where
  date : Instant → Text
  float : Text → Text

/-- The conversion of the value of `AddValue`, pkg/generators/golang/helpers_generator.go:156-162,
for scalars. -/
def valueText (F : Formats) : Val → Text
  | .bool b => if b then t!"true" else t!"false"
  | .int i => intText i
  | .float t => F.float t
  | .str s => s
  | .date d => F.date d
  | _ => []

/-- `AddValue`, pkg/generators/golang/helpers_generator.go:152-164: the new value of the variable
`query`. -/
def addValue (grow : Nat → Nat) (h : Heap) (query : Option Nat) (name text : Text) : Heap × Nat :=
  match query with
  | none =>
    let (h, m) := h.newMap []
    (h.add grow m name text, m)
  | some m => (h.add grow m name text, m)

/-- `validHeaderFieldByte` (net/textproto, Go standard library). -/
def validHeaderChar (c : Char) : Bool := c.isAlphanum || c ∈ t!"!#$%&'*+-.^_`|~"

/-- The loop of `canonicalMIMEHeaderKey` (net/textproto, Go standard library). -/
def canonicalLoop : Bool → Text → Text
  | _, [] => []
  | upper, c :: cs => (if upper then c.toUpper else c.toLower) :: canonicalLoop (c == '-') cs

/-- `CanonicalMIMEHeaderKey` (net/textproto, Go standard library). -/
def canonicalKey (name : Text) : Text :=
  if name.all validHeaderChar then canonicalLoop true name else name

/-- `AddHeader`, pkg/generators/golang/helpers_generator.go:180-185. -/
def addHeader (grow : Nat → Nat) (h : Heap) (header : Option Nat) (name text : Text) : Heap × Nat :=
  match header with
  | none =>
    let (h, m) := h.newMap []
    (h.add grow m (canonicalKey name) text, m)
  | some m => (h.add grow m (canonicalKey name) text, m)

/-- `AddImpersonationHeader`, pkg/generators/golang/helpers_generator.go:196-199. -/
def addImpersonationHeader (grow : Nat → Nat) (h : Heap) (header : Option Nat) (user : Text) :
    Heap × Nat :=
  addHeader grow h header t!"Impersonate-User" user

/-- `CopyValues`, pkg/generators/golang/helpers_generator.go:202-209. -/
def copyValues (h : Heap) (values : Option Slice) : Heap × Option Slice :=
  match values with
  | none => (h, none)
  | some s => (h.newArray (h.elements (some s)), some { array := h.arrays.length, len := s.len })

/-- The loop of `CopyQuery` and `CopyHeader`, pkg/generators/golang/helpers_generator.go:172-174 and
190-192. -/
def copyEntries (h : Heap) (result : Nat) : List (Text × Option Slice) → Heap
  | [] => h
  | (name, values) :: rest =>
    let (h, copy) := copyValues h values
    copyEntries (h.put result name copy) result rest

/-- `CopyQuery`, pkg/generators/golang/helpers_generator.go:167-176. The first argument is the order
of the iteration over the map. -/
def copyQuery (order : GoMap (Option Slice) → List (Text × Option Slice)) (h : Heap)
    (query : Option Nat) : Heap × Option Nat :=
  match query with
  | none => (h, none)
  | some m =>
    let entries := order (h.map (some m))
    let (h, result) := h.newMap []
    (copyEntries h result entries, some result)

/-- `CopyHeader`, pkg/generators/golang/helpers_generator.go:188-194. -/
def copyHeader (order : GoMap (Option Slice) → List (Text × Option Slice)) (h : Heap)
    (header : Option Nat) : Heap × Nat :=
  let entries := order (h.map header)
  let (h, result) := h.newMap []
  (copyEntries h result entries, result)

/-! ## Requests -/

/-- The fields of a request type, pkg/generators/golang/clients_generator.go:784-792, with the method
that it is for. The value of the parameters that haven't been set is nil. -/
structure Request where
  method : Method
  path : Text := []
  query : Option Nat := none
  header : Option Nat := none
  fields : Parameter → Val := fun _ => .nil

/-- The code generated for the query parameters in `SendContext`,
pkg/generators/golang/clients_generator.go:842-848. -/
def addParameters (grow : Nat → Nat) (F : Formats) (fields : Parameter → Val) (h : Heap)
    (query : Option Nat) : List Parameter → Heap × Option Nat
  | [] => (h, query)
  | p :: ps =>
    if (fields p).isNil then addParameters grow F fields h query ps
    else
      let (h, m) := addValue grow h query (Binding.queryParameterName p) (valueText F (fields p))
      addParameters grow F fields h (some m) ps

/-- The query and the header that `SendContext` puts in the HTTP request,
pkg/generators/golang/clients_generator.go:841-849. -/
def assemble (grow : Nat → Nat) (order : GoMap (Option Slice) → List (Text × Option Slice))
    (F : Formats) (h : Heap) (r : Request) : Heap × Option Nat × Nat :=
  let (h, query) := copyQuery order h r.query
  let (h, query) := addParameters grow F r.fields h query (Binding.requestQueryParameters r.method)
  let (h, header) := copyHeader order h r.header
  (h, query, header)

/-! ## Histories -/

/-- What a program does with the requests that it creates; they are identified by the order of
creation. The last operation is anything else that changes the memory, like what the transport does
with the requests that it receives. -/
inductive Op
  | new (method : Method)
  | parameter (i : Nat) (name : Text) (value : Val)
  | header (i : Nat) (name value : Text)
  | impersonate (i : Nat) (user : Text)
  | set (i : Nat) (p : Parameter) (value : Val)
  | send (i : Nat)
  | other (f : Heap → Heap)

/-- The memory and the requests. -/
structure World where
  heap : Heap := {}
  requests : List Request := []

/-- The query and the header of the HTTP request that is sent. -/
structure Sending where
  query : Text → List Text
  header : Text → List Text

/-- One operation: the method that creates the request,
pkg/generators/golang/clients_generator.go:510-529, `Parameter`, lines 795-798, `Header`, lines
801-804, `Impersonate`, lines 808-811, the setters, lines 813-829, and `SendContext`, lines
840-849. -/
def World.exec (grow : Nat → Nat) (order : GoMap (Option Slice) → List (Text × Option Slice))
    (F : Formats) (w : World) : Op → World × Option Sending
  | .new method => ({ w with requests := w.requests ++ [{ method := method }] }, none)
  | .parameter i name value =>
    match w.requests[i]? with
    | none => (w, none)
    | some r =>
      let (heap, m) := addValue grow w.heap r.query name (valueText F value)
      ({ heap := heap
         requests := w.requests.set i { r with query := some m } }, none)
  | .header i name value =>
    match w.requests[i]? with
    | none => (w, none)
    | some r =>
      let (heap, m) := addHeader grow w.heap r.header name value
      ({ heap := heap
         requests := w.requests.set i { r with header := some m } }, none)
  | .impersonate i user =>
    match w.requests[i]? with
    | none => (w, none)
    | some r =>
      let (heap, m) := addImpersonationHeader grow w.heap r.header user
      ({ heap := heap
         requests := w.requests.set i { r with header := some m } }, none)
  | .set i p value =>
    match w.requests[i]? with
    | none => (w, none)
    | some r =>
      let r := { r with fields := fun q => if q = p then value else r.fields q }
      ({ w with requests := w.requests.set i r }, none)
  | .send i =>
    match w.requests[i]? with
    | none => (w, none)
    | some r =>
      let (heap, query, header) := assemble grow order F w.heap r
      ({ w with heap := heap },
        some { query := heap.values query, header := heap.values (some header) })
  | .other f => ({ w with heap := f w.heap }, none)

/-- What is sent during a sequence of operations. -/
def World.run (grow : Nat → Nat) (order : GoMap (Option Slice) → List (Text × Option Slice))
    (F : Formats) (w : World) : List Op → List Sending
  | [] => []
  | op :: ops =>
    let (w, sent) := w.exec grow order F op
    sent.toList ++ w.run grow order F ops

end GoHelpers

end Verif
