import Verif.Model.UrlValues

/-! Specification of the query and header of requests: requests as values, without memory. -/

namespace Verif

namespace GoHelpers

open GoJson

/-- The values with a name, in order. -/
def valuesNamed (l : List (Text × Text)) (name : Text) : List Text :=
  (l.filter fun e => decide (e.1 = name)).map Prod.snd

/-- What has been asked to a request. -/
structure Asked where
  method : Method
  parameters : List (Text × Text) := []
  headers : List (Text × Text) := []
  fields : Parameter → Val := fun _ => .nil

/-- The query parameters of the method that have been set, in order. -/
def Asked.explicit (F : Formats) (a : Asked) : List (Text × Text) :=
  ((Binding.requestQueryParameters a.method).filter fun p => !(a.fields p).isNil).map fun p =>
    (Binding.queryParameterName p, valueText F (a.fields p))

/-- What a request sends: the parameters added by hand followed by the ones that have been set
explicitly, and the headers added by hand. -/
def Asked.sends (F : Formats) (a : Asked) : Sending :=
  { query := fun name => valuesNamed a.parameters name ++ valuesNamed (a.explicit F) name
    header := fun name => valuesNamed a.headers name }

/-- The effect of an operation on what has been asked. -/
def ask (F : Formats) (as : List Asked) : Op → List Asked
  | .new method => as ++ [{ method := method }]
  | .parameter i name value =>
    as.modify i fun a => { a with parameters := a.parameters ++ [(name, valueText F value)] }
  | .header i name value =>
    as.modify i fun a => { a with headers := a.headers ++ [(canonicalKey name, value)] }
  | .impersonate i user =>
    as.modify i fun a => { a with headers := a.headers ++ [(t!"Impersonate-User", user)] }
  | .set i p value =>
    as.modify i fun a => { a with fields := fun q => if q = p then value else a.fields q }
  | .send _ => as
  | .other _ => as

/-- What is sent during a sequence of operations. -/
def asked (F : Formats) (as : List Asked) : List Op → List Sending
  | [] => []
  | .send i :: ops => (as[i]?.map (Asked.sends F)).toList ++ asked F as ops
  | op :: ops => asked F (ask F as op) ops

/-- The maps of the requests. -/
def World.Live (w : World) (m : Nat) : Prop :=
  ∃ r ∈ w.requests, r.query = some m ∨ r.header = some m

/-- The new memory has the same maps of the requests, and the same arrays used by them. -/
structure World.Keeps (w : World) (h : Heap) : Prop where
  maps : ∀ m, w.Live m → h.maps[m]? = w.heap.maps[m]?
  arrays : ∀ m, w.Live m → ∀ e ∈ w.heap.map (some m), ∀ s, e.2 = some s →
    h.arrays[s.array]? = w.heap.arrays[s.array]?

/-- The other operations don't change the maps of the requests; they can change the ones that were
sent. -/
def Fair (grow : Nat → Nat) (order : GoMap (Option Slice) → List (Text × Option Slice))
    (F : Formats) (w : World) : List Op → Prop
  | [] => True
  | op :: ops =>
    (∀ f, op = .other f → w.Keeps (f w.heap)) ∧ Fair grow order F (w.exec grow order F op).1 ops

end GoHelpers

end Verif
