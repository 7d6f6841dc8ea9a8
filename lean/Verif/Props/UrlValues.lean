import Verif.Lemmas.UrlHistory
import Verif.Lemmas.JsonRound
import Verif.Spec.UrlValues
import Verif.Props.Query
import Verif.Props.Binding

/-! C49: assembly of queries and headers. -/

namespace Verif

namespace GoHelpers

open GoJson

/-- **C49**. In every history of a program that creates requests, adds parameters and headers to
them, sets the parameters of the methods and sends them, any number of times and in any order, each
request that is sent has exactly the parameters and the headers that had been asked for it: the
parameters added by hand followed by the ones set explicitly. This is so for any order of iteration
over the maps, for any growth of the arrays, and whatever the receivers of the requests do with
them, as long as they don't touch the memory of the requests. -/
theorem c49_history (grow : Nat → Nat)
    (order : GoMap (Option Slice) → List (Text × Option Slice)) (ho : ∀ m, (order m).Perm m)
    (F : Formats) (ops : List Op) (hf : Fair grow order F {} ops) :
    World.run grow order F {} ops = asked F [] ops :=
  run_agrees grow ho F ops agree_empty hf

/-- The operations that can change what a request sends. -/
def Op.touches (i : Nat) : Op → Bool
  | .parameter j _ _ => j == i
  | .header j _ _ => j == i
  | .impersonate j _ => j == i
  | .set j _ _ => j == i
  | _ => false

/-- What the operations leave asked. -/
def askedAfter (F : Formats) (as : List Asked) (ops : List Op) : List Asked := ops.foldl (ask F) as

theorem asked_append (F : Formats) (ops ops' : List Op) (as : List Asked) :
    asked F as (ops ++ ops') = asked F as ops ++ asked F (askedAfter F as ops) ops' := by
  induction ops generalizing as with
  | nil => rfl
  | cons op ops ih =>
    cases op with
    | send i =>
      change (as[i]?.map (Asked.sends F)).toList ++ asked F as (ops ++ ops') = _
      rw [ih, ← List.append_assoc]
      rfl
    | new method => exact ih _
    | parameter i name value => exact ih _
    | header i name value => exact ih _
    | impersonate i user => exact ih _
    | set i p value => exact ih _
    | other f => exact ih _

theorem askedAfter_same (F : Formats) (ops : List Op) (as : List Asked) (i : Nat) (a : Asked)
    (ha : as[i]? = some a) (h : ∀ op ∈ ops, op.touches i = false) :
    (askedAfter F as ops)[i]? = some a := by
  induction ops generalizing as with
  | nil => exact ha
  | cons op ops ih =>
    refine ih (ask F as op) ?_ (fun o ho => h o (by simp [ho]))
    have h0 := h op (by simp)
    have hmod : ∀ (j : Nat) (f : Asked → Asked), (j == i) = false →
        (as.modify j f)[i]? = some a := by
      intro j f hj
      have hj : j ≠ i := by simpa using hj
      rw [List.getElem?_modify]
      simp [hj, ha]
    cases op with
    | send i => exact ha
    | new method =>
      have := (List.getElem?_eq_some_iff.1 ha).1
      simp only [ask, List.getElem?_append_left this, ha]
    | parameter j name value => exact hmod j _ h0
    | header j name value => exact hmod j _ h0
    | impersonate j user => exact hmod j _ h0
    | set j p value => exact hmod j _ h0
    | other f => exact ha

/-- **C49**: sending a request again sends the same, if nothing was asked to it meanwhile, whatever
happened before and whatever is done with the other requests. -/
theorem c49_again (grow : Nat → Nat)
    (order : GoMap (Option Slice) → List (Text × Option Slice)) (ho : ∀ m, (order m).Perm m)
    (F : Formats) (before between : List Op) (i : Nat)
    (hf : Fair grow order F {} (before ++ .send i :: (between ++ [.send i])))
    (hi : i < (before.filter fun op => match op with | .new _ => true | _ => false).length)
    (hb : ∀ op ∈ between, op.touches i = false) :
    ∃ s l l', World.run grow order F {} (before ++ .send i :: (between ++ [.send i]))
      = l ++ [s] ++ l' ++ [s] ∧ World.run grow order F {} before = l := by
  have hlen : ∀ (ops : List Op) (as : List Asked), (askedAfter F as ops).length = as.length +
      (ops.filter fun op => match op with | .new _ => true | _ => false).length := by
    intro ops
    induction ops with
    | nil => intro as; rfl
    | cons op ops ih =>
      intro as
      have : askedAfter F as (op :: ops) = askedAfter F (ask F as op) ops := rfl
      rw [this, ih]
      cases op <;> simp [ask] <;> omega
  have hfair : ∀ (ops ops' : List Op) (w : World), Fair grow order F w (ops ++ ops') →
      Fair grow order F w ops := by
    intro ops
    induction ops with
    | nil => intro ops' w _; trivial
    | cons op ops ih => intro ops' w h; exact ⟨h.1, ih _ _ h.2⟩
  rw [c49_history grow order ho F _ hf, c49_history grow order ho F _ (hfair _ _ _ hf)]
  have hlt : i < (askedAfter F [] before).length := by rw [hlen]; simpa using hi
  have ha := List.getElem?_eq_getElem hlt
  refine ⟨((askedAfter F [] before)[i]).sends F, asked F [] before,
    asked F (askedAfter F [] before) between, ?_, rfl⟩
  rw [asked_append]
  change _ ++ (((askedAfter F [] before)[i]?.map (Asked.sends F)).toList ++
    asked F (askedAfter F [] before) (between ++ [.send i])) = _
  rw [asked_append, ha]
  change _ ++ (_ ++ (_ ++ (((askedAfter F (askedAfter F [] before) between)[i]?.map
    (Asked.sends F)).toList ++ []))) = _
  rw [askedAfter_same F between _ i _ ha hb]
  simp

/-- The iteration in the order of the map. -/
def plainOrder (m : GoMap (Option Slice)) : List (Text × Option Slice) := m

/-- Formats for the examples. -/
def exampleFormats : Formats := { date := fun _ => t!"d", float := fun t => t }

/-- A method with two query parameters. -/
def pagedList : Method :=
  { name := plainName [t!"list"]
    parameters :=
      [{ name := plainName [t!"page"], typ := ⟨1, .scalar⟩, isIn := true },
       { name := plainName [t!"size"], typ := ⟨1, .scalar⟩, isIn := true }] }

/-- The operations of the example. The transport changes the first array of the copy that it
receives. -/
def exampleOps : List Op :=
  [.new pagedList,
   .parameter 0 t!"page" (.int 7),
   .header 0 t!"x-trace" t!"a",
   .impersonate 0 t!"root",
   .set 0 (pagedList.parameters[0]) (.int 2),
   .send 0,
   .other fun h => { h with arrays := h.arrays.set 3 [t!"changed"] },
   .send 0]

theorem keeps_of (w : World) (h : Heap)
    (hc : ∀ m ∈ w.requests.flatMap (fun r => r.query.toList ++ r.header.toList),
      h.maps[m]? = w.heap.maps[m]? ∧ ∀ e ∈ w.heap.map (some m), ∀ s ∈ e.2.toList,
        h.arrays[s.array]? = w.heap.arrays[s.array]?) : w.Keeps h := by
  have hl : ∀ m, w.Live m → m ∈ w.requests.flatMap (fun r => r.query.toList ++ r.header.toList) := by
    rintro m ⟨r, hr, hm⟩
    exact List.mem_flatMap.2 ⟨r, hr, by simpa using hm⟩
  exact ⟨fun m hm => (hc m (hl m hm)).1,
    fun m hm e he s hs => (hc m (hl m hm)).2 e he s (by simp [hs])⟩

example : Fair (fun n => n) plainOrder exampleFormats {} exampleOps ∧
    (asked exampleFormats [] exampleOps).map (fun s => (s.query t!"page", s.query t!"size",
      s.header t!"X-Trace", s.header t!"Impersonate-User")) =
      [([t!"7", t!"2"], [], [t!"a"], [t!"root"]), ([t!"7", t!"2"], [], [t!"a"], [t!"root"])] := by
  refine ⟨⟨?_, ?_, ?_, ?_, ?_, ?_, ?_, ?_, trivial⟩, by decide⟩ <;> intro f hf
  case refine_7 =>
    obtain rfl := Op.other.inj hf
    exact keeps_of _ _ (by decide)
  all_goals cases hf

/-! ## The other side -/

/-- The value is of the type, and it can be converted to text and back. -/
inductive Sendable (F : Formats) (C : GoQuery.Codecs) : Shape → Val → Prop
  | integer {i : Int} : -2 ^ 63 ≤ i → i < 2 ^ 63 → Sendable F C .integer (.int i)
  | string (s : Text) : Sendable F C .string (.str s)
  | boolean (b : Bool) : Sendable F C .boolean (.bool b)
  | float {t : Text} : C.float (F.float t) = some t → Sendable F C .float (.float t)
  | date {d : Instant} : C.date (F.date d) = some d → Sendable F C .date (.date d)

theorem denotes_intText (i : Int) : GoQuery.Denotes (intText i) i := by
  cases i with
  | ofNat n => exact .plain (numeral_natText n)
  | negSucc n =>
    have := GoQuery.Denotes.minus (numeral_natText (n + 1))
    exact this

theorem sendable_means {F : Formats} {C : GoQuery.Codecs} {shape : Shape} {v : Val}
    (h : Sendable F C shape v) : shape ∈ GoQuery.parsable ∧ GoQuery.Means C shape (valueText F v) v := by
  cases h with
  | integer h1 h2 => exact ⟨by decide, .integer (denotes_intText _) h1 h2⟩
  | string s => exact ⟨by decide, .string⟩
  | boolean b =>
    refine ⟨by decide, ?_⟩
    cases b
    · exact .no (by show t!"false" ∈ GoQuery.falseTexts; decide)
    · exact .yes (by show t!"true" ∈ GoQuery.trueTexts; decide)
  | float h => exact ⟨by decide, .float h⟩
  | date h => exact ⟨by decide, .date h⟩

theorem valuesNamed_of_unique (ps : List Parameter) (f : Parameter → Text) (p : Parameter)
    (hp : p ∈ ps) (hn : (ps.map Binding.queryParameterName).Nodup) (keep : Parameter → Bool) :
    valuesNamed ((ps.filter keep).map fun q => (Binding.queryParameterName q, f q))
      (Binding.queryParameterName p) = if keep p then [f p] else [] := by
  induction ps with
  | nil => simp at hp
  | cons q ps ih =>
    simp only [List.map_cons, List.nodup_cons, List.mem_map, not_exists, not_and] at hn
    obtain ⟨hn1, hn2⟩ := hn
    by_cases hq : Binding.queryParameterName q = Binding.queryParameterName p
    · have hpq : p = q := by
        rcases List.mem_cons.1 hp with h | h
        · exact h
        · exact absurd hq.symm (hn1 p h)
      subst hpq
      have hnone : valuesNamed ((ps.filter keep).map fun q => (Binding.queryParameterName q, f q))
          (Binding.queryParameterName p) = [] := by
        unfold valuesNamed
        rw [List.filter_eq_nil_iff.2]
        · rfl
        · intro e he
          obtain ⟨r, hr, rfl⟩ := List.mem_map.1 he
          simpa using hn1 r (List.mem_filter.1 hr).1
      cases hk : keep p
      · simp [hk, hnone]
      · simp [hk, valuesNamed_cons, hnone]
    · have hpps : p ∈ ps := by
        rcases List.mem_cons.1 hp with h | h
        · exact absurd (h ▸ rfl) hq
        · exact h
      have := ih hpps hn2
      cases hk : keep q
      · simp [hk, this]
      · simp [hk, valuesNamed_cons, this, Ne.symm hq]

/-- **C49**, seen from the server: if the names of the query parameters of the method are different
and the name of a parameter wasn't used by hand, then reading that parameter from what the client
sends gives the value that was set, and nothing if it wasn't set. -/
theorem c49_server (F : Formats) (C : GoQuery.Codecs) (a : Asked) (p : Parameter)
    (hp : p ∈ Binding.requestQueryParameters a.method)
    (hn : ((Binding.requestQueryParameters a.method).map Binding.queryParameterName).Nodup)
    (hh : valuesNamed a.parameters (Binding.queryParameterName p) = [])
    (query : GoQuery.Values) (hq : query.get (Binding.queryParameterName p)
      = (a.sends F).query (Binding.queryParameterName p)) (shape : Shape) :
    (Sendable F C shape (a.fields p) →
      GoQuery.readQueryParameter C shape (Binding.queryParameterName p) none query
        = .result (.value (a.fields p))) ∧
    (a.fields p = .nil → shape ∈ GoQuery.parsable →
      GoQuery.readQueryParameter C shape (Binding.queryParameterName p) none query
        = .result .absent) := by
  have hsent : (a.sends F).query (Binding.queryParameterName p)
      = if !(a.fields p).isNil then [valueText F (a.fields p)] else [] := by
    unfold Asked.sends Asked.explicit
    simp only [hh, List.nil_append]
    exact valuesNamed_of_unique _ (fun p => valueText F (a.fields p)) p hp hn
      (fun p => !(a.fields p).isNil)
  rw [hsent] at hq
  constructor
  · intro hs
    obtain ⟨h1, h2⟩ := sendable_means hs
    have hnil : (a.fields p).isNil = false := by
      generalize a.fields p = v at hs
      cases hs <;> rfl
    simp only [hnil, Bool.not_false, if_true] at hq
    obtain ⟨parse, e, hm⟩ := parser_means C shape h1
    have := (hm _ _).2 h2
    simp [GoQuery.readQueryParameter, e, GoQuery.parseParameter, hq, this]
  · intro hs h1
    obtain ⟨parse, e, hm⟩ := parser_means C shape h1
    simp only [hs, Val.isNil, Bool.not_true, Bool.false_eq_true, if_false] at hq
    simp [GoQuery.readQueryParameter, e, GoQuery.parseParameter, hq]

end GoHelpers

end Verif
