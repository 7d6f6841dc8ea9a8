import Verif.Lemmas.UrlValues
import Verif.Spec.UrlValues

/-! Lemmas about the assembly of queries and headers. -/

namespace Verif

namespace GoHelpers

open GoJson
open Heap

/-- The iteration visits all the entries, in any order. -/
def IterationOrder (order : GoMap (Option Slice) → List (Text × Option Slice)) : Prop :=
  ∀ m, (order m).Perm m

/-! ## The parts -/

theorem addValue_spec (grow : Nat → Nat) {h : Heap} {refs : List Nat} {owner : Nat → Nat × Text}
    (i : h.Inv refs owner) (q : Option Nat) (hq : ∀ m, q = some m → m ∈ refs) (name text : Text) :
    ∃ owner', (addValue grow h q name text).1.Inv ((addValue grow h q name text).2 :: refs) owner' ∧
      (addValue grow h q name text).2 = q.getD h.maps.length ∧
      (∀ name', (addValue grow h q name text).1.values (some (addValue grow h q name text).2) name'
        = h.values q name' ++ if name' = name then [text] else []) ∧
      ∀ m ∈ refs, m ≠ (addValue grow h q name text).2 → ∀ name',
        (addValue grow h q name text).1.values (some m) name' = h.values (some m) name' := by
  cases q with
  | some m =>
    obtain ⟨⟨owner', h1⟩, -, h3⟩ := add_spec grow i (hq m rfl) name text
    refine ⟨owner', h1.sub ?_, rfl, fun name' => ?_, fun m' hm' hne name' => ?_⟩
    · intro m' hm'
      rcases List.mem_cons.1 hm' with rfl | hm'
      · exact hq _ rfl
      · exact hm'
    · have := h3 m (hq m rfl) name'
      simpa [addValue] using this
    · have := h3 m' hm' name'
      rw [if_neg (by rintro ⟨e, -⟩; exact hne e), List.append_nil] at this
      exact this
  | none =>
    have i' := i.newMap
    obtain ⟨⟨owner', h1⟩, -, h3⟩ := add_spec grow i' (m := h.maps.length) (by simp) name text
    refine ⟨owner', h1, rfl, fun name' => ?_, fun m' hm' hne name' => ?_⟩
    · have := h3 h.maps.length (by simp) name'
      rw [values_newMap, if_pos rfl] at this
      have e : ∀ n, h.values none n = [] := fun n => rfl
      rw [e]
      refine this.trans ?_
      by_cases hn : name' = name
      · simp [hn, GoMap.find, elements]
      · simp [hn, GoMap.find, elements]
    · have := h3 m' (by simp [hm']) name'
      have hne' : m' ≠ h.maps.length := hne
      rw [values_newMap, if_neg hne', if_neg (by rintro ⟨e, -⟩; exact hne' e),
        List.append_nil] at this
      exact this

theorem copyNew_spec {order : GoMap (Option Slice) → List (Text × Option Slice)}
    (ho : IterationOrder order) {h : Heap} {refs : List Nat} {owner : Nat → Nat × Text}
    (i : h.Inv refs owner) (q : Option Nat) (hq : ∀ m, q = some m → m ∈ refs) :
    (∃ owner', (copyEntries (h.newMap []).1 h.maps.length (order (h.map q))).Inv
      (h.maps.length :: refs) owner') ∧
    (∀ name, (copyEntries (h.newMap []).1 h.maps.length (order (h.map q))).values
      (some h.maps.length) name = h.values q name) ∧
    ∀ m ∈ refs, ∀ name, (copyEntries (h.newMap []).1 h.maps.length (order (h.map q))).values
      (some m) name = h.values (some m) name := by
  have i' := i.newMap
  have hk : (h.map q).keys.Nodup := by
    cases q with
    | none => simp [Heap.map, GoMap.keys]
    | some m => exact i.keys m (hq m rfl)
  have hk' : ((order (h.map q)).map Prod.fst).Nodup := ((ho _).map _).nodup_iff.2 hk
  have hv : ∀ e ∈ order (h.map q), ∀ s, e.2 = some s → h.Valid s := by
    intro e he s hs
    have hm := (ho _).mem_iff.1 he
    cases q with
    | none => simp [Heap.map] at hm
    | some m =>
      have hf := GoMap.find_of_mem (m := h.map (some m)) (k := e.1) (v := some s) hk (hs ▸ hm)
      exact (i.slices m (hq m rfl) e.1 s hf).1
  obtain ⟨h1, -, h3⟩ := copyEntries_spec i' (m := h.maps.length) (by simp) (order (h.map q))
    (fun e he s hs => hv e he s hs) hk'
  refine ⟨h1, fun name => ?_, fun m hm name => ?_⟩
  · rw [h3 _ (by simp) name, if_pos rfl]
    have hfind : GoMap.find (order (h.map q)) name = (h.map q).find name := by
      cases hf : (h.map q).find name with
      | none =>
        rw [GoMap.find_none] at hf ⊢
        intro hm
        exact hf (((ho _).map _).mem_iff.1 hm)
      | some s =>
        exact GoMap.find_of_mem hk' ((ho _).mem_iff.2 (GoMap.find_some_mem hf))
    rw [hfind]
    cases hf : (h.map q).find name with
    | none =>
      simp only [values_newMap, if_true]
      unfold values
      rw [hf]
      rfl
    | some s =>
      simp only
      unfold values
      rw [hf]
      cases s <;> rfl
  · have hne : m ≠ h.maps.length := by have := i.bound m hm; omega
    rw [h3 m (by simp [hm]) name, if_neg hne]
    simp only [values_newMap, if_neg hne]

theorem valuesNamed_cons (n t : Text) (l : List (Text × Text)) (name : Text) :
    valuesNamed ((n, t) :: l) name = (if name = n then [t] else []) ++ valuesNamed l name := by
  unfold valuesNamed
  by_cases e : n = name
  · subst e; simp
  · simp [e, Ne.symm e]

theorem addParameters_spec (grow : Nat → Nat) (F : Formats) (fields : Parameter → Val)
    (ps : List Parameter) {h : Heap} {refs live : List Nat} {owner : Nat → Nat × Text}
    (i : h.Inv refs owner) (hl : ∀ m ∈ live, m ∈ refs) (q : Option Nat)
    (hq : ∀ m, q = some m → m ∈ refs ∧ m ∉ live) :
    ∃ refs' owner', (addParameters grow F fields h q ps).1.Inv refs' owner' ∧
      (∀ m ∈ live, m ∈ refs') ∧
      (∀ m, (addParameters grow F fields h q ps).2 = some m → m ∈ refs' ∧ m ∉ live) ∧
      (∀ name, (addParameters grow F fields h q ps).1.values
          (addParameters grow F fields h q ps).2 name
        = h.values q name ++ valuesNamed ((ps.filter fun p => !(fields p).isNil).map fun p =>
            (Binding.queryParameterName p, valueText F (fields p))) name) ∧
      ∀ m ∈ live, ∀ name, (addParameters grow F fields h q ps).1.values (some m) name
        = h.values (some m) name := by
  induction ps generalizing h refs owner q with
  | nil =>
    exact ⟨refs, owner, i, hl, hq, fun name => by simp [addParameters, valuesNamed],
      fun m hm name => rfl⟩
  | cons p ps ih =>
    rw [addParameters]
    cases hn : (fields p).isNil with
    | true =>
      simp only [if_true]
      obtain ⟨refs', owner', h1, h2, h3, h4, h5⟩ := ih i hl q hq
      exact ⟨refs', owner', h1, h2, h3, fun name => by rw [h4]; simp [hn], h5⟩
    | false =>
      rw [if_neg (by simp)]
      obtain ⟨owner1, a1, a2, a3, a4⟩ := addValue_spec grow i q (fun m hm => (hq m hm).1)
        (Binding.queryParameterName p) (valueText F (fields p))
      generalize addValue grow h q (Binding.queryParameterName p) (valueText F (fields p)) = r
        at a1 a2 a3 a4
      obtain ⟨h', m'⟩ := r
      simp only at a1 a2 a3 a4 ⊢
      have hfresh : m' ∉ live := by
        rw [a2]
        cases q with
        | none =>
          intro hm
          have := i.bound _ (hl _ hm)
          simp at this
        | some m => exact (hq m rfl).2
      obtain ⟨refs', owner', h1, h2, h3, h4, h5⟩ := ih a1 (fun m hm => by simp [hl m hm]) (some m')
        (fun m hm => by rw [Option.some.injEq] at hm; subst hm; exact ⟨by simp, hfresh⟩)
      refine ⟨refs', owner', h1, h2, h3, fun name => ?_, fun m hm name => ?_⟩
      · rw [h4, a3]
        simp only [List.filter_cons, hn, Bool.not_false, if_true, List.map_cons, valuesNamed_cons,
          List.append_assoc]
      · rw [h5 m hm, a4 m (hl m hm) (fun e => hfresh (e ▸ hm))]

theorem assemble_spec (grow : Nat → Nat)
    {order : GoMap (Option Slice) → List (Text × Option Slice)} (ho : IterationOrder order)
    (F : Formats) {h : Heap} {live : List Nat} {owner : Nat → Nat × Text} (i : h.Inv live owner)
    (r : Request) (hr : ∀ m, r.query = some m ∨ r.header = some m → m ∈ live) :
    ∃ owner', (assemble grow order F h r).1.Inv live owner' ∧
      (∀ name, (assemble grow order F h r).1.values (assemble grow order F h r).2.1 name
        = h.values r.query name ++ valuesNamed
          (((Binding.requestQueryParameters r.method).filter fun p => !(r.fields p).isNil).map
            fun p => (Binding.queryParameterName p, valueText F (r.fields p))) name) ∧
      (∀ name, (assemble grow order F h r).1.values (some (assemble grow order F h r).2.2) name
        = h.values r.header name) ∧
      ∀ m ∈ live, ∀ name, (assemble grow order F h r).1.values (some m) name
        = h.values (some m) name := by
  -- The query
  obtain ⟨h1, q1, hq1, refs1, owner1, i1, hl1, hq1', hv1, hs1⟩ : ∃ h1 q1,
      copyQuery order h r.query = (h1, q1) ∧ ∃ refs1 owner1, h1.Inv refs1 owner1 ∧
      (∀ m ∈ live, m ∈ refs1) ∧ (∀ m, q1 = some m → m ∈ refs1 ∧ m ∉ live) ∧
      (∀ name, h1.values q1 name = h.values r.query name) ∧
      ∀ m ∈ live, ∀ name, h1.values (some m) name = h.values (some m) name := by
    cases hq : r.query with
    | none => exact ⟨h, none, rfl, live, owner, i, fun m hm => hm, by simp, fun _ => rfl,
        fun _ _ _ => rfl⟩
    | some m =>
      obtain ⟨⟨owner', a1⟩, a2, a3⟩ := copyNew_spec ho i (some m)
        (fun m' e => by rw [Option.some.injEq] at e; subst e; exact hr m (.inl hq))
      refine ⟨_, _, rfl, h.maps.length :: live, owner', a1, fun m hm => by simp [hm], ?_, a2, a3⟩
      intro m' e
      have e' : m' = h.maps.length := (Option.some.inj e).symm
      subst e'
      exact ⟨by simp, fun hm => by have := i.bound _ hm; omega⟩
  -- The parameters
  obtain ⟨refs2, owner2, i2, hl2, hq2, hv2, hs2⟩ := addParameters_spec grow F r.fields
    (Binding.requestQueryParameters r.method) i1 hl1 q1 hq1'
  -- The header
  unfold assemble
  rw [hq1]
  simp only
  generalize addParameters grow F r.fields h1 q1 (Binding.requestQueryParameters r.method) = p
    at i2 hq2 hv2 hs2
  obtain ⟨h2, q2⟩ := p
  simp only at i2 hq2 hv2 hs2 ⊢
  obtain ⟨⟨owner3, b1⟩, b2, b3⟩ := copyNew_spec ho i2 r.header (fun m hm => hl2 m (hr m (.inr hm)))
  refine ⟨owner3, b1.sub (fun m hm => by simp [hl2 m hm]), fun name => ?_, fun name => ?_,
    fun m hm name => ?_⟩
  · rw [← hv1, ← hv2]
    cases q2 with
    | none => rfl
    | some m => exact b3 m (hq2 m rfl).1 name
  · rw [show (copyHeader order h2 r.header).2 = h2.maps.length from rfl]
    refine (b2 name).trans ?_
    cases hh : r.header with
    | none => rfl
    | some m =>
      have hm := hr m (.inr hh)
      rw [hs2 m hm, hs1 m hm]
  · exact (b3 m (hl2 m hm) name).trans ((hs2 m hm name).trans (hs1 m hm name))

/-! ## Histories -/

/-- The maps of the requests have what was asked. -/
structure Agree (w : World) (as : List Asked) (live : List Nat) (owner : Nat → Nat × Text)
    (tag : Nat → Nat × Bool) : Prop where
  inv : w.heap.Inv live owner
  length : w.requests.length = as.length
  query : ∀ (i : Nat) (r : Request), w.requests[i]? = some r → ∀ m, r.query = some m → m ∈ live ∧ tag m = (i, false)
  header : ∀ (i : Nat) (r : Request), w.requests[i]? = some r → ∀ m, r.header = some m → m ∈ live ∧ tag m = (i, true)
  same : ∀ (i : Nat) (r : Request) (a : Asked), w.requests[i]? = some r → as[i]? = some a →
    r.method = a.method ∧ r.fields = a.fields ∧
    (∀ name, w.heap.values r.query name = valuesNamed a.parameters name) ∧
    (∀ name, w.heap.values r.header name = valuesNamed a.headers name)

theorem valuesNamed_append (l l' : List (Text × Text)) (name : Text) :
    valuesNamed (l ++ l') name = valuesNamed l name ++ valuesNamed l' name := by
  simp [valuesNamed]

theorem valuesNamed_one (n t name : Text) :
    valuesNamed [(n, t)] name = if name = n then [t] else [] := by
  rw [valuesNamed_cons]; simp [valuesNamed]

theorem agree_parameter (grow : Nat → Nat) {w : World} {as : List Asked} {live : List Nat}
    {owner : Nat → Nat × Text} {tag : Nat → Nat × Bool} (g : Agree w as live owner tag)
    (i : Nat) (r : Request) (hi : w.requests[i]? = some r) (name text : Text) :
    ∃ live' owner' tag', Agree
      { heap := (addValue grow w.heap r.query name text).1
        requests := w.requests.set i
          { r with query := some (addValue grow w.heap r.query name text).2 } }
      (as.modify i fun a => { a with parameters := a.parameters ++ [(name, text)] })
      live' owner' tag' := by
  obtain ⟨owner', h1, h2, h3, h4⟩ := addValue_spec grow g.inv r.query
    (fun m hm => (g.query i r hi m hm).1) name text
  generalize addValue grow w.heap r.query name text = p at h1 h2 h3 h4
  obtain ⟨h', m'⟩ := p
  simp only at h1 h2 h3 h4 ⊢
  -- The other maps aren't this one:
  have hne : ∀ m ∈ live, tag m ≠ (i, false) → m ≠ m' := by
    intro m hm ht e
    subst e
    cases hq : r.query with
    | none => rw [hq] at h2; simp at h2; have := g.inv.bound m hm; omega
    | some m0 =>
      rw [hq] at h2
      simp at h2
      subst h2
      exact ht (g.query i r hi m hq).2
  have hilt : i < w.requests.length := (List.getElem?_eq_some_iff.1 hi).1
  let tag' : Nat → Nat × Bool := fun m => if m = m' then (i, false) else tag m
  have htag : ∀ m ∈ live, ∀ j b, tag m = (j, b) → tag' m = (j, b) := by
    intro m hm j b ht
    simp only [tag']
    split
    · rename_i e
      by_cases hc : tag m = (i, false)
      · rw [← hc, ht]
      · exact absurd e (hne m hm hc)
    · exact ht
  refine ⟨m' :: live, owner', tag', h1, by simp [g.length], ?_, ?_, ?_⟩
  · intro j r' hj m hm
    rw [List.getElem?_set] at hj
    split at hj
    · rename_i e
      subst e
      simp only [hilt, if_true, Option.some.injEq] at hj
      subst hj
      simp only [Option.some.injEq] at hm
      subst hm
      exact ⟨by simp, by simp [tag']⟩
    · obtain ⟨a1, a2⟩ := g.query j r' hj m hm
      exact ⟨by simp [a1], htag m a1 _ _ a2⟩
  · intro j r' hj m hm
    rw [List.getElem?_set] at hj
    split at hj
    · rename_i e
      subst e
      simp only [hilt, if_true, Option.some.injEq] at hj
      subst hj
      obtain ⟨a1, a2⟩ := g.header i r hi m hm
      exact ⟨by simp [a1], htag m a1 _ _ a2⟩
    · obtain ⟨a1, a2⟩ := g.header j r' hj m hm
      exact ⟨by simp [a1], htag m a1 _ _ a2⟩
  · intro j r' a' hj ha
    have hkeep : ∀ (o : Option Nat), (∀ m, o = some m → m ∈ live ∧ tag m ≠ (i, false)) →
        ∀ name, h'.values o name = w.heap.values o name := by
      intro o ho name
      cases o with
      | none => rfl
      | some m =>
        obtain ⟨b1, b2⟩ := ho m rfl
        exact h4 m b1 (hne m b1 b2) name
    rw [List.getElem?_set] at hj
    rw [List.getElem?_modify] at ha
    split at hj
    · rename_i e
      subst e
      simp only [hilt, if_true, Option.some.injEq] at hj
      subst hj
      cases hA : as[i]? with
      | none => rw [hA] at ha; simp at ha
      | some a =>
        rw [hA] at ha
        simp at ha
        subst ha
        obtain ⟨c1, c2, c3, c4⟩ := g.same i r a hi hA
        refine ⟨c1, c2, fun n => ?_, fun n => ?_⟩
        · simp only
          rw [h3, c3, valuesNamed_append, valuesNamed_one]
        · simp only
          rw [hkeep r.header (fun m hm => ?_), c4]
          obtain ⟨d1, d2⟩ := g.header i r hi m hm
          exact ⟨d1, by rw [d2]; simp⟩
    · rename_i e
      simp only [e, if_false] at ha
      have ha : as[j]? = some a' := by simpa using ha
      obtain ⟨c1, c2, c3, c4⟩ := g.same j r' a' hj ha
      refine ⟨c1, c2, fun n => ?_, fun n => ?_⟩
      · rw [hkeep r'.query (fun m hm => ?_), c3]
        obtain ⟨d1, d2⟩ := g.query j r' hj m hm
        exact ⟨d1, by rw [d2]; simp [Ne.symm e]⟩
      · rw [hkeep r'.header (fun m hm => ?_), c4]
        obtain ⟨d1, d2⟩ := g.header j r' hj m hm
        exact ⟨d1, by rw [d2]; simp⟩

theorem agree_header (grow : Nat → Nat) {w : World} {as : List Asked} {live : List Nat}
    {owner : Nat → Nat × Text} {tag : Nat → Nat × Bool} (g : Agree w as live owner tag)
    (i : Nat) (r : Request) (hi : w.requests[i]? = some r) (name text : Text) :
    ∃ live' owner' tag', Agree
      { heap := (addValue grow w.heap r.header name text).1
        requests := w.requests.set i
          { r with header := some (addValue grow w.heap r.header name text).2 } }
      (as.modify i fun a => { a with headers := a.headers ++ [(name, text)] })
      live' owner' tag' := by
  obtain ⟨owner', h1, h2, h3, h4⟩ := addValue_spec grow g.inv r.header
    (fun m hm => (g.header i r hi m hm).1) name text
  generalize addValue grow w.heap r.header name text = p at h1 h2 h3 h4
  obtain ⟨h', m'⟩ := p
  simp only at h1 h2 h3 h4 ⊢
  -- The other maps aren't this one:
  have hne : ∀ m ∈ live, tag m ≠ (i, true) → m ≠ m' := by
    intro m hm ht e
    subst e
    cases hq : r.header with
    | none => rw [hq] at h2; simp at h2; have := g.inv.bound m hm; omega
    | some m0 =>
      rw [hq] at h2
      simp at h2
      subst h2
      exact ht (g.header i r hi m hq).2
  have hilt : i < w.requests.length := (List.getElem?_eq_some_iff.1 hi).1
  let tag' : Nat → Nat × Bool := fun m => if m = m' then (i, true) else tag m
  have htag : ∀ m ∈ live, ∀ j b, tag m = (j, b) → tag' m = (j, b) := by
    intro m hm j b ht
    simp only [tag']
    split
    · rename_i e
      by_cases hc : tag m = (i, true)
      · rw [← hc, ht]
      · exact absurd e (hne m hm hc)
    · exact ht
  refine ⟨m' :: live, owner', tag', h1, by simp [g.length], ?_, ?_, ?_⟩
  · intro j r' hj m hm
    rw [List.getElem?_set] at hj
    split at hj
    · rename_i e
      subst e
      simp only [hilt, if_true, Option.some.injEq] at hj
      subst hj
      obtain ⟨a1, a2⟩ := g.query i r hi m hm
      exact ⟨by simp [a1], htag m a1 _ _ a2⟩
    · obtain ⟨a1, a2⟩ := g.query j r' hj m hm
      exact ⟨by simp [a1], htag m a1 _ _ a2⟩
  · intro j r' hj m hm
    rw [List.getElem?_set] at hj
    split at hj
    · rename_i e
      subst e
      simp only [hilt, if_true, Option.some.injEq] at hj
      subst hj
      simp only [Option.some.injEq] at hm
      subst hm
      exact ⟨by simp, by simp [tag']⟩
    · obtain ⟨a1, a2⟩ := g.header j r' hj m hm
      exact ⟨by simp [a1], htag m a1 _ _ a2⟩
  · intro j r' a' hj ha
    have hkeep : ∀ (o : Option Nat), (∀ m, o = some m → m ∈ live ∧ tag m ≠ (i, true)) →
        ∀ name, h'.values o name = w.heap.values o name := by
      intro o ho name
      cases o with
      | none => rfl
      | some m =>
        obtain ⟨b1, b2⟩ := ho m rfl
        exact h4 m b1 (hne m b1 b2) name
    rw [List.getElem?_set] at hj
    rw [List.getElem?_modify] at ha
    split at hj
    · rename_i e
      subst e
      simp only [hilt, if_true, Option.some.injEq] at hj
      subst hj
      cases hA : as[i]? with
      | none => rw [hA] at ha; simp at ha
      | some a =>
        rw [hA] at ha
        simp at ha
        subst ha
        obtain ⟨c1, c2, c3, c4⟩ := g.same i r a hi hA
        refine ⟨c1, c2, fun n => ?_, fun n => ?_⟩
        · simp only
          rw [hkeep r.query (fun m hm => ?_), c3]
          obtain ⟨d1, d2⟩ := g.query i r hi m hm
          exact ⟨d1, by rw [d2]; simp⟩
        · simp only
          rw [h3, c4, valuesNamed_append, valuesNamed_one]
    · rename_i e
      simp only [e, if_false] at ha
      have ha : as[j]? = some a' := by simpa using ha
      obtain ⟨c1, c2, c3, c4⟩ := g.same j r' a' hj ha
      refine ⟨c1, c2, fun n => ?_, fun n => ?_⟩
      · rw [hkeep r'.query (fun m hm => ?_), c3]
        obtain ⟨d1, d2⟩ := g.query j r' hj m hm
        exact ⟨d1, by rw [d2]; simp⟩
      · rw [hkeep r'.header (fun m hm => ?_), c4]
        obtain ⟨d1, d2⟩ := g.header j r' hj m hm
        exact ⟨d1, by rw [d2]; simp [Ne.symm e]⟩

theorem addHeader_eq (grow : Nat → Nat) (h : Heap) (header : Option Nat) (name text : Text) :
    addHeader grow h header name text = addValue grow h header (canonicalKey name) text := by
  cases header <;> rfl

theorem agree_new {w : World} {as : List Asked} {live : List Nat}
    {owner : Nat → Nat × Text} {tag : Nat → Nat × Bool} (g : Agree w as live owner tag)
    (method : Method) : Agree { w with requests := w.requests ++ [{ method := method }] }
      (as ++ [{ method := method }]) live owner tag := by
  have key : ∀ (i : Nat) (r : Request), (w.requests ++ [{ method := method }])[i]? = some r →
      w.requests[i]? = some r ∨ i = w.requests.length ∧ r = { method := method } := by
    intro i r h
    rw [List.getElem?_append] at h
    split at h
    · exact .inl h
    · rename_i hlt
      have : i - w.requests.length = 0 := by
        cases hk : i - w.requests.length with
        | zero => rfl
        | succ k => rw [hk] at h; simp at h
      rw [this] at h
      simp at h
      exact .inr ⟨by omega, h.symm⟩
  refine ⟨g.inv, by simp [g.length], ?_, ?_, ?_⟩
  · intro i r h m hm
    rcases key i r h with h | ⟨-, rfl⟩
    · exact g.query i r h m hm
    · simp at hm
  · intro i r h m hm
    rcases key i r h with h | ⟨-, rfl⟩
    · exact g.header i r h m hm
    · simp at hm
  · intro i r a h ha
    rcases key i r h with h | ⟨rfl, rfl⟩
    · have : i < as.length := by rw [← g.length]; exact (List.getElem?_eq_some_iff.1 h).1
      rw [List.getElem?_append_left this] at ha
      exact g.same i r a h ha
    · rw [g.length] at ha
      simp at ha
      subst ha
      exact ⟨rfl, rfl, fun _ => rfl, fun _ => rfl⟩

theorem agree_set {w : World} {as : List Asked} {live : List Nat}
    {owner : Nat → Nat × Text} {tag : Nat → Nat × Bool} (g : Agree w as live owner tag)
    (i : Nat) (r : Request) (hi : w.requests[i]? = some r) (p : Parameter) (value : Val) :
    Agree { w with
        requests := w.requests.set i
          { r with fields := fun q => if q = p then value else r.fields q } }
      (as.modify i fun a => { a with fields := fun q => if q = p then value else a.fields q })
      live owner tag := by
  have hilt : i < w.requests.length := (List.getElem?_eq_some_iff.1 hi).1
  refine ⟨g.inv, by simp [g.length], ?_, ?_, ?_⟩
  · intro j r' hj m hm
    rw [List.getElem?_set] at hj
    split at hj
    · rename_i e
      subst e
      simp only [hilt, if_true, Option.some.injEq] at hj
      subst hj
      exact g.query i r hi m hm
    · exact g.query j r' hj m hm
  · intro j r' hj m hm
    rw [List.getElem?_set] at hj
    split at hj
    · rename_i e
      subst e
      simp only [hilt, if_true, Option.some.injEq] at hj
      subst hj
      exact g.header i r hi m hm
    · exact g.header j r' hj m hm
  · intro j r' a' hj ha
    rw [List.getElem?_set] at hj
    rw [List.getElem?_modify] at ha
    split at hj
    · rename_i e
      subst e
      simp only [hilt, if_true, Option.some.injEq] at hj
      subst hj
      cases hA : as[i]? with
      | none => rw [hA] at ha; simp at ha
      | some a =>
        rw [hA] at ha
        simp at ha
        subst ha
        obtain ⟨c1, c2, c3, c4⟩ := g.same i r a hi hA
        exact ⟨c1, by simp [c2], c3, c4⟩
    · rename_i e
      simp only [e, if_false] at ha
      have ha : as[j]? = some a' := by simpa using ha
      exact g.same j r' a' hj ha

theorem agree_other {w : World} {as : List Asked} {live : List Nat}
    {owner : Nat → Nat × Text} {tag : Nat → Nat × Bool} (g : Agree w as live owner tag)
    {h : Heap} (hk : w.Keeps h) :
    ∃ live', Agree { w with heap := h } as live' owner tag := by
  let live' := w.requests.flatMap fun r => r.query.toList ++ r.header.toList
  have hlive : ∀ m, m ∈ live' ↔ w.Live m := by
    intro m
    simp only [live', World.Live, List.mem_flatMap, List.mem_append, Option.mem_toList]
  have hsub : ∀ m ∈ live', m ∈ live := by
    intro m hm
    obtain ⟨r, hr, hm⟩ := (hlive m).1 hm
    obtain ⟨i, hi, e⟩ := List.getElem_of_mem hr
    have hi' : w.requests[i]? = some r := by rw [List.getElem?_eq_getElem hi, e]
    rcases hm with hm | hm
    · exact (g.query i r hi' m hm).1
    · exact (g.header i r hi' m hm).1
  have i' := g.inv.sub hsub
  have hmap : ∀ m ∈ live', h.map (some m) = w.heap.map (some m) := by
    intro m hm
    simp only [Heap.map, List.getD_eq_getElem?_getD, hk.maps m ((hlive m).1 hm)]
  have hval : ∀ m ∈ live', ∀ name s, (w.heap.map (some m)).find name = some (some s) →
      h.arrays[s.array]? = w.heap.arrays[s.array]? := by
    intro m hm name s hf
    exact hk.arrays m ((hlive m).1 hm) (name, some s) (GoMap.find_some_mem hf) s rfl
  have hvalues : ∀ (o : Option Nat), (∀ m, o = some m → m ∈ live') → ∀ name,
      h.values o name = w.heap.values o name := by
    intro o ho name
    cases o with
    | none => rfl
    | some m =>
      unfold values
      rw [hmap m (ho m rfl)]
      cases hf : (w.heap.map (some m)).find name with
      | none => rfl
      | some s =>
        cases s with
        | none => rfl
        | some s =>
          simp only [Option.join, elements, List.getD_eq_getElem?_getD, hval m (ho m rfl) name s hf,
            Option.bind_some, id]
  have hmem : ∀ (i : Nat) (r : Request), w.requests[i]? = some r → ∀ m,
      r.query = some m ∨ r.header = some m → m ∈ live' := by
    intro i r hi m hm
    exact (hlive m).2 ⟨r, List.mem_of_getElem? hi, hm⟩
  refine ⟨live', ⟨?_, ?_, ?_⟩, g.length, ?_, ?_, ?_⟩
  · intro m hm
    have h1 := i'.bound m hm
    have h2 := hk.maps m ((hlive m).1 hm)
    rw [List.getElem?_eq_getElem h1] at h2
    exact (List.getElem?_eq_some_iff.1 h2).1
  · intro m hm
    show (h.map (some m)).keys.Nodup
    rw [hmap m hm]
    exact i'.keys m hm
  · intro m hm name s hf
    have hf : (h.map (some m)).find name = some (some s) := hf
    rw [hmap m hm] at hf
    obtain ⟨h1, h2⟩ := i'.slices m hm name s hf
    have h3 := hval m hm name s hf
    refine ⟨⟨?_, ?_⟩, h2⟩
    · rw [List.getElem?_eq_getElem h1.1] at h3
      exact (List.getElem?_eq_some_iff.1 h3).1
    · have := h1.2
      simp only [List.getD_eq_getElem?_getD] at this ⊢
      rw [h3]
      exact this
  · intro i r hi m hm
    exact ⟨hmem i r hi m (.inl hm), (g.query i r hi m hm).2⟩
  · intro i r hi m hm
    exact ⟨hmem i r hi m (.inr hm), (g.header i r hi m hm).2⟩
  · intro i r a hi ha
    obtain ⟨c1, c2, c3, c4⟩ := g.same i r a hi ha
    refine ⟨c1, c2, fun name => ?_, fun name => ?_⟩
    · rw [← c3]; exact hvalues r.query (fun m hm => hmem i r hi m (.inl hm)) name
    · rw [← c4]; exact hvalues r.header (fun m hm => hmem i r hi m (.inr hm)) name

theorem agree_send (grow : Nat → Nat)
    {order : GoMap (Option Slice) → List (Text × Option Slice)} (ho : IterationOrder order)
    (F : Formats) {w : World} {as : List Asked} {live : List Nat}
    {owner : Nat → Nat × Text} {tag : Nat → Nat × Bool} (g : Agree w as live owner tag)
    (i : Nat) (r : Request) (hi : w.requests[i]? = some r) (a : Asked) (ha : as[i]? = some a) :
    (∃ owner', Agree { w with heap := (assemble grow order F w.heap r).1 } as live owner' tag) ∧
    Sending.mk ((assemble grow order F w.heap r).1.values (assemble grow order F w.heap r).2.1)
      ((assemble grow order F w.heap r).1.values (some (assemble grow order F w.heap r).2.2))
      = a.sends F := by
  obtain ⟨owner', h1, h2, h3, h4⟩ := assemble_spec grow ho F g.inv r (fun m hm => by
    rcases hm with hm | hm
    · exact (g.query i r hi m hm).1
    · exact (g.header i r hi m hm).1)
  refine ⟨⟨owner', h1, g.length, g.query, g.header, ?_⟩, ?_⟩
  · intro j r' a' hj ha'
    obtain ⟨c1, c2, c3, c4⟩ := g.same j r' a' hj ha'
    have hkeep : ∀ (o : Option Nat), (∀ m, o = some m → m ∈ live) →
        ∀ name, (assemble grow order F w.heap r).1.values o name = w.heap.values o name := by
      intro o ho name
      cases o with
      | none => rfl
      | some m => exact h4 m (ho m rfl) name
    refine ⟨c1, c2, fun name => ?_, fun name => ?_⟩
    · rw [← c3]; exact hkeep _ (fun m hm => (g.query j r' hj m hm).1) name
    · rw [← c4]; exact hkeep _ (fun m hm => (g.header j r' hj m hm).1) name
  · obtain ⟨c1, c2, c3, c4⟩ := g.same i r a hi ha
    unfold Asked.sends Asked.explicit
    congr 1
    · funext name
      rw [h2, c3, c1, c2]
    · funext name
      rw [h3, c4]

/-- What is sent is what was asked. -/
theorem run_agrees (grow : Nat → Nat)
    {order : GoMap (Option Slice) → List (Text × Option Slice)} (ho : IterationOrder order)
    (F : Formats) (ops : List Op) {w : World} {as : List Asked} {live : List Nat}
    {owner : Nat → Nat × Text} {tag : Nat → Nat × Bool} (g : Agree w as live owner tag)
    (hf : Fair grow order F w ops) :
    w.run grow order F ops = asked F as ops := by
  induction ops generalizing w as live owner tag with
  | nil => rfl
  | cons op ops ih =>
    obtain ⟨hf1, hf2⟩ := hf
    have hnone : ∀ i : Nat, w.requests[i]? = none → as[i]? = none := by
      intro i h
      rw [List.getElem?_eq_none_iff] at h ⊢
      rw [← g.length]; exact h
    have hmod : ∀ (i : Nat) (f : Asked → Asked), w.requests[i]? = none → as.modify i f = as := by
      intro i f h
      apply List.modify_eq_self
      have := hnone i h
      rw [List.getElem?_eq_none_iff] at this
      exact this
    rw [World.run]
    cases op with
    | new method => exact ih (agree_new g method) hf2
    | parameter i name value =>
      change _ = asked F (as.modify i _) ops
      cases hi : w.requests[i]? with
      | none =>
        rw [hmod i _ hi]
        have e : w.exec grow order F (.parameter i name value) = (w, none) := by
          rw [World.exec]; simp [hi]
        rw [e] at hf2 ⊢
        exact ih g hf2
      | some r =>
        obtain ⟨live', owner', tag', g'⟩ :=
          agree_parameter grow g i r hi name (valueText F value)
        have e : w.exec grow order F (.parameter i name value) =
            ({ heap := (addValue grow w.heap r.query name (valueText F value)).1
               requests := w.requests.set i { r with
                 query := some (addValue grow w.heap r.query name (valueText F value)).2 } },
              none) := by
          rw [World.exec]; simp [hi]
        rw [e] at hf2 ⊢
        exact ih g' hf2
    | header i name value =>
      change _ = asked F (as.modify i _) ops
      cases hi : w.requests[i]? with
      | none =>
        rw [hmod i _ hi]
        have e : w.exec grow order F (.header i name value) = (w, none) := by
          rw [World.exec]; simp [hi]
        rw [e] at hf2 ⊢
        exact ih g hf2
      | some r =>
        obtain ⟨live', owner', tag', g'⟩ := agree_header grow g i r hi (canonicalKey name) value
        have e : w.exec grow order F (.header i name value) =
            ({ heap := (addValue grow w.heap r.header (canonicalKey name) value).1
               requests := w.requests.set i { r with
                 header := some (addValue grow w.heap r.header (canonicalKey name) value).2 } },
              none) := by
          rw [World.exec]; simp [hi, addHeader_eq]
        rw [e] at hf2 ⊢
        exact ih g' hf2
    | impersonate i user =>
      change _ = asked F (as.modify i _) ops
      cases hi : w.requests[i]? with
      | none =>
        rw [hmod i _ hi]
        have e : w.exec grow order F (.impersonate i user) = (w, none) := by
          rw [World.exec]; simp [hi]
        rw [e] at hf2 ⊢
        exact ih g hf2
      | some r =>
        obtain ⟨live', owner', tag', g'⟩ := agree_header grow g i r hi t!"Impersonate-User" user
        have hc : canonicalKey t!"Impersonate-User" = t!"Impersonate-User" := by decide
        have e : w.exec grow order F (.impersonate i user) =
            ({ heap := (addValue grow w.heap r.header t!"Impersonate-User" user).1
               requests := w.requests.set i { r with
                 header := some (addValue grow w.heap r.header t!"Impersonate-User" user).2 } },
              none) := by
          rw [World.exec]
          simp only [hi, addImpersonationHeader, addHeader_eq]
          rw [hc]
        rw [e] at hf2 ⊢
        exact ih g' hf2
    | set i p value =>
      change _ = asked F (as.modify i _) ops
      cases hi : w.requests[i]? with
      | none =>
        rw [hmod i _ hi]
        have e : w.exec grow order F (.set i p value) = (w, none) := by
          rw [World.exec]; simp [hi]
        rw [e] at hf2 ⊢
        exact ih g hf2
      | some r =>
        have g' := agree_set g i r hi p value
        have e : w.exec grow order F (.set i p value) = ({ w with
            requests := w.requests.set i
              { r with fields := fun q => if q = p then value else r.fields q } }, none) := by
          rw [World.exec]; simp [hi]
        rw [e] at hf2 ⊢
        exact ih g' hf2
    | send i =>
      rw [asked]
      cases hi : w.requests[i]? with
      | none =>
        have e : w.exec grow order F (.send i) = (w, none) := by
          rw [World.exec]; simp [hi]
        rw [e] at hf2 ⊢
        rw [hnone i hi]
        exact ih g hf2
      | some r =>
        have hlt : i < as.length := by
          rw [← g.length]; exact (List.getElem?_eq_some_iff.1 hi).1
        have ha := List.getElem?_eq_getElem hlt
        obtain ⟨⟨owner', g'⟩, hs⟩ := agree_send grow ho F g i r hi _ ha
        have e : w.exec grow order F (.send i) =
            ({ w with heap := (assemble grow order F w.heap r).1 },
              some (Sending.mk
                ((assemble grow order F w.heap r).1.values (assemble grow order F w.heap r).2.1)
                ((assemble grow order F w.heap r).1.values
                  (some (assemble grow order F w.heap r).2.2)))) := by
          rw [World.exec]; simp [hi]
        rw [e] at hf2 ⊢
        simp only
        rw [hs, ha]
        simp only [Option.map_some, Option.toList_some]
        rw [ih g' hf2]
    | other f =>
      obtain ⟨live', g'⟩ := agree_other g (hf1 f rfl)
      exact ih g' hf2

theorem agree_empty : Agree {} [] [] (fun _ => (0, [])) (fun _ => (0, false)) :=
  ⟨⟨by simp, by simp, by simp⟩, rfl, by simp, by simp, by simp⟩

end GoHelpers

end Verif
