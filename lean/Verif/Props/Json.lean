import Verif.Lemmas.JsonRound
import Verif.Lemmas.JsonOrder
import Verif.Props.GoBuffer

/-!
# Properties C36 to C39: the generated JSON code

`writeVal S ty link v` is what the generated code writes for a value of a type, and
`readVal D S fuel ty link tokens` what it reads, with the tokens that remain; `marshal` and
`unmarshal` are the public functions. `S` describes the types and `D` is the function of the
standard library that parses dates.
-/

namespace Verif

open GoJson

/-! ## A model used in the examples -/

/-- Text, integers, maps of texts, a structure, lists of it, and a class with all of them. -/
def jsonSchema : Schema
  | 0 => .string
  | 1 => .integer
  | 2 => .map 0
  | 3 => .struct false t!"Node" [{ tag := t!"host", typ := 0, bit := 0 }]
  | 4 => .list t!"NodeList" 3
  | 5 => .struct true t!"Cluster"
      [{ tag := t!"name", typ := 0, bit := 3 }, { tag := t!"size", typ := 1, bit := 4 },
       { tag := t!"labels", typ := 2, bit := 5 }, { tag := t!"nodes", typ := 4, bit := 6 },
       { tag := t!"spares", typ := 4, link := true, bit := 7 }]
  | 6 => .date
  | _ => .other

/-- A cluster with an identifier, a size, labels, nodes and spare nodes, and without name. -/
def jsonCluster : Val :=
  .obj 0b11110010 t!"123" []
    [.str [], .int (-7), .map [(t!"a", .str t!"x"), (t!"b", .str t!"y")],
     .list [.obj 1 [] [] [.str t!"h"], .obj 0 [] [] [.str []]],
     .linkList false [] (.list [])]

/-- No date can be parsed. -/
def noDates : DateParser := fun _ => none

/-! ## C36 -/

/-- Whatever the types and the value, what is written is well formed. -/
theorem c36_well_formed (S : Schema) (ty : TypeId) (link : Bool) (v : Val) (ts : List Tok)
    (h : writeVal S ty link v = some ts) : IsValue ts := by
  rw [writeVal_eq] at h
  cases hj : encode S ty link v with
  | none => simp [hj] at h
  | some j =>
    simp only [hj, Option.map_some, Option.some.injEq] at h
    subst h
    exact isValue_tokens j

/-- The grammar rejects repeated, leading and trailing commas. -/
theorem c36_grammar :
    ¬ IsValue [.objectStart, .str t!"a", .colon, .null, .comma, .objectEnd] ∧
    ¬ IsValue [.objectStart, .comma, .str t!"a", .colon, .null, .objectEnd] ∧
    ¬ IsValue [.arrayStart, .null, .null, .arrayEnd] := by
  have hv : ∀ ts, IsValue ts → ts ≠ [] := by
    intro ts h
    cases h <;> simp
  have hm : ∀ ts, IsMembers ts → ∃ k us, ts = .str k :: .colon :: us ∧ us ≠ [] := by
    intro ts h
    cases h with
    | one k h => exact ⟨k, _, rfl, hv _ h⟩
    | more k h h' =>
      exact ⟨k, _, by simp only [List.cons_append, List.nil_append, List.append_assoc]; rfl, by simp⟩
  have hnull : ∀ r, IsValue (.null :: r) → r = [] := by
    intro r h
    generalize e : Tok.null :: r = ts at h
    cases h <;> simp_all
  refine ⟨?_, ?_, ?_⟩
  · intro h
    generalize e : [Tok.objectStart, .str t!"a", .colon, .null, .comma, .objectEnd] = ts at h
    cases h with
    | object h =>
      rename_i us
      have e' : us = [.str t!"a", .colon, .null, .comma] := by
        have := congrArg (fun l => l.tail.dropLast) e
        simpa using this.symm
      subst e'
      generalize e2 : [Tok.str t!"a", .colon, .null, .comma] = us at h
      cases h with
      | one k h =>
        simp only [List.cons_append, List.nil_append, List.cons.injEq] at e2
        obtain ⟨_, _, rfl⟩ := e2
        have := hnull _ h
        simp at this
      | more k h h' =>
        rename_i a b
        simp only [List.cons_append, List.nil_append, List.cons.injEq] at e2
        obtain ⟨_, _, e3⟩ := e2
        match a, h with
        | [], h => exact absurd rfl (hv _ h)
        | [x], h =>
          simp only [List.cons_append, List.nil_append, List.cons.injEq] at e3
          obtain ⟨k', us, rfl, _⟩ := hm _ h'
          simp at e3
        | x :: y :: z, h =>
          simp only [List.cons_append, List.cons.injEq] at e3
          obtain ⟨_, _, e4⟩ := e3
          simp at e4
    | _ => simp at e
  · intro h
    generalize e : [Tok.objectStart, .comma, .str t!"a", .colon, .null, .objectEnd] = ts at h
    cases h with
    | object h =>
      obtain ⟨k, us, rfl, _⟩ := hm _ h
      simp at e
    | _ => simp at e
  · intro h
    generalize e : [Tok.arrayStart, .null, .null, .arrayEnd] = ts at h
    cases h with
    | array h =>
      rename_i us
      have e' : us = [.null, .null] := by
        have := congrArg (fun l => l.tail.dropLast) e
        simpa using this.symm
      subst e'
      generalize e2 : [Tok.null, .null] = us at h
      cases h with
      | one h =>
        subst e2
        have := hnull _ h
        simp at this
      | more h h' =>
        rename_i a b
        match a, h with
        | [], h => exact absurd rfl (hv _ h)
        | [x], h => simp at e2
        | x :: y :: z, h => simp at e2
    | _ => simp at e

example : (marshal jsonSchema 5 jsonCluster).isSome = true := by decide

/-! ## C37 -/

/-- The members that objects of classes have besides those of the attributes. -/
def ownMembers (isClass : Bool) (name : Text) (bitmap : Nat) (id href : Text) :
    List (Text × List Tok) :=
  if isClass then
    [(t!"kind", [.str (if bitmap.testBit 0 then name ++ t!"Link" else name)])]
      ++ (if bitmap.testBit 1 then [(t!"id", [.str id])] else [])
      ++ (if bitmap.testBit 2 then [(t!"href", [.str href])] else [])
  else []

/-- The attribute has a value: its bit is set and, for objects, lists and maps, it isn't nil. -/
def hasValue (S : Schema) (bitmap : Nat) (p : AttrShape × Val) : Bool :=
  bitmap.testBit p.1.bit && ((S p.1.typ).isScalar || !p.2.isNil)

theorem membersTokens_cons (k : Text) (ts : List Tok) (ms : List (Text × List Tok)) :
    membersTokens ((k, ts) :: ms)
      = .str k :: .colon :: (ts ++ (if ms = [] then [] else .comma :: membersTokens ms)) := by
  cases ms <;> simp [membersTokens]

theorem render_spec (ms : List (Text × Json)) :
    render 0 ms = membersTokens (ms.map fun p => (p.1, p.2.tokens)) := by
  induction ms with
  | nil => rfl
  | cons e ms ih =>
    obtain ⟨k, j⟩ := e
    cases ms with
    | nil => simp [render, more, membersTokens, Json.membersTail]
    | cons e' ms =>
      obtain ⟨k', j'⟩ := e'
      simp only [List.map_cons] at ih ⊢
      rw [membersTokens_cons, ← ih]
      simp [render, more, Json.membersTail]

theorem objectTokens_spec (ms : List (Text × Json)) :
    (Json.obj ms).tokens = objectTokens (ms.map fun p => (p.1, p.2.tokens)) := by
  rw [tokens_obj, render_spec]; simp [objectTokens]

theorem encodeFields_spec (S : Schema) (bitmap : Nat) (as : List AttrShape) (vs : List Val)
    (h : as.length = vs.length) :
    (encodeFields S bitmap as vs).map (List.map fun p => (p.1, p.2.tokens))
      = ((as.zip vs).filter (hasValue S bitmap)).mapM
          (fun p => (writeVal S p.1.typ p.1.link p.2).map fun ts => (p.1.tag, ts)) := by
  induction as generalizing vs with
  | nil => cases vs <;> simp_all [encodeFields]
  | cons a as ih =>
    cases vs with
    | nil => simp at h
    | cons v vs =>
      have ih := ih vs (by simpa using h)
      have hp : present S bitmap a v = hasValue S bitmap (a, v) := by
        unfold present hasValue
        cases (S a.typ).isScalar <;> simp
      simp only [encodeFields, List.zip_cons_cons, List.filter_cons, hp]
      split
      · simp only [List.mapM_cons, writeVal_eq S a.typ a.link v]
        cases he : encode S a.typ a.link v with
        | none => simp
        | some j =>
          simp only [Option.map_some]
          rw [← ih]
          cases encodeFields S bitmap as vs <;> simp
      · exact ih

/-- An object is written as an object with its own members and exactly those of the attributes
that have a value, in order, each with its JSON name and the value written according to its type.
-/
theorem c37_object (S : Schema) (ty : TypeId) (link isClass : Bool) (name : Text)
    (as : List AttrShape) (hs : S ty = .struct isClass name as) (bitmap : Nat) (id href : Text)
    (fields : List Val) (hl : as.length = fields.length) :
    writeVal S ty link (.obj bitmap id href fields)
      = (((as.zip fields).filter (hasValue S bitmap)).mapM
          (fun p => (writeVal S p.1.typ p.1.link p.2).map fun ts => (p.1.tag, ts))).map
        fun ms => objectTokens (ownMembers isClass name bitmap id href ++ ms) := by
  rw [writeVal_eq, ← encodeFields_spec S bitmap as fields hl]
  simp only [encode, hs]
  cases encodeFields S bitmap as fields with
  | none => simp
  | some ms =>
    simp only [Option.map_some, Option.some.injEq, objectTokens_spec]
    congr 1
    simp only [List.map_append]
    congr 1
    unfold ownMembers headerMembers
    cases isClass <;> cases bitmap.testBit 1 <;> cases bitmap.testBit 2 <;> simp [Json.tokens]

/-- So the names of the members are those of the attributes that have a value. -/
theorem c37_names (S : Schema) (ty : TypeId) (link isClass : Bool) (name : Text)
    (as : List AttrShape) (hs : S ty = .struct isClass name as) (bitmap : Nat) (id href : Text)
    (fields : List Val) (hl : as.length = fields.length) (ts : List Tok)
    (h : writeVal S ty link (.obj bitmap id href fields) = some ts) :
    ∃ ms, ts = objectTokens ms ∧
      ms.map Prod.fst = (ownMembers isClass name bitmap id href).map Prod.fst
        ++ ((as.zip fields).filter (hasValue S bitmap)).map fun p => p.1.tag := by
  rw [c37_object S ty link isClass name as hs bitmap id href fields hl] at h
  have hnames : ∀ (l : List (AttrShape × Val)) ms,
      l.mapM (fun p => (writeVal S p.1.typ p.1.link p.2).map fun ts => (p.1.tag, ts)) = some ms →
      ms.map Prod.fst = l.map fun p => p.1.tag := by
    intro l
    induction l with
    | nil => intro ms h; simp at h; subst h; rfl
    | cons p l ih =>
      intro ms h
      rw [List.mapM_cons] at h
      cases hw : writeVal S p.1.typ p.1.link p.2 with
      | none => simp [hw] at h
      | some ts =>
        cases hm : l.mapM (fun p : AttrShape × Val =>
            (writeVal S p.1.typ p.1.link p.2).map fun ts => (p.1.tag, ts)) with
        | none => simp [hw, hm] at h
        | some ms' =>
          simp [hw, hm] at h
          subst h
          simp [ih ms' hm]
  generalize hm : ((as.zip fields).filter (hasValue S bitmap)).mapM
    (fun p => (writeVal S p.1.typ p.1.link p.2).map fun ts => (p.1.tag, ts)) = r at h
  cases r with
  | none => simp at h
  | some ms =>
    simp only [Option.map_some, Option.some.injEq] at h
    exact ⟨_, h.symm, by rw [List.map_append, hnames _ _ hm]⟩

/-- A list is written as the array of its items, and nil as the empty array. -/
theorem c37_list (S : Schema) (ty : TypeId) (name : Text) (element : TypeId)
    (hs : S ty = .list name element) (items : List Val) :
    writeVal S ty false (.list items) = (items.mapM (writeVal S element false)).map
      (fun is => [.arrayStart] ++ [Tok.comma].intercalate is ++ [.arrayEnd]) ∧
    writeVal S ty false .nil = some [.arrayStart, .arrayEnd] := by
  refine ⟨?_, by simp [writeVal, hs]⟩
  have h : ∀ vs : List Val, (encodeItems S element vs).map (List.map Json.tokens)
      = vs.mapM (writeVal S element false) := by
    intro vs
    induction vs with
    | nil => simp [encodeItems]
    | cons v vs ih =>
      simp only [List.mapM_cons, ← ih, writeVal_eq S element false v, encodeItems]
      cases encode S element false v with
      | none => simp
      | some j => cases encodeItems S element vs <;> simp
  have ht : ∀ (js : List Json), renderItems 0 js = [Tok.comma].intercalate (js.map Json.tokens) := by
    intro js
    induction js with
    | nil => rfl
    | cons j js ih =>
      cases js with
      | nil => simp [renderItems, more, Json.itemsTail, List.intercalate]
      | cons i js =>
        simp only [List.map_cons] at ih ⊢
        rw [List.intercalate_cons_cons, ← ih]
        simp [renderItems, more, Json.itemsTail]
  rw [writeVal_eq, ← h items]
  simp only [encode, hs, Bool.false_eq_true, if_false]
  cases encodeItems S element items with
  | none => simp
  | some js => simp [tokens_arr, ht]

/-- A list that is a link is written as an object that only has the items. -/
theorem c37_link (S : Schema) (ty : TypeId) (name : Text) (element : TypeId)
    (hs : S ty = .list name element) (link : Bool) (href : Text) (items : Val) :
    writeVal S ty true (.linkList link href items)
      = (writeVal S ty false items).map fun ts => objectTokens [(t!"items", ts)] := by
  simp only [writeVal, hs, if_true]
  cases writeVal S ty false items <;> simp [objectTokens, membersTokens]

theorem insertKey_perm {α : Type} (e : Text × α) (l : List (Text × α)) :
    (insertKey e l).Perm (e :: l) := by
  induction l with
  | nil => exact .refl _
  | cons x l ih =>
    simp only [insertKey]
    split
    · exact .refl _
    · exact (ih.cons x).trans (.swap _ _ _)

theorem insertKey_pairwise {α : Type} (e : Text × α) (l : List (Text × α))
    (h : l.Pairwise fun a b => ¬ b.1 < a.1) :
    (insertKey e l).Pairwise fun a b => ¬ b.1 < a.1 := by
  have lt_iff : ∀ a b : Text, compareText a b < 0 ↔ a < b := by
    intro a b
    have := compareText_range a b
    rw [← compareText_lt]
    omega
  induction l with
  | nil => simp [insertKey]
  | cons x l ih =>
    rw [List.pairwise_cons] at h
    simp only [insertKey]
    split
    · rename_i hlt
      rw [lt_iff] at hlt
      rw [List.pairwise_cons, List.pairwise_cons]
      refine ⟨?_, h⟩
      intro y hy
      rcases List.mem_cons.1 hy with rfl | hy
      · exact fun h' => List.lt_irrefl _ (List.lt_trans hlt h')
      · intro hlt'
        exact h.1 y hy (List.lt_trans hlt' hlt)
    · rename_i hlt
      rw [lt_iff] at hlt
      rw [List.pairwise_cons]
      refine ⟨?_, ih h.2⟩
      intro y hy
      rcases List.mem_cons.1 ((insertKey_perm e l).mem_iff.1 hy) with rfl | hy
      · exact hlt
      · exact h.1 y hy

theorem sortKeys_spec {α : Type} (l : List (Text × α)) :
    (sortKeys l).Perm l ∧ (sortKeys l).Pairwise fun a b => ¬ b.1 < a.1 := by
  unfold sortKeys
  suffices h : ∀ acc : List (Text × α), acc.Pairwise (fun a b => ¬ b.1 < a.1) →
      (l.foldl (fun acc e => insertKey e acc) acc).Perm (acc ++ l) ∧
      (l.foldl (fun acc e => insertKey e acc) acc).Pairwise fun a b => ¬ b.1 < a.1 by
    simpa using h [] .nil
  induction l with
  | nil => intro acc h; simpa using h
  | cons x l ih =>
    intro acc h
    obtain ⟨h1, h2⟩ := ih (insertKey x acc) (insertKey_pairwise x acc h)
    refine ⟨?_, h2⟩
    refine h1.trans (((insertKey_perm x acc).append_right l).trans ?_)
    simpa using (List.perm_middle (a := x) (l₁ := acc) (l₂ := l)).symm

/-- A map is written as the object of its entries, in the order of keys, and nil as null. -/
theorem c37_map (S : Schema) (ty : TypeId) (link : Bool) (element : TypeId)
    (hs : S ty = .map element) (entries : List (Text × Val)) :
    (∀ ts, writeVal S ty link (.map entries) = some ts ↔
      ∃ written, entries.mapM (fun e => (writeVal S element false e.2).map fun ts => (e.1, ts))
          = some written ∧
        ts = objectTokens (sortKeys written)) ∧
    (∀ written : List (Text × List Tok), (sortKeys written).Perm written ∧
      (sortKeys written).Pairwise fun a b => ¬ b.1 < a.1) ∧
    writeVal S ty link .nil = some [.null] := by
  refine ⟨?_, fun w => sortKeys_spec w, by simp [writeVal, hs]⟩
  have h : ∀ es : List (Text × Val),
      (encodeEntries S element es).map (List.map fun p => (p.1, p.2.tokens))
      = es.mapM (fun e => (writeVal S element false e.2).map fun ts => (e.1, ts)) := by
    intro es
    induction es with
    | nil => simp [encodeEntries]
    | cons e es ih =>
      obtain ⟨k, v⟩ := e
      simp only [List.mapM_cons, ← ih, writeVal_eq S element false v, encodeEntries]
      cases encode S element false v with
      | none => simp
      | some j => cases encodeEntries S element es <;> simp
  intro ts
  rw [writeVal_eq, ← h entries]
  simp only [encode, hs]
  cases encodeEntries S element entries with
  | none => simp
  | some es =>
    simp only [Option.map_some, Option.some.injEq, objectTokens_spec, exists_eq_left',
      sortKeys_map Json.tokens]
    exact eq_comm

/-- Scalars are written as the corresponding JSON values. -/
theorem c37_scalar (S : Schema) (ty : TypeId) (link : Bool) :
    (S ty = .boolean → ∀ b, writeVal S ty link (.bool b) = some [.bool b]) ∧
    (S ty = .integer ∨ S ty = .long → ∀ i, ∃ t, integerLiteral t = some i ∧
      writeVal S ty link (.int i) = some [.num t]) ∧
    (S ty = .float → ∀ t, writeVal S ty link (.float t) = some [.num t]) ∧
    (S ty = .string ∨ S ty = .enum → ∀ s, writeVal S ty link (.str s) = some [.str s]) ∧
    (S ty = .date → ∀ d, writeVal S ty link (.date d) = some [.str d.text]) ∧
    (S ty = .interface → ∀ j, writeVal S ty link (.iface j) = some j.tokens) := by
  refine ⟨?_, ?_, ?_, ?_, ?_, ?_⟩
  · intro h b; simp [writeVal, h]
  · intro h i; exact ⟨intText i, integerLiteral_intText i, by simp [writeVal, h]⟩
  · intro h b; simp [writeVal, h]
  · intro h b; simp [writeVal, h]
  · intro h b; simp [writeVal, h]
  · intro h b; simp [writeVal, h]

example : marshal jsonSchema 5 jsonCluster = some (objectTokens
    [(t!"kind", [.str t!"Cluster"]), (t!"id", [.str t!"123"]), (t!"size", [.num t!"-7"]),
     (t!"labels", objectTokens [(t!"a", [.str t!"x"]), (t!"b", [.str t!"y"])]),
     (t!"nodes", [.arrayStart] ++ objectTokens [(t!"host", [.str t!"h"])] ++ [.comma]
        ++ objectTokens [] ++ [.arrayEnd]),
     (t!"spares", objectTokens [(t!"items", [.arrayStart, .arrayEnd])])]) := by decide

/-! ## C38 -/

/-- Reading what was written for a value gives the same value, and leaves what follows. -/
theorem c38_round_trip (D : DateParser) (S : Schema) (hS : Proper S) (ty : TypeId) (link : Bool)
    (v : Val) (h : Normal D S ty link v) :
    ∃ ts, writeVal S ty link v = some ts ∧
      ∀ fuel rest, 2 * ts.length ≤ fuel →
        readVal D S fuel ty link (ts ++ rest) = some (v, rest) := by
  obtain ⟨j, hj, hd⟩ := round_val D S hS v ty link h
  refine ⟨j.tokens, by simp [writeVal_eq, hj], ?_⟩
  intro fuel rest hf
  have := agrees_val D S j fuel ty link rest hf
  rw [hd] at this
  exact this

/-- The same for the public functions. -/
theorem c38_marshal (D : DateParser) (S : Schema) (hS : Proper S) (ty : TypeId)
    (v : Val) (h : Normal D S ty false v) :
    ∃ ts, marshal S ty v = some ts ∧
      ∀ fuel, 2 * ts.length ≤ fuel → unmarshal D S fuel ty ts = some v := by
  obtain ⟨ts, h1, h2⟩ := c38_round_trip D S hS ty false v h
  refine ⟨ts, h1, fun fuel hf => ?_⟩
  have := h2 fuel [] hf
  simp only [List.append_nil] at this
  simp [unmarshal, this]

/-- The masks calculated for a type keep its attributes apart, so the code generated for it is
proper exactly if the JSON names are. -/
theorem c38_proper (t : TypeTable) (id : TypeId) (isClass : Bool) (name : Text)
    (as : List AttrShape) (h : shapeOf t id = .struct isClass name as) :
    ∃ cell, t.heap[id]? = some cell ∧ isClass = cell.isClass ∧
      as.map AttrShape.tag = cell.attributes.map Binding.attributeName ∧
      as.map AttrShape.typ = cell.attributes.map Attribute.typ ∧
      as.map AttrShape.link = cell.attributes.map Attribute.link ∧
      (ProperAttributes isClass as ↔
        (cell.attributes.map Binding.attributeName).Pairwise (· ≠ ·) ∧
        (∀ a ∈ cell.attributes, Binding.attributeName a ≠ []) ∧
        (cell.isClass = true → ∀ a ∈ cell.attributes, Binding.attributeName a ≠ t!"kind" ∧
          Binding.attributeName a ≠ t!"id" ∧ Binding.attributeName a ≠ t!"href")) := by
  unfold shapeOf at h
  cases hc : t.heap[id]? with
  | none => simp [hc] at h
  | some cell =>
    simp only [hc] at h
    have hstruct : isClass = cell.isClass ∧ as = cell.attributes.mapIdx (attrShape cell) := by
      repeat' (first | (simp only [Shape.struct.injEq] at h; exact ⟨h.1.symm, h.2.2.symm⟩) | (simp only [reduceCtorEq] at h; done) | split at h)
    obtain ⟨rfl, rfl⟩ := hstruct
    have htag : (cell.attributes.mapIdx (attrShape cell)).map AttrShape.tag
        = cell.attributes.map Binding.attributeName := by
      apply List.ext_getElem?; intro i; simp; rfl
    have htyp : (cell.attributes.mapIdx (attrShape cell)).map AttrShape.typ
        = cell.attributes.map Attribute.typ := by
      apply List.ext_getElem?; intro i; simp; rfl
    have hlink : (cell.attributes.mapIdx (attrShape cell)).map AttrShape.link
        = cell.attributes.map Attribute.link := by
      apply List.ext_getElem?; intro i; simp; rfl
    have hbit : ∀ i a, (cell.attributes.mapIdx (attrShape cell))[i]? = some a →
        a.bit = reservedBits cell + i := by
      intro i a ha
      simp only [List.getElem?_mapIdx, Option.map_eq_some_iff] at ha
      obtain ⟨b, hb, rfl⟩ := ha
      have hi : i < cell.attributes.length := (List.getElem?_eq_some_iff.1 hb).1
      exact bitIndex_eq cell i hi
    have hall : ∀ (P : Text → Prop),
        (∀ a ∈ cell.attributes.mapIdx (attrShape cell), P a.tag)
          ↔ ∀ a ∈ cell.attributes, P (Binding.attributeName a) := by
      intro P
      have h1 : (∀ t ∈ (cell.attributes.mapIdx (attrShape cell)).map AttrShape.tag, P t)
          ↔ ∀ t ∈ cell.attributes.map Binding.attributeName, P t := by rw [htag]
      simpa only [List.forall_mem_map] using h1
    have hpw : (cell.attributes.mapIdx (attrShape cell)).Pairwise (fun a b => a.tag ≠ b.tag)
          ↔ (cell.attributes.map Binding.attributeName).Pairwise (· ≠ ·) := by
      rw [← htag, List.pairwise_map]
    refine ⟨cell, rfl, rfl, htag, htyp, hlink, ?_⟩
    constructor
    · intro hp
      exact ⟨hpw.1 hp.tags, (hall (· ≠ [])).1 hp.named,
        fun hc => (hall (fun t => t ≠ t!"kind" ∧ t ≠ t!"id" ∧ t ≠ t!"href")).1 (hp.reserved hc)⟩
    · rintro ⟨h1, h2, h3⟩
      refine ⟨hpw.2 h1, (hall (· ≠ [])).2 h2,
        fun hc => (hall (fun t => t ≠ t!"kind" ∧ t ≠ t!"id" ∧ t ≠ t!"href")).2 (h3 hc), ?_, ?_⟩
      · rw [List.pairwise_iff_getElem]
        intro i j hi hj hlt
        rw [hbit i _ (List.getElem?_eq_getElem hi), hbit j _ (List.getElem?_eq_getElem hj)]
        omega
      · intro hc a ha
        obtain ⟨i, hi⟩ := List.mem_iff_getElem?.1 ha
        rw [hbit i a hi]
        have hk : cell.kind = .class := by simpa [TypeCell.isClass] using hc
        rw [reservedBits, if_pos hk]
        omega

/-- How types are written depends on their kind, and for scalars on which of the built-in types of
the version they are. -/
theorem c37_types (t : TypeTable) (id : TypeId) (cell : TypeCell) (h : t.heap[id]? = some cell) :
    (∀ n shape, (n, shape) ∈ [(Nom.boolean, Shape.boolean), (Nom.integer, .integer),
          (Nom.long, .long), (Nom.float, .float), (Nom.string, .string), (Nom.date, .date)] →
      cell.kind = .scalar → t.findType n = some id →
      (∀ n' ∈ [Nom.boolean, Nom.integer, Nom.long, Nom.float, Nom.string, Nom.date],
        t.findType n' = some id → n' = n) → shapeOf t id = shape) ∧
    ((∀ n ∈ [Nom.boolean, Nom.integer, Nom.long, Nom.float, Nom.string, Nom.date],
        t.findType n ≠ some id) →
      (cell.kind = .enum → shapeOf t id = .enum) ∧
      (cell.kind = .interface → shapeOf t id = .interface) ∧
      (cell.kind = .struct → ∃ as, shapeOf t id
        = .struct false (Go.nameOf cell.annotations cell.name) as) ∧
      (cell.kind = .class → ∃ as, shapeOf t id
        = .struct true (Go.nameOf cell.annotations cell.name) as) ∧
      (∀ element e, cell.kind = .list → cell.element = some element → t.heap[element]? = some e →
        shapeOf t id = .list (Go.nameOf e.annotations e.name ++ t!"List") element) ∧
      (∀ element, cell.kind = .map → cell.element = some element →
        shapeOf t id = .map element)) := by
  constructor
  · intro n shape hn hk hf hu
    unfold shapeOf
    have hd : [Nom.boolean, Nom.integer, Nom.long, Nom.float, Nom.string, Nom.date].Pairwise
      (· ≠ ·) := by decide
    simp only [List.mem_cons, List.not_mem_nil, or_false, Prod.mk.injEq] at hn
    have hno : ∀ n' ∈ [Nom.boolean, Nom.integer, Nom.long, Nom.float, Nom.string, Nom.date],
        n' ≠ n → t.findType n' ≠ some id := fun n' h1 h2 h3 => h2 (hu n' h1 h3)
    rcases hn with ⟨rfl, rfl⟩ | ⟨rfl, rfl⟩ | ⟨rfl, rfl⟩ | ⟨rfl, rfl⟩ | ⟨rfl, rfl⟩ | ⟨rfl, rfl⟩
    · simp [h, hf]
    · simp [h, hf, hno Nom.boolean (by simp) (by decide)]
    · simp [h, hf, hno Nom.boolean (by simp) (by decide), hno Nom.integer (by simp) (by decide)]
    · simp [h, hf, hno Nom.boolean (by simp) (by decide), hno Nom.integer (by simp) (by decide),
        hno Nom.long (by simp) (by decide)]
    · simp [h, hf, hno Nom.boolean (by simp) (by decide), hno Nom.integer (by simp) (by decide),
        hno Nom.long (by simp) (by decide), hno Nom.float (by simp) (by decide)]
    · simp [h, hf, hno Nom.boolean (by simp) (by decide), hno Nom.integer (by simp) (by decide),
        hno Nom.long (by simp) (by decide), hno Nom.float (by simp) (by decide),
        hno Nom.string (by simp) (by decide), TypeCell.isInterface, hk]
  · intro hno
    have h1 := hno Nom.boolean (by simp)
    have h2 := hno Nom.integer (by simp)
    have h3 := hno Nom.long (by simp)
    have h4 := hno Nom.float (by simp)
    have h5 := hno Nom.string (by simp)
    have h6 := hno Nom.date (by simp)
    have hs : ∀ k : Kind, (k == Kind.interface) = decide (k = .interface) := by intro k; cases k <;> rfl
    unfold shapeOf
    refine ⟨?_, ?_, ?_, ?_, ?_, ?_⟩
    · intro hk
      simp [h, h1, h2, h3, h4, h5, h6, hk, TypeCell.isInterface, TypeCell.isEnum]
    · intro hk
      simp [h, h1, h2, h3, h4, h5, hk, TypeCell.isInterface]
    · intro hk
      simp [h, h1, h2, h3, h4, h5, h6, hk, TypeCell.isInterface, TypeCell.isEnum, Kind.isStruct,
        TypeCell.isClass]
    · intro hk
      simp [h, h1, h2, h3, h4, h5, h6, hk, TypeCell.isInterface, TypeCell.isEnum, Kind.isStruct,
        TypeCell.isClass]
    · intro element e hk he hh
      simp [h, h1, h2, h3, h4, h5, h6, hk, he, hh, TypeCell.isInterface, TypeCell.isEnum,
        Kind.isStruct, TypeCell.isList]
    · intro element hk he
      simp [h, h1, h2, h3, h4, h5, h6, hk, he, TypeCell.isInterface, TypeCell.isEnum,
        Kind.isStruct, TypeCell.isList, TypeCell.isMap]

/-- The model of the examples is proper. -/
theorem jsonSchema_proper : Proper jsonSchema := by
  intro ty c name as h
  match ty with
  | 0 | 1 | 2 | 4 | 6 => simp [jsonSchema] at h
  | 3 =>
    simp only [jsonSchema, Shape.struct.injEq] at h
    obtain ⟨rfl, rfl, rfl⟩ := h
    exact ⟨by decide, by decide, by decide, by decide, by decide⟩
  | 5 =>
    simp only [jsonSchema, Shape.struct.injEq] at h
    obtain ⟨rfl, rfl, rfl⟩ := h
    exact ⟨by decide, by decide, by decide, by decide, by decide⟩
  | n + 7 => simp [jsonSchema] at h

example : Normal noDates jsonSchema 5 false jsonCluster := by
  have hbits : ∀ b, (0b11110010 : Nat).testBit b = true → b < 8 := by
    intro b hb
    apply Decidable.byContradiction
    intro hn
    have : (0b11110010 : Nat) < 2 ^ b :=
      Nat.lt_of_lt_of_le (by decide : (0b11110010 : Nat) < 2 ^ 8)
        (Nat.pow_le_pow_right (by decide) (by omega))
    rw [Nat.testBit_lt_two_pow this] at hb
    simp at hb
  refine ⟨true, _, _, rfl, .inl (by decide), .inr rfl, ?_, ?_⟩
  · intro b hb
    have := hbits b hb
    rcases (by omega : b < 3 ∨ b = 3 ∨ b = 4 ∨ b = 5 ∨ b = 6 ∨ b = 7) with h | h | h | h | h | h
    · exact .inl ⟨rfl, h⟩
    all_goals (subst h; exact .inr (by simp))
  · refine ⟨rfl, ⟨.inl rfl, by decide, by decide⟩, ⟨_, rfl, by decide, ?_⟩, ⟨_, _, rfl, rfl, ?_⟩, 
      ⟨_, _, rfl, rfl, rfl, rfl, _, _, rfl, rfl, trivial⟩, trivial⟩
    · exact ⟨by decide, .inl rfl, by decide, .inl rfl, trivial⟩
    · refine ⟨⟨false, _, _, rfl, .inr rfl, .inr rfl, ?_, ?_⟩,
        ⟨false, _, _, rfl, .inr rfl, .inr rfl, by simp, ?_⟩, trivial⟩
      · intro b hb
        have : b = 0 := by simpa [Nat.testBit_one_eq_true_iff_self_eq_zero] using hb
        subst this
        exact .inr (by simp)
      · exact ⟨.inl rfl, trivial⟩
      · exact ⟨rfl, trivial⟩

/-- A map with an empty key isn't read back: the key ends the object. -/
theorem c38_empty_key_refuted :
    ∃ ts, marshal jsonSchema 2 (.map [([], .str t!"x"), (t!"k", .str t!"y")]) = some ts ∧
      ∀ fuel, 2 ≤ fuel → ∃ v, unmarshal noDates jsonSchema fuel 2 ts = some v ∧
        v = .map [] := by
  refine ⟨objectTokens [([], [.str t!"x"]), (t!"k", [.str t!"y"])], by decide, ?_⟩
  intro fuel hf
  match fuel with
  | fuel + 2 => exact ⟨_, rfl, rfl⟩

/-- Dates that differ in fractions of second are written in the same way, so there is no way to
parse dates that reads back both. -/
theorem c38_fraction_refuted (D : DateParser) (S : Schema) (ty : TypeId) (hs : S ty = .date)
    (text : Text) :
    ¬ ((∀ ts, marshal S ty (.date { text := text, nanos := 0 }) = some ts →
          unmarshal D S 1 ty ts = some (.date { text := text, nanos := 0 })) ∧
       (∀ ts, marshal S ty (.date { text := text, nanos := 1 }) = some ts →
          unmarshal D S 1 ty ts = some (.date { text := text, nanos := 1 }))) := by
  rintro ⟨h1, h2⟩
  have h1 := h1 [.str text] (by simp [marshal, writeVal, hs])
  have h2 := h2 [.str text] (by simp [marshal, writeVal, hs])
  rw [h1] at h2
  simp at h2

/-- A list that is a link isn't read back: the kind and the address aren't written. -/
theorem c38_link_refuted :
    ∃ ts, writeVal jsonSchema 4 true (.linkList true t!"/a" (.list [])) = some ts ∧
      ∀ fuel, 4 ≤ fuel →
        readVal noDates jsonSchema fuel 4 true ts = some (.linkList false [] (.list []), []) := by
  refine ⟨objectTokens [(t!"items", [.arrayStart, .arrayEnd])], by decide, ?_⟩
  intro fuel hf
  match fuel with
  | fuel + 4 => rfl

/-- A nil object inside a list makes writing panic. -/
theorem c38_nil_item_refuted : marshal jsonSchema 4 (.list [.nil]) = none := by decide

/-! ## C39 -/

theorem unmarshal_obj {D : DateParser} {S : Schema} {ty : TypeId} {c : Bool} {name : Text}
    {as : List AttrShape} (hs : S ty = .struct c name as) {ms : List (Text × Json)} {fuel : Nat}
    (hn : Json.NamedList ms) (hf : 2 * (Json.obj ms).tokens.length ≤ fuel) :
    unmarshal D S fuel ty (Json.obj ms).tokens
      = match decodeFields D S c name as (newObj S as) ms with
        | .ok o => some o.val
        | _ => none := by
  have h := agrees_val D S (.obj ms) fuel ty false [] hf
  simp only [decode, hs, List.append_nil] at h
  have hl := decodeFields_named D S ms c name as (newObj S as) hn
  unfold unmarshal
  cases hd : decodeFields D S c name as (newObj S as) ms with
  | ok o => rw [hd] at h; simp only [Decoded.bind, Agrees] at h; rw [h]; rfl
  | error => rw [hd] at h; simp only [Decoded.bind, Agrees] at h; rw [h]; rfl
  | lost => exact absurd hd hl

/-- The order of the members of an object doesn't matter: the result, be it an object or an error,
is the same. -/
theorem c39_order_partial (D : DateParser) (S : Schema) (ty : TypeId) (isClass : Bool)
    (name : Text) (as : List AttrShape) (hs : S ty = .struct isClass name as)
    (ms ms' : List (Text × Json)) (hp : ms.Perm ms')
    (hd : ms.Pairwise fun a b => a.1 ≠ b.1) (hn : (Json.obj ms).NamedMembers) (fuel : Nat)
    (hf : 2 * (Json.obj ms).tokens.length ≤ fuel) (hf' : 2 * (Json.obj ms').tokens.length ≤ fuel) :
    unmarshal D S fuel ty (Json.obj ms).tokens = unmarshal D S fuel ty (Json.obj ms').tokens := by
  simp only [Json.NamedMembers] at hn
  have hn' : Json.NamedList ms' := by
    rw [namedList_mem] at hn ⊢
    exact fun e he => hn e (hp.mem_iff.2 he)
  rw [unmarshal_obj hs hn hf, unmarshal_obj hs hn' hf', decodeFields_perm D S _ _ _ hp hd hn]

/-- Members that aren't known don't matter, wherever they are. -/
theorem c39_unknown_partial (D : DateParser) (S : Schema) (ty : TypeId) (isClass : Bool)
    (name : Text) (as : List AttrShape) (hs : S ty = .struct isClass name as)
    (before after : List (Text × Json)) (k : Text) (j : Json)
    (hc : isClass = true → k ≠ t!"kind" ∧ k ≠ t!"id" ∧ k ≠ t!"href") (ha : ∀ a ∈ as, a.tag ≠ k)
    (hn : (Json.obj (before ++ (k, j) :: after)).NamedMembers) (fuel : Nat)
    (hf : 2 * (Json.obj (before ++ (k, j) :: after)).tokens.length ≤ fuel)
    (hf' : 2 * (Json.obj (before ++ after)).tokens.length ≤ fuel) :
    unmarshal D S fuel ty (Json.obj (before ++ (k, j) :: after)).tokens
      = unmarshal D S fuel ty (Json.obj (before ++ after)).tokens := by
  simp only [Json.NamedMembers] at hn
  have hk : k ≠ [] := by
    rw [namedList_mem] at hn; exact (hn (k, j) (by simp)).1
  have hn' : Json.NamedList (before ++ after) := by
    rw [namedList_mem] at hn ⊢
    intro e he
    refine hn e ?_
    simp only [List.mem_append, List.mem_cons] at he ⊢
    rcases he with he | he
    · exact .inl he
    · exact .inr (.inr he)
  rw [unmarshal_obj hs hn hf, unmarshal_obj hs hn' hf', decodeFields_append, decodeFields_append]
  congr 1
  cases decodeFields D S isClass name as (newObj S as) before with
  | ok o =>
    simp only [Decoded.bind]
    rw [decodeFields_effect, effect_unknown D S isClass name as k j hk hc ha]
    rfl
  | error => rfl
  | lost => rfl

/-- If a member is repeated the last one wins: the others can be removed. -/
theorem c39_last_wins_partial (D : DateParser) (S : Schema) (ty : TypeId) (isClass : Bool)
    (name : Text) (as : List AttrShape) (hs : S ty = .struct isClass name as)
    (before between after : List (Text × Json)) (k : Text) (j j' : Json)
    (hk : ¬ (isClass = true ∧ k = t!"kind"))
    (hn : (Json.obj (before ++ (k, j) :: (between ++ (k, j') :: after))).NamedMembers)
    (fuel : Nat)
    (hf : 2 * (Json.obj (before ++ (k, j) :: (between ++ (k, j') :: after))).tokens.length ≤ fuel)
    (hf' : 2 * (Json.obj (before ++ (between ++ (k, j') :: after))).tokens.length ≤ fuel)
    (v : Val)
    (h : unmarshal D S fuel ty
      (Json.obj (before ++ (k, j) :: (between ++ (k, j') :: after))).tokens = some v) :
    unmarshal D S fuel ty (Json.obj (before ++ (between ++ (k, j') :: after))).tokens = some v := by
  simp only [Json.NamedMembers] at hn
  have hn' : Json.NamedList (before ++ (between ++ (k, j') :: after)) := by
    rw [namedList_mem] at hn ⊢
    intro e he
    refine hn e ?_
    simp only [List.mem_append, List.mem_cons] at he ⊢
    rcases he with he | he
    · exact .inl he
    · exact .inr (.inr he)
  rw [unmarshal_obj hs hn hf] at h
  rw [unmarshal_obj hs hn' hf']
  rw [decodeFields_append] at h ⊢
  cases ho : decodeFields D S isClass name as (newObj S as) before with
  | error => simp [ho, Decoded.bind] at h
  | lost => simp [ho, Decoded.bind] at h
  | ok o =>
    simp only [ho, Decoded.bind] at h ⊢
    rw [decodeFields_effect] at h
    cases hg : effect D S isClass name as k j with
    | error => simp [hg, Decoded.bind] at h
    | lost => simp [hg, Decoded.bind] at h
    | ok g =>
      simp only [hg, Decoded.bind] at h
      cases hr : decodeFields D S isClass name as (g o) (between ++ (k, j') :: after) with
      | error => simp [hr] at h
      | lost => simp [hr] at h
      | ok r =>
        have := decodeFields_last D S isClass name as k j' hk between after (g o) o g (effect_kind hg)
          (fun g' hg' => effect_absorbs hg' (effect_kind hg) hk o) r hr
        rw [this]
        simpa [hr] using h

/-- Reading a map gives for each key the value of the last member with that name, so neither the
order of members with different names nor the earlier members with the same name matter. -/
theorem c39_map_partial (D : DateParser) (S : Schema) (ty : TypeId) (link : Bool)
    (element : TypeId) (hs : S ty = .map element) (ms : List (Text × Json))
    (hn : (Json.obj ms).NamedMembers) (fuel : Nat) (rest : List Tok)
    (hf : 2 * (Json.obj ms).tokens.length ≤ fuel) (r : Val × List Tok)
    (h : readVal D S fuel ty link ((Json.obj ms).tokens ++ rest) = some r) :
    r.2 = rest ∧ ∃ m : GoMap Val, r.1 = .map m ∧ ∀ key v, m.find key = some v ↔
      ∃ before j after, ms = before ++ (key, j) :: after ∧ (∀ e ∈ after, e.1 ≠ key) ∧
        ∀ fuel', 2 * j.tokens.length ≤ fuel' →
          readVal D S fuel' element false j.tokens = some (v, []) := by
  have hag := agrees_val D S (.obj ms) fuel ty link rest hf
  have hl := decode_named D S (.obj ms) ty link hn
  simp only [decode, hs] at hag hl
  cases hd : decodeEntries D S element [] ms with
  | error => simp only [hd, Decoded.bind, Agrees] at hag; rw [hag] at h; simp at h
  | lost => rw [hd] at hl; exact absurd rfl hl
  | ok m =>
    simp only [hd, Decoded.bind, Agrees] at hag
    rw [hag] at h
    simp only [Option.some.injEq] at h
    subst h
    refine ⟨rfl, m, rfl, ?_⟩
    intro key v
    rw [decodeEntries_find D S element ms [] m hd key v]
    have hread : ∀ j, (key, j) ∈ ms → (decode D S element false j = .ok v ↔
        ∀ fuel', 2 * j.tokens.length ≤ fuel' →
          readVal D S fuel' element false j.tokens = some (v, [])) := by
      intro j hj
      have hnj : j.NamedMembers := by
        simp only [Json.NamedMembers] at hn
        rw [namedList_mem] at hn
        exact (hn _ hj).2
      have hlj := decode_named D S j element false hnj
      constructor
      · intro hdj fuel' hf'
        have := agrees_val D S j fuel' element false [] hf'
        rw [hdj] at this
        simpa [Agrees] using this
      · intro hr
        have h1 := hr _ (Nat.le_refl _)
        have h2 := agrees_val D S j _ element false [] (Nat.le_refl _)
        cases hdj : decode D S element false j with
        | ok w =>
          rw [hdj] at h2
          simp only [Agrees, List.append_nil] at h2
          rw [h1] at h2
          simpa using h2.symm
        | error =>
          rw [hdj] at h2
          simp only [Agrees, List.append_nil] at h2
          rw [h1] at h2
          simp at h2
        | lost => exact absurd hdj hlj
    constructor
    · rintro (⟨pre, j, post, rfl, hpost, hdj⟩ | ⟨_, hf⟩)
      · exact ⟨pre, j, post, rfl, hpost, (hread j (by simp)).1 hdj⟩
      · simp [GoMap.find] at hf
    · rintro ⟨pre, j, post, rfl, hpost, hr⟩
      exact .inl ⟨pre, j, post, rfl, hpost, (hread j (by simp)).2 hr⟩

/-- Inside an object a document can be replaced by another that is read in the same way for the type
of the attribute; together with the other theorems this says that order and unknown members don't
matter at any depth. -/
theorem c39_nested_partial (D : DateParser) (S : Schema) (ty : TypeId) (isClass : Bool)
    (name : Text) (as : List AttrShape) (hs : S ty = .struct isClass name as)
    (a : AttrShape) (before after : List (Text × Json)) (j j' : Json)
    (hP : ProperAttributes isClass as) (ha : a ∈ as)
    (hn : (Json.obj (before ++ (a.tag, j) :: after)).NamedMembers) (hj' : j'.NamedMembers)
    (hsame : ∀ fuel, 2 * j.tokens.length ≤ fuel → 2 * j'.tokens.length ≤ fuel →
      readVal D S fuel a.typ a.link j.tokens = readVal D S fuel a.typ a.link j'.tokens)
    (fuel : Nat)
    (hf : 2 * (Json.obj (before ++ (a.tag, j) :: after)).tokens.length ≤ fuel)
    (hf' : 2 * (Json.obj (before ++ (a.tag, j') :: after)).tokens.length ≤ fuel) :
    unmarshal D S fuel ty (Json.obj (before ++ (a.tag, j) :: after)).tokens
      = unmarshal D S fuel ty (Json.obj (before ++ (a.tag, j') :: after)).tokens := by
  simp only [Json.NamedMembers] at hn
  have hnm := namedList_mem.1 hn
  have hn' : Json.NamedList (before ++ (a.tag, j') :: after) := by
    rw [namedList_mem]
    intro e he
    simp only [List.mem_append, List.mem_cons] at he
    rcases he with he | rfl | he
    · exact hnm e (by simp [he])
    · exact ⟨hP.named a ha, hj'⟩
    · exact hnm e (by simp [he])
  have hj : j.NamedMembers := (hnm (a.tag, j) (by simp)).2
  have hdec : decode D S a.typ a.link j = decode D S a.typ a.link j' := by
    have hm := hsame (2 * j.tokens.length + 2 * j'.tokens.length) (by omega) (by omega)
    have h1 := agrees_val D S j (2 * j.tokens.length + 2 * j'.tokens.length) a.typ a.link []
      (by omega)
    have h2 := agrees_val D S j' (2 * j.tokens.length + 2 * j'.tokens.length) a.typ a.link []
      (by omega)
    have l1 := decode_named D S j a.typ a.link hj
    have l2 := decode_named D S j' a.typ a.link hj'
    simp only [List.append_nil] at h1 h2
    rw [hm] at h1
    cases hd1 : decode D S a.typ a.link j with
    | lost => exact absurd hd1 l1
    | ok v =>
      rw [hd1] at h1
      simp only [Agrees] at h1
      cases hd2 : decode D S a.typ a.link j' with
      | lost => exact absurd hd2 l2
      | ok w => rw [hd2] at h2; simp only [Agrees] at h2; rw [h1] at h2; simp_all
      | error => rw [hd2] at h2; simp only [Agrees] at h2; rw [h1] at h2; simp at h2
    | error =>
      rw [hd1] at h1
      simp only [Agrees] at h1
      cases hd2 : decode D S a.typ a.link j' with
      | lost => exact absurd hd2 l2
      | ok w => rw [hd2] at h2; simp only [Agrees] at h2; rw [h1] at h2; simp at h2
      | error => rfl
  rw [unmarshal_obj hs hn hf, unmarshal_obj hs hn' hf', decodeFields_append, decodeFields_append]
  congr 1
  cases decodeFields D S isClass name as (newObj S as) before with
  | error => rfl
  | lost => rfl
  | ok o =>
    simp only [Decoded.bind]
    rw [decodeFields_effect, decodeFields_effect]
    have hfind : ∃ i, findCase a.tag 0 as = some (i, a) := by
      obtain ⟨pre, post, rfl⟩ := List.append_of_mem ha
      exact ⟨_, findCase_at _ _ _ hP.tags⟩
    obtain ⟨i, hi⟩ := hfind
    have hres : (isClass && a.tag == t!"kind") = false ∧ (isClass && a.tag == t!"id") = false
        ∧ (isClass && a.tag == t!"href") = false := by
      cases isClass with
      | false => simp
      | true => have := hP.reserved rfl a ha; simpa using this
    have : effect D S isClass name as a.tag j = effect D S isClass name as a.tag j' := by
      unfold effect
      simp only [hP.named a ha, if_false, hres.1, hres.2.1, hres.2.2, Bool.false_eq_true, hi, hdec]
    rw [this]

example : unmarshal noDates jsonSchema 40 3
      (Json.obj [(t!"x", .arr [.null]), (t!"host", .str t!"a"), (t!"host", .str t!"b")]).tokens
    = some (.obj 1 [] [] [.str t!"b"]) := by rfl

/-- A member with an empty name ends the object: those that follow aren't read. -/
theorem c39_empty_name_refuted :
    unmarshal noDates jsonSchema 40 3
      (Json.obj [([], .null), (t!"host", .str t!"a")]).tokens = some (.obj 0 [] [] [.str []]) ∧
    unmarshal noDates jsonSchema 40 3
      (Json.obj [(t!"host", .str t!"a"), ([], .null)]).tokens = some (.obj 1 [] [] [.str t!"a"]) :=
  ⟨rfl, rfl⟩

/-- If the kind is repeated the last one doesn't win: once it has been the one of links the object
is a link. -/
theorem c39_kind_refuted :
    unmarshal noDates jsonSchema 40 5
      (Json.obj [(t!"kind", .str t!"ClusterLink"), (t!"kind", .str t!"Cluster")]).tokens
    = some (.obj 1 [] [] [.str [], .int 0, .nil, .nil, .nil]) := rfl

end Verif
