import Verif.Spec.Json
import Verif.Lemmas.Digits
import Verif.Lemmas.GoMap

/-! Lemmas about the generated JSON code: it behaves as functions on documents. -/

namespace Verif

namespace GoJson

/-! ## Writing documents -/

/-- The members of the header of an object of a class. -/
def headerMembers (name : Text) (bitmap : Nat) (id href : Text) : List (Text × Json) :=
  [(t!"kind", .str (if bitmap.testBit 0 then name ++ t!"Link" else name))]
    ++ (if bitmap.testBit 1 then [(t!"id", Json.str id)] else [])
    ++ (if bitmap.testBit 2 then [(t!"href", Json.str href)] else [])

mutual
/-- The document of a value. -/
def encode (S : Schema) (ty : TypeId) (link : Bool) : Val → Option Json
  | .bool b => if S ty = .boolean then some (.bool b) else none
  | .int i => if S ty = .integer ∨ S ty = .long then some (.num (intText i)) else none
  | .float t => if S ty = .float then some (.num t) else none
  | .str s => if S ty = .string ∨ S ty = .enum then some (.str s) else none
  | .date d => if S ty = .date then some (.str d.text) else none
  | .iface j => if S ty = .interface then some j else none
  | .obj bitmap id href fields =>
    match S ty with
    | .struct isClass name attributes =>
      (encodeFields S bitmap attributes fields).map fun ms =>
        .obj ((if isClass then headerMembers name bitmap id href else []) ++ ms)
    | _ => none
  | .list items =>
    match S ty with
    | .list _ element => if link then none else (encodeItems S element items).map .arr
    | _ => none
  | .linkList _ _ items =>
    match S ty with
    | .list _ _ =>
      if link then (encode S ty false items).map fun j => .obj [(t!"items", j)] else none
    | _ => none
  | .map entries =>
    match S ty with
    | .map element => (encodeEntries S element entries).map fun es => .obj (sortKeys es)
    | _ => none
  | .nil =>
    match S ty with
    | .list _ _ => if link then none else some (.arr [])
    | .map _ => some .null
    | .struct false _ [] => some (.obj [])
    | _ => none
def encodeFields (S : Schema) (bitmap : Nat) :
    List AttrShape → List Val → Option (List (Text × Json))
  | [], [] => some []
  | a :: as, v :: vs =>
    if present S bitmap a v then
      match encode S a.typ a.link v with
      | none => none
      | some j => (encodeFields S bitmap as vs).map ((a.tag, j) :: ·)
    else encodeFields S bitmap as vs
  | _, _ => none
def encodeItems (S : Schema) (element : TypeId) : List Val → Option (List Json)
  | [] => some []
  | v :: vs =>
    match encode S element false v with
    | none => none
    | some j => (encodeItems S element vs).map (j :: ·)
def encodeEntries (S : Schema) (element : TypeId) :
    List (Text × Val) → Option (List (Text × Json))
  | [] => some []
  | (k, v) :: es =>
    match encode S element false v with
    | none => none
    | some j => (encodeEntries S element es).map ((k, j) :: ·)
end

/-- Members after a number of members. -/
def render (count : Nat) (ms : List (Text × Json)) : List Tok :=
  match ms with
  | [] => []
  | (k, j) :: ms => more count ++ (.str k :: .colon :: (j.tokens ++ Json.membersTail ms))

theorem render_cons (count : Nat) (k : Text) (j : Json) (ms : List (Text × Json)) :
    render count ((k, j) :: ms)
      = more count ++ (.str k :: .colon :: (j.tokens ++ Json.membersTail ms)) := rfl

theorem render_succ (count : Nat) (ms : List (Text × Json)) :
    render (count + 1) ms = Json.membersTail ms := by
  cases ms with
  | nil => simp [render, Json.membersTail]
  | cons e ms => obtain ⟨k, j⟩ := e; simp [render, more, Json.membersTail]

theorem tokens_obj (ms : List (Text × Json)) :
    (Json.obj ms).tokens = .objectStart :: (render 0 ms ++ [.objectEnd]) := by
  cases ms with
  | nil => simp [render, Json.tokens]
  | cons e ms => obtain ⟨k, j⟩ := e; simp [render, more, Json.tokens]

/-- Items after a number of items. -/
def renderItems (i : Nat) (js : List Json) : List Tok :=
  match js with
  | [] => []
  | j :: js => more i ++ (j.tokens ++ Json.itemsTail js)

theorem renderItems_cons (i : Nat) (j : Json) (js : List Json) :
    renderItems i (j :: js) = more i ++ (j.tokens ++ Json.itemsTail js) := rfl

theorem renderItems_succ (i : Nat) (js : List Json) :
    renderItems (i + 1) js = Json.itemsTail js := by
  cases js <;> simp [renderItems, more, Json.itemsTail]

theorem tokens_arr (js : List Json) :
    (Json.arr js).tokens = .arrayStart :: (renderItems 0 js ++ [.arrayEnd]) := by
  cases js <;> simp [renderItems, more, Json.tokens]

theorem membersTail_append (ms ns : List (Text × Json)) :
    Json.membersTail (ms ++ ns) = Json.membersTail ms ++ Json.membersTail ns := by
  induction ms with
  | nil => simp [Json.membersTail]
  | cons e ms ih => obtain ⟨k, j⟩ := e; simp [Json.membersTail, ih]

theorem insertKey_map {α β : Type} (f : α → β) (e : Text × α) (l : List (Text × α)) :
    insertKey (e.1, f e.2) (l.map fun p => (p.1, f p.2))
      = (insertKey e l).map fun p => (p.1, f p.2) := by
  induction l with
  | nil => simp [insertKey]
  | cons x l ih =>
    simp only [List.map_cons, insertKey]
    split
    · simp
    · rw [ih]; simp

theorem sortKeys_map {α β : Type} (f : α → β) (l : List (Text × α)) :
    sortKeys (l.map fun p => (p.1, f p.2)) = (sortKeys l).map fun p => (p.1, f p.2) := by
  unfold sortKeys
  suffices h : ∀ acc : List (Text × α),
      (l.map fun p => (p.1, f p.2)).foldl (fun acc e => insertKey e acc)
        (acc.map fun p => (p.1, f p.2))
      = (l.foldl (fun acc e => insertKey e acc) acc).map fun p => (p.1, f p.2) from h []
  induction l with
  | nil => intro acc; simp
  | cons x l ih =>
    intro acc
    simp only [List.map_cons, List.foldl_cons]
    rw [insertKey_map, ih]

theorem writeEntries_tokens (i : Nat) (ms : List (Text × Json)) :
    writeEntries i (ms.map fun p => (p.1, p.2.tokens)) = render i ms := by
  induction ms generalizing i with
  | nil => simp [writeEntries, render]
  | cons e ms ih =>
    obtain ⟨k, j⟩ := e
    simp only [List.map_cons, writeEntries, render_cons, ih, render_succ]

theorem header_tokens (name : Text) (has : Bool) (bitmap : Nat) (id href : Text) :
    ∃ n, writeHeader name has bitmap id href = (render 0 (headerMembers name bitmap id href), n + 1)
      := by
  unfold writeHeader headerMembers
  cases bitmap.testBit 1 <;> cases bitmap.testBit 2 <;> cases has <;>
    simp [render, more, Json.membersTail, Json.tokens]

theorem render_append (ms ns : List (Text × Json)) (h : ms ≠ []) (count : Nat) :
    render count (ms ++ ns) = render count ms ++ Json.membersTail ns := by
  cases ms with
  | nil => exact absurd rfl h
  | cons e ms => obtain ⟨k, j⟩ := e; simp [render, membersTail_append]

theorem headerMembers_ne (name : Text) (bitmap : Nat) (id href : Text) :
    headerMembers name bitmap id href ≠ [] := by simp [headerMembers]

mutual
/-- The tokens that are written are those of the document of the value. -/
theorem writeVal_eq (S : Schema) (ty : TypeId) (link : Bool) (v : Val) :
    writeVal S ty link v = (encode S ty link v).map Json.tokens := by
  match v with
  | .bool b => simp only [writeVal, encode]; split <;> simp [Json.tokens]
  | .int b => simp only [writeVal, encode]; split <;> simp [Json.tokens]
  | .float b => simp only [writeVal, encode]; split <;> simp [Json.tokens]
  | .str b => simp only [writeVal, encode]; split <;> simp [Json.tokens]
  | .date b => simp only [writeVal, encode]; split <;> simp [Json.tokens]
  | .iface b => simp only [writeVal, encode]; split <;> simp
  | .nil =>
    cases hs : S ty with
    | list name element =>
      simp only [writeVal, encode, hs]
      split <;> simp [Json.tokens]
    | map element => simp [writeVal, encode, hs, Json.tokens]
    | struct c name as => cases c <;> cases as <;> simp [writeVal, encode, hs, Json.tokens]
    | _ => simp [writeVal, encode, hs]
  | .obj bitmap id href fields =>
    cases hs : S ty with
    | struct c name as =>
      simp only [writeVal, encode, hs]
      cases c with
      | true =>
        obtain ⟨n, hn⟩ := header_tokens name (!as.isEmpty) bitmap id href
        simp only [if_true, hn, writeFields_eq]
        cases encodeFields S bitmap as fields with
        | none => simp
        | some ms =>
          simp [tokens_obj, render_append _ _ (headerMembers_ne _ _ _ _), render_succ]
      | false =>
        simp only [Bool.false_eq_true, if_false, writeFields_eq]
        cases encodeFields S bitmap as fields with
        | none => simp
        | some ms => simp [tokens_obj]
    | _ => simp [writeVal, encode, hs]
  | .list items =>
    cases hs : S ty with
    | list name element =>
      simp only [writeVal, encode, hs]
      split
      · simp
      · rw [writeItems_eq]
        cases encodeItems S _ items with
        | none => simp
        | some js => simp [tokens_arr]
    | _ => simp [writeVal, encode, hs]
  | .linkList l href items =>
    cases hs : S ty with
    | list name element =>
      simp only [writeVal, encode, hs]
      split
      · rw [writeVal_eq]
        cases encode S ty false items with
        | none => simp
        | some j => simp [Json.tokens, Json.membersTail]
      · simp
    | _ => simp [writeVal, encode, hs]
  | .map entries =>
    cases hs : S ty with
    | map element =>
      simp only [writeVal, encode, hs]
      rw [writeAll_eq]
      cases encodeEntries S _ entries with
      | none => simp
      | some es => simp [sortKeys_map Json.tokens, writeEntries_tokens, tokens_obj]
    | _ => simp [writeVal, encode, hs]
theorem writeFields_eq (S : Schema) (bitmap count : Nat) (as : List AttrShape) (vs : List Val) :
    writeFields S bitmap count as vs = (encodeFields S bitmap as vs).map (render count) := by
  match as, vs with
  | [], [] => simp [writeFields, encodeFields, render]
  | a :: as, v :: vs =>
    simp only [writeFields, encodeFields]
    split
    · rw [writeVal_eq]
      cases encode S a.typ a.link v with
      | none => simp
      | some j =>
        simp only [Option.map_some]
        rw [writeFields_eq]
        cases hm : encodeFields S bitmap as vs with
        | none => simp
        | some ms =>
          simp only [Option.map_some, render_cons]
          cases as with
          | nil =>
            cases vs with
            | nil => simp [encodeFields] at hm; subst hm; simp [render, Json.membersTail]
            | cons v vs => simp [encodeFields] at hm
          | cons b as => simp [render_succ]
    · exact writeFields_eq S bitmap count as vs
  | [], v :: vs => simp [writeFields, encodeFields]
  | a :: as, [] => simp [writeFields, encodeFields]
theorem writeItems_eq (S : Schema) (element : TypeId) (i : Nat) (vs : List Val) :
    writeItems S element i vs = (encodeItems S element vs).map (renderItems i) := by
  match vs with
  | [] => simp [writeItems, encodeItems, renderItems]
  | v :: vs =>
    simp only [writeItems, encodeItems]
    rw [writeVal_eq]
    cases encode S element false v with
    | none => simp
    | some j =>
      simp only [Option.map_some]
      rw [writeItems_eq]
      cases hm : encodeItems S element vs with
      | none => simp
      | some ms => simp [renderItems_cons, renderItems_succ]
theorem writeAll_eq (S : Schema) (element : TypeId) (es : List (Text × Val)) :
    writeAll S element es
      = (encodeEntries S element es).map (List.map fun p => (p.1, p.2.tokens)) := by
  match es with
  | [] => simp [writeAll, encodeEntries]
  | (k, v) :: es =>
    simp only [writeAll, encodeEntries]
    rw [writeVal_eq]
    cases encode S element false v with
    | none => simp
    | some j =>
      simp only [Option.map_some]
      rw [writeAll_eq]
      cases hm : encodeEntries S element es with
      | none => simp
      | some ms => simp
end

/-! ## Documents are well formed -/

mutual
theorem isValue_tokens (j : Json) : IsValue j.tokens := by
  match j with
  | .null => exact .null
  | .bool b => exact .bool b
  | .num t => exact .num t
  | .str s => exact .str s
  | .arr [] => exact .emptyArray
  | .arr (j :: js) =>
    have := IsValue.array (isItems_tokens js (isValue_tokens j))
    simpa [Json.tokens] using this
  | .obj [] => exact .emptyObject
  | .obj ((k, j) :: ms) =>
    have := IsValue.object (isMembers_tokens ms k (isValue_tokens j))
    simpa [Json.tokens] using this
theorem isItems_tokens (js : List Json) {ts : List Tok} (h : IsValue ts) :
    IsItems (ts ++ Json.itemsTail js) := by
  match js with
  | [] => simpa [Json.itemsTail] using IsItems.one h
  | i :: js =>
    have := IsItems.more h (isItems_tokens js (isValue_tokens i))
    simpa [Json.itemsTail] using this
theorem isMembers_tokens (ms : List (Text × Json)) (k : Text) {ts : List Tok} (h : IsValue ts) :
    IsMembers ([.str k, .colon] ++ (ts ++ Json.membersTail ms)) := by
  match ms with
  | [] => simpa [Json.membersTail] using IsMembers.one k h
  | (k', i) :: ms =>
    have := IsMembers.more k h (isMembers_tokens ms k' (isValue_tokens i))
    simpa [Json.membersTail] using this
end

end GoJson

end Verif
