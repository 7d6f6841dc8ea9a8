import Verif.Lemmas.Json

/-! Lemmas about reading: the generated code behaves as a function on documents. -/

namespace Verif

namespace GoJson

/-- The result of reading a document: a value, an error, or that a member with an empty name was
found where the code takes it for the end of the object. -/
inductive Decoded (α : Type)
  | ok (a : α)
  | error
  | lost

/-- From optional values. -/
def Decoded.ofOption {α : Type} : Option α → Decoded α
  | some a => .ok a
  | none => .error

/-- Composition. -/
def Decoded.bind {α β : Type} (d : Decoded α) (f : α → Decoded β) : Decoded β :=
  match d with
  | .ok a => f a
  | .error => .error
  | .lost => .lost

/-- The text of a document that is a text or null. -/
def stringOf : Json → Option Text
  | .str s => some s
  | .null => some []
  | _ => none

mutual
/-- The value of a document. -/
def decode (D : DateParser) (S : Schema) (ty : TypeId) (link : Bool) : Json → Decoded Val
  | .null =>
    match S ty with
    | .string => .ok (.str [])
    | .enum => .ok (.str [])
    | .date => .ofOption ((D []).map .date)
    | .interface => .ok (.iface .null)
    | .struct _ _ as => .ok (newObj S as).val
    | .list _ _ => if link then .ok (Link.val {}) else .ok (.list [])
    | .map _ => .ok (.map [])
    | _ => .error
  | .bool b =>
    match S ty with
    | .boolean => .ok (.bool b)
    | .interface => .ok (.iface (.bool b))
    | _ => .error
  | .num t =>
    match S ty with
    | .integer => .ofOption ((parseInt64 t).map .int)
    | .long => .ofOption ((parseInt64 t).map .int)
    | .float => .ok (.float t)
    | .interface => .ok (.iface (.num t))
    | _ => .error
  | .str s =>
    match S ty with
    | .string => .ok (.str s)
    | .enum => .ok (.str s)
    | .date => .ofOption ((D s).map .date)
    | .interface => .ok (.iface (.str s))
    | _ => .error
  | .arr items =>
    match S ty with
    | .interface => .ok (.iface (.arr items))
    | .list _ element =>
      if link then .error
      else (decodeItems D S element [] items).bind fun l => .ok (.list l)
    | _ => .error
  | .obj members =>
    match S ty with
    | .interface => .ok (.iface (.obj members))
    | .struct isClass name as =>
      (decodeFields D S isClass name as (newObj S as) members).bind fun o => .ok o.val
    | .list name _ =>
      if link then (decodeLink D S ty name {} members).bind fun l => .ok l.val
      else .error
    | .map element =>
      (decodeEntries D S element [] members).bind fun m => .ok (.map m)
    | _ => .error
def decodeFields (D : DateParser) (S : Schema) (isClass : Bool) (name : Text)
    (as : List AttrShape) (o : Obj) : List (Text × Json) → Decoded Obj
  | [] => .ok o
  | (k, j) :: ms =>
    if k = [] then .lost
    else if isClass && k == t!"kind" then
      match stringOf j with
      | none => .error
      | some value =>
        decodeFields D S isClass name as
          (if value = name ++ t!"Link" then { o with bitmap := o.bitmap ||| 1 } else o) ms
    else if isClass && k == t!"id" then
      match stringOf j with
      | none => .error
      | some value =>
        decodeFields D S isClass name as { o with id := value, bitmap := o.bitmap ||| 2 } ms
    else if isClass && k == t!"href" then
      match stringOf j with
      | none => .error
      | some value =>
        decodeFields D S isClass name as { o with href := value, bitmap := o.bitmap ||| 4 } ms
    else
      match findCase k 0 as with
      | some (i, a) =>
        match decode D S a.typ a.link j with
        | .ok v =>
          decodeFields D S isClass name as
            { o with fields := o.fields.set i v, bitmap := o.bitmap ||| 2 ^ a.bit } ms
        | .error => .error
        | .lost => .lost
      | none => decodeFields D S isClass name as o ms
def decodeItems (D : DateParser) (S : Schema) (element : TypeId) (acc : List Val) :
    List Json → Decoded (List Val)
  | [] => .ok acc
  | j :: js =>
    match decode D S element false j with
    | .ok v => decodeItems D S element (acc ++ [v]) js
    | .error => .error
    | .lost => .lost
def decodeLink (D : DateParser) (S : Schema) (ty : TypeId) (name : Text) (l : Link) :
    List (Text × Json) → Decoded Link
  | [] => .ok l
  | (k, j) :: ms =>
    if k = [] then .lost
    else if k = t!"kind" then
      match stringOf j with
      | none => .error
      | some text => decodeLink D S ty name { l with link := text == name ++ t!"Link" } ms
    else if k = t!"href" then
      match stringOf j with
      | none => .error
      | some text => decodeLink D S ty name { l with href := text } ms
    else if k = t!"items" then
      match decode D S ty false j with
      | .ok v => decodeLink D S ty name { l with items := v } ms
      | .error => .error
      | .lost => .lost
    else decodeLink D S ty name l ms
def decodeEntries (D : DateParser) (S : Schema) (element : TypeId) (acc : GoMap Val) :
    List (Text × Json) → Decoded (GoMap Val)
  | [] => .ok acc
  | (k, j) :: ms =>
    if k = [] then .lost
    else
      match decode D S element false j with
      | .ok v => decodeEntries D S element (acc.insert k v) ms
      | .error => .error
      | .lost => .lost
end

/-! ## The iterator on documents -/

theorem readString_tokens (j : Json) (rest : List Tok) :
    readString (j.tokens ++ rest) = (stringOf j).map fun s => (s, rest) := by
  match j with
  | .null => simp [Json.tokens, readString, stringOf]
  | .bool b => simp [Json.tokens, readString, stringOf]
  | .num t => simp [Json.tokens, readString, stringOf]
  | .str s => simp [Json.tokens, readString, stringOf]
  | .arr js => simp [tokens_arr, readString, stringOf]
  | .obj ms => simp [tokens_obj, readString, stringOf]

theorem readObject_tokens (ms : List (Text × Json)) (rest : List Tok) :
    readObject ((Json.obj ms).tokens ++ rest)
      = readObject (Json.membersTail ms ++ .objectEnd :: rest) := by
  match ms with
  | [] => simp [Json.tokens, Json.membersTail, readObject]
  | (k, j) :: ms => simp [Json.tokens, Json.membersTail, readObject]

/-- The first token of a document. -/
theorem tokens_head (j : Json) : ∃ t ts, j.tokens = t :: ts ∧ t ≠ .arrayEnd ∧ t ≠ .objectEnd := by
  match j with
  | .null => exact ⟨_, _, rfl, by simp, by simp⟩
  | .bool b => exact ⟨_, _, rfl, by simp, by simp⟩
  | .num t => exact ⟨_, _, rfl, by simp, by simp⟩
  | .str s => exact ⟨_, _, rfl, by simp, by simp⟩
  | .arr js => exact ⟨_, _, tokens_arr js, by simp, by simp⟩
  | .obj ms => exact ⟨_, _, tokens_obj ms, by simp, by simp⟩

theorem readArray_start (t : Tok) (ts : List Tok) (h : t ≠ .arrayEnd) :
    readArray (.arrayStart :: t :: ts) = some (true, t :: ts) := by
  cases t <;> simp_all [readArray]

theorem readArray_tokens (js : List Json) (rest : List Tok) :
    readArray ((Json.arr js).tokens ++ rest)
      = readArray (Json.itemsTail js ++ .arrayEnd :: rest) := by
  match js with
  | [] => simp [Json.tokens, Json.itemsTail, readArray]
  | j :: js =>
    obtain ⟨t, ts, e, h, _⟩ := tokens_head j
    simp [Json.tokens, Json.itemsTail, e, readArray_start _ _ h]
    simp [readArray]

theorem parseVal_start (fuel : Nat) (t : Tok) (ts : List Tok) (h : t ≠ .arrayEnd) :
    parseVal (fuel + 1) (.arrayStart :: t :: ts)
      = match parseVal fuel (t :: ts) with
        | none => none
        | some (j, r) => (parseItems fuel r).map fun p => (.arr (j :: p.1), p.2) := by
  cases t <;> first | exact absurd rfl h | rfl

mutual
theorem parseVal_tokens (j : Json) (fuel : Nat) (rest : List Tok) (h : j.tokens.length ≤ fuel) :
    parseVal fuel (j.tokens ++ rest) = some (j, rest) := by
  match j, fuel with
  | .null, fuel + 1 => simp [Json.tokens, parseVal]
  | .bool b, fuel + 1 => simp [Json.tokens, parseVal]
  | .num b, fuel + 1 => simp [Json.tokens, parseVal]
  | .str b, fuel + 1 => simp [Json.tokens, parseVal]
  | .arr [], fuel + 1 => simp [Json.tokens, parseVal]
  | .obj [], fuel + 1 => simp [Json.tokens, parseVal]
  | .arr (j :: js), fuel + 1 =>
    simp only [Json.tokens, List.length_cons, List.length_append, List.length_nil] at h
    obtain ⟨t, ts, e, hne, _⟩ := tokens_head j
    have h1 := parseVal_tokens j fuel (Json.itemsTail js ++ .arrayEnd :: rest) (by omega)
    have h2 := parseItems_tokens js fuel rest (by omega)
    simp only [e, List.cons_append] at h1
    simp only [Json.tokens, e, List.cons_append, List.append_assoc, List.nil_append]
    rw [parseVal_start _ _ _ hne, h1]
    simp [h2]
  | .obj ((k, j) :: ms), fuel + 1 =>
    simp only [Json.tokens, List.length_cons, List.length_append, List.length_nil] at h
    have h1 := parseVal_tokens j fuel (Json.membersTail ms ++ .objectEnd :: rest) (by omega)
    have h2 := parseMembers_tokens ms fuel rest (by omega)
    simp only [Json.tokens, List.cons_append, List.append_assoc, List.nil_append, parseVal, h1, h2]
    simp
  | .null, 0 => simp [Json.tokens] at h
  | .bool _, 0 => simp [Json.tokens] at h
  | .num _, 0 => simp [Json.tokens] at h
  | .str _, 0 => simp [Json.tokens] at h
  | .arr js, 0 => simp [tokens_arr] at h
  | .obj ms, 0 => simp [tokens_obj] at h
theorem parseItems_tokens (js : List Json) (fuel : Nat) (rest : List Tok)
    (h : (Json.itemsTail js).length + 1 ≤ fuel) :
    parseItems fuel (Json.itemsTail js ++ .arrayEnd :: rest) = some (js, rest) := by
  match js, fuel with
  | js, 0 => omega
  | [], fuel + 1 => simp [Json.itemsTail, parseItems]
  | j :: js, fuel + 1 =>
    simp only [Json.itemsTail, List.length_cons, List.length_append] at h
    have h1 := parseVal_tokens j fuel (Json.itemsTail js ++ .arrayEnd :: rest) (by omega)
    have h2 := parseItems_tokens js fuel rest (by omega)
    simp [Json.itemsTail, parseItems, h1, h2]
theorem parseMembers_tokens (ms : List (Text × Json)) (fuel : Nat) (rest : List Tok)
    (h : (Json.membersTail ms).length + 1 ≤ fuel) :
    parseMembers fuel (Json.membersTail ms ++ .objectEnd :: rest) = some (ms, rest) := by
  match ms, fuel with
  | ms, 0 => omega
  | [], fuel + 1 => simp [Json.membersTail, parseMembers]
  | (k, j) :: ms, fuel + 1 =>
    simp only [Json.membersTail, List.length_cons, List.length_append] at h
    have h1 := parseVal_tokens j fuel (Json.membersTail ms ++ .objectEnd :: rest) (by omega)
    have h2 := parseMembers_tokens ms fuel rest (by omega)
    simp [Json.membersTail, parseMembers, h1, h2]
end

/-! ## Reading documents -/

/-- The result of reading tokens is the one of the document, and what follows it remains. -/
def Agrees {α : Type} (d : Decoded α) (r : Option (α × List Tok)) (rest : List Tok) : Prop :=
  match d with
  | .ok a => r = some (a, rest)
  | .error => r = none
  | .lost => True

theorem Agrees.bind {α β : Type} {d : Decoded α} {r : Option (α × List Tok)} {rest : List Tok}
    (h : Agrees d r rest) (f : α → β) :
    Agrees (d.bind fun a => .ok (f a)) (r.map fun p => (f p.1, p.2)) rest := by
  cases d with
  | ok a => simp only [Agrees] at h; subst h; simp [Agrees, Decoded.bind]
  | error => simp only [Agrees] at h; subst h; simp [Agrees, Decoded.bind]
  | lost => simp [Agrees, Decoded.bind]

theorem agrees_ofOption {α β : Type} (o : Option α) (f : α → β) (rest : List Tok) :
    Agrees (.ofOption (o.map f)) (o.map fun a => (f a, rest)) rest := by
  cases o <;> simp [Agrees, Decoded.ofOption]

/-- The loop over the members only depends on what the iterator reads. -/
theorem readFields_congr (D : DateParser) (S : Schema) (fuel : Nat) (c : Bool) (name : Text)
    (as : List AttrShape) (o : Obj) (r r' : List Tok) (h : readObject r = readObject r') :
    readFields D S fuel c name as o r = readFields D S fuel c name as o r' := by
  cases fuel with
  | zero => simp [readFields]
  | succ fuel => rw [readFields, readFields, h]

theorem readLink_congr (D : DateParser) (S : Schema) (fuel : Nat) (ty : TypeId) (name : Text)
    (l : Link) (r r' : List Tok) (h : readObject r = readObject r') :
    readLink D S fuel ty name l r = readLink D S fuel ty name l r' := by
  cases fuel with
  | zero => simp [readLink]
  | succ fuel => rw [readLink, readLink, h]

theorem readEntries_congr (D : DateParser) (S : Schema) (fuel : Nat) (el : TypeId)
    (acc : GoMap Val) (r r' : List Tok) (h : readObject r = readObject r') :
    readEntries D S fuel el acc r = readEntries D S fuel el acc r' := by
  cases fuel with
  | zero => simp [readEntries]
  | succ fuel => rw [readEntries, readEntries, h]

theorem readItems_congr (D : DateParser) (S : Schema) (fuel : Nat) (el : TypeId)
    (acc : List Val) (r r' : List Tok) (h : readArray r = readArray r') :
    readItems D S fuel el acc r = readItems D S fuel el acc r' := by
  cases fuel with
  | zero => simp [readItems]
  | succ fuel => rw [readItems, readItems, h]

theorem readObject_member (k : Text) (r : List Tok) :
    readObject (.comma :: .str k :: .colon :: r) = some (k, r) := rfl

theorem readObject_end (r : List Tok) : readObject (.objectEnd :: r) = some ([], r) := rfl

mutual
theorem agrees_val (D : DateParser) (S : Schema) (j : Json) (fuel : Nat) (ty : TypeId)
    (link : Bool) (rest : List Tok) (h : 2 * j.tokens.length ≤ fuel) :
    Agrees (decode D S ty link j) (readVal D S fuel ty link (j.tokens ++ rest)) rest := by
  match j, fuel with
  | .null, fuel + 1 =>
    cases fuel with
    | zero => simp [Json.tokens] at h
    | succ fuel =>
      cases hs : S ty with
      | date =>
        simp only [decode, readVal, hs, Json.tokens, List.cons_append, List.nil_append, readString]
        exact agrees_ofOption (D []) Val.date rest
      | list name el =>
        cases link <;>
          simp [decode, readVal, hs, Json.tokens, readItems, readLink, readArray, readObject, Agrees]
      | _ =>
        simp [decode, readVal, hs, Json.tokens, readBool, readInt, readFloat, readString, parseVal,
          readFields, readEntries, readObject, Agrees]
  | .bool b, fuel + 1 =>
    cases fuel with
    | zero => simp [Json.tokens] at h
    | succ fuel =>
      cases hs : S ty with
      | list name el =>
        cases link <;>
          simp [decode, readVal, hs, Json.tokens, readItems, readLink, readArray, readObject, Agrees]
      | _ =>
        simp [decode, readVal, hs, Json.tokens, readBool, readInt, readFloat, readString, parseVal,
          readFields, readEntries, readObject, Agrees]
  | .num t, fuel + 1 =>
    cases fuel with
    | zero => simp [Json.tokens] at h
    | succ fuel =>
      cases hs : S ty with
      | list name el =>
        cases link <;>
          simp [decode, readVal, hs, Json.tokens, readItems, readLink, readArray, readObject, Agrees]
      | integer =>
        cases hp : parseInt64 t <;>
        simp [decode, readVal, hs, Json.tokens, readInt, hp, Agrees, Decoded.ofOption]
      | long =>
        cases hp : parseInt64 t <;>
        simp [decode, readVal, hs, Json.tokens, readInt, hp, Agrees, Decoded.ofOption]
      | _ =>
        simp [decode, readVal, hs, Json.tokens, readBool, readInt, readFloat, readString, parseVal,
          readFields, readEntries, readObject, Agrees]
  | .str t, fuel + 1 =>
    cases fuel with
    | zero => simp [Json.tokens] at h
    | succ fuel =>
      cases hs : S ty with
      | date =>
        simp only [decode, readVal, hs, Json.tokens, List.cons_append, List.nil_append, readString]
        exact agrees_ofOption (D t) Val.date rest
      | list name el =>
        cases link <;>
          simp [decode, readVal, hs, Json.tokens, readItems, readLink, readArray, readObject, Agrees]
      | _ =>
        simp [decode, readVal, hs, Json.tokens, readBool, readInt, readFloat, readString, parseVal,
          readFields, readEntries, readObject, Agrees]
  | .arr js, fuel + 1 =>
    have hlen : (Json.arr js).tokens.length = (Json.itemsTail js).length + 1
        ∨ (Json.arr js).tokens.length = (Json.itemsTail js).length + 2 := by
      cases js <;> simp [Json.tokens, Json.itemsTail] <;> omega
    cases hs : S ty with
    | interface =>
      have := parseVal_tokens (.arr js) fuel rest (by omega)
      simp [decode, readVal, hs, this, Agrees]
    | list name el =>
      cases link with
      | true =>
        cases fuel <;>
          simp [decode, readVal, hs, tokens_arr, readLink, readObject, Agrees]
      | false =>
        have := agrees_items D S js fuel el [] rest (by omega)
        simp only [decode, readVal, hs, Bool.false_eq_true, if_false]
        rw [readItems_congr _ _ _ _ _ _ _ (readArray_tokens js rest)]
        exact this.bind _
    | _ =>
      cases fuel <;>
      simp [decode, readVal, hs, tokens_arr, readBool, readInt, readFloat, readString,
          readFields, readEntries, readObject, Agrees]
  | .obj ms, fuel + 1 =>
    have hlen : (Json.obj ms).tokens.length = (Json.membersTail ms).length + 1
        ∨ (Json.obj ms).tokens.length = (Json.membersTail ms).length + 2 := by
      match ms with
      | [] => simp [Json.tokens, Json.membersTail]
      | (k, j) :: ms => simp [Json.tokens, Json.membersTail]; omega
    cases hs : S ty with
    | interface =>
      have := parseVal_tokens (.obj ms) fuel rest (by omega)
      simp [decode, readVal, hs, this, Agrees]
    | list name el =>
      cases link with
      | false =>
        cases fuel <;>
          simp [decode, readVal, hs, tokens_obj, readItems, readArray, Agrees]
      | true =>
        have := agrees_link D S ms fuel ty name {} rest (by omega)
        simp only [decode, readVal, hs, if_true]
        rw [readLink_congr _ _ _ _ _ _ _ _ (readObject_tokens ms rest)]
        exact this.bind _
    | struct c name as =>
      have := agrees_fields D S ms fuel c name as (newObj S as) rest (by omega)
      simp only [decode, readVal, hs]
      rw [readFields_congr _ _ _ _ _ _ _ _ _ (readObject_tokens ms rest)]
      exact this.bind _
    | map el =>
      have := agrees_entries D S ms fuel el [] rest (by omega)
      simp only [decode, readVal, hs]
      rw [readEntries_congr _ _ _ _ _ _ _ (readObject_tokens ms rest)]
      exact this.bind _
    | _ =>
      simp [decode, readVal, hs, tokens_obj, readBool, readInt, readFloat, readString, Agrees]
  | j, 0 =>
    obtain ⟨t, ts, e, _⟩ := tokens_head j
    simp [e] at h
theorem agrees_items (D : DateParser) (S : Schema) (js : List Json) (fuel : Nat) (el : TypeId)
    (acc : List Val) (rest : List Tok) (h : 2 * (Json.itemsTail js).length + 1 ≤ fuel) :
    Agrees (decodeItems D S el acc js)
      (readItems D S fuel el acc (Json.itemsTail js ++ .arrayEnd :: rest)) rest := by
  match js, fuel with
  | js, 0 => omega
  | [], fuel + 1 => simp [decodeItems, readItems, Json.itemsTail, readArray, Agrees]
  | j :: js, fuel + 1 =>
    simp only [Json.itemsTail, List.length_cons, List.length_append] at h
    have h1 := agrees_val D S j fuel el false (Json.itemsTail js ++ .arrayEnd :: rest) (by omega)
    simp only [decodeItems, readItems, Json.itemsTail, List.cons_append, List.append_assoc,
      readArray]
    cases hd : decode D S el false j with
    | ok v =>
      simp only [hd, Agrees] at h1
      simp only [h1]
      exact agrees_items D S js fuel el (acc ++ [v]) rest (by omega)
    | error =>
      simp only [hd, Agrees] at h1
      simp [h1, Agrees]
    | lost => simp [Agrees]
theorem agrees_fields (D : DateParser) (S : Schema) (ms : List (Text × Json)) (fuel : Nat)
    (c : Bool) (name : Text) (as : List AttrShape) (o : Obj) (rest : List Tok)
    (h : 2 * (Json.membersTail ms).length + 1 ≤ fuel) :
    Agrees (decodeFields D S c name as o ms)
      (readFields D S fuel c name as o (Json.membersTail ms ++ .objectEnd :: rest)) rest := by
  match ms, fuel with
  | js, 0 => omega
  | [], fuel + 1 => simp [decodeFields, readFields, Json.membersTail, readObject, Agrees]
  | (k, j) :: ms, fuel + 1 =>
    simp only [Json.membersTail, List.length_cons, List.length_append] at h
    simp only [decodeFields, readFields, Json.membersTail, List.cons_append, List.append_assoc,
      readObject_member, readString_tokens]
    by_cases hk : k = []
    · simp [hk, Agrees]
    · simp only [hk, if_false]
      split
      · cases stringOf j with
        | none => simp [Agrees]
        | some s => exact agrees_fields D S ms fuel c name as _ rest (by omega)
      · split
        · cases stringOf j with
          | none => simp [Agrees]
          | some s => exact agrees_fields D S ms fuel c name as _ rest (by omega)
        · split
          · cases stringOf j with
            | none => simp [Agrees]
            | some s => exact agrees_fields D S ms fuel c name as _ rest (by omega)
          · cases findCase k 0 as with
            | none =>
              simp only [parseVal_tokens j fuel (Json.membersTail ms ++ .objectEnd :: rest)
                (by omega)]
              exact agrees_fields D S ms fuel c name as _ rest (by omega)
            | some p =>
              obtain ⟨i, a⟩ := p
              have h1 := agrees_val D S j fuel a.typ a.link
                (Json.membersTail ms ++ .objectEnd :: rest) (by omega)
              simp only
              cases hd : decode D S a.typ a.link j with
              | ok v =>
                simp only [hd, Agrees] at h1
                simp only [h1]
                exact agrees_fields D S ms fuel c name as _ rest (by omega)
              | error =>
                simp only [hd, Agrees] at h1
                simp [h1, Agrees]
              | lost => simp [Agrees]
theorem agrees_link (D : DateParser) (S : Schema) (ms : List (Text × Json)) (fuel : Nat)
    (ty : TypeId) (name : Text) (l : Link) (rest : List Tok)
    (h : 2 * (Json.membersTail ms).length + 1 ≤ fuel) :
    Agrees (decodeLink D S ty name l ms)
      (readLink D S fuel ty name l (Json.membersTail ms ++ .objectEnd :: rest)) rest := by
  match ms, fuel with
  | js, 0 => omega
  | [], fuel + 1 => simp [decodeLink, readLink, Json.membersTail, readObject, Agrees]
  | (k, j) :: ms, fuel + 1 =>
    simp only [Json.membersTail, List.length_cons, List.length_append] at h
    simp only [decodeLink, readLink, Json.membersTail, List.cons_append, List.append_assoc,
      readObject_member, readString_tokens]
    by_cases hk : k = []
    · simp [hk, Agrees]
    · simp only [hk, if_false]
      split
      · cases stringOf j with
        | none => simp [Agrees]
        | some s => exact agrees_link D S ms fuel ty name _ rest (by omega)
      · split
        · cases stringOf j with
          | none => simp [Agrees]
          | some s => exact agrees_link D S ms fuel ty name _ rest (by omega)
        · split
          · have h1 := agrees_val D S j fuel ty false
                (Json.membersTail ms ++ .objectEnd :: rest) (by omega)
            cases hd : decode D S ty false j with
            | ok v =>
              simp only [hd, Agrees] at h1
              simp only [h1]
              exact agrees_link D S ms fuel ty name _ rest (by omega)
            | error =>
              simp only [hd, Agrees] at h1
              simp [h1, Agrees]
            | lost => simp [Agrees]
          · simp only [parseVal_tokens j fuel (Json.membersTail ms ++ .objectEnd :: rest)
                (by omega)]
            exact agrees_link D S ms fuel ty name _ rest (by omega)
theorem agrees_entries (D : DateParser) (S : Schema) (ms : List (Text × Json)) (fuel : Nat)
    (el : TypeId) (acc : GoMap Val) (rest : List Tok)
    (h : 2 * (Json.membersTail ms).length + 1 ≤ fuel) :
    Agrees (decodeEntries D S el acc ms)
      (readEntries D S fuel el acc (Json.membersTail ms ++ .objectEnd :: rest)) rest := by
  match ms, fuel with
  | js, 0 => omega
  | [], fuel + 1 => simp [decodeEntries, readEntries, Json.membersTail, readObject, Agrees]
  | (k, j) :: ms, fuel + 1 =>
    simp only [Json.membersTail, List.length_cons, List.length_append] at h
    simp only [decodeEntries, readEntries, Json.membersTail, List.cons_append, List.append_assoc,
      readObject_member]
    by_cases hk : k = []
    · simp [hk, Agrees]
    · simp only [hk, if_false]
      have h1 := agrees_val D S j fuel el false
                (Json.membersTail ms ++ .objectEnd :: rest) (by omega)
      cases hd : decode D S el false j with
      | ok v =>
        simp only [hd, Agrees] at h1
        simp only [h1]
        exact agrees_entries D S ms fuel el _ rest (by omega)
      | error =>
        simp only [hd, Agrees] at h1
        simp [h1, Agrees]
      | lost => simp [Agrees]
end

end GoJson

end Verif
