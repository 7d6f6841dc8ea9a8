import Verif.Lemmas.JsonRead
import Verif.Lemmas.Names

/-! Lemmas about reading what was written. -/

namespace Verif

namespace GoJson

open Reader (digitsValue maxInt)

/-! ## Integers -/

theorem digitsValue_from (t : Text) (v n : Nat) (h : numeralFrom 10 v t = some n) :
    t.foldl (fun n c => 10 * n + (c.toNat - '0'.toNat)) v = n := by
  induction t generalizing v with
  | nil => simpa [numeralFrom] using h
  | cons c cs ih =>
    simp only [numeralFrom] at h
    cases hd : digitVal c with
    | none => simp [hd] at h
    | some d =>
      simp only [hd] at h
      split at h
      · rename_i hlt
        have : d = c.toNat - '0'.toNat := by
          unfold digitVal at hd
          split at hd
          · simpa using hd.symm
          · split at hd
            · simp at hd; omega
            · simp at hd
        simp only [List.foldl_cons]
        rw [← this]
        exact ih _ h
      · simp at h

theorem digitsValue_natText (n : Nat) : digitsValue (natText n) = n := by
  have h := numeral_natText n
  unfold numeral at h
  split at h
  · simp at h
  · exact digitsValue_from _ _ _ h

theorem natText_ne_nil (n : Nat) : natText n ≠ [] := toDigits_ne_nil 10 (by decide) n

theorem natText_digits (n : Nat) : (natText n).all Char.isDigit = true := by
  rw [List.all_eq_true]
  exact fun c h => isDigit_natText n c h

theorem parseInt64_nat (n : Nat) (h : n ≤ maxInt) : parseInt64 (natText n) = some (n : Int) := by
  cases e : natText n with
  | nil => exact absurd e (natText_ne_nil n)
  | cons c cs =>
    have hc : c.isDigit = true := isDigit_natText n c (by simp [e])
    have hne : c ≠ '-' := by rintro rfl; simp at hc
    have h1 := digitsValue_natText n
    have h2 := natText_digits n
    rw [e] at h1 h2
    rw [parseInt64.eq_2 _ (fun ds h => hne (by simpa using (List.cons.inj h).1))]
    rw [h1, if_pos ⟨by simp, h2, h⟩]

theorem parseInt64_intText (i : Int) (h1 : -2 ^ 63 ≤ i) (h2 : i < 2 ^ 63) :
    parseInt64 (intText i) = some i := by
  cases i with
  | ofNat n =>
    refine parseInt64_nat n ?_
    unfold maxInt
    have : (Int.ofNat n) = (n : Int) := rfl
    omega
  | negSucc n =>
    have hn : n + 1 ≤ maxInt + 1 := by
      unfold maxInt
      have : (Int.negSucc n) = -((n : Int) + 1) := by omega
      omega
    rw [intText, parseInt64, digitsValue_natText,
      if_pos ⟨natText_ne_nil _, natText_digits _, hn⟩]
    congr 1

/-! ## Objects -/

theorem findCase_append (k : Text) (p : Nat) (done as : List AttrShape)
    (h : ∀ a ∈ done, a.tag ≠ k) : findCase k p (done ++ as) = findCase k (p + done.length) as := by
  induction done generalizing p with
  | nil => simp
  | cons a done ih =>
    have ha : a.tag ≠ k := h a (by simp)
    simp only [List.cons_append, findCase, ha, if_false]
    rw [ih (p + 1) (fun b hb => h b (by simp [hb]))]
    simp only [List.length_cons]
    congr 1
    omega

theorem findCase_at (done : List AttrShape) (a : AttrShape) (as : List AttrShape)
    (h : (done ++ a :: as).Pairwise fun a b => a.tag ≠ b.tag) :
    findCase a.tag 0 (done ++ a :: as) = some (done.length, a) := by
  rw [findCase_append]
  · simp [findCase]
  · intro b hb
    rw [List.pairwise_append] at h
    exact h.2.2 b hb a (by simp)

/-- The bits of the attributes that are set. -/
def bitsOf (bitmap : Nat) : List AttrShape → Nat
  | [] => 0
  | a :: as => (if bitmap.testBit a.bit then 2 ^ a.bit else 0) ||| bitsOf bitmap as

theorem testBit_bitsOf (bitmap : Nat) (as : List AttrShape) (b : Nat) :
    (bitsOf bitmap as).testBit b = true ↔ bitmap.testBit b = true ∧ ∃ a ∈ as, a.bit = b := by
  induction as with
  | nil => simp [bitsOf]
  | cons a as ih =>
    simp only [bitsOf, Nat.testBit_or, Bool.or_eq_true, ih]
    by_cases hb : a.bit = b
    · subst hb
      cases h : bitmap.testBit a.bit <;> simp
    · cases h : bitmap.testBit a.bit <;> simp [Nat.testBit_two_pow, hb]

/-- The bits of the header that are set. -/
def headerBits (isClass : Bool) (bitmap : Nat) : Nat :=
  if isClass then
    (if bitmap.testBit 0 then 1 else 0) ||| (if bitmap.testBit 1 then 2 else 0)
      ||| (if bitmap.testBit 2 then 4 else 0)
  else 0

theorem testBit_headerBits (c : Bool) (bitmap b : Nat) :
    (headerBits c bitmap).testBit b = true ↔ bitmap.testBit b = true ∧ c = true ∧ b < 3 := by
  have t1 : ∀ n, (1 : Nat).testBit n = decide (0 = n) := fun n => Nat.testBit_two_pow (n := 0)
  have t2 : ∀ n, (2 : Nat).testBit n = decide (1 = n) := fun n => Nat.testBit_two_pow (n := 1)
  have t4 : ∀ n, (4 : Nat).testBit n = decide (2 = n) := fun n => Nat.testBit_two_pow (n := 2)
  unfold headerBits
  cases c with
  | false => simp
  | true =>
    simp only [if_true, Nat.testBit_or, Bool.or_eq_true]
    match b with
    | 0 => cases h : bitmap.testBit 0 <;> cases bitmap.testBit 1 <;> cases bitmap.testBit 2 <;>
             simp [t1, t2, t4]
    | 1 => cases h : bitmap.testBit 1 <;> cases bitmap.testBit 0 <;> cases bitmap.testBit 2 <;>
             simp [t1, t2, t4]
    | 2 => cases h : bitmap.testBit 2 <;> cases bitmap.testBit 1 <;> cases bitmap.testBit 0 <;>
             simp [t1, t2, t4]
    | b + 3 => cases bitmap.testBit 2 <;> cases bitmap.testBit 1 <;> cases bitmap.testBit 0 <;>
             simp [t1, t2, t4] <;> omega

theorem bitmap_eq (c : Bool) (bitmap : Nat) (as : List AttrShape)
    (h : ∀ b, bitmap.testBit b = true → (c = true ∧ b < 3) ∨ ∃ a ∈ as, a.bit = b) :
    headerBits c bitmap ||| bitsOf bitmap as = bitmap := by
  apply Nat.eq_of_testBit_eq
  intro b
  rw [Bool.eq_iff_iff, Nat.testBit_or, Bool.or_eq_true, testBit_headerBits, testBit_bitsOf]
  constructor
  · rintro (h | h) <;> exact h.1
  · intro hb
    rcases h b hb with h | h
    · exact .inl ⟨hb, h⟩
    · exact .inr ⟨hb, h⟩

/-- The header of an object, read after being written. -/
theorem decode_header (D : DateParser) (S : Schema) (name : Text) (as : List AttrShape)
    (bitmap : Nat) (id href : Text) (o : Obj) (ms : List (Text × Json)) :
    decodeFields D S true name as o (headerMembers name bitmap id href ++ ms)
      = decodeFields D S true name as
          { o with
            bitmap := o.bitmap ||| headerBits true bitmap
            id := if bitmap.testBit 1 then id else o.id
            href := if bitmap.testBit 2 then href else o.href } ms := by
  have hk : ∀ n : Text, n ≠ n ++ t!"Link" := by intro n h; simp at h
  unfold headerMembers headerBits
  cases h0 : bitmap.testBit 0 <;> cases h1 : bitmap.testBit 1 <;> cases h2 : bitmap.testBit 2 <;>
    simp [decodeFields, stringOf, Nat.or_assoc]

theorem set_at {α : Type} (pre : List α) (x y : α) (post : List α) (n : Nat) (h : pre.length = n) :
    (pre ++ x :: post).set n y = pre ++ y :: post := by
  subst h; simp

theorem present_of_normal {D : DateParser} {S : Schema} {bitmap : Nat} {a : AttrShape} {v : Val}
    (hb : bitmap.testBit a.bit = true) (h : Normal D S a.typ a.link v) :
    present S bitmap a v = true := by
  unfold present
  split
  · exact hb
  · cases v <;> simp_all [Val.isNil, Normal]

theorem present_of_not {S : Schema} {bitmap : Nat} {a : AttrShape} {v : Val}
    (hb : ¬ bitmap.testBit a.bit = true) : present S bitmap a v = false := by
  unfold present; simp_all

/-! ## Maps -/

theorem insertKey_last {α : Type} (e : Text × α) (l : List (Text × α))
    (h : ∀ x ∈ l, compareText x.1 e.1 < 0) : insertKey e l = l ++ [e] := by
  induction l with
  | nil => rfl
  | cons x l ih =>
    have hx := h x (by simp)
    have : ¬ compareText e.1 x.1 < 0 := by
      have := compareText_swap x.1 e.1
      omega
    simp only [insertKey, this, if_false, List.cons_append]
    rw [ih (fun y hy => h y (by simp [hy]))]

theorem sortKeys_sorted {α : Type} (l : List (Text × α))
    (h : l.Pairwise fun a b => compareText a.1 b.1 < 0) : sortKeys l = l := by
  unfold sortKeys
  suffices hs : ∀ acc : List (Text × α), (acc ++ l).Pairwise (fun a b => compareText a.1 b.1 < 0) →
      l.foldl (fun acc e => insertKey e acc) acc = acc ++ l by simpa using hs [] (by simpa using h)
  clear h
  induction l with
  | nil => simp
  | cons x l ih =>
    intro acc hacc
    simp only [List.foldl_cons]
    rw [insertKey_last]
    · rw [ih (acc ++ [x]) (by simpa using hacc)]
      simp
    · rw [List.pairwise_append] at hacc
      exact fun y hy => hacc.2.2 y hy x (by simp)

theorem encodeEntries_keys (S : Schema) (el : TypeId) (es : List (Text × Val))
    (js : List (Text × Json)) (h : encodeEntries S el es = some js) :
    js.map Prod.fst = es.map Prod.fst := by
  induction es generalizing js with
  | nil => simp only [encodeEntries, Option.some.injEq] at h; subst h; rfl
  | cons e es ih =>
    obtain ⟨k, v⟩ := e
    simp only [encodeEntries] at h
    split at h
    · simp at h
    · cases he : encodeEntries S el es with
      | none => simp [he] at h
      | some js' =>
        simp only [he, Option.map_some, Option.some.injEq] at h
        subst h
        simp [ih _ he]

theorem pairwise_keys {α β : Type} (R : Text → Text → Prop) (l : List (Text × α))
    (l' : List (Text × β)) (h : l.map Prod.fst = l'.map Prod.fst)
    (hp : l.Pairwise fun a b => R a.1 b.1) : l'.Pairwise fun a b => R a.1 b.1 := by
  have h1 : (l.map Prod.fst).Pairwise R := List.pairwise_map.2 hp
  rw [h] at h1
  exact List.pairwise_map.1 h1

/-! ## Round trip -/

mutual
theorem round_val (D : DateParser) (S : Schema) (hS : Proper S) (v : Val) (ty : TypeId)
    (link : Bool) (h : Normal D S ty link v) :
    ∃ j, encode S ty link v = some j ∧ decode D S ty link j = .ok v := by
  match v with
  | .nil => simp [Normal] at h
  | .bool b => simp only [Normal] at h; exact ⟨.bool b, by simp [encode, h], by simp [decode, h]⟩
  | .int i =>
    simp only [Normal] at h
    obtain ⟨hs, h1, h2⟩ := h
    have hp := parseInt64_intText i h1 h2
    refine ⟨.num (intText i), by simp [encode, hs], ?_⟩
    rcases hs with hs | hs <;> simp [decode, hs, hp, Decoded.ofOption]
  | .float b => simp only [Normal] at h; exact ⟨.num b, by simp [encode, h], by simp [decode, h]⟩
  | .str s =>
    simp only [Normal] at h
    refine ⟨.str s, by simp [encode, h], ?_⟩
    rcases h with hs | hs <;> simp [decode, hs]
  | .date d =>
    simp only [Normal] at h
    exact ⟨.str d.text, by simp [encode, h.1], by simp [decode, h.1, h.2, Decoded.ofOption]⟩
  | .iface j =>
    simp only [Normal] at h
    refine ⟨j, by simp [encode, h], ?_⟩
    cases j <;> simp [decode, h]
  | .obj bitmap id href fields =>
    simp only [Normal] at h
    obtain ⟨c, name, as, hs, hid, hhref, hbits, hf⟩ := h
    have hP := hS ty c name as hs
    cases c with
    | false =>
      obtain ⟨ms, hm, hd⟩ := round_fields D S hS fields bitmap as hf false name [] as hP rfl []
        (newObj S as) rfl rfl
      refine ⟨.obj ms, by simp [encode, hs, hm], ?_⟩
      simp only [decode, hs, hd, Decoded.bind]
      have he := bitmap_eq false bitmap as hbits
      have hid' : id = [] := by simpa using hid
      have hhref' : href = [] := by simpa using hhref
      subst hid' hhref'
      simpa [headerBits, newObj, Obj.val] using he
    | true =>
      obtain ⟨ms, hm, hd⟩ := round_fields D S hS fields bitmap as hf true name [] as hP rfl []
        { (newObj S as) with
          bitmap := (newObj S as).bitmap ||| headerBits true bitmap
          id := if bitmap.testBit 1 then id else (newObj S as).id
          href := if bitmap.testBit 2 then href else (newObj S as).href } rfl rfl
      refine ⟨.obj (headerMembers name bitmap id href ++ ms), by simp [encode, hs, hm], ?_⟩
      simp only [decode, hs, decode_header, hd, Decoded.bind]
      have he := bitmap_eq true bitmap as hbits
      simp only [newObj, Obj.val, List.nil_append, Decoded.ok.injEq, Val.obj.injEq, Nat.zero_or, he,
        true_and, and_true]
      constructor
      · split
        · rfl
        · rename_i hb; rcases hid with hi | hi
          · exact absurd hi.1 hb
          · exact hi.symm
      · split
        · rfl
        · rename_i hb; rcases hhref with hi | hi
          · exact absurd hi.1 hb
          · exact hi.symm
  | .list items =>
    simp only [Normal] at h
    obtain ⟨name, el, hs, rfl, hi⟩ := h
    obtain ⟨js, hj, hd⟩ := round_items D S hS items el hi []
    refine ⟨.arr js, by simp [encode, hs, hj], ?_⟩
    simp [decode, hs, hd, Decoded.bind]
  | .linkList l href items =>
    simp only [Normal] at h
    obtain ⟨name, el, hs, rfl, rfl, rfl, hi⟩ := h
    obtain ⟨j, hj, hd⟩ := round_val D S hS items ty false hi
    refine ⟨.obj [(t!"items", j)], by simp [encode, hs, hj], ?_⟩
    simp [decode, hs, decodeLink, hd, Decoded.bind, Link.val]
  | .map entries =>
    simp only [Normal] at h
    obtain ⟨el, hs, hsort, he⟩ := h
    obtain ⟨js, hj, hd⟩ := round_entries D S hS entries el he [] (by
      simpa using hsort)
    have hk := encodeEntries_keys _ _ _ _ hj
    have hsorted := sortKeys_sorted js (pairwise_keys (fun a b => compareText a b < 0) _ _ hk.symm hsort)
    refine ⟨.obj js, by simp [encode, hs, hj, hsorted], ?_⟩
    simp [decode, hs, hd, Decoded.bind]
theorem round_fields (D : DateParser) (S : Schema) (hS : Proper S) (vs : List Val) (bitmap : Nat)
    (as : List AttrShape) (h : NormalFields D S bitmap as vs) (c : Bool) (name : Text)
    (done whole : List AttrShape) (hP : ProperAttributes c whole) (hw : whole = done ++ as)
    (pre : List Val) (o : Obj)
    (ho : o.fields = pre ++ as.map fun a => zero (S a.typ)) (hpre : pre.length = done.length) :
    ∃ ms, encodeFields S bitmap as vs = some ms ∧
      decodeFields D S c name whole o ms
        = .ok { o with fields := pre ++ vs, bitmap := o.bitmap ||| bitsOf bitmap as } := by
  match as, vs with
  | [], [] =>
    refine ⟨[], rfl, ?_⟩
    simp only [decodeFields, bitsOf, Nat.or_zero, List.append_nil]
    simp only [List.map_nil, List.append_nil] at ho
    rw [← ho]
  | a :: as, [] => simp [NormalFields] at h
  | [], v :: vs => simp [NormalFields] at h
  | a :: as, v :: vs =>
    simp only [NormalFields] at h
    obtain ⟨hv, hrest⟩ := h
    by_cases hb : bitmap.testBit a.bit = true
    · simp only [hb, if_true] at hv
      obtain ⟨j, hj, hd⟩ := round_val D S hS v a.typ a.link hv
      have hpres := present_of_normal hb hv
      obtain ⟨ms, hm, hdm⟩ := round_fields D S hS vs bitmap as hrest c name (done ++ [a]) whole hP
        (by simp [hw]) (pre ++ [v])
        { o with
          fields := o.fields.set done.length v
          bitmap := o.bitmap ||| 2 ^ a.bit }
        (by
          simp only [ho, List.map_cons]
          rw [set_at _ _ _ _ _ hpre]
          simp) (by simp [hpre])
      refine ⟨(a.tag, j) :: ms, by simp [encodeFields, hpres, hj, hm], ?_⟩
      have ha : a ∈ whole := by simp [hw]
      have hf : findCase a.tag 0 whole = some (done.length, a) := by
        have := hP.tags; rw [hw] at this ⊢; exact findCase_at _ _ _ this
      have hn := hP.named a ha
      have hres : (c && a.tag == t!"kind") = false ∧ (c && a.tag == t!"id") = false
          ∧ (c && a.tag == t!"href") = false := by
        cases c with
        | false => simp
        | true => have := hP.reserved rfl a ha; simpa using this
      rw [decodeFields]
      simp only [hn, if_false, hres.1, hres.2.1, hres.2.2, Bool.false_eq_true, hf, hd]
      rw [hdm]
      simp [bitsOf, hb, Nat.or_assoc]
    · rw [if_neg hb] at hv
      obtain ⟨ms, hm, hdm⟩ := round_fields D S hS vs bitmap as hrest c name (done ++ [a]) whole hP
        (by simp [hw]) (pre ++ [v]) o (by simp [ho, hv]) (by simp [hpre])
      refine ⟨ms, by simp [encodeFields, present_of_not hb, hm], ?_⟩
      rw [hdm]
      simp [bitsOf, hb]
theorem round_items (D : DateParser) (S : Schema) (hS : Proper S) (vs : List Val) (el : TypeId)
    (h : NormalItems D S el vs) (acc : List Val) :
    ∃ js, encodeItems S el vs = some js ∧ decodeItems D S el acc js = .ok (acc ++ vs) := by
  match vs with
  | [] => exact ⟨[], rfl, by simp [decodeItems]⟩
  | v :: vs =>
    simp only [NormalItems] at h
    obtain ⟨j, hj, hd⟩ := round_val D S hS v el false h.1
    obtain ⟨js, hjs, hds⟩ := round_items D S hS vs el h.2 (acc ++ [v])
    exact ⟨j :: js, by simp [encodeItems, hj, hjs], by simp [decodeItems, hd, hds]⟩
theorem round_entries (D : DateParser) (S : Schema) (hS : Proper S) (es : List (Text × Val))
    (el : TypeId) (h : NormalEntries D S el es) (acc : GoMap Val)
    (hsort : (acc ++ es).Pairwise fun a b => compareText a.1 b.1 < 0) :
    ∃ js, encodeEntries S el es = some js ∧ decodeEntries D S el acc js = .ok (acc ++ es) := by
  match es with
  | [] => exact ⟨[], rfl, by simp [decodeEntries]⟩
  | (k, v) :: es =>
    simp only [NormalEntries] at h
    obtain ⟨j, hj, hd⟩ := round_val D S hS v el false h.2.1
    have hnew : k ∉ acc.keys := by
      intro hk
      obtain ⟨e, he, rfl⟩ := List.mem_map.1 hk
      rw [List.pairwise_append] at hsort
      have : compareText e.1 e.1 < 0 := hsort.2.2 e he (e.1, v) (by simp)
      have h0 := (compareText_zero e.1 e.1).2 rfl
      omega
    obtain ⟨js, hjs, hds⟩ := round_entries D S hS es el h.2.2 (acc ++ [(k, v)]) (by simpa using hsort)
    refine ⟨(k, j) :: js, by simp [encodeEntries, hj, hjs], ?_⟩
    rw [decodeEntries]
    simp only [h.1, if_false, hd]
    rw [GoMap.insert_of_not_mem hnew, hds]
    simp
end

end GoJson

end Verif
