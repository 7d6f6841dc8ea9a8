import Verif.Lemmas.Errors
import Verif.Props.Json
import Verif.Props.Query

/-! C51 and C52: the generated error type. -/

namespace Verif

namespace GoError

open GoJson

/-! ## C51: builder and getters -/

theorem lastSet_append {α : Type} (pick : Setter → Option α) (zero : α) (calls : List Setter)
    (c : Setter) :
    lastSet pick zero (calls ++ [c]) = match pick c with
      | some v => (v, true)
      | none => lastSet pick zero calls := by
  unfold lastSet
  rw [List.reverse_append]
  simp only [List.reverse_cons, List.reverse_nil, List.nil_append, List.singleton_append,
    List.findSome?_cons]
  cases pick c <;> rfl

theorem lastSet_get {α : Type} (pick : Setter → Option α) (zero : α)
    (get : Option ErrorObject → α × Bool) (h0 : get (some {}) = (zero, false))
    (hs : ∀ c b v, (∀ o, c ≠ .copy o) → pick c = some v → get (some (c.apply b)) = (v, true))
    (hn : ∀ c b, (∀ o, c ≠ .copy o) → pick c = none → get (some (c.apply b)) = get (some b))
    (calls : List Setter) (h : NoCopy calls) :
    get (some (calls.foldl Setter.apply {})) = lastSet pick zero calls := by
  rw [← List.reverse_reverse calls] at h ⊢
  generalize calls.reverse = l at h ⊢
  induction l with
  | nil => simpa [lastSet] using h0
  | cons c cs ih =>
    rw [List.reverse_cons] at h ⊢
    have hc : ∀ o, c ≠ .copy o := h c (by simp)
    rw [List.foldl_append, lastSet_append]
    simp only [List.foldl_cons, List.foldl_nil]
    cases hp : pick c with
    | some v => exact hs c _ v hc hp
    | none => rw [hn c _ hc hp, ih fun c hm => h c (by simp [hm])]

/-- C51: after any sequence of calls to the methods of the builder each getter returns the last
value set, and reports the attribute as absent if it wasn't set. -/
theorem c51_builder (calls : List Setter) (h : NoCopy calls) :
    let e := some (buildWith calls)
    getStatus e = lastSet (fun | .status v => some v | _ => none) 0 calls ∧
    getID e = lastSet (fun | .id v => some v | _ => none) [] calls ∧
    getHREF e = lastSet (fun | .href v => some v | _ => none) [] calls ∧
    getCode e = lastSet (fun | .code v => some v | _ => none) [] calls ∧
    getReason e = lastSet (fun | .reason v => some v | _ => none) [] calls ∧
    getOperationID e = lastSet (fun | .operationID v => some v | _ => none) [] calls ∧
    getDetails e = lastSet (fun | .details v => some v | _ => none) .null calls ∧
    getTimestamp e = lastSet (fun | .timestamp v => some v | _ => none) none calls := by
  have hb : buildWith calls = calls.foldl Setter.apply {} := rfl
  simp only [hb]
  refine ⟨?_, ?_, ?_, ?_, ?_, ?_, ?_, ?_⟩
  all_goals
    refine lastSet_get _ _ _ ?_ ?_ ?_ calls h
    · simp [getStatus, getID, getHREF, getCode, getReason, getOperationID, getDetails, getTimestamp,
        getWith]
    · intro c b v hc hp
      cases c <;> simp_all (decide := true) [Setter.apply, getStatus, getID, getHREF, getCode, getReason,
        getOperationID, getDetails, getTimestamp, getWith, Nat.testBit_or]
    · intro c b hc hp
      cases c <;> simp_all (decide := true) [Setter.apply, getStatus, getID, getHREF, getCode, getReason,
        getOperationID, getDetails, getTimestamp, getWith, Nat.testBit_or]

/-- C51: copying an error and building gives the same error, whatever was done before; copying nil
does nothing. -/
theorem c51_copy (calls : List Setter) (e : ErrorObject) :
    buildWith (calls ++ [.copy (some e)]) = e ∧
    buildWith (calls ++ [.copy none]) = buildWith calls := by
  simp [buildWith, List.foldl_append, Setter.apply, build]

/-- C51: nil errors have no attributes. -/
theorem c51_nil :
    kind none = t!"ErrorNil" ∧ (∀ e, kind (some e) = t!"Error") ∧
    getStatus none = (0, false) ∧ getID none = ([], false) ∧ getHREF none = ([], false) ∧
    getCode none = ([], false) ∧ getReason none = ([], false) ∧
    getOperationID none = ([], false) ∧ getDetails none = (.null, false) ∧
    getTimestamp none = (none, false) :=
  ⟨rfl, fun _ => rfl, rfl, rfl, rfl, rfl, rfl, rfl, rfl, rfl⟩

/-! ## C51: JSON -/

/-- The members, as documents. -/
def documentMembers (N : Instant → Text) (e : ErrorObject) : List (Bool × Text × Json) :=
  [(true, t!"kind", .str t!"Error"),
   (e.bitmap.testBit 0, t!"status", .num (intText e.status)),
   (e.bitmap.testBit 1, t!"id", .str e.id),
   (e.bitmap.testBit 2, t!"href", .str e.href),
   (e.bitmap.testBit 3, t!"code", .str e.code),
   (e.bitmap.testBit 4, t!"reason", .str e.reason),
   (e.bitmap.testBit 5, t!"operation_id", .str e.operationID),
   (e.bitmap.testBit 6, t!"details", e.details),
   (e.bitmap.testBit 7, t!"timestamp",
     match e.timestamp with
     | none => .null
     | some d => .str (N d))]

theorem membersTail_optional (b : Bool) (k : Text) (j : Json) (os : List (Bool × Text × Json)) :
    Json.membersTail (optionalMembers ((b, k, j) :: os))
      = (if b then [.comma, .str k, .colon] ++ j.tokens else []) ++
          Json.membersTail (optionalMembers os) := by
  cases b <;> simp [optionalMembers, Json.membersTail]

theorem writeError_document (N : Instant → Text) (e : ErrorObject) :
    writeError N (some e) = some (Json.obj (optionalMembers (documentMembers N e))).tokens := by
  unfold documentMembers
  rw [optionalMembers]
  simp only [if_true, Json.tokens, membersTail_optional]
  unfold writeError errorMember
  simp only [optionalMembers, Json.membersTail, Json.tokens]
  cases e.timestamp <;> simp [Json.tokens]

theorem memberFor_optional {α : Type} (name : Text) (e : ErrorObject) (bit : Nat)
    (field : ErrorObject → α) (zero : α) (value : α → List Tok) :
    memberFor name (getWith (some e) bit field zero) value
      = if e.bitmap.testBit bit then [(name, value (field e))] else [] := by
  unfold memberFor getWith
  cases h : e.bitmap.testBit bit <;> simp [h]

theorem map_optional (b : Bool) (k : Text) (j : Json) (os : List (Bool × Text × Json)) :
    (optionalMembers ((b, k, j) :: os)).map (fun p => (p.1, p.2.tokens))
      = (if b then [(k, j.tokens)] else [])
        ++ (optionalMembers os).map (fun p => (p.1, p.2.tokens)) := by
  cases b <;> simp [optionalMembers]

/-- C51: the JSON object for an error has the kind and the attributes that have a value. -/
theorem c51_write (N : Instant → Text) (e : ErrorObject) :
    writeError N (some e) = some (objectTokens (errorMembers N e)) := by
  rw [writeError_document, objectTokens_spec]
  unfold documentMembers errorMembers getStatus getID getHREF getCode getReason getOperationID
    getDetails getTimestamp
  simp only [map_optional, memberFor_optional, if_true, Json.tokens, List.append_assoc]
  cases e.timestamp <;> simp [Json.tokens, optionalMembers]

theorem textMeans_iff (j : Json) (v : Text) : TextMeans j v ↔ stringOf j = some v := by
  cases j <;> simp [TextMeans, stringOf, eq_comm]

theorem intMeans_iff (j : Json) (v : Int) : IntMeans j v ↔ intOf j = some v := by
  cases j <;> simp [IntMeans, intOf]

theorem errorEffect_none (D : DateParser) (k : Text) (j : Json) :
    errorEffect D k j = none ↔ BadMember D (k, j) := by
  have ht : (∃ v, TextMeans j v) ↔ stringOf j ≠ none := by
    simp only [textMeans_iff]; cases stringOf j <;> simp
  have hi : (∃ v, IntMeans j v) ↔ intOf j ≠ none := by
    simp only [intMeans_iff]; cases intOf j <;> simp
  have hd : (∃ v, DateMeans D j v) ↔ (stringOf j).bind D ≠ none := by
    simp only [DateMeans, textMeans_iff]
    cases stringOf j with
    | none => simp
    | some t => cases hD : D t <;> simp [hD]
  unfold BadMember
  simp only [ht, hi, hd, Classical.not_not, List.mem_cons, List.not_mem_nil, or_false]
  unfold errorEffect
  by_cases h1 : k = t!"status"
  · subst h1; simp
  by_cases h2 : k = t!"id"
  · subst h2; simp
  by_cases h3 : k = t!"href"
  · subst h3; simp
  by_cases h4 : k = t!"code"
  · subst h4; simp
  by_cases h5 : k = t!"reason"
  · subst h5; simp
  by_cases h6 : k = t!"operation_id"
  · subst h6; simp
  by_cases h7 : k = t!"details"
  · subst h7; simp
  by_cases h8 : k = t!"timestamp"
  · subst h8; simp
  simp [h1, h2, h3, h4, h5, h6, h7, h8]

theorem holds_of {D : DateParser} {α : Type} {ms : List (Text × Json)} {e : ErrorObject}
    (h : decodeLoop (fun k j => .ofOption (errorEffect D k j)) {} ms = .ok e) (key : Text)
    (get : Option ErrorObject → α × Bool) (zero : α) (means : Json → α → Prop)
    (h0 : get (some {}) = (zero, false))
    (h1 : ∀ j f, errorEffect D key j = some f → ∀ s, ∃ v, means j v ∧ get (some (f s)) = (v, true))
    (h2 : ∀ k j f, k ≠ key → errorEffect D k j = some f → ∀ s, get (some (f s)) = get (some s)) :
    Holds ms key means zero (get (some e)) := by
  obtain ⟨h3, h4⟩ := decodeLoop_last (errorEffect D) (fun e => get (some e)) key
    (fun j got => ∃ v, means j v ∧ got = (v, true)) h1 h2 ms {} e h
  exact ⟨h3, fun hno => by rw [h4 hno, h0]⟩

/-- C51: reading an error gives each attribute the value of the last member with its name, in any
order; other members are ignored. It fails exactly if the value of a member isn't valid. -/
theorem c51_read (D : DateParser) (ms : List (Text × Json)) (hn : ∀ m ∈ ms, m.1 ≠ [])
    (fuel : Nat) (hf : 2 * (Json.obj ms).tokens.length ≤ fuel) :
    (unmarshalError D fuel (Json.obj ms).tokens = none ↔ ∃ m ∈ ms, BadMember D m) ∧
    ∀ e, unmarshalError D fuel (Json.obj ms).tokens = some e →
      Holds ms t!"status" IntMeans 0 (getStatus (some e)) ∧
      Holds ms t!"id" TextMeans [] (getID (some e)) ∧
      Holds ms t!"href" TextMeans [] (getHREF (some e)) ∧
      Holds ms t!"code" TextMeans [] (getCode (some e)) ∧
      Holds ms t!"reason" TextMeans [] (getReason (some e)) ∧
      Holds ms t!"operation_id" TextMeans [] (getOperationID (some e)) ∧
      Holds ms t!"details" (fun j v => v = j) .null (getDetails (some e)) ∧
      Holds ms t!"timestamp" (DateMeans D) none (getTimestamp (some e)) := by
  have ha := agrees_loop (readErrorField_agrees D) ms fuel {} [] hf
  simp only [List.append_nil] at ha
  obtain ⟨hlost, herr⟩ := decodeLoop_ok (errorEffect D) ms hn {}
  have herr' : decodeLoop (fun k j => .ofOption (errorEffect D k j)) {} ms = .error ↔
      ∃ m ∈ ms, BadMember D m := by
    rw [herr]
    exact exists_congr fun m => and_congr_right fun _ => errorEffect_none D m.1 m.2
  cases hd : decodeLoop (fun k j => .ofOption (errorEffect D k j)) {} ms with
  | lost => exact absurd hd hlost
  | error =>
    simp only [hd, Agrees] at ha
    simp only [unmarshalError, ha, Option.map_none, ← herr', hd, true_and, iff_self]
    intro e h; simp at h
  | ok e =>
    simp only [hd, Agrees] at ha
    simp only [unmarshalError, ha, Option.map_some, ← herr', hd]
    refine ⟨by simp, fun e' h => ?_⟩
    rw [Option.some.injEq] at h
    subst h
    refine ⟨?_, ?_, ?_, ?_, ?_, ?_, ?_, ?_⟩
    all_goals
      refine holds_of hd _ _ _ _ ?_ ?_ ?_
      · rfl
      · intro j f h s
        simp (decide := true) [errorEffect, Option.bind_eq_some_iff] at h
        first
        | (obtain ⟨v, h, rfl⟩ := h
           simp (decide := true) [getStatus, getID, getHREF, getCode, getReason, getOperationID, getDetails,
             getTimestamp, getWith, Nat.testBit_or, intMeans_iff, textMeans_iff, h])
        | (obtain ⟨t, h, v, h', rfl⟩ := h
           simp (decide := true) [getTimestamp, getWith, Nat.testBit_or, DateMeans, textMeans_iff, h, h'])
        | (subst h
           simp (decide := true) [getDetails, getWith, Nat.testBit_or])
      · intro k j f hk h s
        unfold errorEffect at h
        by_cases h1 : k = t!"status"
        · subst h1
          first
          | exact absurd rfl hk
          | (simp at h
             obtain ⟨v, -, rfl⟩ := h
             simp (decide := true) [getStatus, getID, getHREF, getCode, getReason, getOperationID,
               getDetails, getTimestamp, getWith, Nat.testBit_or])
        by_cases h2 : k = t!"id"
        · subst h2
          first
          | exact absurd rfl hk
          | (simp at h
             obtain ⟨v, -, rfl⟩ := h
             simp (decide := true) [getStatus, getID, getHREF, getCode, getReason, getOperationID,
               getDetails, getTimestamp, getWith, Nat.testBit_or])
        by_cases h3 : k = t!"href"
        · subst h3
          first
          | exact absurd rfl hk
          | (simp at h
             obtain ⟨v, -, rfl⟩ := h
             simp (decide := true) [getStatus, getID, getHREF, getCode, getReason, getOperationID,
               getDetails, getTimestamp, getWith, Nat.testBit_or])
        by_cases h4 : k = t!"code"
        · subst h4
          first
          | exact absurd rfl hk
          | (simp at h
             obtain ⟨v, -, rfl⟩ := h
             simp (decide := true) [getStatus, getID, getHREF, getCode, getReason, getOperationID,
               getDetails, getTimestamp, getWith, Nat.testBit_or])
        by_cases h5 : k = t!"reason"
        · subst h5
          first
          | exact absurd rfl hk
          | (simp at h
             obtain ⟨v, -, rfl⟩ := h
             simp (decide := true) [getStatus, getID, getHREF, getCode, getReason, getOperationID,
               getDetails, getTimestamp, getWith, Nat.testBit_or])
        by_cases h6 : k = t!"operation_id"
        · subst h6
          first
          | exact absurd rfl hk
          | (simp at h
             obtain ⟨v, -, rfl⟩ := h
             simp (decide := true) [getStatus, getID, getHREF, getCode, getReason, getOperationID,
               getDetails, getTimestamp, getWith, Nat.testBit_or])
        by_cases h7 : k = t!"details"
        · subst h7
          first
          | exact absurd rfl hk
          | (simp at h
             subst h
             simp (decide := true) [getStatus, getID, getHREF, getCode, getReason, getOperationID,
               getDetails, getTimestamp, getWith, Nat.testBit_or])
        by_cases h8 : k = t!"timestamp"
        · subst h8
          first
          | exact absurd rfl hk
          | (simp [Option.bind_eq_some_iff] at h
             obtain ⟨t, -, v, -, rfl⟩ := h
             simp (decide := true) [getStatus, getID, getHREF, getCode, getReason, getOperationID,
               getDetails, getTimestamp, getWith, Nat.testBit_or])
        · simp only [h1, h2, h3, h4, h5, h6, h7, h8, if_false, Option.some.injEq] at h
          subst h
          rfl

/-! ### Reading what was written -/

theorem optionalMembers_true (os : List (Bool × Text × Json)) :
    ∀ m ∈ optionalMembers os, (true, m.1, m.2) ∈ os := by
  induction os with
  | nil => simp [optionalMembers]
  | cons o os ih =>
    obtain ⟨b, k, j⟩ := o
    intro m hm
    cases b with
    | true =>
      simp only [optionalMembers, if_true, List.mem_cons] at hm
      rcases hm with rfl | hm
      · simp
      · simp [ih m hm]
    | false =>
      simp only [optionalMembers] at hm
      simp [ih m hm]

theorem documentMembers_distinct (N : Instant → Text) (e : ErrorObject) :
    (documentMembers N e).Pairwise fun a b => a.2.1 ≠ b.2.1 := by
  simp [documentMembers]

theorem holds_document {α : Type} (N : Instant → Text) (e : ErrorObject) (key : Text) (j : Json)
    (means : Json → α → Prop) (zero : α) (get : Option ErrorObject → α × Bool) (bit : Nat)
    (field : ErrorObject → α) (hget : ∀ e, get e = getWith e bit field zero)
    (hm : (e.bitmap.testBit bit, key, j) ∈ documentMembers N e) (e' : ErrorObject)
    (h : Holds (optionalMembers (documentMembers N e)) key means zero (get (some e')))
    (hv : e.bitmap.testBit bit = true → ∀ v, means j v → v = field e) :
    get (some e') = get (some e) := by
  obtain ⟨h1, h2⟩ := optionalMembers_last _ (documentMembers_distinct N e) key j
  rw [hget (some e)]
  cases hb : e.bitmap.testBit bit with
  | true =>
    rw [hb] at hm
    obtain ⟨v, h3, h4⟩ := h.1 j (h1 hm)
    simp [h4, getWith, hb, hv hb v h3]
  | false =>
    rw [hb] at hm
    simp [h.2 (h2 hm), getWith, hb]

/-- C51: the error that is read from what was written for an error has the same attributes. -/
theorem c51_round_trip (D : DateParser) (N : Instant → Text) (e : ErrorObject)
    (hstatus : ∀ v, getStatus (some e) = (v, true) → -2 ^ 63 ≤ v ∧ v < 2 ^ 63)
    (htime : ∀ v, getTimestamp (some e) = (v, true) → ∃ d, v = some d ∧ D (N d) = some d) :
    ∃ source, writeError N (some e) = some source ∧
      ∀ fuel, 2 * source.length ≤ fuel →
        ∃ e', unmarshalError D fuel source = some e' ∧ SameError e' e := by
  have hstatus' : e.bitmap.testBit 0 = true → parseInt64 (intText e.status) = some e.status := by
    intro hb
    obtain ⟨h1, h2⟩ := hstatus e.status (by simp [getStatus, getWith, hb])
    exact parseInt64_intText e.status h1 h2
  have htime' : e.bitmap.testBit 7 = true → ∃ d, e.timestamp = some d ∧ D (N d) = some d :=
    fun hb => htime e.timestamp (by simp [getTimestamp, getWith, hb])
  refine ⟨_, writeError_document N e, fun fuel hf => ?_⟩
  have hn : ∀ m ∈ optionalMembers (documentMembers N e), m.1 ≠ [] := by
    intro m hm
    have h := List.mem_map_of_mem (f := fun o => o.2.1) (optionalMembers_true _ m hm)
    intro h0
    simp [documentMembers, h0] at h
  obtain ⟨h1, h2⟩ := c51_read D _ hn fuel hf
  have hgood : unmarshalError D fuel (Json.obj (optionalMembers (documentMembers N e))).tokens
      ≠ none := by
    rw [Ne, h1]
    rintro ⟨⟨k, j⟩, hm, hbad⟩
    have hm' := optionalMembers_true _ _ hm
    unfold documentMembers at hm'
    simp only [List.mem_cons, Prod.mk.injEq, List.not_mem_nil, or_false] at hm'
    unfold BadMember at hbad
    rcases hm' with ⟨-, rfl, rfl⟩ | ⟨hb, rfl, rfl⟩ | ⟨-, rfl, rfl⟩ | ⟨-, rfl, rfl⟩ | ⟨-, rfl, rfl⟩
      | ⟨-, rfl, rfl⟩ | ⟨-, rfl, rfl⟩ | ⟨-, rfl, rfl⟩ | ⟨hb, rfl, rfl⟩
    · simp at hbad
    · simp [IntMeans, hstatus' hb.symm] at hbad
    · simp [TextMeans] at hbad
    · simp [TextMeans] at hbad
    · simp [TextMeans] at hbad
    · simp [TextMeans] at hbad
    · simp [TextMeans] at hbad
    · simp at hbad
    · obtain ⟨d, h3, h4⟩ := htime' hb.symm
      simp [DateMeans, TextMeans, h3, h4] at hbad
  obtain ⟨e', he'⟩ := Option.ne_none_iff_exists'.1 hgood
  refine ⟨e', he', ?_⟩
  obtain ⟨a1, a2, a3, a4, a5, a6, a7, a8⟩ := h2 e' he'
  constructor
  · refine holds_document N e t!"status" (.num (intText e.status)) _ _ _ 0 _ (fun _ => rfl)
      (by simp [documentMembers]) e' a1 (fun hb v hv => ?_)
    simp [IntMeans, hstatus' hb] at hv
    exact hv.symm
  · refine holds_document N e t!"id" (.str e.id) _ _ _ 1 _ (fun _ => rfl)
      (by simp [documentMembers]) e' a2 (fun hb v hv => ?_)
    simpa [TextMeans, eq_comm] using hv
  · refine holds_document N e t!"href" (.str e.href) _ _ _ 2 _ (fun _ => rfl)
      (by simp [documentMembers]) e' a3 (fun hb v hv => ?_)
    simpa [TextMeans, eq_comm] using hv
  · refine holds_document N e t!"code" (.str e.code) _ _ _ 3 _ (fun _ => rfl)
      (by simp [documentMembers]) e' a4 (fun hb v hv => ?_)
    simpa [TextMeans, eq_comm] using hv
  · refine holds_document N e t!"reason" (.str e.reason) _ _ _ 4 _ (fun _ => rfl)
      (by simp [documentMembers]) e' a5 (fun hb v hv => ?_)
    simpa [TextMeans, eq_comm] using hv
  · refine holds_document N e t!"operation_id" (.str e.operationID) _ _ _ 5 _ (fun _ => rfl)
      (by simp [documentMembers]) e' a6 (fun hb v hv => ?_)
    simpa [TextMeans, eq_comm] using hv
  · exact holds_document N e t!"details" e.details _ _ _ 6 _ (fun _ => rfl)
      (by simp [documentMembers]) e' a7 (fun hb v hv => hv)
  · refine holds_document N e t!"timestamp"
      (match e.timestamp with
       | none => .null
       | some d => .str (N d)) _ _ _ 7 _ (fun _ => rfl)
      (by simp [documentMembers]) e' a8 (fun hb v hv => ?_)
    obtain ⟨d, h3, h4⟩ := htime' hb
    obtain ⟨t, d', h5, h6, rfl⟩ := hv
    rw [h3] at h5 ⊢
    simp [TextMeans] at h5
    subst h5
    rw [h4] at h6
    rw [h6]

/-! ### Status of the response -/

/-- C51: the status given replaces the one of the document, and nothing else changes. -/
theorem c51_status (D : DateParser) (fuel : Nat) (source : List Tok) (status : Int) :
    (unmarshalErrorStatus D fuel source status = none ↔ unmarshalError D fuel source = none) ∧
    ∀ e e', unmarshalError D fuel source = some e →
      unmarshalErrorStatus D fuel source status = some e' →
      getStatus (some e') = (status, true) ∧
      getID (some e') = getID (some e) ∧ getHREF (some e') = getHREF (some e) ∧
      getCode (some e') = getCode (some e) ∧ getReason (some e') = getReason (some e) ∧
      getOperationID (some e') = getOperationID (some e) ∧
      getDetails (some e') = getDetails (some e) ∧
      getTimestamp (some e') = getTimestamp (some e) := by
  refine ⟨by simp [unmarshalErrorStatus], fun e e' h h' => ?_⟩
  rw [unmarshalErrorStatus, h, Option.map_some, Option.some.injEq] at h'
  subst h'
  simp (decide := true) [getStatus, getID, getHREF, getCode, getReason, getOperationID, getDetails,
    getTimestamp, getWith, Nat.testBit_or]

/-! ## C51: text -/

theorem phraseFor_chunk {α : Type} (e : ErrorObject) (bit : Nat) (field : ErrorObject → α) (zero : α)
    (text : α → Text) :
    phraseFor (getWith (some e) bit field zero) text = chunk e bit (text (field e)) := by
  unfold phraseFor getWith chunk
  cases h : e.bitmap.testBit bit <;> simp [h]

theorem chunks_some (e : ErrorObject) (htime : e.bitmap.testBit 7 → e.timestamp ≠ none) :
    chunks e = some (phrases e) := by
  unfold chunks phrases getStatus getID getCode getTimestamp getOperationID
  simp only [phraseFor_chunk]
  cases h7 : e.bitmap.testBit 7 with
  | false => simp [chunk, h7]
  | true =>
    cases ht : e.timestamp with
    | none => exact absurd ht (htime h7)
    | some d => simp [chunk, h7, ht]

theorem joinText_dropLast (a b : Text) (rest : List Text) :
    joinText t!", " (List.dropLast (a :: b :: rest)) ++ t!" and " ++ (a :: b :: rest).getLastD []
      = sentence (a :: b :: rest) := by
  induction rest generalizing a b with
  | nil => simp [joinText, sentence]
  | cons c rest ih =>
    have := ih b c
    rw [sentence, ← this]
    · simp only [List.dropLast_cons_cons, joinText, List.getLastD_cons, List.append_assoc]
    · simp
    · simp

theorem joinChunks_sentence (l : List Text) : joinChunks l = sentence l := by
  match l with
  | [] => rfl
  | [a] => rfl
  | a :: b :: rest =>
    rw [← joinText_dropLast]
    unfold joinChunks
    rw [if_neg (by simp), if_pos (by simp), List.dropLast_eq_take]

/-- C51: the text of an error says the attributes that have a value, but not the location or the
details, and it ends with the reason. It is never empty. -/
theorem c51_text_partial (e : ErrorObject)
    (htime : getTimestamp (some e) ≠ (none, true)) :
    errorText (some e) = some (
      let text := sentence (phrases e) ++
        (if (getReason (some e)).2 then
          (if sentence (phrases e) = [] then [] else t!": ") ++ (getReason (some e)).1
         else [])
      if text = [] then t!"unknown error" else text) := by
  have ht : e.bitmap.testBit 7 → e.timestamp ≠ none := by
    intro h7 hn
    simp [getTimestamp, getWith, h7, hn] at htime
  unfold errorText
  simp only [chunks_some e ht, joinChunks_sentence]
  unfold getReason getWith
  cases h4 : e.bitmap.testBit 4 <;> by_cases hs : sentence (phrases e) = [] <;> simp [h4, hs]

theorem infix_sentence (l : List Text) : ∀ p ∈ l, p <:+: sentence l := by
  match l with
  | [] => simp
  | [a] => simp [sentence]
  | [a, b] =>
    intro p hp
    simp only [List.mem_cons, List.not_mem_nil, or_false] at hp
    rcases hp with rfl | rfl
    · exact ⟨[], t!" and " ++ b, by simp [sentence]⟩
    · exact ⟨a ++ t!" and ", [], by simp [sentence]⟩
  | a :: b :: c :: rest =>
    intro p hp
    have ih := infix_sentence (b :: c :: rest)
    rw [sentence]
    · rcases List.mem_cons.1 hp with rfl | hp
      · exact ⟨[], t!", " ++ sentence (b :: c :: rest), by simp⟩
      · obtain ⟨u, v, h⟩ := ih p hp
        exact ⟨a ++ t!", " ++ u, v, by rw [← h]; simp⟩
    · simp
    · simp

/-- C51: the text isn't empty, it mentions the attributes that have a value, and it ends with the
reason, if there is one. -/
theorem c51_text_mentions_partial (e : ErrorObject)
    (htime : getTimestamp (some e) ≠ (none, true)) :
    ∃ text, errorText (some e) = some text ∧ text ≠ [] ∧
      (∀ p ∈ phrases e, p <:+: text) ∧
      (∀ r, getReason (some e) = (r, true) → r ≠ [] → r <:+ text) ∧
      (phrases e = [] → (getReason (some e)).1 = [] → text = t!"unknown error") := by
  refine ⟨_, c51_text_partial e htime, ?_⟩
  generalize hg : getReason (some e) = g
  obtain ⟨r, b⟩ := g
  have hin := infix_sentence (phrases e)
  have hnil : phrases e = [] → sentence (phrases e) = [] := fun h => by rw [h]; rfl
  generalize hps : phrases e = ps at hin hnil
  generalize sentence ps = s at hin hnil
  have hr : b = false → r = [] := by
    rintro rfl
    unfold getReason getWith at hg
    simp only at hg
    split at hg <;> simp_all
  have hu : t!"unknown error" ≠ [] := by simp
  cases b with
  | false =>
    obtain rfl := hr rfl
    by_cases hs : s = []
    · subst hs
      refine ⟨by simp, fun p hp => ?_, by simp, by simp⟩
      have := List.infix_nil.1 (hin p hp)
      subst this
      exact List.nil_infix
    · refine ⟨by simp [hs], fun p hp => ?_, by simp, fun h => absurd (hnil h) hs⟩
      simpa [hs] using hin p hp
  | true =>
    by_cases hs : s = []
    · subst hs
      by_cases hr' : r = []
      · subst hr'
        refine ⟨by simp, fun p hp => ?_, by simp, by simp⟩
        have := List.infix_nil.1 (hin p hp)
        subst this
        exact List.nil_infix
      · refine ⟨by simp [hr'], fun p hp => ?_, ?_, fun _ h => absurd h hr'⟩
        · have := List.infix_nil.1 (hin p hp)
          subst this
          exact List.nil_infix
        · intro r' h _
          obtain ⟨rfl, -⟩ := Prod.mk.inj h
          simp [hr']
    · refine ⟨by simp [hs], fun p hp => ?_, ?_, fun h => absurd (hnil h) hs⟩
      · obtain ⟨u, v, h⟩ := hin p hp
        simp only [hs, if_false, if_true, List.append_eq_nil_iff, false_and]
        exact ⟨u, v ++ (t!": " ++ r), by rw [← h]; simp⟩
      · intro r' h _
        obtain ⟨rfl, -⟩ := Prod.mk.inj h
        simp only [hs, if_false, if_true, List.append_eq_nil_iff, false_and]
        exact ⟨s ++ t!": ", by simp⟩

/-- C51: every attribute that has a value and is part of the text has a phrase, and only those. -/
theorem c51_phrases (e : ErrorObject) :
    (∀ v, getStatus (some e) = (v, true) → t!"status is " ++ intText v ∈ phrases e) ∧
    (∀ v, getID (some e) = (v, true) → t!"identifier is '" ++ v ++ t!"'" ∈ phrases e) ∧
    (∀ v, getCode (some e) = (v, true) → t!"code is '" ++ v ++ t!"'" ∈ phrases e) ∧
    (∀ d, getTimestamp (some e) = (some d, true) → t!"at '" ++ d.text ++ t!"'" ∈ phrases e) ∧
    (∀ v, getOperationID (some e) = (v, true) →
      t!"operation identifier is '" ++ v ++ t!"'" ∈ phrases e) ∧
    ((phrases e).length =
      ([(getStatus (some e)).2, (getID (some e)).2, (getCode (some e)).2, (getTimestamp (some e)).2,
        (getOperationID (some e)).2].filter id).length) := by
  unfold phrases
  refine ⟨?_, ?_, ?_, ?_, ?_, ?_⟩
  · intro v h; simp [h, phraseFor]
  · intro v h; simp [h, phraseFor]
  · intro v h; simp [h, phraseFor]
  · intro v h; simp [h, phraseFor]
  · intro v h; simp [h, phraseFor]
  · unfold phraseFor
    cases (getStatus (some e)).2 <;> cases (getID (some e)).2 <;> cases (getCode (some e)).2 <;>
      cases (getTimestamp (some e)).2 <;> cases (getOperationID (some e)).2 <;> simp

/-- C51 is false for the location and the details, that aren't mentioned: two errors that differ in
them have the same text. -/
theorem c51_text_href_refuted :
    ∃ a b : ErrorObject, getHREF (some a) = (t!"/my", true) ∧ getHREF (some b) = ([], false) ∧
      getDetails (some a) = (.bool true, true) ∧ getDetails (some b) = (.null, false) ∧
      errorText (some a) = errorText (some b) :=
  ⟨buildWith [.href t!"/my", .details (.bool true)], buildWith [], rfl, rfl, rfl, rfl, rfl⟩

/-- C51 is false for nil errors and for nil timestamps: asking for the text panics. -/
theorem c51_text_nil_refuted :
    errorText none = none ∧ errorText (some (buildWith [.timestamp none])) = none :=
  ⟨rfl, rfl⟩

/-- C51 is false for nil errors, that can't be written. -/
theorem c51_write_nil_refuted (N : Instant → Text) : writeError N none = none := rfl

/-- C51 is false for nil timestamps: what is written for them can't be read, unless the empty text
is a date. -/
theorem c51_null_timestamp_refuted (D : DateParser) (hD : D [] = none) (N : Instant → Text) :
    ∃ source, writeError N (some (buildWith [.timestamp none])) = some source ∧
      ∀ fuel, 2 * source.length ≤ fuel → unmarshalError D fuel source = none := by
  refine ⟨_, writeError_document N _, fun fuel hf => ?_⟩
  have hm : optionalMembers (documentMembers N (buildWith [.timestamp none]))
      = [(t!"kind", .str t!"Error"), (t!"timestamp", .null)] := rfl
  rw [hm] at hf ⊢
  rw [(c51_read D _ (by simp) fuel hf).1]
  exact ⟨(t!"timestamp", .null), by simp, Or.inr (Or.inr ⟨rfl, by simp [DateMeans, TextMeans, hD]⟩)⟩

/-! ### Examples -/

/-- A date parser for the examples. -/
def someDates : DateParser := fun t => if t = [] then none else some { text := t }

example : errorText (some (buildWith [.status 404, .id t!"5", .code t!"X-1", .reason t!"gone"])) =
    some t!"status is 404, identifier is '5' and code is 'X-1': gone" := rfl
example : errorText (some (buildWith [.status 404, .reason []])) = some t!"status is 404: " := rfl
example : errorText (some (buildWith [.href t!"/my"])) = some t!"unknown error" := rfl
example : errorText (some (buildWith [.timestamp (some { text := t!"now" }), .operationID t!"7"])) =
    some t!"at 'now' and operation identifier is '7'" := rfl

/-- The hypotheses of the round trip hold for an error with all the attributes. -/
example : let e := buildWith [.status (-5), .id t!"404", .href t!"/x", .code t!"X", .reason t!"why",
      .operationID t!"7", .details (.obj [(t!"a", .arr [.null])]),
      .timestamp (some { text := t!"2020-01-01T00:00:00Z" })]
    ∃ source, writeError Instant.text (some e) = some source ∧
      ∀ fuel, 2 * source.length ≤ fuel →
        ∃ e', unmarshalError someDates fuel source = some e' ∧ SameError e' e := by
  intro e
  refine c51_round_trip _ _ _ ?_ ?_
  · intro v h
    simp (decide := true) [e, buildWith, build, Setter.apply, getStatus, getWith] at h
    subst h
    decide
  · intro v h
    simp (decide := true) [e, buildWith, build, Setter.apply, getTimestamp, getWith] at h
    subst h
    exact ⟨_, rfl, rfl⟩

/-! ## C52 -/

/-- C52: an error whose identifier is a number of three digits that isn't that of an informational
response is answered with that status; the body is the error, unless the status doesn't allow a
body. -/
theorem c52_status_partial (N : Instant → Text) (e : ErrorObject) (n : Int)
    (hid : GoQuery.Denotes (getID (some e)).1 n) (h1 : 200 ≤ n) (h2 : n ≤ 999) :
    sendError N (some e) = .reply n t!"application/json"
      (if n = 204 ∨ n = 304 then [] else objectTokens (errorMembers N e)) := by
  have hp := (parseInt_iff _ n).2 ⟨hid, by omega, by omega⟩
  unfold sendError
  simp only [hp, c51_write, respond]
  rw [if_neg (by omega), if_neg (by omega)]
  congr 1
  by_cases h3 : n = 204
  · subst h3; rfl
  by_cases h4 : n = 304
  · subst h4; rfl
  have hb : bodyAllowed n = true := by
    unfold bodyAllowed
    rw [if_neg (by omega), if_neg h3, if_neg h4]
  simp [h3, h4, hb]

/-- C52: errors whose identifier isn't a status code panic. -/
theorem c52_range (N : Instant → Text) (e : ErrorObject) (n : Int)
    (hid : GoQuery.Denotes (getID (some e)).1 n) (h0 : -2 ^ 63 ≤ n ∧ n < 2 ^ 63)
    (hn : n < 100 ∨ 999 < n) : sendError N (some e) = .panic := by
  have hp := (parseInt_iff _ n).2 ⟨hid, h0.1, h0.2⟩
  unfold sendError
  simp only [hp, c51_write, respond]
  rw [if_pos (by omega)]

/-- C52 is false for informational codes: the final status is 200. -/
theorem c52_informational_refuted (N : Instant → Text) (e : ErrorObject) (n : Int)
    (hid : GoQuery.Denotes (getID (some e)).1 n) (h1 : 100 ≤ n) (h2 : n ≤ 199) (h3 : n ≠ 101) :
    sendError N (some e) = .reply 200 t!"application/json" (objectTokens (errorMembers N e)) := by
  have hp := (parseInt_iff _ n).2 ⟨hid, by omega, by omega⟩
  unfold sendError
  simp only [hp, c51_write, respond]
  rw [if_neg (by omega), if_pos (by omega)]

/-- The switching protocols code is sent, without body. -/
theorem c52_switching (N : Instant → Text) (e : ErrorObject)
    (hid : GoQuery.Denotes (getID (some e)).1 101) :
    sendError N (some e) = .reply 101 t!"application/json" [] := by
  have hp := (parseInt_iff _ 101).2 ⟨hid, by omega, by omega⟩
  unfold sendError
  simp only [hp, c51_write, respond]
  rfl

/-- C52 is false for errors whose identifier isn't numeric, and for nil errors: they are answered
with status 200, and the body is an error with identifier 1000. -/
theorem c52_panic_refuted (N : Instant → Text) (object : Option ErrorObject)
    (hid : ¬ ∃ n, GoQuery.Denotes (getID object).1 n ∧ -2 ^ 63 ≤ n ∧ n < 2 ^ 63) :
    sendError N object = .reply 200 t!"application/json" (objectTokens
      [(t!"kind", [.str t!"Error"]), (t!"id", [.str t!"1000"]),
       (t!"reason", [.str
         t!"An unexpected error happened, please check the log of the service for details"])]) := by
  have hp : GoQuery.parseInt (getID object).1 = none := by
    cases h : GoQuery.parseInt (getID object).1 with
    | none => rfl
    | some n => exact absurd ⟨n, (parseInt_iff _ n).1 h⟩ hid
  unfold sendError
  simp only [hp]
  rfl

theorem sendError_id (N : Instant → Text) (id reason : Text) (n : Int)
    (hid : GoQuery.Denotes id n) (h1 : 400 ≤ n) (h2 : n ≤ 999) :
    sendError N (some (buildWith [.id id, .reason reason])) = .reply n t!"application/json"
      (objectTokens [(t!"kind", [.str t!"Error"]), (t!"id", [.str id]),
        (t!"reason", [.str reason])]) := by
  have hi : (getID (some (buildWith [.id id, .reason reason]))).1 = id := by
    simp (decide := true) [buildWith, build, Setter.apply, getID, getWith]
  have hm : errorMembers N (buildWith [.id id, .reason reason]) =
      [(t!"kind", [.str t!"Error"]), (t!"id", [.str id]), (t!"reason", [.str reason])] := by
    simp (decide := true) [buildWith, build, Setter.apply, errorMembers, memberFor, getStatus,
      getID, getHREF, getCode, getReason, getOperationID, getDetails, getTimestamp, getWith]
  have h := c52_status_partial N (buildWith [.id id, .reason reason]) n (by rw [hi]; exact hid)
    (by omega) h2
  rw [if_neg (by omega), hm] at h
  exact h

/-- C52: the errors for requests that can't be processed. -/
theorem c52_fixed (N : Instant → Text) (method path : Text) :
    sendNotFound N path = .reply 404 t!"application/json" (objectTokens
      [(t!"kind", [.str t!"Error"]), (t!"id", [.str t!"404"]),
       (t!"reason", [.str (t!"Can't find resource for path '" ++ path ++ t!"'")])]) ∧
    sendMethodNotAllowed N method path = .reply 405 t!"application/json" (objectTokens
      [(t!"kind", [.str t!"Error"]), (t!"id", [.str t!"405"]),
       (t!"reason", [.str
         (t!"Method '" ++ method ++ t!"' isn't supported for path '" ++ path ++ t!"'")])]) ∧
    sendInternalServerError N method path = .reply 500 t!"application/json" (objectTokens
      [(t!"kind", [.str t!"Error"]), (t!"id", [.str t!"500"]),
       (t!"reason", [.str (t!"Can't process '" ++ method ++ t!"' request for path '" ++ path
         ++ t!"' due to an internalserver error")])]) :=
  ⟨sendError_id N _ _ 404 (.plain (n := 404) rfl) (by omega) (by omega),
   sendError_id N _ _ 405 (.plain (n := 405) rfl) (by omega) (by omega),
   sendError_id N _ _ 500 (.plain (n := 500) rfl) (by omega) (by omega)⟩

example : GoQuery.Denotes (getID (some (buildWith [.id t!"+404"]))).1 404 :=
  .plus (ds := t!"404") (n := 404) rfl
example (N : Instant → Text) : sendError N (some (buildWith [.id t!"404"])) =
    .reply 404 t!"application/json" (objectTokens
      [(t!"kind", [.str t!"Error"]), (t!"id", [.str t!"404"])]) := rfl
example (N : Instant → Text) : sendError N (some (buildWith [.id t!"CLUSTERS-5"])) = sendPanic N := rfl
example (N : Instant → Text) : sendError N (some (buildWith [.id t!"7"])) = .panic := rfl

end GoError

end Verif
