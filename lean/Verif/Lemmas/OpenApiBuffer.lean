import Verif.Spec.OpenApi

/-! Lemmas about the OpenAPI buffer. -/

namespace Verif

namespace OpenApi

open Buffer

/-- The tokens of the members of an object, without the brackets. -/
def memberTokens : List (Text × Json) → List Tok
  | [] => []
  | (k, j) :: ms => [.str k, .colon] ++ j.tokens ++ Json.membersTail ms

/-- The tokens of the items of an array, without the brackets. -/
def itemTokens : List Json → List Tok
  | [] => []
  | j :: js => j.tokens ++ Json.itemsTail js

theorem obj_tokens (ms : List (Text × Json)) :
    (Json.obj ms).tokens = [.objectStart] ++ memberTokens ms ++ [.objectEnd] := by
  cases ms with
  | nil => simp [Json.tokens, memberTokens]
  | cons m ms => obtain ⟨k, j⟩ := m; simp [Json.tokens, memberTokens]

theorem arr_tokens (js : List Json) :
    (Json.arr js).tokens = [.arrayStart] ++ itemTokens js ++ [.arrayEnd] := by
  cases js with
  | nil => simp [Json.tokens, itemTokens]
  | cons j js => simp [Json.tokens, itemTokens]

theorem membersTail_append : ∀ (a b : List (Text × Json)),
    Json.membersTail (a ++ b) = Json.membersTail a ++ Json.membersTail b
  | [], b => by simp [Json.membersTail]
  | (k, j) :: a, b => by simp [Json.membersTail, membersTail_append a b]

theorem itemsTail_append : ∀ (a b : List Json),
    Json.itemsTail (a ++ b) = Json.itemsTail a ++ Json.itemsTail b
  | [], b => by simp [Json.itemsTail]
  | j :: a, b => by simp [Json.itemsTail, itemsTail_append a b]

theorem memberTokens_snoc (ms : List (Text × Json)) (k : Text) (j : Json) :
    memberTokens (ms ++ [(k, j)])
      = memberTokens ms ++ more ms.length ++ [.str k, .colon] ++ j.tokens := by
  cases ms with
  | nil => simp [memberTokens, more, Json.membersTail]
  | cons m ms =>
    obtain ⟨l, i⟩ := m
    simp [memberTokens, more, membersTail_append, Json.membersTail]

theorem itemTokens_snoc (js : List Json) (j : Json) :
    itemTokens (js ++ [j]) = itemTokens js ++ more js.length ++ j.tokens := by
  cases js with
  | nil => simp [itemTokens, more, Json.itemsTail]
  | cons i js => simp [itemTokens, more, itemsTail_append, Json.itemsTail]

/-- The number of things inside a frame. -/
def Frame.size : Frame → Nat
  | .object _ ms => ms.length
  | .array _ js => js.length

/-- The tokens of the name of a member. -/
def nameTokens : Option Text → List Tok
  | none => []
  | some k => [.str k, .colon]

/-- The tokens that must have been written for a list of frames. The outermost one doesn't have
brackets. -/
def frameTokens : List Frame → List Tok
  | [] => []
  | [.object _ ms] => memberTokens ms
  | [.array _ js] => itemTokens js
  | .object name ms :: f :: fs =>
    frameTokens (f :: fs) ++ more f.size ++ nameTokens name ++ [.objectStart] ++ memberTokens ms
  | .array name js :: f :: fs =>
    frameTokens (f :: fs) ++ more f.size ++ nameTokens name ++ [.arrayStart] ++ itemTokens js

/-- The frames that are inside others have been accepted by them. -/
def Nested : List Frame → Prop
  | [] => False
  | [_] => True
  | f :: g :: fs =>
    accepts (match f with | .object name _ => name | .array name _ => name) (g :: fs) = true ∧
      Nested (g :: fs)

theorem more_pos {a b : Nat} (h : 0 < a ↔ 0 < b) : more a = more b := by
  unfold more
  by_cases ha : 0 < a
  · rw [if_pos ha, if_pos (h.1 ha)]
  · rw [if_neg ha, if_neg (fun hb => ha (h.2 hb))]

/-- The relation between the state of the buffer and the frames. -/
structure Agree (b : Buffer) (fs : List Frame) : Prop where
  nested : Nested fs
  length : b.stack.length = fs.length
  level : ∀ l f, b.stack.head? = some l → fs.head? = some f → (0 < l ↔ 0 < f.size)
  out : b.out = frameTokens fs

theorem more_succ (n : Nat) : more (n + 1) = [.comma] := by simp [more]

/-- Tokens after placing a value. -/
theorem frameTokens_place {name : Option Text} {j : Json} {fs fs' : List Frame}
    (h : place name j fs = some fs') :
    ∃ f f' rest, fs = f :: rest ∧ fs' = f' :: rest ∧ f'.size = f.size + 1 ∧
      frameTokens fs' = frameTokens fs ++ more f.size ++ nameTokens name ++ j.tokens ∧
      (Nested fs → Nested fs') := by
  cases fs with
  | nil => simp [place] at h
  | cons f rest =>
    cases f with
    | object own ms =>
      cases name with
      | none => simp [place] at h
      | some k =>
        simp only [place, Option.some.injEq] at h
        subst h
        refine ⟨_, _, _, rfl, rfl, by simp [Frame.size], ?_, ?_⟩
        · cases rest with
          | nil => simp [frameTokens, memberTokens_snoc, Frame.size, nameTokens]
          | cons g gs =>
            simp [frameTokens, memberTokens_snoc, Frame.size, nameTokens]
        · cases rest with
          | nil => simp [Nested]
          | cons g gs => exact id
    | array own js =>
      cases name with
      | some k => simp [place] at h
      | none =>
        simp only [place, Option.some.injEq] at h
        subst h
        refine ⟨_, _, _, rfl, rfl, by simp [Frame.size], ?_, ?_⟩
        · cases rest with
          | nil => simp [frameTokens, itemTokens_snoc, Frame.size, nameTokens]
          | cons g gs =>
            simp [frameTokens, itemTokens_snoc, Frame.size, nameTokens]
        · cases rest with
          | nil => simp [Nested]
          | cons g gs => exact id

theorem exec_agree {b : Buffer} {fs fs' : List Frame} (h : Agree b fs) {c : Call}
    (hs : outlineStep fs c = some fs') : ∃ b', b.exec c = some b' ∧ Agree b' fs' := by
  obtain ⟨hn, hlen, hlev, hout⟩ := h
  cases hst : b.stack with
  | nil =>
    rw [hst] at hlen
    have : fs = [] := List.length_eq_zero_iff.1 hlen.symm
    rw [this] at hn
    exact hn.elim
  | cons l ls =>
    rw [hst] at hlen
    cases fs with
    | nil => simp at hlen
    | cons f rest =>
      have hl : 0 < l ↔ 0 < f.size := hlev l f (by rw [hst]; rfl) rfl
      have hm : more l = more f.size := more_pos hl
      have hlen' : ls.length = rest.length := by simpa using hlen
      cases c with
      | report =>
        simp only [outlineStep, Option.some.injEq] at hs
        subst hs
        refine ⟨_, rfl, hn, ?_, ?_, hout⟩
        · simp only [hst]; simpa using hlen'
        · intro l' f' h1 h2
          simp only [hst, List.head?_cons, Option.some.injEq] at h1 h2
          subst h1 h2
          exact hl
      | field k j =>
        simp only [outlineStep] at hs
        obtain ⟨g, g', rest', e1, e2, hsize, htok, hnest⟩ := frameTokens_place hs
        obtain ⟨rfl, rfl⟩ := List.cons.inj e1
        subst e2
        refine ⟨{ b with out := b.out ++ more l ++ [.str k, .colon] ++ j.tokens
                         stack := (l + 1) :: ls }, ?_, hnest hn, ?_, ?_, ?_⟩
        · simp [exec, Buffer.field, hst]
        · simpa using hlen'
        · intro l' f' h1 h2
          simp only [List.head?_cons, Option.some.injEq] at h1 h2
          subst h1 h2
          omega
        · rw [htok, hout, hm]; simp [nameTokens]
      | item j =>
        simp only [outlineStep] at hs
        obtain ⟨g, g', rest', e1, e2, hsize, htok, hnest⟩ := frameTokens_place hs
        obtain ⟨rfl, rfl⟩ := List.cons.inj e1
        subst e2
        refine ⟨{ b with out := b.out ++ more l ++ j.tokens, stack := (l + 1) :: ls }, ?_,
          hnest hn, ?_, ?_, ?_⟩
        · simp [exec, Buffer.item, hst]
        · simpa using hlen'
        · intro l' f' h1 h2
          simp only [List.head?_cons, Option.some.injEq] at h1 h2
          subst h1 h2
          omega
        · rw [htok, hout, hm]; simp [nameTokens]
      | startObject name =>
        simp only [outlineStep] at hs
        split at hs
        · rename_i hacc
          simp only [Option.some.injEq] at hs
          subst hs
          refine ⟨{ b with out := b.out ++ more l ++ nameTokens name ++ [.objectStart]
                           stack := 0 :: (match name with | some _ => l + 1 | none => l) :: ls },
            ?_, ⟨hacc, hn⟩, ?_, ?_, ?_⟩
          · cases name <;> simp [exec, Buffer.startObject, hst, nameTokens]
          · simpa using hlen'
          · intro l' f' h1 h2
            simp only [List.head?_cons, Option.some.injEq] at h1 h2
            subst h1 h2
            simp [Frame.size]
          · simp [frameTokens, memberTokens, hout, hm]
        · simp at hs
      | startArray name =>
        simp only [outlineStep] at hs
        split at hs
        · rename_i hacc
          simp only [Option.some.injEq] at hs
          subst hs
          refine ⟨{ b with out := b.out ++ more l ++ nameTokens name ++ [.arrayStart]
                           stack := 0 :: (match name with | some _ => l + 1 | none => l) :: ls },
            ?_, ⟨hacc, hn⟩, ?_, ?_, ?_⟩
          · cases name <;> simp [exec, Buffer.startArray, hst, nameTokens]
          · simpa using hlen'
          · intro l' f' h1 h2
            simp only [List.head?_cons, Option.some.injEq] at h1 h2
            subst h1 h2
            simp [Frame.size]
          · simp [frameTokens, itemTokens, hout, hm]
        · simp at hs
      | endObject =>
        cases f with
        | array own js => simp [outlineStep] at hs
        | object own ms =>
          simp only [outlineStep] at hs
          obtain ⟨g, g', rest', e1, e2, hsize, htok, hnest⟩ := frameTokens_place hs
          subst e1 e2
          cases ls with
          | nil => simp at hlen'
          | cons k ks =>
            refine ⟨{ b with out := b.out ++ [.objectEnd], stack := (k + 1) :: ks }, ?_,
              hnest hn.2, ?_, ?_, ?_⟩
            · simp [exec, Buffer.endObject, hst]
            · simpa using hlen'
            · intro l' f' h1 h2
              simp only [List.head?_cons, Option.some.injEq] at h1 h2
              subst h1 h2
              omega
            · rw [htok, obj_tokens, hout]; simp [frameTokens]
      | endArray =>
        cases f with
        | object own js => simp [outlineStep] at hs
        | array own ms =>
          simp only [outlineStep] at hs
          obtain ⟨g, g', rest', e1, e2, hsize, htok, hnest⟩ := frameTokens_place hs
          subst e1 e2
          cases ls with
          | nil => simp at hlen'
          | cons k ks =>
            refine ⟨{ b with out := b.out ++ [.arrayEnd], stack := (k + 1) :: ks }, ?_,
              hnest hn.2, ?_, ?_, ?_⟩
            · simp [exec, Buffer.endArray, hst]
            · simpa using hlen'
            · intro l' f' h1 h2
              simp only [List.head?_cons, Option.some.injEq] at h1 h2
              subst h1 h2
              omega
            · rw [htok, arr_tokens, hout]; simp [frameTokens]

theorem run_agree : ∀ (cs : List Call) {b : Buffer} {fs fs' : List Frame}, Agree b fs →
    outline fs cs = some fs' → ∃ b', b.run cs = some b' ∧ Agree b' fs'
  | [], b, fs, fs', h, ho => by
    simp only [outline, Option.some.injEq] at ho
    subst ho
    exact ⟨b, rfl, h⟩
  | c :: cs, b, fs, fs', h, ho => by
    rw [outline] at ho
    cases hs : outlineStep fs c with
    | none => simp [hs] at ho
    | some fs1 =>
      rw [hs] at ho
      obtain ⟨b1, hb1, h1⟩ := exec_agree h hs
      obtain ⟨b2, hb2, h2⟩ := run_agree cs h1 ho
      exact ⟨b2, by simp [run, hb1, hb2], h2⟩

/-- The number of errors reported. -/
def reports (cs : List Call) : Nat :=
  (cs.filter fun c => match c with | .report => true | _ => false).length

theorem exec_errors {b b' : Buffer} {c : Call} (h : b.exec c = some b') :
    b'.errors = b.errors + reports [c] := by
  cases c <;> simp only [exec, startObject, endObject, field, startArray, endArray, item] at h
  case report =>
    simp only [Option.some.injEq] at h
    subst h
    simp [reports]
  all_goals
    split at h
    all_goals try split at h
    all_goals first | (simp only [Option.some.injEq] at h; subst h; simp [reports]) | simp at h

theorem run_errors : ∀ (cs : List Call) {b b' : Buffer}, b.run cs = some b' →
    b'.errors = b.errors + reports cs
  | [], b, b', h => by
    simp only [run, Option.some.injEq] at h
    subst h
    simp [reports]
  | c :: cs, b, b', h => by
    rw [run] at h
    cases hc : b.exec c with
    | none => simp [hc] at h
    | some b1 =>
      rw [hc] at h
      rw [run_errors cs h, exec_errors hc]
      cases c <;> simp [reports] <;> omega

theorem outline_append : ∀ (a b : List Call) (fs : List Frame),
    outline fs (a ++ b) = (outline fs a).bind fun fs => outline fs b
  | [], b, fs => rfl
  | c :: a, b, fs => by
    rw [List.cons_append, outline, outline]
    cases outlineStep fs c with
    | none => rfl
    | some fs' => exact outline_append a b fs'

end OpenApi

end Verif
