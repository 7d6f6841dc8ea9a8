import Verif.Spec.JsonReadRun
import Verif.Lemmas.JsonWriteObject
import Verif.Lemmas.JsonRead

/-!
# Lemmas about running the generated code that reads JSON: what is common to all the functions
-/

namespace Verif.JsonRun

open GoJson (Val Schema Shape AttrShape DateParser parseVal parseItems parseMembers)
open GoProgram
open TypesRun (Legal value)
open BuildersRun (Program Code resolve fieldsOf isObject Holds HoldsFields HoldsItems HoldsEntries Valid execBlock_append
  execBlock_append_stop execBlock_next execBlock_panic eval_var)
open JsonCode (Form Entity Listing Functions Member)

variable {P : Program} {zero : Text → Text → Value Val} {Dt : DateParser} {limit : Nat} {S : Schema}
  {U : TypeId → Code} {J : TypeId → Entity} {L : TypeId → ListCode}

/-! ## Documents -/

/-- Reading any value consumes something. -/
theorem parse_shrinks : ∀ f : Nat,
    (∀ r j r', parseVal f r = some (j, r') → r'.length < r.length) ∧
    (∀ r j r', parseItems f r = some (j, r') → r'.length < r.length) ∧
    (∀ r j r', parseMembers f r = some (j, r') → r'.length < r.length)
  | 0 => ⟨fun _ _ _ h => by simp [parseVal] at h, fun _ _ _ h => by simp [parseItems] at h,
      fun _ _ _ h => by simp [parseMembers] at h⟩
  | f + 1 => by
    obtain ⟨h1, h2, h3⟩ := parse_shrinks f
    refine ⟨fun r j r' h => ?_, fun r j r' h => ?_, fun r j r' h => ?_⟩
    · unfold parseVal at h
      split at h
      all_goals first
        | (simp at h; done)
        | (simp at h; obtain ⟨-, rfl⟩ := h; simp; done)
        | (simp at h; obtain ⟨-, rfl⟩ := h; simp; omega)
        | skip
      · split at h
        · simp at h
        · rename_i heq
          injections
          subst_vars
          have := h1 _ _ _ heq
          simp only [Option.map_eq_some_iff] at h
          obtain ⟨p, hp, he⟩ := h
          have := h2 _ p.1 p.2 hp
          cases he
          simp
          omega
      · split at h
        · simp at h
        · rename_i heq
          injections
          subst_vars
          have := h1 _ _ _ heq
          simp only [Option.map_eq_some_iff] at h
          obtain ⟨p, hp, he⟩ := h
          have := h3 _ p.1 p.2 hp
          cases he
          simp
          omega
    · unfold parseItems at h
      split at h
      all_goals first
        | (simp at h; done)
        | (simp at h; obtain ⟨-, rfl⟩ := h; simp; done)
        | skip
      · split at h
        · simp at h
        · rename_i heq
          injections
          subst_vars
          have := h1 _ _ _ heq
          simp only [Option.map_eq_some_iff] at h
          obtain ⟨p, hp, he⟩ := h
          have := h2 _ p.1 p.2 hp
          cases he
          simp
          omega
    · unfold parseMembers at h
      split at h
      all_goals first
        | (simp at h; done)
        | (simp at h; obtain ⟨-, rfl⟩ := h; simp; done)
        | skip
      · split at h
        · simp at h
        · rename_i heq
          injections
          subst_vars
          have := h1 _ _ _ heq
          simp only [Option.map_eq_some_iff] at h
          obtain ⟨p, hp, he⟩ := h
          have := h3 _ p.1 p.2 hp
          cases he
          simp
          omega

/-- The number of steps that reading any value needs. -/
theorem parse_enough : ∀ n : Nat,
    (∀ r f, r.length < n → n ≤ f → parseVal f r = parseVal n r) ∧
    (∀ r f, r.length < n → n ≤ f → parseItems f r = parseItems n r) ∧
    (∀ r f, r.length < n → n ≤ f → parseMembers f r = parseMembers n r)
  | 0 => ⟨fun _ _ h => by omega, fun _ _ h => by omega, fun _ _ h => by omega⟩
  | n + 1 => by
    obtain ⟨h1, h2, h3⟩ := parse_enough n
    refine ⟨fun r f hr hf => ?_, fun r f hr hf => ?_, fun r f hr hf => ?_⟩ <;>
      obtain ⟨f, rfl⟩ : ∃ g, f = g + 1 := ⟨f - 1, by omega⟩ <;>
      simp only [Nat.add_le_add_iff_right] at hf
    · match r, hr with
      | [], _ => rfl
      | .arrayStart :: [], hr =>
        simp only [parseVal]
        rw [h1 [] f (by simp at hr; omega) hf]
        cases hp : parseVal n [] with
        | none => rfl
        | some p => exact absurd ((parse_shrinks n).1 [] p.1 p.2 hp) (by simp)
      | .arrayStart :: t :: r, hr =>
        simp only [List.length_cons] at hr
        by_cases ht : t = .arrayEnd
        · subst ht
          rfl
        · rw [GoJson.parseVal_start f t r ht, GoJson.parseVal_start n t r ht, h1 (t :: r) f (by simp; omega) hf]
          cases hp : parseVal n (t :: r) with
          | none => rfl
          | some p =>
            have := (parse_shrinks n).1 _ p.1 p.2 hp
            simp only [List.length_cons] at this ⊢
            rw [h2 p.2 f (by omega) hf]
      | .objectStart :: .str k :: .colon :: r, hr =>
        simp only [List.length_cons] at hr
        simp only [parseVal]
        rw [h1 r f (by omega) hf]
        cases hp : parseVal n r with
        | none => rfl
        | some p =>
          have := (parse_shrinks n).1 _ p.1 p.2 hp
          simp only
          rw [h3 p.2 f (by omega) hf]
      | .objectStart :: .str k :: [], _ => rfl
      | .objectStart :: .str _ :: .objectStart :: _, _ => rfl
      | .objectStart :: .str _ :: .objectEnd :: _, _ => rfl
      | .objectStart :: .str _ :: .arrayStart :: _, _ => rfl
      | .objectStart :: .str _ :: .arrayEnd :: _, _ => rfl
      | .objectStart :: .str _ :: .comma :: _, _ => rfl
      | .objectStart :: .str _ :: .str _ :: _, _ => rfl
      | .objectStart :: .str _ :: .num _ :: _, _ => rfl
      | .objectStart :: .str _ :: .bool _ :: _, _ => rfl
      | .objectStart :: .str _ :: .null :: _, _ => rfl
      | .objectStart :: [], _ => rfl
      | .objectStart :: .objectStart :: _, _ => rfl
      | .objectStart :: .objectEnd :: _, _ => rfl
      | .objectStart :: .arrayStart :: _, _ => rfl
      | .objectStart :: .arrayEnd :: _, _ => rfl
      | .objectStart :: .comma :: _, _ => rfl
      | .objectStart :: .colon :: _, _ => rfl
      | .objectStart :: .num _ :: _, _ => rfl
      | .objectStart :: .bool _ :: _, _ => rfl
      | .objectStart :: .null :: _, _ => rfl
      | .objectEnd :: _, _ => rfl
      | .arrayEnd :: _, _ => rfl
      | .comma :: _, _ => rfl
      | .colon :: _, _ => rfl
      | .str _ :: _, _ => rfl
      | .num _ :: _, _ => rfl
      | .bool _ :: _, _ => rfl
      | .null :: _, _ => rfl
    · match r, hr with
      | [], _ => rfl
      | .comma :: r, hr =>
        simp only [List.length_cons] at hr
        simp only [parseItems]
        rw [h1 r f (by omega) hf]
        cases hp : parseVal n r with
        | none => rfl
        | some p =>
          have := (parse_shrinks n).1 _ p.1 p.2 hp
          simp only
          rw [h2 p.2 f (by omega) hf]
      | .arrayEnd :: _, _ => rfl
      | .objectStart :: _, _ => rfl
      | .objectEnd :: _, _ => rfl
      | .arrayStart :: _, _ => rfl
      | .colon :: _, _ => rfl
      | .str _ :: _, _ => rfl
      | .num _ :: _, _ => rfl
      | .bool _ :: _, _ => rfl
      | .null :: _, _ => rfl
    · match r, hr with
      | [], _ => rfl
      | .comma :: .str k :: .colon :: r, hr =>
        simp only [List.length_cons] at hr
        simp only [parseMembers]
        rw [h1 r f (by omega) hf]
        cases hp : parseVal n r with
        | none => rfl
        | some p =>
          have := (parse_shrinks n).1 _ p.1 p.2 hp
          simp only
          rw [h3 p.2 f (by omega) hf]
      | .comma :: .str k :: [], _ => rfl
      | .comma :: .str _ :: .objectStart :: _, _ => rfl
      | .comma :: .str _ :: .objectEnd :: _, _ => rfl
      | .comma :: .str _ :: .arrayStart :: _, _ => rfl
      | .comma :: .str _ :: .arrayEnd :: _, _ => rfl
      | .comma :: .str _ :: .comma :: _, _ => rfl
      | .comma :: .str _ :: .str _ :: _, _ => rfl
      | .comma :: .str _ :: .num _ :: _, _ => rfl
      | .comma :: .str _ :: .bool _ :: _, _ => rfl
      | .comma :: .str _ :: .null :: _, _ => rfl
      | .comma :: [], _ => rfl
      | .comma :: .objectStart :: _, _ => rfl
      | .comma :: .objectEnd :: _, _ => rfl
      | .comma :: .arrayStart :: _, _ => rfl
      | .comma :: .arrayEnd :: _, _ => rfl
      | .comma :: .comma :: _, _ => rfl
      | .comma :: .colon :: _, _ => rfl
      | .comma :: .num _ :: _, _ => rfl
      | .comma :: .bool _ :: _, _ => rfl
      | .comma :: .null :: _, _ => rfl
      | .arrayEnd :: _, _ => rfl
      | .objectStart :: _, _ => rfl
      | .objectEnd :: _, _ => rfl
      | .arrayStart :: _, _ => rfl
      | .colon :: _, _ => rfl
      | .str _ :: _, _ => rfl
      | .num _ :: _, _ => rfl
      | .bool _ :: _, _ => rfl
      | .null :: _, _ => rfl

theorem parse_settles (r : List Tok) : Settles (fun f => parseVal f r) (parseVal (r.length + 1) r) :=
  ⟨r.length + 1, fun f hf => (parse_enough (r.length + 1)).1 r f (by omega) hf⟩

theorem Settles.const {α : Type} (a : α) : Settles (fun _ => a) a := ⟨0, fun _ _ => rfl⟩

theorem Settles.map {α β : Type} {p : Nat → α} {a : α} (h : Settles p a) (g : α → β) : Settles (fun f => g (p f)) (g a) := by
  obtain ⟨F, h⟩ := h
  exact ⟨F, fun f hf => congrArg g (h f hf)⟩

theorem Settles.succ {α : Type} {p : Nat → α} {a : α} (h : Settles (fun f => p (f + 1)) a) : Settles p a := by
  obtain ⟨F, h⟩ := h
  refine ⟨F + 1, fun f hf => ?_⟩
  obtain ⟨g, rfl⟩ : ∃ g, f = g + 1 := ⟨f - 1, by omega⟩
  exact h g (by omega)

theorem Settles.congr {α : Type} {p q : Nat → α} {a : α} (h : Settles p a) (he : ∀ f, q f = p f) : Settles q a := by
  obtain ⟨F, h⟩ := h
  exact ⟨F, fun f hf => by rw [he, h f hf]⟩

/-- Something followed by something else that depends on it. -/
theorem Settles.and {α β γ : Type} {p : Nat → α} {a : α} {q : Nat → β} {b : β} (h : Settles p a) (k : Settles q b)
    (g : α → β → γ) : Settles (fun f => g (p f) (q f)) (g a b) := by
  obtain ⟨F, h⟩ := h
  obtain ⟨G, k⟩ := k
  exact ⟨F + G, fun f hf => by show g (p f) (q f) = _; rw [h f (by omega), k f (by omega)]⟩

theorem Settles.unique {α : Type} {p : Nat → α} {a b : α} (h : Settles p a) (k : Settles p b) : a = b := by
  obtain ⟨F, h⟩ := h
  obtain ⟨G, k⟩ := k
  rw [← h (F + G) (by omega), k (F + G) (by omega)]

/-- What a value of the model gives, starting in a state of the libraries. -/
def Says {α : Type} (l : Library) (p : Nat → Option (α × List Tok)) (o : Option (α × List Tok)) : Prop :=
  if l.failed then o = none else Settles p o ∧ ∀ a rest, o = some (a, rest) → rest.length < l.input.length

theorem readObject_shrinks {r r' : List Tok} {k : Text} (h : GoJson.readObject r = some (k, r')) :
    r'.length < r.length := by
  unfold GoJson.readObject at h
  split at h <;> simp at h <;> obtain ⟨-, rfl⟩ := h <;> simp <;> omega

theorem readArray_shrinks {r r' : List Tok} {b : Bool} (h : GoJson.readArray r = some (b, r')) :
    r'.length < r.length := by
  unfold GoJson.readArray at h
  split at h <;> simp at h <;> obtain ⟨-, rfl⟩ := h <;> simp <;> omega

theorem readString_shrinks {r r' : List Tok} {k : Text} (h : GoJson.readString r = some (k, r')) :
    r'.length < r.length := by
  unfold GoJson.readString at h
  split at h <;> simp at h <;> obtain ⟨-, rfl⟩ := h <;> simp

theorem readBool_shrinks {r r' : List Tok} {k : Bool} (h : GoJson.readBool r = some (k, r')) :
    r'.length < r.length := by
  unfold GoJson.readBool at h
  split at h <;> simp at h
  obtain ⟨-, rfl⟩ := h
  simp

theorem readFloat_shrinks {r r' : List Tok} {k : Text} (h : GoJson.readFloat r = some (k, r')) :
    r'.length < r.length := by
  unfold GoJson.readFloat at h
  split at h <;> simp at h
  obtain ⟨-, rfl⟩ := h
  simp

theorem readInt_shrinks {r r' : List Tok} {k : Int} (h : GoJson.readInt r = some (k, r')) :
    r'.length < r.length := by
  unfold GoJson.readInt at h
  split at h <;> simp at h
  obtain ⟨i, -, -, rfl⟩ := h
  simp

end Verif.JsonRun
