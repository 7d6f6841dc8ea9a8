import Verif.Lemmas.JsonRead

/-! Lemmas about the effect of each member on the object that is read. -/

namespace Verif

namespace GoJson

/-- The change that a member makes to the object. -/
def effect (D : DateParser) (S : Schema) (isClass : Bool) (name : Text) (as : List AttrShape)
    (k : Text) (j : Json) : Decoded (Obj → Obj) :=
  if k = [] then .lost
  else if isClass && k == t!"kind" then
    match stringOf j with
    | none => .error
    | some value =>
      .ok fun o => if value = name ++ t!"Link" then { o with bitmap := o.bitmap ||| 1 } else o
  else if isClass && k == t!"id" then
    match stringOf j with
    | none => .error
    | some value => .ok fun o => { o with id := value, bitmap := o.bitmap ||| 2 }
  else if isClass && k == t!"href" then
    match stringOf j with
    | none => .error
    | some value => .ok fun o => { o with href := value, bitmap := o.bitmap ||| 4 }
  else
    match findCase k 0 as with
    | some (i, a) =>
      match decode D S a.typ a.link j with
      | .ok v => .ok fun o =>
          { o with fields := o.fields.set i v, bitmap := o.bitmap ||| 2 ^ a.bit }
      | .error => .error
      | .lost => .lost
    | none => .ok id

theorem decodeFields_effect (D : DateParser) (S : Schema) (c : Bool) (name : Text)
    (as : List AttrShape) (o : Obj) (k : Text) (j : Json) (ms : List (Text × Json)) :
    decodeFields D S c name as o ((k, j) :: ms)
      = (effect D S c name as k j).bind fun f => decodeFields D S c name as (f o) ms := by
  rw [decodeFields]
  unfold effect
  split
  · rfl
  · split
    · cases stringOf j <;> rfl
    · split
      · cases stringOf j <;> rfl
      · split
        · cases stringOf j <;> rfl
        · cases findCase k 0 as with
          | none => rfl
          | some p =>
            obtain ⟨i, a⟩ := p
            simp only
            cases decode D S a.typ a.link j <;> rfl

theorem findCase_spec (k : Text) (p : Nat) (as : List AttrShape) (i : Nat) (a : AttrShape)
    (h : findCase k p as = some (i, a)) : p ≤ i ∧ as[i - p]? = some a ∧ a.tag = k := by
  induction as generalizing p with
  | nil => simp [findCase] at h
  | cons b as ih =>
    simp only [findCase] at h
    split at h
    · simp only [Option.some.injEq, Prod.mk.injEq] at h
      obtain ⟨rfl, rfl⟩ := h
      rename_i ht
      exact ⟨Nat.le_refl _, by simp, ht⟩
    · obtain ⟨h1, h2, h3⟩ := ih (p + 1) h
      refine ⟨by omega, ?_, h3⟩
      have : i - p = (i - (p + 1)) + 1 := by omega
      rw [this]
      simpa using h2

theorem findCase_inj (k k' : Text) (as : List AttrShape) (i i' : Nat) (a a' : AttrShape)
    (h : findCase k 0 as = some (i, a)) (h' : findCase k' 0 as = some (i', a')) (hne : k ≠ k') :
    i ≠ i' := by
  obtain ⟨_, h2, h3⟩ := findCase_spec _ _ _ _ _ h
  obtain ⟨_, h2', h3'⟩ := findCase_spec _ _ _ _ _ h'
  intro e
  subst e
  rw [h2] at h2'
  simp only [Option.some.injEq] at h2'
  subst h2'
  exact hne (h3.symm.trans h3')

theorem or_swap (a b c : Nat) : a ||| b ||| c = a ||| c ||| b := by
  rw [Nat.or_assoc, Nat.or_comm b c, ← Nat.or_assoc]

/-- What the effect of a member can be. -/
inductive EffectKind (c : Bool) (name : Text) (as : List AttrShape) (k : Text) : (Obj → Obj) → Prop
  | kind (hc : c = true) (hk : k = t!"kind") (value : Text) : EffectKind c name as k fun o =>
      if value = name ++ t!"Link" then { o with bitmap := o.bitmap ||| 1 } else o
  | id (hc : c = true) (hk : k = t!"id") (value : Text) : EffectKind c name as k fun o =>
      { o with id := value, bitmap := o.bitmap ||| 2 }
  | href (hc : c = true) (hk : k = t!"href") (value : Text) : EffectKind c name as k fun o =>
      { o with href := value, bitmap := o.bitmap ||| 4 }
  | attr (hc : c = true → k ≠ t!"kind" ∧ k ≠ t!"id" ∧ k ≠ t!"href") (i : Nat) (a : AttrShape)
      (hf : findCase k 0 as = some (i, a)) (v : Val) : EffectKind c name as k fun o =>
      { o with fields := o.fields.set i v, bitmap := o.bitmap ||| 2 ^ a.bit }
  | unknown (hc : c = true → k ≠ t!"kind" ∧ k ≠ t!"id" ∧ k ≠ t!"href")
      (hf : findCase k 0 as = none) : EffectKind c name as k _root_.id

theorem effect_kind {D : DateParser} {S : Schema} {c : Bool} {name : Text} {as : List AttrShape}
    {k : Text} {j : Json} {f : Obj → Obj} (h : effect D S c name as k j = .ok f) :
    EffectKind c name as k f := by
  unfold effect at h
  split at h
  · simp at h
  · split at h
    · rename_i hk
      rw [Bool.and_eq_true, beq_iff_eq] at hk
      split at h
      · simp at h
      · simp only [Decoded.ok.injEq] at h; subst h
        exact .kind hk.1 hk.2 _
    · rename_i hk1
      split at h
      · rename_i hk
        rw [Bool.and_eq_true, beq_iff_eq] at hk
        split at h
        · simp at h
        · simp only [Decoded.ok.injEq] at h; subst h
          exact .id hk.1 hk.2 _
      · rename_i hk2
        split at h
        · rename_i hk
          rw [Bool.and_eq_true, beq_iff_eq] at hk
          split at h
          · simp at h
          · simp only [Decoded.ok.injEq] at h; subst h
            exact .href hk.1 hk.2 _
        · rename_i hk3
          have hc : c = true → k ≠ t!"kind" ∧ k ≠ t!"id" ∧ k ≠ t!"href" := by
            intro hc
            subst hc
            simp only [Bool.true_and, beq_iff_eq] at hk1 hk2 hk3
            exact ⟨hk1, hk2, hk3⟩
          split at h
          · rename_i i a hf
            split at h
            · simp only [Decoded.ok.injEq] at h; subst h
              exact .attr hc i a hf _
            · simp at h
            · simp at h
          · rename_i hf
            simp only [Decoded.ok.injEq] at h; subst h
            exact .unknown hc hf

theorem effects_commute {c : Bool} {name : Text} {as : List AttrShape} {k k' : Text}
    {f g : Obj → Obj} (hf : EffectKind c name as k f) (hg : EffectKind c name as k' g)
    (hne : k ≠ k') (o : Obj) : f (g o) = g (f o) := by
  cases hf with
  | unknown hc hf => rfl
  | kind hc hk value =>
    cases hg with
    | unknown hc hf => rfl
    | kind hc' hk' value' => exact absurd (hk.trans hk'.symm) hne
    | id hc' hk' value' => dsimp only; split <;> simp [or_swap]
    | href hc' hk' value' => dsimp only; split <;> simp [or_swap]
    | attr hc' i a hf v => dsimp only; split <;> simp [or_swap]
  | id hc hk value =>
    cases hg with
    | unknown hc hf => rfl
    | kind hc' hk' value' => dsimp only; split <;> simp [or_swap]
    | id hc' hk' value' => exact absurd (hk.trans hk'.symm) hne
    | href hc' hk' value' => simp [or_swap]
    | attr hc' i a hf v => simp [or_swap]
  | href hc hk value =>
    cases hg with
    | unknown hc hf => rfl
    | kind hc' hk' value' => dsimp only; split <;> simp [or_swap]
    | href hc' hk' value' => exact absurd (hk.trans hk'.symm) hne
    | id hc' hk' value' => simp [or_swap]
    | attr hc' i a hf v => simp [or_swap]
  | attr hc i a hf v =>
    cases hg with
    | unknown hc hf => rfl
    | kind hc' hk' value' => dsimp only; split <;> simp [or_swap]
    | href hc' hk' value' => simp [or_swap]
    | id hc' hk' value' => simp [or_swap]
    | attr hc' i' a' hf' v' =>
      have := findCase_inj _ _ _ _ _ _ _ hf hf' hne
      simp only [Obj.mk.injEq, true_and]
      exact ⟨or_swap _ _ _, List.set_comm _ _ (fun e => this e.symm)⟩

theorem or_idem (a b : Nat) : a ||| b ||| b = a ||| b := by
  rw [Nat.or_assoc, Nat.or_self]

theorem effect_absorbs {c : Bool} {name : Text} {as : List AttrShape} {k : Text}
    {f g : Obj → Obj} (hf : EffectKind c name as k f) (hg : EffectKind c name as k g)
    (hk : ¬ (c = true ∧ k = t!"kind")) (o : Obj) : f (g o) = f o := by
  cases hf with
  | kind hc hk' value => exact absurd ⟨hc, hk'⟩ hk
  | unknown hc hf =>
    cases hg with
    | unknown hc hf => rfl
    | kind hc' hk' value' => exact absurd ⟨hc', hk'⟩ hk
    | id hc' hk' value' => exact absurd hk' (hc hc').2.1
    | href hc' hk' value' => exact absurd hk' (hc hc').2.2
    | attr hc' i a hf' v => rw [hf] at hf'; simp at hf'
  | id hc hk1 value =>
    cases hg with
    | unknown hc' hf => exact absurd hk1 (hc' hc).2.1
    | kind hc' hk' value' => exact absurd ⟨hc', hk'⟩ hk
    | id hc' hk' value' => simp [or_idem]
    | href hc' hk' value' => rw [hk1] at hk'; exact absurd hk' (by decide)
    | attr hc' i a hf' v => exact absurd hk1 (hc' hc).2.1
  | href hc hk1 value =>
    cases hg with
    | unknown hc' hf => exact absurd hk1 (hc' hc).2.2
    | kind hc' hk' value' => exact absurd ⟨hc', hk'⟩ hk
    | href hc' hk' value' => simp [or_idem]
    | id hc' hk' value' => rw [hk1] at hk'; exact absurd hk' (by decide)
    | attr hc' i a hf' v => exact absurd hk1 (hc' hc).2.2
  | attr hc i a hf v =>
    cases hg with
    | unknown hc' hf' => rw [hf] at hf'; simp at hf'
    | kind hc' hk' value' => exact absurd ⟨hc', hk'⟩ hk
    | href hc' hk' value' => exact absurd hk' (hc hc').2.2
    | id hc' hk' value' => exact absurd hk' (hc hc').2.1
    | attr hc' i' a' hf' v' =>
      rw [hf] at hf'
      simp only [Option.some.injEq, Prod.mk.injEq] at hf'
      obtain ⟨rfl, rfl⟩ := hf'
      simp [or_idem]

/-! ## Documents without empty names are never lost -/

mutual
theorem decode_named (D : DateParser) (S : Schema) (j : Json) (ty : TypeId) (link : Bool)
    (h : j.NamedMembers) : decode D S ty link j ≠ .lost := by
  match j with
  | .null =>
    rw [decode]
    cases S ty <;> try simp
    · cases D [] <;> simp [Decoded.ofOption]
    · split <;> simp
  | .bool b => rw [decode]; cases S ty <;> simp
  | .num t =>
    rw [decode]
    cases S ty <;> try simp
    all_goals cases parseInt64 t <;> simp [Decoded.ofOption]
  | .str t =>
    rw [decode]
    cases S ty <;> try simp
    cases D t <;> simp [Decoded.ofOption]
  | .arr js =>
    rw [decode]
    simp only [Json.NamedMembers] at h
    cases S ty with
    | list name el =>
      have := decodeItems_named D S js el [] h
      dsimp only
      split
      · simp
      · cases hd : decodeItems D S el [] js <;> simp_all [Decoded.bind]
    | _ => simp
  | .obj ms =>
    rw [decode]
    simp only [Json.NamedMembers] at h
    cases S ty with
    | list name el =>
      have := decodeLink_named D S ms ty name {} h
      dsimp only
      split
      · cases hd : decodeLink D S ty name {} ms <;> simp_all [Decoded.bind]
      · simp
    | struct c name as =>
      have := decodeFields_named D S ms c name as (newObj S as) h
      dsimp only
      cases hd : decodeFields D S c name as (newObj S as) ms <;> simp_all [Decoded.bind]
    | map el =>
      have := decodeEntries_named D S ms el [] h
      dsimp only
      cases hd : decodeEntries D S el [] ms <;> simp_all [Decoded.bind]
    | _ => simp
theorem decodeItems_named (D : DateParser) (S : Schema) (js : List Json) (el : TypeId)
    (acc : List Val) (h : Json.NamedItems js) : decodeItems D S el acc js ≠ .lost := by
  match js with
  | [] => simp [decodeItems]
  | j :: js =>
    simp only [Json.NamedItems] at h
    have := decode_named D S j el false h.1
    rw [decodeItems]
    cases hd : decode D S el false j with
    | ok v => exact decodeItems_named D S js el _ h.2
    | error => simp
    | lost => exact absurd hd this
theorem decodeFields_named (D : DateParser) (S : Schema) (ms : List (Text × Json)) (c : Bool)
    (name : Text) (as : List AttrShape) (o : Obj) (h : Json.NamedList ms) :
    decodeFields D S c name as o ms ≠ .lost := by
  match ms with
  | [] => simp [decodeFields]
  | (k, j) :: ms =>
    simp only [Json.NamedList] at h
    rw [decodeFields, if_neg h.1]
    split
    · cases stringOf j with
      | none => simp
      | some s => exact decodeFields_named D S ms c name as _ h.2.2
    · split
      · cases stringOf j with
        | none => simp
        | some s => exact decodeFields_named D S ms c name as _ h.2.2
      · split
        · cases stringOf j with
          | none => simp
          | some s => exact decodeFields_named D S ms c name as _ h.2.2
        · cases findCase k 0 as with
          | none => exact decodeFields_named D S ms c name as _ h.2.2
          | some p =>
            obtain ⟨i, a⟩ := p
            have := decode_named D S j a.typ a.link h.2.1
            dsimp only
            cases hd : decode D S a.typ a.link j with
            | ok v => exact decodeFields_named D S ms c name as _ h.2.2
            | error => simp
            | lost => exact absurd hd this
theorem decodeLink_named (D : DateParser) (S : Schema) (ms : List (Text × Json)) (ty : TypeId)
    (name : Text) (l : Link) (h : Json.NamedList ms) :
    decodeLink D S ty name l ms ≠ .lost := by
  match ms with
  | [] => simp [decodeLink]
  | (k, j) :: ms =>
    simp only [Json.NamedList] at h
    rw [decodeLink, if_neg h.1]
    split
    · cases stringOf j with
      | none => simp
      | some s => exact decodeLink_named D S ms ty name _ h.2.2
    · split
      · cases stringOf j with
        | none => simp
        | some s => exact decodeLink_named D S ms ty name _ h.2.2
      · split
        · have := decode_named D S j ty false h.2.1
          cases hd : decode D S ty false j with
          | ok v => exact decodeLink_named D S ms ty name _ h.2.2
          | error => simp
          | lost => exact absurd hd this
        · exact decodeLink_named D S ms ty name _ h.2.2
theorem decodeEntries_named (D : DateParser) (S : Schema) (ms : List (Text × Json)) (el : TypeId)
    (acc : GoMap Val) (h : Json.NamedList ms) : decodeEntries D S el acc ms ≠ .lost := by
  match ms with
  | [] => simp [decodeEntries]
  | (k, j) :: ms =>
    simp only [Json.NamedList] at h
    have := decode_named D S j el false h.2.1
    rw [decodeEntries, if_neg h.1]
    cases hd : decode D S el false j with
    | ok v => exact decodeEntries_named D S ms el _ h.2.2
    | error => simp
    | lost => exact absurd hd this
end

theorem effect_named (D : DateParser) (S : Schema) (c : Bool) (name : Text) (as : List AttrShape)
    (k : Text) (j : Json) (hk : k ≠ []) (hj : j.NamedMembers) :
    effect D S c name as k j ≠ .lost := by
  have h := decodeFields_named D S [(k, j)] c name as { fields := [] }
    (by simp [Json.NamedList, hk, hj])
  rw [decodeFields_effect] at h
  intro e
  rw [e] at h
  exact h rfl

theorem namedList_mem {ms : List (Text × Json)} :
    Json.NamedList ms ↔ ∀ e ∈ ms, e.1 ≠ [] ∧ e.2.NamedMembers := by
  induction ms with
  | nil => simp [Json.NamedList]
  | cons e ms ih => obtain ⟨k, j⟩ := e; simp [Json.NamedList, ih, and_assoc]

/-! ## Order -/

theorem decodeFields_swap (D : DateParser) (S : Schema) (c : Bool) (name : Text)
    (as : List AttrShape) (o : Obj) (a b : Text × Json) (ms : List (Text × Json))
    (hne : a.1 ≠ b.1) (ha : a.1 ≠ [] ∧ a.2.NamedMembers) (hb : b.1 ≠ [] ∧ b.2.NamedMembers) :
    decodeFields D S c name as o (a :: b :: ms) = decodeFields D S c name as o (b :: a :: ms) := by
  obtain ⟨k, j⟩ := a
  obtain ⟨k', j'⟩ := b
  simp only [decodeFields_effect]
  have h1 := effect_named D S c name as k j ha.1 ha.2
  have h2 := effect_named D S c name as k' j' hb.1 hb.2
  cases hf : effect D S c name as k j with
  | lost => exact absurd hf h1
  | error =>
    cases hg : effect D S c name as k' j' with
    | lost => exact absurd hg h2
    | error => rfl
    | ok g => rfl
  | ok f =>
    cases hg : effect D S c name as k' j' with
    | lost => exact absurd hg h2
    | error => rfl
    | ok g =>
      simp only [Decoded.bind]
      rw [effects_commute (effect_kind hf) (effect_kind hg) hne]

theorem decodeFields_perm (D : DateParser) (S : Schema) (c : Bool) (name : Text)
    (as : List AttrShape) {ms ms' : List (Text × Json)} (hp : ms.Perm ms')
    (hd : ms.Pairwise fun a b => a.1 ≠ b.1) (hn : Json.NamedList ms) (o : Obj) :
    decodeFields D S c name as o ms = decodeFields D S c name as o ms' := by
  rw [namedList_mem] at hn
  induction hp generalizing o with
  | nil => rfl
  | cons x hp ih =>
    obtain ⟨k, j⟩ := x
    simp only [decodeFields_effect]
    rw [List.pairwise_cons] at hd
    cases effect D S c name as k j with
    | ok f => exact ih hd.2 (fun e he => hn e (by simp [he])) (f o)
    | error => rfl
    | lost => rfl
  | swap x y l =>
    rw [List.pairwise_cons] at hd
    exact decodeFields_swap D S c name as o y x l (hd.1 x (by simp)) (hn y (by simp)) (hn x (by simp))
  | trans p q ih1 ih2 =>
    rw [ih1 hd hn o]
    refine ih2 ?_ (fun e he => hn e (p.mem_iff.2 he)) o
    exact hd.perm p (fun {a b} h => Ne.symm h)

/-- Members that aren't known are ignored. -/
theorem effect_unknown (D : DateParser) (S : Schema) (c : Bool) (name : Text)
    (as : List AttrShape) (k : Text) (j : Json) (hk : k ≠ [])
    (hc : c = true → k ≠ t!"kind" ∧ k ≠ t!"id" ∧ k ≠ t!"href") (ha : ∀ a ∈ as, a.tag ≠ k) :
    effect D S c name as k j = .ok id := by
  have hf : findCase k 0 as = none := by
    cases h : findCase k 0 as with
    | none => rfl
    | some p =>
      obtain ⟨_, h2, h3⟩ := findCase_spec k 0 as p.1 p.2 h
      exact absurd h3 (ha _ (List.mem_of_getElem? h2))
  unfold effect
  cases c with
  | false => simp [hk, hf]
  | true => have := hc rfl; simp [hk, hf, this]

theorem decodeFields_append (D : DateParser) (S : Schema) (c : Bool) (name : Text)
    (as : List AttrShape) (o : Obj) (ms ns : List (Text × Json)) :
    decodeFields D S c name as o (ms ++ ns)
      = (decodeFields D S c name as o ms).bind fun o => decodeFields D S c name as o ns := by
  induction ms generalizing o with
  | nil => rfl
  | cons e ms ih =>
    obtain ⟨k, j⟩ := e
    simp only [List.cons_append, decodeFields_effect]
    cases effect D S c name as k j with
    | ok f => exact ih (f o)
    | error => rfl
    | lost => rfl

/-- Only the last of the members with the same name counts. -/
theorem decodeFields_last (D : DateParser) (S : Schema) (c : Bool) (name : Text)
    (as : List AttrShape) (k : Text) (j : Json) (hk : ¬ (c = true ∧ k = t!"kind"))
    (ms ns : List (Text × Json)) (o o' : Obj) (f : Obj → Obj) (hf : EffectKind c name as k f)
    (ho : ∀ g, EffectKind c name as k g → g o = g o') (r : Obj) 
    (h : decodeFields D S c name as o (ms ++ (k, j) :: ns) = .ok r) :
    decodeFields D S c name as o' (ms ++ (k, j) :: ns) = .ok r := by
  induction ms generalizing o o' with
  | nil =>
    simp only [List.nil_append, decodeFields_effect] at h ⊢
    cases hg : effect D S c name as k j with
    | ok g =>
      simp only [hg, Decoded.bind] at h ⊢
      rw [← ho g (effect_kind hg)]
      exact h
    | error => simp [hg, Decoded.bind] at h
    | lost => simp [hg, Decoded.bind] at h
  | cons e ms ih =>
    obtain ⟨k', j'⟩ := e
    simp only [List.cons_append, decodeFields_effect] at h ⊢
    cases hg : effect D S c name as k' j' with
    | ok g =>
      simp only [hg, Decoded.bind] at h ⊢
      refine ih (g o) (g o') ?_ h
      intro g' hg'
      by_cases he : k = k'
      · subst he
        rw [effect_absorbs hg' (effect_kind hg) hk, effect_absorbs hg' (effect_kind hg) hk]
        exact ho g' hg'
      · rw [effects_commute hg' (effect_kind hg) he, effects_commute hg' (effect_kind hg) he,
          ho g' hg']
    | error => simp [hg, Decoded.bind] at h
    | lost => simp [hg, Decoded.bind] at h

/-! ## Maps -/

theorem decodeEntries_find (D : DateParser) (S : Schema) (el : TypeId) (ms : List (Text × Json))
    (acc m : GoMap Val) (h : decodeEntries D S el acc ms = .ok m) (key : Text) (v : Val) :
    m.find key = some v ↔
      (∃ pre j post, ms = pre ++ (key, j) :: post ∧ (∀ e ∈ post, e.1 ≠ key) ∧
        decode D S el false j = .ok v) ∨ ((∀ e ∈ ms, e.1 ≠ key) ∧ acc.find key = some v) := by
  induction ms generalizing acc with
  | nil =>
    simp only [decodeEntries, Decoded.ok.injEq] at h
    subst h
    simp
  | cons e ms ih =>
    obtain ⟨k, j⟩ := e
    rw [decodeEntries] at h
    split at h
    · simp at h
    · cases hd : decode D S el false j with
      | error => simp [hd] at h
      | lost => simp [hd] at h
      | ok w =>
        simp only [hd] at h
        rw [ih _ h, GoMap.find_insert]
        constructor
        · rintro (⟨pre, j', post, rfl, hpost, hdec⟩ | ⟨hall, hfind⟩)
          · exact .inl ⟨(k, j) :: pre, j', post, by simp, hpost, hdec⟩
          · by_cases hk : k = key
            · simp only [hk, if_true, Option.some.injEq] at hfind
              subst hfind
              exact .inl ⟨[], j, ms, by simp [hk], hall, hd⟩
            · simp only [hk, if_false] at hfind
              refine .inr ⟨?_, hfind⟩
              intro e he
              rcases List.mem_cons.1 he with rfl | he
              · exact hk
              · exact hall e he
        · rintro (⟨pre, j', post, heq, hpost, hdec⟩ | ⟨hall, hfind⟩)
          · cases pre with
            | nil =>
              simp only [List.nil_append, List.cons.injEq, Prod.mk.injEq] at heq
              obtain ⟨⟨rfl, rfl⟩, rfl⟩ := heq
              rw [hd] at hdec
              simp only [Decoded.ok.injEq] at hdec
              exact .inr ⟨hpost, by simp [hdec]⟩
            | cons x pre =>
              simp only [List.cons_append, List.cons.injEq] at heq
              exact .inl ⟨pre, j', post, heq.2, hpost, hdec⟩
          · have hk : k ≠ key := hall (k, j) (by simp)
            exact .inr ⟨fun e he => hall e (by simp [he]), by simp [hk, hfind]⟩

end GoJson

end Verif
