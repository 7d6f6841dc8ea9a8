import Verif.Spec.Outcome
import Verif.Lemmas.Bodies
import Verif.Props.Checks

/-! Lemmas about what the generators report. -/

namespace Verif.Outcome

open GoRef (Typ Attr Param)

theorem simple_iff (t : Typ) : Simple t ↔ (t.isScalar || t.isStruct) = true := by
  cases t <;> simp [Typ.isScalar, Typ.isStruct] <;>
    first | exact .basic _ | exact .enum _ | exact .struct _ | (intro h; cases h)

theorem isMap_iff (t : Typ) : IsMap t ↔ ∃ d e, t = .map d e := by
  constructor
  · rintro ⟨d, e⟩; exact ⟨d, e, rfl⟩
  · rintro ⟨d, e, rfl⟩; exact .map d e

theorem flat_iff (t : Typ) : Flat t ↔
    match t with
    | .list _ e => Simple e
    | .map _ e => Simple e
    | _ => True := by
  cases t with
  | basic b => simp; exact .simple (.basic b)
  | enum d => simp; exact .simple (.enum d)
  | struct d => simp; exact .simple (.struct d)
  | list d e =>
    constructor
    · intro h
      cases h with
      | simple h => cases h
      | list _ h => exact h
    · exact .list d
  | map d e =>
    constructor
    · intro h
      cases h with
      | simple h => cases h
      | map _ h => exact h
    · exact .map d

theorem collection_iff (t : Typ) : Collection t ↔
    match t with
    | .list _ e => ¬ IsMap e
    | _ => False := by
  cases t with
  | list d e =>
    constructor
    · rintro ⟨_, h⟩; exact h
    · exact .list d
  | _ => simp; intro h; cases h

theorem package_errors (base : Text) (t : Typ) : (GoRef.package base t).errors = 0 ↔ ¬ IsMap t := by
  rw [isMap_iff]
  cases t with
  | basic b => cases b <;> simp [GoRef.package]
  | _ => simp [GoRef.package]

theorem simple_value {base : Text} {t : Typ} (h : Simple t) : (GoRef.valueReference base t).errors = 0 := by
  cases h with
  | basic b => cases b <;> simp [GoRef.valueReference]
  | _ => simp [GoRef.valueReference, GoRef.package]

theorem value_errors (base : Text) (t : Typ) : (GoRef.valueReference base t).errors = 0 ↔ Flat t := by
  rw [flat_iff]
  cases t with
  | basic b => simp [simple_value (.basic b)]
  | enum d => simp [simple_value (.enum d)]
  | struct d => simp [simple_value (.struct d)]
  | list d e =>
    rw [GoRef.valueReference]
    by_cases h1 : e.isScalar = true
    · have : Simple e := (simple_iff e).mpr (by simp [h1])
      simp [h1, this, simple_value this]
    · by_cases h2 : e.isStruct = true
      · have : Simple e := (simple_iff e).mpr (by simp [h2])
        simp [h1, h2, this, simple_value this]
      · have : ¬ Simple e := fun h => by simpa [h1, h2] using (simple_iff e).mp h
        simp [h1, h2, this]
  | map d e =>
    rw [GoRef.valueReference]
    by_cases h1 : e.isScalar = true
    · have : Simple e := (simple_iff e).mpr (by simp [h1])
      simp [h1, this, simple_value this]
    · by_cases h2 : e.isStruct = true
      · have : Simple e := (simple_iff e).mpr (by simp [h2])
        simp [h1, h2, this, simple_value this]
      · have : ¬ Simple e := fun h => by simpa [h1, h2] using (simple_iff e).mp h
        simp [h1, h2, this]

theorem nullable_errors (base : Text) (t : Typ) (v : Text) :
    (GoRef.nullableReference base t v).errors = 0 ↔ Flat t := by
  rw [← value_errors base t]
  unfold GoRef.nullableReference
  split
  · rfl
  · split
    · split <;> rfl
    · rfl

theorem list_errors (base : Text) (t : Typ) :
    (GoRef.listReference base t).errors = 0 ↔ Collection t := by
  rw [collection_iff]
  cases t with
  | list d e => exact package_errors base e
  | _ => simp [GoRef.listReference]

theorem struct_errors_list (base : Text) (d : GoRef.Decl) (e : Typ) :
    (GoRef.structReference base (.list d e)).errors = 0 ↔ ¬ IsMap e := package_errors base e

theorem wrong_false (ref : GoRef.Ref) : wrong ref = false ↔ ref.errors = 0 := by
  simp [wrong]

theorem scalar_flat {t : Typ} (h : t.isScalar = true) : Flat t :=
  .simple ((simple_iff t).mpr (by simp [h]))

theorem struct_flat {t : Typ} (h : t.isStruct = true) : Flat t :=
  .simple ((simple_iff t).mpr (by simp [h]))

theorem fieldType_errors (base : Text) (a : Attr) :
    (GoRef.fieldType base a).errors = 0 ↔ AttrOk a := by
  unfold GoRef.fieldType AttrOk
  obtain ⟨t, link, owner⟩ := a
  cases link <;> cases t <;>
    simp [Typ.isScalar, Typ.isStruct, Typ.isList, value_errors, nullable_errors, list_errors]

theorem getterType_errors (base : Text) (a : Attr) :
    (GoRef.getterType base a).errors = 0 ↔ AttrOk a := fieldType_errors base a

theorem attributeType_iff (base : Text) (a : Attr) : attributeTypeReports base a = false ↔ AttrOk a := by
  unfold attributeTypeReports
  rw [Bool.or_eq_false_iff, wrong_false, wrong_false, fieldType_errors, getterType_errors]
  simp

theorem bitmap_iff (t : TypeInfo) : bitmapReports t.isClass t.attributes = false ↔ Fits t := by
  unfold bitmapReports Fits
  cases t.isClass <;> simp

/-! ## Builders and JSON -/

theorem builder_simple {base v : Text} {e : Typ} (h : Simple e) (hs : e.isScalar = false) :
    (GoRef.builderReference base e v).errors = 0 := by
  cases h with
  | struct d =>
    unfold GoRef.builderReference
    by_cases hv : v = [] <;> simp [hv, GoRef.package]
  | _ => simp [Typ.isScalar] at hs

theorem attributeBuilder_ok {base : Text} {a : Attr} (h : AttrOk a) :
    attributeBuilderReports base a = false := by
  obtain ⟨t, link, owner⟩ := a
  unfold AttrOk at h
  unfold attributeBuilderReports
  rw [Bool.or_eq_false_iff, Bool.or_eq_false_iff, wrong_false, wrong_false]
  cases t with
  | basic b =>
    refine ⟨⟨?_, ?_⟩, rfl⟩
    · exact simple_value (.basic b)
    · exact simple_value (.basic b)
  | enum d => exact ⟨⟨simple_value (.enum d), simple_value (.enum d)⟩, rfl⟩
  | struct d =>
    exact ⟨⟨builder_simple (.struct d) rfl, builder_simple (.struct d) rfl⟩, rfl⟩
  | list d e =>
    cases link with
    | true =>
      simp [Typ.isList] at h
      have h := (collection_iff _).mp h
      have hp := (package_errors base e).mpr h
      refine ⟨⟨?_, ?_⟩, rfl⟩ <;>
        simp only [GoRef.builderFieldType, GoRef.builderSetterType, if_true, GoRef.builderReference] <;>
        split <;> exact hp
    | false =>
      simp at h
      have h : Simple e := (flat_iff (.list d e)).mp h
      have hl := (value_errors base (.list d e)).mpr (.list d h)
      cases hs : e.isScalar with
      | true =>
        simp only [GoRef.builderFieldType, GoRef.builderSetterType, hs, if_true]
        refine ⟨⟨?_, ?_⟩, by simp [wrong, simple_value h]⟩
        · simpa [nullable_errors] using Flat.list d h
        · simpa using hl
      | false =>
        have hb := builder_simple (base := base) (v := Attr.referencedVersion ⟨.list d e, false, owner⟩) h hs
        simp only [GoRef.builderFieldType, GoRef.builderSetterType, hs]
        refine ⟨⟨hb, hb⟩, ?_⟩
        have hn : builderNameReports e = false := by
          cases h with
          | struct d => rfl
          | _ => simp [Typ.isScalar] at hs
        simp [wrong, simple_value h, hn]
  | map d e =>
    have h : Simple e := by
      have : Flat (.map d e) := by simpa [Typ.isList] using h
      exact (flat_iff _).mp this
    have hl := (value_errors base (.map d e)).mpr (.map d h)
    have hn : (e.isStruct && builderNameReports e) = false := by
      cases h <;> rfl
    cases hs : e.isScalar with
    | true =>
      simp only [GoRef.builderFieldType, GoRef.builderSetterType, hs, if_true]
      refine ⟨⟨?_, ?_⟩, hn⟩
      · simpa [nullable_errors] using Flat.map d h
      · simpa using hl
    | false =>
      have hb := builder_simple (base := base) (v := Attr.referencedVersion ⟨.map d e, link, owner⟩) h hs
      simp only [GoRef.builderFieldType, GoRef.builderSetterType, hs]
      exact ⟨⟨hb, hb⟩, hn⟩

theorem enum_wrong (base : Text) (d : GoRef.Decl) : wrong (GoRef.enumReference base (.enum d)) = false := by
  simp [wrong, GoRef.enumReference, GoRef.valueReference, GoRef.package]

theorem read_simple {base : Text} {link : Bool} {t : Typ} (h : Simple t) : readReports base link t = false := by
  cases h with
  | enum d => exact enum_wrong base d
  | _ => rfl

theorem read_flat {base : Text} {t : Typ} (h : Flat t) : readReports base false t = false := by
  cases h with
  | simple h => exact read_simple h
  | list d h => rfl
  | map d h =>
    rw [readReports, Bool.or_eq_false_iff, wrong_false]
    exact ⟨(value_errors base _).mpr (.map d h), read_simple h⟩

theorem read_ok {base : Text} {a : Attr} (h : AttrOk a) : readReports base a.link a.typ = false := by
  obtain ⟨t, link, owner⟩ := a
  unfold AttrOk at h
  cases link with
  | false => exact read_flat (by simpa using h)
  | true =>
    cases t with
    | list d e =>
      have h := (collection_iff _).mp (by simpa [Typ.isList] using h)
      simp only [readReports, Bool.true_and, wrong_false]
      exact (struct_errors_list base d e).mpr h
    | map d e =>
      have h : Flat (.map d e) := by simpa [Typ.isList] using h
      exact read_flat h
    | basic b => exact read_simple (.basic b)
    | enum b => exact read_simple (.enum b)
    | struct b => exact read_simple (.struct b)

/-! ## Parameters -/

theorem isItems_iff (m : Method) (p : Parameter) : p.isItems m = true ↔ IsItemsOf m p := by
  unfold Parameter.isItems IsItemsOf Method.isList Method.isSearch
  rw [Bool.and_eq_true, Bool.or_eq_true, named_iff, named_iff]
  have : Name.equals (some p.name) (some Nom.items) = true ↔ p.name = Nom.items := by
    have := named_iff { name := p.name } Nom.items
    exact this
  rw [this]

theorem paramOk_iff (api : Api) (m : Method) (p : Parameter) :
    ParamOk api m p ↔
      if p.isItems m then Collection (api.typeOf p.typ.id) else Flat (api.typeOf p.typ.id) := by
  unfold ParamOk
  rw [← isItems_iff]
  cases p.isItems m <;> simp

theorem field_errors (base : Text) (p : Param) :
    (GoRef.parameterFieldType base p).errors = 0 ↔ if p.items then Collection p.typ else Flat p.typ := by
  unfold GoRef.parameterFieldType
  cases p.items <;> simp [nullable_errors, list_errors]

theorem accessor_errors (base : Text) (p : Param) (h : if p.items then Collection p.typ else Flat p.typ) :
    (GoRef.accessorType base p).errors = 0 := by
  obtain ⟨t, items⟩ := p
  cases t with
  | list d e =>
    unfold GoRef.accessorType
    dsimp only at h ⊢
    cases hs : e.isScalar with
    | true =>
      have : Flat (.list d e) := .list d ((simple_iff e).mpr (by simp [hs]))
      simp [nullable_errors, this]
    | false =>
      cases items with
      | true => simpa [list_errors] using h
      | false => simpa [nullable_errors] using h
  | basic b =>
    cases items with
    | true => exact absurd ((collection_iff _).mp (by simpa using h)) (by simp)
    | false => simp [GoRef.accessorType, Typ.isScalar, simple_value (.basic b)]
  | enum b =>
    cases items with
    | true => exact absurd ((collection_iff _).mp (by simpa using h)) (by simp)
    | false => simp [GoRef.accessorType, Typ.isScalar, simple_value (.enum b)]
  | struct b =>
    cases items with
    | true => exact absurd ((collection_iff _).mp (by simpa using h)) (by simp)
    | false =>
      simp only [GoRef.accessorType, Typ.isScalar]
      simpa [nullable_errors] using h
  | map d e =>
    cases items with
    | true => exact absurd ((collection_iff _).mp (by simpa using h)) (by simp)
    | false =>
      simp only [GoRef.accessorType, Typ.isScalar]
      simpa [nullable_errors] using h

theorem request_iff (base : Text) (api : Api) (m : Method) :
    requestReports base api.typeOf m = false ↔
      ∀ p ∈ m.parameters, p.isIn = true → ParamOk api m p := by
  unfold requestReports Binding.requestParameters
  simp only [List.any_eq_false, List.mem_filter, Bool.not_eq_true, Bool.or_eq_false_iff, wrong_false,
    and_imp, field_errors]
  constructor
  · intro h p hp hi
    exact (paramOk_iff api m p).mpr (h p hp hi).1
  · intro h p hp hi
    have := (paramOk_iff api m p).mp (h p hp hi)
    exact ⟨this, accessor_errors base _ this⟩

theorem response_iff (base : Text) (api : Api) (m : Method) :
    responseReports base api.typeOf m = false ↔
      ∀ p ∈ m.parameters, p.isOut = true → ParamOk api m p := by
  unfold responseReports Binding.responseParameters
  simp only [List.any_eq_false, List.mem_filter, Bool.not_eq_true, Bool.or_eq_false_iff, wrong_false,
    and_imp]
  constructor
  · intro h p hp hi
    obtain ⟨h1, h2⟩ := h p hp hi
    rw [paramOk_iff]
    cases ht : api.typeOf p.typ.id with
    | list d e =>
      rw [ht] at h1
      dsimp only at h1
      cases hs : e.isScalar with
      | true =>
        have hf : Simple e := (simple_iff e).mpr (by simp [hs])
        split
        · apply Collection.list
          rintro ⟨⟩
          simp [Typ.isScalar] at hs
        · exact .list d hf
      | false =>
        rw [hs] at h1
        have := (field_errors base _).mp ((wrong_false _).mp h1)
        simpa [paramOf, ht] using this
    | _ =>
      rw [ht] at h1
      have := (field_errors base _).mp ((wrong_false _).mp h1)
      simpa [paramOf, ht] using this
  · intro h p hp hi
    have hk := (paramOk_iff api m p).mp (h p hp hi)
    refine ⟨?_, accessor_errors base _ hk⟩
    have hf := (wrong_false _).mpr ((field_errors base (paramOf api.typeOf m p)).mpr hk)
    split
    · split
      · rename_i e _ hs
        exact (wrong_false _).mpr (simple_value ((simple_iff e).mpr (by simp [hs])))
      · exact hf
    · exact hf

theorem poll_ok {base : Text} {api : Api} {m : Method}
    (h : ∀ p ∈ m.parameters, ParamOk api m p) : pollReports base api.typeOf m = false := by
  unfold pollReports Binding.requestParameters Binding.responseParameters
  simp only [Bool.or_eq_false_iff, List.any_eq_false, List.mem_filter, Bool.not_eq_true, wrong_false, and_imp]
  exact ⟨fun p hp _ => accessor_errors base _ ((paramOk_iff api m p).mp (h p hp)),
    fun p hp _ => accessor_errors base _ ((paramOk_iff api m p).mp (h p hp))⟩

/-! ## Exact conditions -/

theorem builderRef_errors (base v : Text) (t : Typ) :
    (GoRef.builderReference base t v).errors = 0 ↔ t.isStruct = true ∨ Collection t := by
  rw [collection_iff]
  cases t with
  | struct d => by_cases h : v = [] <;> simp [GoRef.builderReference, h, GoRef.package, Typ.isStruct]
  | list d e =>
    have := package_errors base e
    by_cases h : v = [] <;> simp [GoRef.builderReference, h, Typ.isStruct, this]
  | _ => simp [GoRef.builderReference, Typ.isStruct]

theorem builderName_iff (t : Typ) : builderNameReports t = false ↔ (t.isStruct || t.isList) = true := by
  cases t <;> simp [builderNameReports, Typ.isStruct, Typ.isList]

theorem simple_of_scalar {t : Typ} (h : t.isScalar = true) : Simple t := (simple_iff t).mpr (by simp [h])

theorem not_map_simple {t : Typ} (h : Simple t) : ¬ IsMap t := by
  rintro ⟨⟩
  cases h

theorem attributeBuilder_iff (base : Text) (a : Attr) :
    attributeBuilderReports base a = false ↔ BuilderOk a := by
  obtain ⟨t, link, owner⟩ := a
  unfold attributeBuilderReports BuilderOk
  rw [Bool.or_eq_false_iff, Bool.or_eq_false_iff, wrong_false, wrong_false]
  cases t with
  | basic b =>
    have := simple_value (base := base) (.basic b)
    simp [GoRef.builderFieldType, GoRef.builderSetterType, this]
  | enum d =>
    have := simple_value (base := base) (.enum d)
    simp [GoRef.builderFieldType, GoRef.builderSetterType, this]
  | struct d =>
    have := builder_simple (base := base) (v := Attr.referencedVersion ⟨.struct d, link, owner⟩)
      (.struct d) rfl
    simp [GoRef.builderFieldType, GoRef.builderSetterType, this]
  | list d e =>
    cases link with
    | true =>
      simp only [GoRef.builderFieldType, GoRef.builderSetterType, if_true, builderRef_errors,
        collection_iff]
      simp [Typ.isStruct]
    | false =>
      cases hs : e.isScalar with
      | true =>
        have h := simple_of_scalar hs
        have h2 : Flat (.list d e) := .list d h
        simp [GoRef.builderFieldType, GoRef.builderSetterType, hs, nullable_errors, value_errors, h2, h,
          wrong_false, Flat.simple h]
      | false =>
        simp only [GoRef.builderFieldType, GoRef.builderSetterType, hs, builderRef_errors, wrong_false,
          value_errors, Bool.not_false, Bool.true_and, Bool.or_eq_false_iff, builderName_iff, if_false,
          Bool.false_eq_true]
        cases e with
        | basic b => simp [Typ.isScalar] at hs
        | enum b => simp [Typ.isScalar] at hs
        | struct d' =>
          have : Flat (.struct d') := .simple (.struct d')
          have h : Simple (.struct d') := .struct d'
          simp [Typ.isStruct, this, h]
        | list d' e' =>
          have h1 : ¬ Simple (.list d' e') := by rintro ⟨⟩
          simp only [Typ.isStruct, Typ.isList, collection_iff, flat_iff, h1]
          constructor
          · rintro ⟨-, h, -⟩
            exact .inr ⟨d', e', rfl, h⟩
          · rintro (h | ⟨_, _, he, h⟩)
            · exact absurd h (by simp)
            · cases he
              exact ⟨⟨.inr (not_map_simple h), .inr (not_map_simple h)⟩, h, rfl⟩
        | map d' e' =>
          have h1 : ¬ Simple (.map d' e') := by rintro ⟨⟩
          simp [Typ.isStruct, Typ.isList, h1]
  | map d e =>
    cases hs : e.isScalar with
    | true =>
      have h := simple_of_scalar hs
      have h2 : Flat (.map d e) := .map d h
      have h3 : e.isStruct = false := by cases e <;> simp [Typ.isScalar, Typ.isStruct] at hs ⊢
      simp [GoRef.builderFieldType, GoRef.builderSetterType, hs, nullable_errors, value_errors, h2, h, h3]
    | false =>
      simp only [GoRef.builderFieldType, GoRef.builderSetterType, hs, builderRef_errors]
      have h3 : (e.isStruct && builderNameReports e) = false := by
        cases e <;> simp [Typ.isStruct, builderNameReports]
      have h4 : Simple e ↔ e.isStruct = true := by rw [simple_iff]; simp [hs]
      simp [h3, h4, builderRef_errors]

theorem read_iff (base : Text) (t : Typ) : readReports base false t = false ↔ Readable t := by
  unfold Readable
  cases t with
  | basic b => simp [readReports]
  | enum d => simp [readReports, enum_wrong]
  | struct d => simp [readReports]
  | list d e => simp [readReports]
  | map d e =>
    rw [readReports, Bool.or_eq_false_iff, wrong_false, value_errors, flat_iff]
    constructor
    · rintro ⟨h, -⟩ d' e' he
      cases he
      exact h
    · intro h
      exact ⟨h d e rfl, read_simple (h d e rfl)⟩

theorem readLink_iff (base : Text) (t : Typ) :
    readReports base true t = false ↔ Readable t ∧ (t.isList = true → Collection t) := by
  cases t with
  | list d e =>
    rw [collection_iff]
    simp only [readReports, Bool.true_and, wrong_false, struct_errors_list]
    simp [Readable, Typ.isList]
  | map d e =>
    have := read_iff base (.map d e)
    simp only [readReports] at this ⊢
    rw [this]
    simp [Typ.isList]
  | enum d => simp [readReports, enum_wrong, Readable, Typ.isList]
  | _ => simp [readReports, Readable, Typ.isList]

theorem lastWhere_iff {α : Type} (P : α → Bool) (l : List α) (a : α) :
    GoJson.lastWhere P l = some a ↔
      ∃ before after, l = before ++ a :: after ∧ P a = true ∧ ∀ b ∈ after, P b = false := by
  unfold GoJson.lastWhere
  suffices h : ∀ acc : Option α,
      l.foldl (fun acc a => if P a then some a else acc) acc = some a ↔
        (∃ before after, l = before ++ a :: after ∧ P a = true ∧ ∀ b ∈ after, P b = false) ∨
          (acc = some a ∧ ∀ b ∈ l, P b = false) by
    rw [h none]
    simp
  induction l with
  | nil => intro acc; simp
  | cons x l ih =>
    intro acc
    rw [List.foldl_cons, ih]
    constructor
    · rintro (⟨before, after, rfl, h2, h3⟩ | ⟨h1, h2⟩)
      · exact .inl ⟨x :: before, after, rfl, h2, h3⟩
      · by_cases hx : P x = true
        · rw [if_pos hx] at h1
          cases h1
          exact .inl ⟨[], l, rfl, hx, h2⟩
        · rw [if_neg hx] at h1
          refine .inr ⟨h1, fun b hb => ?_⟩
          rcases List.mem_cons.mp hb with rfl | hb
          · simpa using hx
          · exact h2 b hb
    · rintro (⟨before, after, h1, h2, h3⟩ | ⟨h1, h2⟩)
      · cases before with
        | nil =>
          obtain ⟨rfl, rfl⟩ := List.cons.inj h1
          exact .inr ⟨if_pos h2, h3⟩
        | cons y before =>
          obtain ⟨rfl, rfl⟩ := List.cons.inj h1
          exact .inl ⟨before, after, rfl, h2, h3⟩
      · have hx := h2 x (by simp)
        exact .inr ⟨by simp [hx, h1], fun b hb => h2 b (by simp [hb])⟩

theorem equals_names (a b : Name) : Name.equals (some a) (some b) = true ↔ a = b :=
  named_iff { name := a } b

theorem lastNamed_iff (m : Method) (n : Name) (p : Parameter) :
    GoJson.lastNamed m n = some p ↔ IsLast m n p := by
  unfold GoJson.lastNamed IsLast
  rw [lastWhere_iff]
  simp only [equals_names, ← Bool.not_eq_true]

theorem option_any_false {α : Type} (o : Option α) (f : α → Bool) :
    o.any f = false ↔ ∀ a, o = some a → f a = false := by
  cases o <;> simp

theorem page_iff (base : Text) (api : Api) (m : Method) (special : List Name) :
    pageReports base api.typeOf m special = false ↔ PageOk api m special := by
  unfold pageReports
  simp only [Bool.or_eq_false_iff, option_any_false, lastNamed_iff, readParameterReports, read_iff,
    List.any_eq_false, Bool.not_eq_true]
  have ho : (∀ x ∈ (GoJson.otherParameters m special).filter (fun p => p.isOut),
      Readable (api.typeOf x.typ.id)) ↔
      ∀ p ∈ m.parameters, p.isOut = true → p.name ∉ special → Readable (api.typeOf p.typ.id) := by
    unfold GoJson.otherParameters
    simp only [List.mem_filter, Bool.not_eq_true', List.any_eq_false, equals_names, and_imp]
    constructor
    · intro h p hp hout hn
      exact h p hp (fun n hm e => hn (e ▸ hm)) hout
    · intro h p hp hn hout
      exact h p hp hout (fun hm => hn _ hm rfl)
  rw [ho]
  have hi : (itemsReports base api.typeOf (GoJson.lastNamed m Nom.items) = false) ↔
      ∃ p, IsLast m Nom.items p ∧
        (Collection (api.typeOf p.typ.id) ∨ (api.typeOf p.typ.id).isStruct = true) := by
    cases hl : GoJson.lastNamed m Nom.items with
    | none =>
      simp only [itemsReports, Bool.true_eq_false, false_iff]
      rintro ⟨p, hp, -⟩
      rw [(lastNamed_iff m _ p).mpr hp] at hl
      cases hl
    | some items =>
      have hu : ∀ p, IsLast m Nom.items p ↔ p = items := by
        intro p
        rw [← lastNamed_iff, hl]
        simp [eq_comm]
      simp only [itemsReports, hu, exists_eq_left, Bool.or_eq_false_iff, read_iff, collection_iff]
      cases ht : api.typeOf items.typ.id with
      | list d e =>
        simp only [Bool.and_eq_false_iff, wrong_false, struct_errors_list, Typ.isStruct]
        constructor
        · rintro ⟨-, h | h⟩
          · exact .inl (not_map_simple (simple_of_scalar (by simpa using h)))
          · exact .inl h
        · rintro (h | h)
          · exact ⟨by simp [Readable], .inr h⟩
          · cases h
      | struct d => simp [Readable, wrong, GoRef.structReference, GoRef.package, Typ.isStruct]
      | _ => simp [wrong, GoRef.structReference, Typ.isStruct]
  rw [hi]
  constructor
  · rintro ⟨⟨⟨⟨h1, h2⟩, h3⟩, h4⟩, h5⟩
    exact ⟨h1, h2, h3, h4, h5⟩
  · rintro ⟨h1, h2, h3, h4, h5⟩
    exact ⟨⟨⟨⟨h1, h2⟩, h3⟩, h4⟩, h5⟩

end Verif.Outcome
