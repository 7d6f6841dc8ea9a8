import Verif.Lemmas.GoRefs

/-! Properties of the types of the generated Go code. -/

namespace Verif

namespace GoRef

/-- If the type of an attribute belongs to another version, that version has a name and it isn't the
one where the code is generated. -/
def LinkedElsewhere (base : Text) (here : Owner) (a : Attr) : Prop :=
  ∀ o, a.linkOwner = some o → o.version.toText ≠ [] ∧
    ∀ d, mentioned a.typ = some d → home base d.owner ≠ home base here

/-- The enumerated types that are mentioned are those of the version where the code is generated. -/
def EnumsHere (base : Text) (here : Owner) (t : Typ) : Prop :=
  MentionsEnum t → ∀ d, mentioned t = some d → home base d.owner = home base here

theorem written_bare_iff (base : Text) (here o : Owner) (pre v nm : Text) :
    pre ++ nm = pre ++ (GoType.declared (home base o) v nm).written (home base here) ↔
      home base o = home base here := by
  unfold GoType.written
  constructor
  · intro h
    apply Decidable.byContradiction
    intro hn
    rw [if_neg hn] at h
    have := congrArg List.length (List.append_cancel_left h)
    simp at this
    omega
  · intro h
    rw [if_pos h]

/-- C78: the types of the fields of the generated objects are the right ones exactly if the
enumerated types are used in their own version, and the text of the name of the version of the
objects of other versions is the name of its package. -/
theorem c78_field_iff (base : Text) (here : Owner) (a : Attr) (t : GoType)
    (hu : Usable base here a.typ) (hl : LinkedElsewhere base here a)
    (ht : attributeType base a = some t) :
    emit (home base here) (fieldType base a) = t.written (home base here) ↔
      EnumsHere base here a.typ ∧
      ∀ d o, a.typ = .struct d → a.linkOwner = some o →
        o.version.toText = d.owner.version.lowerJoined [] := by
  obtain ⟨typ, link, linkOwner⟩ := a
  have hb := hu.base
  cases typ with
  | basic b =>
    have h0 := nil_ne_home base here
    have h1 := time_ne_home base here
    cases b <;>
      simp only [attributeType, Typ.isList, Bool.false_and, Bool.false_eq_true, if_false, typeOf,
        elementType, basicType, Option.some.injEq] at ht <;>
      subst ht <;>
      simp [fieldType, Typ.isScalar, valueReference, emit, h0, h1, GoType.written, EnumsHere,
        MentionsEnum]
  | enum d =>
    simp only [attributeType, Typ.isList, Bool.false_and, Bool.false_eq_true, if_false, typeOf,
      elementType, Option.some.injEq] at ht
    subst ht
    have ho := hu.owner d rfl
    have hd := hu.dot d rfl
    have he : emit (home base here) (fieldType base ⟨.enum d, link, linkOwner⟩) =
        [] ++ (Go.nameOf d.annotations d.name ++ []) := by
      have hf : fieldType base ⟨.enum d, link, linkOwner⟩ = { package base (.enum d) with
          name := goTypeName d, text := goTypeName d } := rfl
      rw [hf, emit_bare _ _ hd]
      simp [goTypeName]
    rw [he]
    have := written_bare_iff base here d.owner [] (d.owner.version.lowerJoined [])
      (Go.nameOf d.annotations d.name ++ [])
    rw [List.nil_append, List.nil_append] at this
    unfold declaredType
    rw [List.nil_append, this]
    simp [EnumsHere, MentionsEnum, mentioned]
  | struct d =>
    simp only [attributeType, Typ.isList, Bool.false_and, Bool.false_eq_true, if_false, typeOf,
      elementType, Option.some.injEq] at ht
    subst ht
    have ho := hu.owner d rfl
    have hd := hu.dot d rfl
    cases linkOwner with
    | none =>
      have he : emit (home base here) (fieldType base ⟨.struct d, link, none⟩) =
          t!"*" ++ (declaredType base d []).written (home base here) := by
        have hf : fieldType base ⟨.struct d, link, none⟩ = ⟨home base d.owner,
            d.owner.version.lowerJoined [], Go.nameOf d.annotations d.name,
            t!"*" ++ d.owner.version.lowerJoined [] ++ t!"." ++ Go.nameOf d.annotations d.name, 0⟩ := by
          simp [fieldType, Typ.isScalar, Typ.isStruct, nullableReference, valueReference,
            package_decl base hb d ho, Attr.referencedVersion, goTypeName]
        rw [hf, emit_qualified base here d.owner _ _ _ _ ho (by decide) hd]
        simp [declaredType]
      rw [he]
      simp [GoType.written, EnumsHere, MentionsEnum]
    | some o =>
      obtain ⟨hv, hh⟩ := hl o rfl
      have hh' := hh d rfl
      have he : emit (home base here) (fieldType base ⟨.struct d, link, some o⟩) =
          t!"*" ++ o.version.toText ++ t!"." ++ Go.nameOf d.annotations d.name := by
        have hf : fieldType base ⟨.struct d, link, some o⟩ = ⟨home base d.owner,
            d.owner.version.lowerJoined [], Go.nameOf d.annotations d.name,
            t!"*" ++ o.version.toText ++ t!"." ++ Go.nameOf d.annotations d.name, 0⟩ := by
          simp [fieldType, Typ.isScalar, Typ.isStruct, nullableReference, valueReference,
            package_decl base hb d ho, Attr.referencedVersion, goTypeName, hv]
        rw [hf]
        exact emit_foreign _ _ hh'
      rw [he]
      simp only [declaredType, GoType.written, if_neg hh', List.append_nil, EnumsHere, MentionsEnum,
        false_imp_iff, true_and, Typ.struct.injEq, Option.some.injEq]
      constructor
      · rintro h d' o' rfl rfl
        have h2 : o.version.toText ++ (t!"." ++ Go.nameOf d.annotations d.name) =
            d.owner.version.lowerJoined [] ++ (t!"." ++ Go.nameOf d.annotations d.name) := by
          have := List.append_cancel_left (as := t!"*") (bs := o.version.toText ++ (t!"." ++ Go.nameOf d.annotations d.name))
            (cs := d.owner.version.lowerJoined [] ++ (t!"." ++ Go.nameOf d.annotations d.name))
            (by simpa using h)
          exact this
        exact List.append_cancel_right h2
      · intro h
        rw [h d o rfl rfl]
        simp
  | list ld element =>
    cases link with
    | true =>
      simp only [attributeType, Typ.isList, Bool.and_self, if_true] at ht
      cases element with
      | struct d =>
        simp only [objectsType, Option.some.injEq] at ht
        subst ht
        have ho := hu.owner d rfl
        have hd := hu.dot d rfl
        have hf : fieldType base ⟨.list ld (.struct d), true, linkOwner⟩ = ⟨home base d.owner,
            d.owner.version.lowerJoined [], Go.nameOf d.annotations d.name ++ t!"List",
            t!"*" ++ d.owner.version.lowerJoined [] ++ t!"." ++
              (Go.nameOf d.annotations d.name ++ t!"List"), 0⟩ := by
          simp [fieldType, Typ.isScalar, Typ.isStruct, Typ.isList, listReference,
            package_decl base hb d ho, Typ.decl, goTypeName]
        rw [hf, emit_qualified base here d.owner _ _ _ _ ho (by decide)
          (dot_append hd (by decide))]
        simp [declaredType, GoType.written, EnumsHere, MentionsEnum]
      | basic b => simp [objectsType] at ht
      | enum d => simp [objectsType] at ht
      | list _ _ => simp [objectsType] at ht
      | map _ _ => simp [objectsType] at ht
    | false =>
      simp only [attributeType, Bool.and_false, Bool.false_eq_true, if_false, typeOf] at ht
      cases element with
      | basic b =>
        have h0 := nil_ne_home base here
        have h1 := time_ne_home base here
        cases b <;>
          simp only [elementType, basicType, Option.map_some, Option.some.injEq] at ht <;>
          subst ht <;>
          simp [fieldType, Typ.isScalar, Typ.isStruct, Typ.isList, nullableReference,
            valueReference, emit, h0, h1, GoType.written, EnumsHere, MentionsEnum]
      | enum d =>
        simp only [elementType, Option.map_some, Option.some.injEq] at ht
        subst ht
        have hd := hu.dot d rfl
        have he : emit (home base here) (fieldType base ⟨.list ld (.enum d), false, linkOwner⟩) =
            t!"[]" ++ (Go.nameOf d.annotations d.name ++ []) := by
          have hf : fieldType base ⟨.list ld (.enum d), false, linkOwner⟩ =
            { package base (.enum d) with
              name := goTypeName d, text := t!"[]" ++ goTypeName d } := rfl
          rw [hf, emit_bare _ _ (dot_append (by decide) hd)]
          simp [goTypeName]
        rw [he]
        unfold declaredType
        rw [GoType.written, written_bare_iff]
        simp [EnumsHere, MentionsEnum, mentioned]
      | struct d =>
        simp only [elementType, Option.map_some, Option.some.injEq] at ht
        subst ht
        have ho := hu.owner d rfl
        have hd := hu.dot d rfl
        have hf : fieldType base ⟨.list ld (.struct d), false, linkOwner⟩ = ⟨home base d.owner,
            d.owner.version.lowerJoined [], Go.nameOf d.annotations d.name,
            t!"[]*" ++ d.owner.version.lowerJoined [] ++ t!"." ++ Go.nameOf d.annotations d.name, 0⟩ := by
          simp [fieldType, Typ.isScalar, Typ.isStruct, Typ.isList, nullableReference,
            valueReference, package_decl base hb d ho, goTypeName]
        rw [hf, emit_qualified base here d.owner _ _ _ _ ho (by decide) hd]
        simp [declaredType, GoType.written, EnumsHere, MentionsEnum]
      | list _ _ => simp [elementType] at ht
      | map _ _ => simp [elementType] at ht
  | map ld element =>
    simp only [attributeType, Typ.isList, Bool.false_and, Bool.false_eq_true, if_false, typeOf] at ht
    cases element with
    | basic b =>
      have h0 := nil_ne_home base here
      have h1 := time_ne_home base here
      cases b <;>
        simp only [elementType, basicType, Option.map_some, Option.some.injEq] at ht <;>
        subst ht <;>
        simp [fieldType, Typ.isScalar, Typ.isStruct, Typ.isList, nullableReference,
          valueReference, emit, h0, h1, GoType.written, EnumsHere, MentionsEnum]
    | enum d =>
      simp only [elementType, Option.map_some, Option.some.injEq] at ht
      subst ht
      have hd := hu.dot d rfl
      have he : emit (home base here) (fieldType base ⟨.map ld (.enum d), link, linkOwner⟩) =
          t!"map[string]" ++ (Go.nameOf d.annotations d.name ++ []) := by
        have hf : fieldType base ⟨.map ld (.enum d), link, linkOwner⟩ =
          { package base (.enum d) with
            name := goTypeName d, text := t!"map[string]" ++ goTypeName d } := rfl
        rw [hf, emit_bare _ _ (dot_append (by decide) hd)]
        simp [goTypeName]
      rw [he]
      unfold declaredType
      rw [GoType.written, written_bare_iff]
      simp [EnumsHere, MentionsEnum, mentioned]
    | struct d =>
      simp only [elementType, Option.map_some, Option.some.injEq] at ht
      subst ht
      have ho := hu.owner d rfl
      have hd := hu.dot d rfl
      have hf : fieldType base ⟨.map ld (.struct d), link, linkOwner⟩ = ⟨home base d.owner,
          d.owner.version.lowerJoined [], Go.nameOf d.annotations d.name,
          t!"map[string]*" ++ d.owner.version.lowerJoined [] ++ t!"." ++ Go.nameOf d.annotations d.name, 0⟩ := by
        simp [fieldType, Typ.isScalar, Typ.isStruct, Typ.isList, nullableReference,
          valueReference, package_decl base hb d ho, goTypeName]
      rw [hf, emit_qualified base here d.owner _ _ _ _ ho (by decide) hd]
      simp [declaredType, GoType.written, EnumsHere, MentionsEnum]
    | list _ _ => simp [elementType] at ht
    | map _ _ => simp [elementType] at ht

/-- C78: getters return what fields contain. -/
theorem c78_getter (base pkg : Text) (a : Attr) :
    emit pkg (getterType base a) = emit pkg (fieldType base a) ∧
    importOf pkg (getterType base a) = importOf pkg (fieldType base a) := ⟨rfl, rfl⟩

/-- C78: the packages needed by the types of the fields are imported, and no others. -/
theorem c78_import (base : Text) (here : Owner) (a : Attr) (t : GoType)
    (hu : Usable base here a.typ) (ht : attributeType base a = some t) :
    importOf (home base here) (fieldType base a) = t.needs (home base here) := by
  obtain ⟨typ, link, linkOwner⟩ := a
  have hb := hu.base
  have h0 := nil_ne_home base here
  have h1 := time_ne_home base here
  have hn : ∀ o, home base o ≠ [] := fun o => (nil_ne_home base o).symm
  have key : ∀ (d : Decl) (s n x : Text) (e : Nat), UsableOwner d.owner →
      importOf (home base here) ⟨home base d.owner, d.owner.version.lowerJoined [], n, x, e⟩ =
        (declaredType base d s).needs (home base here) := by
    intro d s n x e _
    unfold importOf declaredType GoType.needs
    by_cases h : home base d.owner = home base here
    · rw [if_neg (by rintro ⟨-, h2⟩; exact h2 h), if_pos h]
    · rw [if_pos ⟨hn _, h⟩, if_neg h]
  have hbasic : ∀ (b : Basic) (typ : Typ), typ = .basic b →
      importOf (home base here) (valueReference base typ) = (basicType b).needs (home base here) := by
    rintro b typ rfl
    cases b <;> simp [valueReference, importOf, basicType, GoType.needs, h1]
  have hdecl : ∀ (d : Decl) (n x s : Text) (e : Typ), (e = .enum d ∨ e = .struct d) →
      UsableOwner d.owner →
      importOf (home base here) { package base e with name := n, text := x } =
        (declaredType base d s).needs (home base here) := by
    rintro d n x s e (rfl | rfl) ho
    · rw [(package_decl base hb d ho).1]; exact key d s n x 0 ho
    · rw [(package_decl base hb d ho).2]; exact key d s n x 0 ho
  cases typ with
  | basic b =>
    simp only [attributeType, Typ.isList, Bool.false_and, Bool.false_eq_true, if_false, typeOf,
      elementType, Option.some.injEq] at ht
    subst ht
    exact hbasic b _ rfl
  | enum d =>
    simp only [attributeType, Typ.isList, Bool.false_and, Bool.false_eq_true, if_false, typeOf,
      elementType, Option.some.injEq] at ht
    subst ht
    exact hdecl d _ _ [] _ (.inl rfl) (hu.owner d rfl)
  | struct d =>
    simp only [attributeType, Typ.isList, Bool.false_and, Bool.false_eq_true, if_false, typeOf,
      elementType, Option.some.injEq] at ht
    subst ht
    have ho := hu.owner d rfl
    by_cases hr : (Attr.referencedVersion ⟨.struct d, link, linkOwner⟩) = []
    · have hf : fieldType base ⟨.struct d, link, linkOwner⟩ = { package base (.struct d) with
          name := goTypeName d, text := t!"*" ++ (package base (.struct d)).selector ++ t!"." ++ goTypeName d } := by
        simp [fieldType, Typ.isScalar, Typ.isStruct, nullableReference, valueReference, hr]
      rw [hf]
      exact hdecl d _ _ [] _ (.inr rfl) ho
    · have hf : fieldType base ⟨.struct d, link, linkOwner⟩ = { package base (.struct d) with
          name := goTypeName d, text := t!"*" ++ (Attr.referencedVersion ⟨.struct d, link, linkOwner⟩) ++
            t!"." ++ goTypeName d } := by
        simp [fieldType, Typ.isScalar, Typ.isStruct, nullableReference, valueReference, hr]
      rw [hf]
      exact hdecl d _ _ [] _ (.inr rfl) ho
  | list ld element =>
    cases link with
    | true =>
      simp only [attributeType, Typ.isList, Bool.and_self, if_true] at ht
      cases element with
      | struct d =>
        simp only [objectsType, Option.some.injEq] at ht
        subst ht
        exact hdecl d _ _ t!"List" _ (.inr rfl) (hu.owner d rfl)
      | basic b => simp [objectsType] at ht
      | enum d => simp [objectsType] at ht
      | list _ _ => simp [objectsType] at ht
      | map _ _ => simp [objectsType] at ht
    | false =>
      simp only [attributeType, Bool.and_false, Bool.false_eq_true, if_false, typeOf] at ht
      cases element with
      | basic b =>
        simp only [elementType, Option.map_some, Option.some.injEq] at ht
        subst ht
        exact hbasic b (.basic b) rfl
      | enum d =>
        simp only [elementType, Option.map_some, Option.some.injEq] at ht
        subst ht
        exact hdecl d _ _ [] _ (.inl rfl) (hu.owner d rfl)
      | struct d =>
        simp only [elementType, Option.map_some, Option.some.injEq] at ht
        subst ht
        exact hdecl d _ _ [] _ (.inr rfl) (hu.owner d rfl)
      | list _ _ => simp [elementType] at ht
      | map _ _ => simp [elementType] at ht
  | map ld element =>
    simp only [attributeType, Typ.isList, Bool.false_and, Bool.false_eq_true, if_false, typeOf] at ht
    cases element with
    | basic b =>
      simp only [elementType, Option.map_some, Option.some.injEq] at ht
      subst ht
      exact hbasic b (.basic b) rfl
    | enum d =>
      simp only [elementType, Option.map_some, Option.some.injEq] at ht
      subst ht
      exact hdecl d _ _ [] _ (.inl rfl) (hu.owner d rfl)
    | struct d =>
      simp only [elementType, Option.map_some, Option.some.injEq] at ht
      subst ht
      exact hdecl d _ _ [] _ (.inr rfl) (hu.owner d rfl)
    | list _ _ => simp [elementType] at ht
    | map _ _ => simp [elementType] at ht

/-- C78: an error is reported exactly for the attributes whose types aren't supported: lists and maps
of lists or maps. (For links the generated name is that of a list of objects, without checking that
the elements are objects.) -/
theorem c78_reported (base : Text) (a : Attr) (hl : a.link = false) :
    (fieldType base a).errors = 0 ↔ (attributeType base a).isSome = true := by
  obtain ⟨typ, link, linkOwner⟩ := a
  obtain rfl : link = false := hl
  rcases typ with b | d | d | ⟨d, e⟩ | ⟨d, e⟩
  · cases b <;> simp [fieldType, Typ.isScalar, valueReference, attributeType, Typ.isList, typeOf, elementType]
  · simp [fieldType, Typ.isScalar, valueReference, package, attributeType, Typ.isList, typeOf, elementType]
  · by_cases hr : (Attr.referencedVersion ⟨.struct d, false, linkOwner⟩) = [] <;>
    simp [fieldType, Typ.isScalar, Typ.isStruct, nullableReference, valueReference, package,
      attributeType, Typ.isList, typeOf, elementType, hr]
  · rcases e with b | d | d | ⟨d, e⟩ | ⟨d, e⟩
    · cases b <;> simp [fieldType, Typ.isScalar, Typ.isStruct, nullableReference, valueReference,
        attributeType, Typ.isList, typeOf, elementType]
    all_goals simp [fieldType, Typ.isScalar, Typ.isStruct, nullableReference, valueReference, package,
      attributeType, Typ.isList, typeOf, elementType]
  · rcases e with b | d | d | ⟨d, e⟩ | ⟨d, e⟩
    · cases b <;> simp [fieldType, Typ.isScalar, Typ.isStruct, nullableReference, valueReference,
        attributeType, Typ.isList, typeOf, elementType]
    all_goals simp [fieldType, Typ.isScalar, Typ.isStruct, nullableReference, valueReference, package,
      attributeType, Typ.isList, typeOf, elementType]

/-! ## Builders -/

/-- The objects mentioned by an attribute are those of the version where the code is generated, or
those of the version the attribute says, that is another one with a name of only one word. -/
def BuildersFound (base : Text) (here : Owner) (a : Attr) : Prop :=
  ∀ d, mentioned a.typ = some d → match a.linkOwner with
    | none => home base d.owner = home base here
    | some o => o = d.owner ∧ home base d.owner ≠ home base here ∧
        o.version.toText = o.version.lowerJoined []

/-- The two ways to refer to another version agree. -/
theorem selector_agrees (base : Text) (here : Owner) (a : Attr) (d : Decl) (pre nm n : Text) (e : Nat)
    (ho : UsableOwner d.owner) (hm : mentioned a.typ = some d) (hf : BuildersFound base here a)
    (hp : '.' ∉ pre) (hn : '.' ∉ nm) :
    emit (home base here) ⟨home base d.owner, d.owner.version.lowerJoined [], n,
      (if a.referencedVersion = [] then pre ++ d.owner.version.lowerJoined [] ++ t!"." ++ nm
       else pre ++ a.referencedVersion ++ t!"." ++ nm), e⟩ =
      pre ++ (GoType.declared (home base d.owner) (d.owner.version.lowerJoined []) nm).written
        (home base here) ∧
    pre ++ selectorType a ++ nm =
      pre ++ (GoType.declared (home base d.owner) (d.owner.version.lowerJoined []) nm).written
        (home base here) := by
  have hf' := hf d hm
  cases hl : a.linkOwner with
  | none =>
    rw [hl] at hf'
    have hr : a.referencedVersion = [] := by simp [Attr.referencedVersion, hl]
    rw [if_pos hr]
    refine ⟨emit_qualified base here d.owner pre nm n e ho hp hn, ?_⟩
    simp only [selectorType, hl, GoType.written]
    rw [if_pos hf']
    simp
  | some o =>
    rw [hl] at hf'
    obtain ⟨rfl, hne, hv⟩ := hf'
    have hr : a.referencedVersion = d.owner.version.lowerJoined [] := by
      simp [Attr.referencedVersion, hl, hv]
    rw [hr, if_neg ho.version]
    refine ⟨emit_qualified base here d.owner pre nm n e ho hp hn, ?_⟩
    simp only [selectorType, hl, GoType.written]
    rw [if_neg hne, versionSelector_eq ho]
    simp

/-- C78: the fields of builders, the parameters of their setters, and what setters and `Copy` assign
to the fields, have the same type, which is the right one; and what `Build` assigns to the fields of
objects has the type of those fields. -/
theorem c78_builder_partial (base : Text) (here : Owner) (a : Attr) (t tb : GoType)
    (hu : Usable base here a.typ) (he : EnumsHere base here a.typ) (hf : BuildersFound base here a)
    (ht : attributeType base a = some t) (htb : attributeBuilder base a = some tb) :
    emit (home base here) (builderFieldType base a) = tb.written (home base here) ∧
    setterParameter base (home base here) a = tb.written (home base here) ∧
    setterAssigned base (home base here) a = tb.written (home base here) ∧
    copyAssigned base (home base here) a = tb.written (home base here) ∧
    ∀ x, buildAssigned base (home base here) a = some x → x = t.written (home base here) := by
  obtain ⟨typ, link, linkOwner⟩ := a
  have hb := hu.base
  have h0 := nil_ne_home base here
  have h1 := time_ne_home base here
  cases typ with
  | basic b =>
    cases b <;>
      simp only [attributeType, attributeBuilder, Typ.isList, Bool.false_and, Bool.false_eq_true,
        if_false, typeOf, elementType, basicType, Option.some.injEq] at ht htb <;>
      subst ht <;> subst htb <;>
      simp [fieldType, builderFieldType, setterParameter, setterAssigned, copyAssigned,
        buildAssigned, builderSetterType, Typ.isScalar, valueReference, emit, h0, h1, GoType.written]
  | enum d =>
    have hd := hu.dot d rfl
    have hh := he trivial d rfl
    simp only [attributeType, attributeBuilder, Typ.isList, Bool.false_and, Bool.false_eq_true,
      if_false, typeOf, elementType, Option.some.injEq] at ht htb
    subst ht; subst htb
    have hw : emit (home base here) (valueReference base (.enum d)) =
        (declaredType base d []).written (home base here) := by
      rw [emit_bare _ _ hd]
      simp [declaredType, GoType.written, hh, valueReference, goTypeName]
    simp [fieldType, builderFieldType, setterParameter, setterAssigned, copyAssigned,
        buildAssigned, builderSetterType, Typ.isScalar, hw]
  | struct d =>
    have ho := hu.owner d rfl
    have hd := hu.dot d rfl
    simp only [attributeType, attributeBuilder, Typ.isList, Bool.false_and, Bool.false_eq_true,
      if_false, typeOf, elementType, Option.some.injEq] at ht htb
    subst ht; subst htb
    have hs := selector_agrees base here ⟨.struct d, link, linkOwner⟩ d t!"*"
      (Go.nameOf d.annotations d.name ++ t!"Builder") (Go.nameOf d.annotations d.name ++ t!"Builder") 0
      ho rfl hf (by decide) (dot_append hd (by decide))
    have hr : builderFieldType base ⟨.struct d, link, linkOwner⟩ = ⟨home base d.owner,
        d.owner.version.lowerJoined [], Go.nameOf d.annotations d.name ++ t!"Builder",
        (if (Attr.referencedVersion ⟨.struct d, link, linkOwner⟩) = [] then
          t!"*" ++ d.owner.version.lowerJoined [] ++ t!"." ++ (Go.nameOf d.annotations d.name ++ t!"Builder")
         else t!"*" ++ (Attr.referencedVersion ⟨.struct d, link, linkOwner⟩) ++ t!"." ++
          (Go.nameOf d.annotations d.name ++ t!"Builder")), 0⟩ := by
      simp only [builderFieldType, builderReference, package_decl base hb d ho, goTypeName]
      split <;> rfl
    have hfield := hs.1
    rw [← hr] at hfield
    have hset : setterParameter base (home base here) ⟨.struct d, link, linkOwner⟩ =
        emit (home base here) (builderFieldType base ⟨.struct d, link, linkOwner⟩) := rfl
    refine ⟨hfield, hset.trans hfield, hset.trans hfield, hs.2, ?_⟩
    intro x hx
    simp [buildAssigned] at hx
  | list ld element =>
    cases link with
    | true =>
      simp only [attributeType, Typ.isList, Bool.and_self, if_true] at ht
      cases element with
      | struct d =>
        have ho := hu.owner d rfl
        have hd := hu.dot d rfl
        simp only [objectsType, attributeBuilder, Option.some.injEq] at ht htb
        subst ht; subst htb
        have hs := selector_agrees base here ⟨.list ld (.struct d), true, linkOwner⟩ d t!"*"
          (Go.nameOf d.annotations d.name ++ t!"ListBuilder")
          (Go.nameOf d.annotations d.name ++ t!"ListBuilder") 0
          ho rfl hf (by decide) (dot_append hd (by decide))
        have hr : builderFieldType base ⟨.list ld (.struct d), true, linkOwner⟩ = ⟨home base d.owner,
            d.owner.version.lowerJoined [], Go.nameOf d.annotations d.name ++ t!"ListBuilder",
            (if (Attr.referencedVersion ⟨.list ld (.struct d), true, linkOwner⟩) = [] then
              t!"*" ++ d.owner.version.lowerJoined [] ++ t!"." ++
                (Go.nameOf d.annotations d.name ++ t!"ListBuilder")
             else t!"*" ++ (Attr.referencedVersion ⟨.list ld (.struct d), true, linkOwner⟩) ++ t!"." ++
              (Go.nameOf d.annotations d.name ++ t!"ListBuilder")), 0⟩ := by
          simp only [builderFieldType, builderReference, package_decl base hb d ho, goTypeName,
            if_true, Typ.decl]
          split <;> rfl
        have hfield := hs.1
        rw [← hr] at hfield
        have hset : setterParameter base (home base here) ⟨.list ld (.struct d), true, linkOwner⟩ =
            emit (home base here) (builderFieldType base ⟨.list ld (.struct d), true, linkOwner⟩) := rfl
        refine ⟨hfield, hset.trans hfield, hset.trans hfield, hs.2, ?_⟩
        intro x hx
        simp [buildAssigned] at hx
      | basic b => simp [objectsType] at ht
      | enum d => simp [objectsType] at ht
      | list _ _ => simp [objectsType] at ht
      | map _ _ => simp [objectsType] at ht
    | false =>
      simp only [attributeType, Bool.and_false, Bool.false_eq_true, if_false, typeOf] at ht
      cases element with
      | basic b =>
        cases b <;>
          simp only [attributeBuilder, typeOf, elementType, basicType, Option.map_some,
            Option.some.injEq] at ht htb <;>
          subst ht <;> subst htb <;>
          simp [builderFieldType, setterParameter, setterAssigned, copyAssigned, buildAssigned,
            Typ.isScalar, Typ.isStruct, nullableReference, valueReference, emit, h0, h1,
            GoType.written]
      | enum d =>
        have hd := hu.dot d rfl
        have hh := he trivial d rfl
        simp only [attributeBuilder, typeOf, elementType, Option.map_some, Option.some.injEq] at ht htb
        subst ht; subst htb
        have hw : emit (home base here) (valueReference base (.enum d)) =
            (declaredType base d []).written (home base here) := by
          rw [emit_bare _ _ hd]
          simp [declaredType, GoType.written, hh, valueReference, goTypeName]
        have hw2 : emit (home base here) (builderFieldType base ⟨.list ld (.enum d), false, linkOwner⟩) =
            (GoType.slice (declaredType base d [])).written (home base here) := by
          rw [emit_bare _ _ (dot_append (a := t!"[]") (by decide) hd)]
          simp [declaredType, GoType.written, hh, builderFieldType, nullableReference, valueReference,
            goTypeName, Typ.isScalar, Typ.isStruct]
        refine ⟨hw2, ?_, ?_, hw2, ?_⟩
        · simp [setterParameter, Typ.isScalar, hw, GoType.written]
        · simp [setterAssigned, Typ.isScalar, hw, GoType.written]
        · intro x hx
          simp only [buildAssigned, Bool.false_eq_true, if_false, Typ.isScalar, if_true,
            Option.some.injEq] at hx
          rw [← hx, hw2]
      | struct d =>
        have ho := hu.owner d rfl
        have hd := hu.dot d rfl
        simp only [attributeBuilder, elementType, Option.map_some, Option.some.injEq] at ht htb
        subst ht; subst htb
        have hs := selector_agrees base here ⟨.list ld (.struct d), false, linkOwner⟩ d t!"[]*"
          (Go.nameOf d.annotations d.name ++ t!"Builder") [] 0
          ho rfl hf (by decide) (dot_append hd (by decide))
        have hs2 := selector_agrees base here ⟨.list ld (.struct d), false, linkOwner⟩ d t!"[]*"
          (Go.nameOf d.annotations d.name) [] 0 ho rfl hf (by decide) hd
        have hr : builderFieldType base ⟨.list ld (.struct d), false, linkOwner⟩ = ⟨home base d.owner,
            d.owner.version.lowerJoined [], [],
            (if (Attr.referencedVersion ⟨.list ld (.struct d), false, linkOwner⟩) = [] then
              t!"[]*" ++ d.owner.version.lowerJoined [] ++ t!"." ++
                (Go.nameOf d.annotations d.name ++ t!"Builder")
             else t!"[]*" ++ (Attr.referencedVersion ⟨.list ld (.struct d), false, linkOwner⟩) ++ t!"." ++
              (Go.nameOf d.annotations d.name ++ t!"Builder")), 0⟩ := by
          simp only [builderFieldType, builderReference, package_decl base hb d ho, goTypeName,
            Bool.false_eq_true, if_false, Typ.isScalar]
          split <;> simp
        have hfield := hs.1
        rw [← hr] at hfield
        refine ⟨hfield, hs.2, hs.2, hs.2, ?_⟩
        intro x hx
        simp only [buildAssigned, Bool.false_eq_true, if_false, Typ.isScalar, Option.some.injEq] at hx
        rw [← hx]
        have := hs2.2
        rw [objectName, goTypeName, this]
        simp [declaredType, GoType.written]
      | list _ _ => simp [elementType] at ht
      | map _ _ => simp [elementType] at ht
  | map ld element =>
    simp only [attributeType, Typ.isList, Bool.false_and, Bool.false_eq_true, if_false, typeOf] at ht
    cases element with
    | basic b =>
      cases b <;>
        simp only [attributeBuilder, typeOf, elementType, basicType, Option.map_some,
          Option.some.injEq] at ht htb <;>
        subst ht <;> subst htb <;>
        simp [builderFieldType, setterParameter, setterAssigned, copyAssigned, buildAssigned,
          builderSetterType, Typ.isScalar, Typ.isStruct, nullableReference, valueReference, emit, h0,
          h1, GoType.written]
    | enum d =>
      have hd := hu.dot d rfl
      have hh := he trivial d rfl
      simp only [attributeBuilder, typeOf, elementType, Option.map_some, Option.some.injEq] at ht htb
      subst ht; subst htb
      have hw2 : emit (home base here) (builderFieldType base ⟨.map ld (.enum d), link, linkOwner⟩) =
          (GoType.mapOf (declaredType base d [])).written (home base here) := by
        rw [emit_bare _ _ (dot_append (a := t!"map[string]") (by decide) hd)]
        simp [declaredType, GoType.written, hh, builderFieldType, nullableReference, valueReference,
          goTypeName, Typ.isScalar, Typ.isStruct]
      refine ⟨hw2, hw2, hw2, hw2, ?_⟩
      intro x hx
      simp only [buildAssigned, Typ.isScalar, if_true, Option.some.injEq] at hx
      rw [← hx, hw2]
    | struct d =>
      have ho := hu.owner d rfl
      have hd := hu.dot d rfl
      simp only [attributeBuilder, elementType, Option.map_some, Option.some.injEq] at ht htb
      subst ht; subst htb
      have hs := selector_agrees base here ⟨.map ld (.struct d), link, linkOwner⟩ d t!"map[string]*"
        (Go.nameOf d.annotations d.name ++ t!"Builder") [] 0
        ho rfl hf (by decide) (dot_append hd (by decide))
      have hs2 := selector_agrees base here ⟨.map ld (.struct d), link, linkOwner⟩ d t!"map[string]*"
        (Go.nameOf d.annotations d.name) [] 0 ho rfl hf (by decide) hd
      have hr : builderFieldType base ⟨.map ld (.struct d), link, linkOwner⟩ = ⟨home base d.owner,
          d.owner.version.lowerJoined [], [],
          (if (Attr.referencedVersion ⟨.map ld (.struct d), link, linkOwner⟩) = [] then
            t!"map[string]*" ++ d.owner.version.lowerJoined [] ++ t!"." ++
              (Go.nameOf d.annotations d.name ++ t!"Builder")
           else t!"map[string]*" ++ (Attr.referencedVersion ⟨.map ld (.struct d), link, linkOwner⟩) ++ t!"." ++
            (Go.nameOf d.annotations d.name ++ t!"Builder")), 0⟩ := by
        simp only [builderFieldType, builderReference, package_decl base hb d ho, goTypeName,
          Bool.false_eq_true, if_false, Typ.isScalar]
        split <;> simp
      have hfield := hs.1
      rw [← hr] at hfield
      have hset : setterParameter base (home base here) ⟨.map ld (.struct d), link, linkOwner⟩ =
          emit (home base here) (builderFieldType base ⟨.map ld (.struct d), link, linkOwner⟩) := rfl
      refine ⟨hfield, hset.trans hfield, hset.trans hfield, hs.2, ?_⟩
      intro x hx
      simp only [buildAssigned, Bool.false_eq_true, if_false, Typ.isScalar, Option.some.injEq] at hx
      rw [← hx]
      have := hs2.2
      rw [objectName, goTypeName, this]
      simp [declaredType, GoType.written]
    | list _ _ => simp [elementType] at ht
    | map _ _ => simp [elementType] at ht

/-- C78: the setters of builders use the types of their fields, in all cases. -/
theorem c78_setter_type (base : Text) (a : Attr) :
    builderSetterType base a = builderFieldType base a := by
  obtain ⟨typ, link, linkOwner⟩ := a
  rcases typ with b | d | d | ⟨ld, e⟩ | ⟨ld, e⟩
  · rfl
  · rfl
  · rfl
  · cases link <;> cases e <;> rfl
  · cases e <;> rfl

/-- C78: the setter of a list of objects assigns a value of the type of the field exactly if the
objects belong to the version where the code is generated, when the attribute doesn't say otherwise. -/
theorem c78_builder_here_iff (base : Text) (here : Owner) (ld d : Decl)
    (hu : Usable base here (.list ld (.struct d))) :
    setterAssigned base (home base here) ⟨.list ld (.struct d), false, none⟩ =
        emit (home base here) (builderFieldType base ⟨.list ld (.struct d), false, none⟩) ↔
      home base d.owner = home base here := by
  have ho := hu.owner d rfl
  have hd := hu.dot d rfl
  have hr : builderFieldType base ⟨.list ld (.struct d), false, none⟩ = ⟨home base d.owner,
      d.owner.version.lowerJoined [], [], t!"[]*" ++ d.owner.version.lowerJoined [] ++ t!"." ++
        (Go.nameOf d.annotations d.name ++ t!"Builder"), 0⟩ := by
    simp [builderFieldType, builderReference, package_decl base hu.base d ho, goTypeName,
      Typ.isScalar, Attr.referencedVersion]
  rw [hr, emit_qualified base here d.owner _ _ _ _ ho (by decide) (dot_append hd (by decide)),
    ← written_bare_iff base here d.owner t!"[]*" (d.owner.version.lowerJoined [])
      (Go.nameOf d.annotations d.name ++ t!"Builder")]
  simp [setterAssigned, Typ.isScalar, selectorType, builderName, goTypeName]

/-- C78: for attributes that are objects of another version `Copy` assigns a value of the type of the
field exactly if the text of the name of that version is the name of its package. -/
theorem c78_builder_version_iff (base : Text) (here : Owner) (d : Decl) (link : Bool)
    (hu : Usable base here (.struct d)) (hh : home base d.owner ≠ home base here)
    (hn : d.owner.version.toText ≠ []) :
    copyAssigned base (home base here) ⟨.struct d, link, some d.owner⟩ =
        emit (home base here) (builderFieldType base ⟨.struct d, link, some d.owner⟩) ↔
      d.owner.version.toText = d.owner.version.lowerJoined [] := by
  have ho := hu.owner d rfl
  have hr : builderFieldType base ⟨.struct d, link, some d.owner⟩ = ⟨home base d.owner,
      d.owner.version.lowerJoined [], Go.nameOf d.annotations d.name ++ t!"Builder",
      t!"*" ++ d.owner.version.toText ++ t!"." ++
        (Go.nameOf d.annotations d.name ++ t!"Builder"), 0⟩ := by
    simp [builderFieldType, builderReference, package_decl base hu.base d ho, goTypeName,
      Attr.referencedVersion, hn]
  rw [hr, emit_foreign _ _ hh]
  simp only [copyAssigned, selectorType, versionSelector_eq ho, builderName, goTypeName]
  constructor
  · intro h
    have h2 : d.owner.version.lowerJoined [] ++ (t!"." ++ (Go.nameOf d.annotations d.name ++ t!"Builder")) =
        d.owner.version.toText ++ (t!"." ++ (Go.nameOf d.annotations d.name ++ t!"Builder")) :=
      List.append_cancel_left (as := t!"*") (by simpa using h)
    exact (List.append_cancel_right h2).symm
  · intro h
    rw [h]
    simp

/-! ## Requests and responses -/

/-- The type of the parameter of the setter of a request and of the result of the getter of a
response. -/
def accessedType (base : Text) (p : Param) : Option GoType :=
  if p.items then objectsType base p.typ else typeOf base p.typ

/-- The text of a reference to the value of a scalar type. -/
theorem scalar_texts (base : Text) (here : Owner) (t : Typ) (x : GoType) (hs : t.isScalar = true)
    (hu : Usable base here t) (he : EnumsHere base here t) (hx : elementType base t = some x)
    (pre : Text) (hp : '.' ∉ pre) (n : Text) :
    emit (home base here) { valueReference base t with name := n, text := pre ++ (valueReference base t).text } =
      pre ++ x.written (home base here) := by
  have h0 := nil_ne_home base here
  have h1 := time_ne_home base here
  cases t with
  | basic b =>
    cases b <;>
      simp only [elementType, basicType, Option.some.injEq] at hx <;>
      subst hx <;> simp [valueReference, emit, h0, h1, GoType.written]
  | enum d =>
    have hd := hu.dot d rfl
    have hh := he trivial d rfl
    simp only [elementType, Option.some.injEq] at hx
    subst hx
    rw [emit_bare _ _ (dot_append hp hd)]
    simp [declaredType, GoType.written, hh, valueReference, goTypeName]
  | struct d => simp [Typ.isScalar] at hs
  | list _ _ => simp [Typ.isScalar] at hs
  | map _ _ => simp [Typ.isScalar] at hs

/-- C78: the fields of requests and responses, the parameters of the setters and the results of the
getters have the right types. -/
theorem c78_parameter_partial (base : Text) (here : Owner) (p : Param) (t ta : GoType)
    (hu : Usable base here p.typ) (he : EnumsHere base here p.typ)
    (ht : parameterType base p = some t) (hta : accessedType base p = some ta) :
    requestField base (home base here) p = t.written (home base here) ∧
    responseField base (home base here) p = t.written (home base here) ∧
    requestSetter base (home base here) p = ta.written (home base here) ∧
    responseGetter base (home base here) p = ta.written (home base here) := by
  obtain ⟨typ, items⟩ := p
  have hb := hu.base
  cases items with
  | true =>
    simp only [parameterType, accessedType, if_true] at ht hta
    rcases typ with b | d | d | ⟨ld, e⟩ | ⟨ld, e⟩ <;> try simp [objectsType] at ht
    rcases e with b | d | d | ⟨ld', e⟩ | ⟨ld', e⟩ <;> try simp [objectsType] at ht
    simp only [objectsType, Option.some.injEq] at hta
    subst ht; subst hta
    have ho := hu.owner d rfl
    have hd := hu.dot d rfl
    have hf : listReference base (.list ld (.struct d)) = ⟨home base d.owner,
        d.owner.version.lowerJoined [], Go.nameOf d.annotations d.name ++ t!"List",
        t!"*" ++ d.owner.version.lowerJoined [] ++ t!"." ++
          (Go.nameOf d.annotations d.name ++ t!"List"), 0⟩ := by
      simp [listReference, package_decl base hb d ho, Typ.decl, goTypeName]
    have hw : emit (home base here) (listReference base (.list ld (.struct d))) =
        (GoType.pointer (declaredType base d t!"List")).written (home base here) := by
      rw [hf, emit_qualified base here d.owner _ _ _ _ ho (by decide) (dot_append hd (by decide))]
      simp [declaredType, GoType.written]
    exact ⟨hw, hw, hw, hw⟩
  | false =>
    simp only [parameterType, accessedType, Bool.false_eq_true, if_false] at ht hta
    have hstruct : ∀ (pre : Text) (d : Decl), mentioned typ = some d → '.' ∉ pre → ∀ n,
        emit (home base here) ⟨home base d.owner, d.owner.version.lowerJoined [], n,
          pre ++ d.owner.version.lowerJoined [] ++ t!"." ++ Go.nameOf d.annotations d.name, 0⟩ =
        pre ++ (declaredType base d []).written (home base here) := by
      intro pre d hm hp n
      rw [emit_qualified base here d.owner _ _ _ _ (hu.owner d hm) hp (hu.dot d hm)]
      simp [declaredType]
    rcases typ with b | d | d | ⟨ld, e⟩ | ⟨ld, e⟩
    · have h1 := scalar_texts base here (.basic b) (basicType b) rfl hu he rfl [] (by decide)
        (valueReference base (.basic b)).name
      have h2 := scalar_texts base here (.basic b) (basicType b) rfl hu he rfl t!"*" (by decide)
        (valueReference base (.basic b)).name
      simp only [typeOf, elementType, Option.some.injEq] at hta
      subst hta
      cases b <;>
        simp only [Option.some.injEq] at ht <;> subst ht <;>
        first
          | exact ⟨h2, h2, h1, h1⟩
          | exact ⟨h1, h1, h1, h1⟩
    · have h1 := scalar_texts base here (.enum d) _ rfl hu he rfl [] (by decide)
        (valueReference base (.enum d)).name
      have h2 := scalar_texts base here (.enum d) _ rfl hu he rfl t!"*" (by decide)
        (valueReference base (.enum d)).name
      simp only [typeOf, elementType, Option.some.injEq] at ht hta
      subst ht; subst hta
      exact ⟨h2, h2, h1, h1⟩
    · simp only [typeOf, elementType, Option.some.injEq] at ht hta
      subst ht; subst hta
      have ho := hu.owner d rfl
      have hr : nullableReference base (.struct d) [] = ⟨home base d.owner,
          d.owner.version.lowerJoined [], Go.nameOf d.annotations d.name,
          t!"*" ++ d.owner.version.lowerJoined [] ++ t!"." ++ Go.nameOf d.annotations d.name, 0⟩ := by
        simp [nullableReference, Typ.isScalar, Typ.isStruct, valueReference,
          package_decl base hb d ho, goTypeName]
      have hw : emit (home base here) (nullableReference base (.struct d) []) =
          (GoType.pointer (declaredType base d [])).written (home base here) := by
        rw [hr]
        exact hstruct t!"*" d rfl (by decide) _
      exact ⟨hw, hw, hw, hw⟩
    · simp only [typeOf] at ht hta
      have huE : Usable base here e := ⟨hu.base, hu.here, hu.owner, hu.dot⟩
      have heE : EnumsHere base here e := he
      cases hs : e.isScalar with
      | true =>
        cases hx : elementType base e with
        | none => rw [hx] at ht; simp at ht
        | some x =>
          rw [hx] at ht hta
          simp only [Option.map_some, Option.some.injEq] at ht hta
          subst ht; subst hta
          have h1 := scalar_texts base here e x hs huE heE hx t!"[]" (by decide)
            (valueReference base e).name
          have h2 := scalar_texts base here e x hs huE heE hx [] (by decide)
            (valueReference base e).name
          have hr : nullableReference base (.list ld e) [] =
              { valueReference base e with text := t!"[]" ++ (valueReference base e).text } := by
            show valueReference base (.list ld e) = _
            rw [valueReference, if_pos hs]
          have h2' : emit (home base here) (valueReference base e) = x.written (home base here) := h2
          refine ⟨?_, ?_, ?_, ?_⟩
          · simp only [requestField, parameterFieldType, Bool.false_eq_true, if_false, hr]
            exact h1
          · simp only [responseField, hs, if_true, h2', GoType.written]
          · simp only [requestSetter, accessorType, hs, if_true, hr]
            exact h1
          · simp only [responseGetter, accessorType, hs, if_true, hr]
            exact h1
      | false =>
        rcases e with b | d | d | ⟨ld', e⟩ | ⟨ld', e⟩ <;> try simp [Typ.isScalar] at hs
        · simp only [elementType, Option.map_some, Option.some.injEq] at ht hta
          subst ht; subst hta
          have ho := hu.owner d rfl
          have hr : nullableReference base (.list ld (.struct d)) [] = ⟨home base d.owner,
              d.owner.version.lowerJoined [], Go.nameOf d.annotations d.name,
              t!"[]*" ++ d.owner.version.lowerJoined [] ++ t!"." ++ Go.nameOf d.annotations d.name, 0⟩ := by
            simp [nullableReference, Typ.isScalar, Typ.isStruct, valueReference,
              package_decl base hb d ho, goTypeName]
          have hw : emit (home base here) (nullableReference base (.list ld (.struct d)) []) =
              (GoType.slice (.pointer (declaredType base d []))).written (home base here) := by
            rw [hr]
            exact hstruct t!"[]*" d rfl (by decide) _
          exact ⟨hw, hw, hw, hw⟩
        · simp [elementType] at ht
        · simp [elementType] at ht
    · simp only [typeOf] at ht hta
      have huE : Usable base here e := ⟨hu.base, hu.here, hu.owner, hu.dot⟩
      have heE : EnumsHere base here e := he
      cases hs : e.isScalar with
      | true =>
        cases hx : elementType base e with
        | none => rw [hx] at ht; simp at ht
        | some x =>
          rw [hx] at ht hta
          simp only [Option.map_some, Option.some.injEq] at ht hta
          subst ht; subst hta
          have h1 := scalar_texts base here e x hs huE heE hx t!"map[string]" (by decide)
            (valueReference base e).name
          have hr : nullableReference base (.map ld e) [] =
              { valueReference base e with text := t!"map[string]" ++ (valueReference base e).text } := by
            show valueReference base (.map ld e) = _
            rw [valueReference, if_pos hs]
          refine ⟨?_, ?_, ?_, ?_⟩
          · simp only [requestField, parameterFieldType, Bool.false_eq_true, if_false, hr]
            exact h1
          · simp only [responseField, parameterFieldType, Bool.false_eq_true, if_false, hr]
            exact h1
          · simp only [requestSetter, accessorType, Bool.false_eq_true, if_false, Typ.isScalar, hr]
            exact h1
          · simp only [responseGetter, accessorType, Bool.false_eq_true, if_false, Typ.isScalar, hr]
            exact h1
      | false =>
        rcases e with b | d | d | ⟨ld', e⟩ | ⟨ld', e⟩ <;> try simp [Typ.isScalar] at hs
        · simp only [elementType, Option.map_some, Option.some.injEq] at ht hta
          subst ht; subst hta
          have ho := hu.owner d rfl
          have hr : nullableReference base (.map ld (.struct d)) [] = ⟨home base d.owner,
              d.owner.version.lowerJoined [], Go.nameOf d.annotations d.name,
              t!"map[string]*" ++ d.owner.version.lowerJoined [] ++ t!"." ++
                Go.nameOf d.annotations d.name, 0⟩ := by
            simp [nullableReference, Typ.isScalar, Typ.isStruct, valueReference,
              package_decl base hb d ho, goTypeName]
          have hw : emit (home base here) (nullableReference base (.map ld (.struct d)) []) =
              (GoType.mapOf (.pointer (declaredType base d []))).written (home base here) := by
            rw [hr]
            exact hstruct t!"map[string]*" d rfl (by decide) _
          exact ⟨hw, hw, hw, hw⟩
        · simp [elementType] at ht
        · simp [elementType] at ht

/-- C78: the setters of requests assign to the field a value of its type exactly for the parameters
that aren't maps: for maps the address of the map is assigned. -/
theorem c78_request_iff (base : Text) (here : Owner) (p : Param) (t ta : GoType)
    (hu : Usable base here p.typ) (he : EnumsHere base here p.typ)
    (ht : parameterType base p = some t) (hta : accessedType base p = some ta) :
    Assignable (requestField base (home base here) p) (requestAssigned base (home base here) p) ↔
      ∀ d e, p.typ ≠ .map d e := by
  obtain ⟨h1, -, h2, -⟩ := c78_parameter_partial base here p t ta hu he ht hta
  unfold Assignable requestAssigned
  rw [h1, h2]
  obtain ⟨typ, items⟩ := p
  rcases typ with b | d | d | ⟨ld, e⟩ | ⟨ld, e⟩
  · cases items with
    | true => simp [parameterType, objectsType] at ht
    | false =>
      cases b <;>
        simp only [parameterType, accessedType, Bool.false_eq_true, if_false, typeOf, elementType,
          Option.some.injEq] at ht hta <;>
        subst ht <;> subst hta <;>
        simp [Typ.isStruct, Typ.isList, GoType.written, basicType]
  · cases items with
    | true => simp [parameterType, objectsType] at ht
    | false =>
      simp only [parameterType, accessedType, Bool.false_eq_true, if_false, typeOf, elementType,
        Option.some.injEq] at ht hta
      subst ht; subst hta
      simp [Typ.isStruct, Typ.isList, GoType.written]
  · cases items with
    | true => simp [parameterType, objectsType] at ht
    | false =>
      simp only [parameterType, accessedType, Bool.false_eq_true, if_false, typeOf, elementType,
        Option.some.injEq] at ht hta
      subst ht; subst hta
      simp [Typ.isStruct]
  · have : t = ta := by
      cases items with
      | true =>
        simp only [parameterType, accessedType, if_true] at ht hta
        exact Option.some.inj (ht.symm.trans hta)
      | false =>
        simp only [parameterType, accessedType, Bool.false_eq_true, if_false] at ht hta
        exact Option.some.inj (ht.symm.trans hta)
    subst this
    simp [Typ.isStruct, Typ.isList]
  · cases items with
    | true => simp [parameterType, objectsType] at ht
    | false =>
      simp only [parameterType, accessedType, Bool.false_eq_true, if_false, typeOf] at ht hta
      cases hx : elementType base e with
      | none => rw [hx] at ht; simp at ht
      | some x =>
        rw [hx] at ht hta
        simp only [Option.map_some, Option.some.injEq] at ht hta
        subst ht; subst hta
        simp [Typ.isStruct, Typ.isList, GoType.written]

/-- C78: the getters of responses return a value of the type of their result exactly for the
parameters that don't have the interface type: for them the code tries to follow a value that isn't a
pointer. -/
theorem c78_response_iff (base : Text) (here : Owner) (p : Param) (t ta : GoType)
    (hu : Usable base here p.typ) (he : EnumsHere base here p.typ)
    (ht : parameterType base p = some t) (hta : accessedType base p = some ta) :
    (if responseDereferences p then
        responseField base (home base here) p = t!"*" ++ responseGetter base (home base here) p
      else responseField base (home base here) p = responseGetter base (home base here) p) ↔
      p.typ ≠ .basic .interface := by
  obtain ⟨-, h1, -, h2⟩ := c78_parameter_partial base here p t ta hu he ht hta
  rw [h1, h2]
  obtain ⟨typ, items⟩ := p
  rcases typ with b | d | d | ⟨ld, e⟩ | ⟨ld, e⟩
  · cases items with
    | true => simp [parameterType, objectsType] at ht
    | false =>
      cases b <;>
        simp only [parameterType, accessedType, Bool.false_eq_true, if_false, typeOf, elementType,
          Option.some.injEq] at ht hta <;>
        subst ht <;> subst hta <;>
        simp [responseDereferences, Typ.isScalar, GoType.written, basicType]
  · cases items with
    | true => simp [parameterType, objectsType] at ht
    | false =>
      simp only [parameterType, accessedType, Bool.false_eq_true, if_false, typeOf, elementType,
        Option.some.injEq] at ht hta
      subst ht; subst hta
      simp [responseDereferences, Typ.isScalar, GoType.written]
  all_goals
    have : t = ta := by
      cases items with
      | true =>
        simp only [parameterType, accessedType, if_true] at ht hta
        exact Option.some.inj (ht.symm.trans hta)
      | false =>
        simp only [parameterType, accessedType, Bool.false_eq_true, if_false] at ht hta
        exact Option.some.inj (ht.symm.trans hta)
    subst this
    simp [responseDereferences, Typ.isScalar]

/-! ## Zero values and names -/

/-- C78: the value returned by the getters when there is no value: nil for the types that have it,
and for the others an expression of the type, if enumerated types are used in their own version. -/
theorem c78_zero (base : Text) (here : Owner) (typ : Typ) (hu : Usable base here typ)
    (he : EnumsHere base here typ) :
    (typ.isScalar = false → zeroValue base typ = t!"nil") ∧
    (∀ b, typ = .basic b → zeroValue base typ = match b with
      | .boolean => t!"false"
      | .integer => t!"0"
      | .long => t!"0"
      | .float => t!"0.0"
      | .string => t!"\"\""
      | .interface => t!"nil"
      | .date => (basicType .date).written (home base here) ++ t!"{}") ∧
    (∀ d, typ = .enum d →
      zeroValue base typ = (declaredType base d []).written (home base here) ++ t!"(\"\")") := by
  have h1 := time_ne_home base here
  refine ⟨?_, ?_, ?_⟩
  · intro h
    cases typ with
    | basic b => simp [Typ.isScalar] at h
    | enum d => simp [Typ.isScalar] at h
    | struct d => rfl
    | list d e => rfl
    | map d e => rfl
  · rintro b rfl
    cases b <;> simp [zeroValue, basicType, GoType.written, h1]
  · rintro d rfl
    have hh := he trivial d rfl
    simp [zeroValue, valueReference, declaredType, GoType.written, hh, goTypeName]

/-- C78: the names used by the generators of JSON code and of builders are those of the types that
are generated. -/
theorem c78_names (base : Text) (ld d : Decl) :
    (enumReference base (.enum d)).name = Go.nameOf d.annotations d.name ∧
    (structReference base (.struct d)).text = Go.nameOf d.annotations d.name ∧
    (structReference base (.struct d)).name = Go.nameOf d.annotations d.name ∧
    (structReference base (.list ld (.struct d))).text = Go.nameOf d.annotations d.name ++ t!"List" ∧
    (structReference base (.list ld (.struct d))).name = Go.nameOf d.annotations d.name ++ t!"List" ∧
    objectName (.struct d) = Go.nameOf d.annotations d.name ∧
    objectName (.list ld (.struct d)) = Go.nameOf d.annotations d.name ++ t!"List" ∧
    builderName (.struct d) = Go.nameOf d.annotations d.name ++ t!"Builder" ∧
    builderName (.list ld (.struct d)) = Go.nameOf d.annotations d.name ++ t!"ListBuilder" ∧
    builderCtor (.struct d) = t!"New" ++ Go.nameOf d.annotations d.name ∧
    builderCtor (.list ld (.struct d)) = t!"New" ++ Go.nameOf d.annotations d.name ++ t!"List" :=
  ⟨rfl, rfl, rfl, rfl, rfl, rfl, rfl, rfl, rfl, rfl, rfl⟩

/-- C78: the names of the lists of values of the builtin types, of enumerated types, of lists and of
maps are made in the same way from the names of their elements. -/
theorem c78_names_lists (base : Text) (ld d : Decl) (e : Typ) :
    (∀ b, (listReference base (.list ld (.basic b))).name = match b with
      | .boolean => t!"BooleanList"
      | .integer => t!"IntegerList"
      | .long => t!"LongList"
      | .float => t!"FloatList"
      | .string => t!"StringList"
      | .date => t!"DateList"
      | .interface => t!"InterfaceList") ∧
    (listReference base (.list ld (.enum d))).name = Go.nameOf d.annotations d.name ++ t!"List" ∧
    (listReference base (.list ld (.struct d))).name = Go.nameOf d.annotations d.name ++ t!"List" ∧
    (listReference base (.list ld (.list d e))).name = Go.nameOf d.annotations d.name ++ t!"List" ∧
    (listReference base (.list ld (.map d e))).name = Go.nameOf d.annotations d.name ++ t!"List" ∧
    (structReference base (.list ld e)).name = (listReference base (.list ld e)).name ∧
    (structReference base (.list ld e)).text = (listReference base (.list ld e)).name ∧
    objectName (.list ld e) = (listReference base (.list ld e)).name ∧
    builderName (.list ld e) = (listReference base (.list ld e)).name ++ t!"Builder" ∧
    builderCtor (.list ld e) = t!"New" ++ (listReference base (.list ld e)).name := by
  refine ⟨?_, rfl, rfl, rfl, rfl, rfl, rfl, rfl, ?_, ?_⟩
  · intro b
    have h : ∀ b : Basic, (Typ.basic b).decl ++ t!"List" = match b with
      | .boolean => t!"BooleanList"
      | .integer => t!"IntegerList"
      | .long => t!"LongList"
      | .float => t!"FloatList"
      | .string => t!"StringList"
      | .date => t!"DateList"
      | .interface => t!"InterfaceList" := by
      intro b
      cases b <;> decide
    exact h b
  · simp [builderName, listReference]
  · simp [builderCtor, listReference]

/-- C78: for other types one error is reported, and no name is given. -/
theorem c78_names_errors (base : Text) (typ : Typ) :
    ((enumReference base typ).errors = 0 ↔ ∃ d, typ = .enum d) ∧
    ((structReference base typ).errors = 0 → (∃ d, typ = .struct d) ∨ ∃ d e, typ = .list d e) ∧
    ((listReference base typ).errors = 0 → ∃ d e, typ = .list d e) ∧
    (∀ v, (builderReference base typ v).errors = 0 →
      (∃ d, typ = .struct d) ∨ ∃ d e, typ = .list d e) ∧
    ((∀ d, typ ≠ .enum d) → enumReference base typ = { errors := 1 }) ∧
    ((∀ d, typ ≠ .struct d) → (∀ d e, typ ≠ .list d e) →
      structReference base typ = { errors := 1 } ∧
      ∀ v, builderReference base typ v = { errors := 1 }) ∧
    ((∀ d e, typ ≠ .list d e) → listReference base typ = { errors := 1 }) := by
  refine ⟨?_, ?_, ?_, ?_, ?_, ?_, ?_⟩
  · cases typ <;> simp [enumReference, valueReference, package]
  · cases typ <;> simp [structReference]
  · cases typ <;> simp [listReference]
  · intro v
    cases typ <;> simp [builderReference]
  · cases typ <;> simp [enumReference]
  · cases typ <;> simp [structReference, builderReference]
  · cases typ <;> simp [listReference]

/-- C78: where the lists are declared. Lists of values that aren't declared in the model aren't in any
package, except those of dates, which are looked for in the package of times. -/
theorem c78_list_packages (base : Text) (hb : base ≠ []) (ld : Decl) :
    (∀ b, listReference base (.list ld (.basic b)) =
      { imprt := if b = .date then t!"time" else [], selector := if b = .date then t!"time" else [],
        name := (listReference base (.list ld (.basic b))).name,
        text := t!"*" ++ (if b = .date then t!"time" else []) ++ t!"." ++
          (listReference base (.list ld (.basic b))).name }) ∧
    (∀ d e, UsableOwner d.owner → ∀ element ∈ [Typ.enum d, .struct d, .list d e],
      listReference base (.list ld element) =
        { imprt := home base d.owner, selector := d.owner.version.lowerJoined [],
          name := Go.nameOf d.annotations d.name ++ t!"List",
          text := t!"*" ++ d.owner.version.lowerJoined [] ++ t!"." ++
            (Go.nameOf d.annotations d.name ++ t!"List") }) ∧
    ∀ d e, listReference base (.list ld (.map d e)) =
      { name := Go.nameOf d.annotations d.name ++ t!"List",
        text := t!"*." ++ (Go.nameOf d.annotations d.name ++ t!"List"), errors := 1 } := by
  refine ⟨?_, ?_, fun d e => rfl⟩
  · intro b
    cases b <;> rfl
  · intro d e ho element he
    simp only [List.mem_cons, List.not_mem_nil, or_false] at he
    rcases he with rfl | rfl | rfl <;>
      simp only [listReference, package, versionImport_eq hb ho, pathBase_home ho, Typ.decl, goTypeName]

/-- C78: the only types for which there is no reference are the lists and maps of lists and maps. For
them one error is reported. -/
theorem c78_value_errors (base : Text) (typ : Typ) :
    (valueReference base typ).errors =
      match typ with
      | .list _ (.list _ _) | .list _ (.map _ _) | .map _ (.list _ _) | .map _ (.map _ _) => 1
      | _ => 0 := by
  cases typ with
  | basic b => cases b <;> rfl
  | enum d => rfl
  | struct d => rfl
  | list d e =>
    cases e with
    | basic b => cases b <;> rfl
    | _ => rfl
  | map d e =>
    cases e with
    | basic b => cases b <;> rfl
    | _ => rfl

/-- C78: objects copied with builders are the structs and the linked lists. The rest are assigned. -/
theorem c78_assigned_iff (base pkg : Text) (a : Attr) : buildAssigned base pkg a = none ↔
    (∃ d, a.typ = .struct d) ∨ (a.link = true ∧ ∃ d e, a.typ = .list d e) := by
  obtain ⟨typ, link, owner⟩ := a
  cases typ with
  | list d e => cases link <;> simp [buildAssigned] <;> split <;> simp
  | map d e => simp [buildAssigned]; split <;> simp
  | _ => simp [buildAssigned]

/-! ## Examples and counterexamples -/

private def v1 : Owner := ⟨[newWord t!"clusters"], [newWord t!"v1"]⟩
private def accounts : Owner := ⟨[newWord t!"accounts"], [newWord t!"v1"]⟩
private def v1alpha : Owner := ⟨[newWord t!"clusters"], [newWord t!"v1", newWord t!"alpha"]⟩
private def cluster (o : Owner) : Decl := ⟨o, [newWord t!"cluster"], []⟩
private def state (o : Owner) : Decl := ⟨o, [newWord t!"cluster", newWord t!"state"], []⟩
private def here : Text := home t!"example.com/api" v1

private theorem usable_v1 : UsableOwner v1 := ⟨by decide, by decide, by decide, by decide⟩
private theorem usable_accounts : UsableOwner accounts := ⟨by decide, by decide, by decide, by decide⟩
private theorem usable_alpha : UsableOwner v1alpha := ⟨by decide, by decide, by decide, by decide⟩

/-- The types written for some attributes. -/
example :
    emit here (fieldType t!"example.com/api" ⟨.struct (cluster v1), false, none⟩) = t!"*Cluster" ∧
    emit here (fieldType t!"example.com/api" ⟨.struct (cluster accounts), true, some accounts⟩) =
      t!"*v1.Cluster" ∧
    emit here (fieldType t!"example.com/api" ⟨.list (cluster v1) (.struct (cluster v1)), true, none⟩) =
      t!"*ClusterList" ∧
    emit here (fieldType t!"example.com/api" ⟨.list (cluster v1) (.struct (cluster v1)), false, none⟩) =
      t!"[]*Cluster" ∧
    emit here (fieldType t!"example.com/api" ⟨.map (cluster v1) (.basic .date), false, none⟩) =
      t!"map[string]time.Time" ∧
    emit here (builderFieldType t!"example.com/api"
      ⟨.map (cluster v1) (.struct (cluster v1)), false, none⟩) = t!"map[string]*ClusterBuilder" := by
  decide

/-- The hypotheses of the theorems hold for them. -/
example : Usable t!"example.com/api" v1 (.list (cluster v1) (.struct (cluster v1))) ∧
    EnumsHere t!"example.com/api" v1 (.list (state v1) (.enum (state v1))) ∧
    ¬ BuildersFound t!"example.com/api" v1 ⟨.struct (cluster v1alpha), true, none⟩ ∧
    BuildersFound t!"example.com/api" v1alpha ⟨.struct (cluster v1), true, some v1⟩ ∧
    LinkedElsewhere t!"example.com/api" v1alpha ⟨.struct (cluster v1), true, some v1⟩ := by
  refine ⟨⟨by decide, usable_v1, ?_, ?_⟩, ?_, ?_, ?_, ?_⟩
  · intro d hd
    cases hd
    exact usable_v1
  · intro d hd
    cases hd
    decide
  · intro _ d hd
    cases hd
    rfl
  · intro h
    exact absurd (h _ rfl) (by decide)
  · intro d hd
    cases hd
    exact ⟨rfl, by decide, by decide⟩
  · intro o ho
    cases ho
    refine ⟨by decide, ?_⟩
    intro d hd
    cases hd
    decide

/-- C78 is false for enumerated types of other versions: their names are written without the
package. -/
theorem c78_enum_refuted : ∃ (base : Text) (h o : Owner) (d : Decl) (t : GoType),
    Usable base h (.enum d) ∧ d.owner = o ∧ attributeType base ⟨.enum d, false, none⟩ = some t ∧
      emit (home base h) (fieldType base ⟨.enum d, false, none⟩) ≠ t.written (home base h) := by
  refine ⟨t!"example.com/api", v1, accounts, state accounts, _, ⟨by decide, usable_v1, ?_, ?_⟩, rfl, rfl, ?_⟩
  · intro d hd
    cases hd
    exact usable_accounts
  · intro d hd
    cases hd
    decide
  · decide

/-- C78 is false for versions with names of several words: the text of the name, that has
underscores, is written instead of the name of the package. -/
theorem c78_version_refuted : ∃ (base : Text) (h : Owner) (d : Decl) (t : GoType),
    Usable base h (.struct d) ∧ attributeType base ⟨.struct d, true, some d.owner⟩ = some t ∧
      emit (home base h) (fieldType base ⟨.struct d, true, some d.owner⟩) = t!"*v1_alpha.Cluster" ∧
      t.written (home base h) = t!"*v1alpha.Cluster" := by
  refine ⟨t!"example.com/api", v1, cluster v1alpha, _, ⟨by decide, usable_v1, ?_, ?_⟩, rfl, ?_, ?_⟩
  · intro d hd
    cases hd
    exact usable_alpha
  · intro d hd
    cases hd
    decide
  · decide
  · decide

/-- C78: the text of a type doesn't say what type it is: versions of different services with the same
name have the same selector, and both packages are imported with it. -/
theorem c78_selector_refuted : ∃ (base : Text) (h : Owner) (d d' : Decl),
    home base d.owner ≠ home base d'.owner ∧
    emit (home base h) (fieldType base ⟨.struct d, true, some d.owner⟩) =
      emit (home base h) (fieldType base ⟨.struct d', true, some d'.owner⟩) ∧
    importOf (home base h) (fieldType base ⟨.struct d, true, some d.owner⟩) =
      some (home base d.owner, t!"v1") ∧
    importOf (home base h) (fieldType base ⟨.struct d', true, some d'.owner⟩) =
      some (home base d'.owner, t!"v1") :=
  ⟨t!"example.com/api", v1alpha, cluster v1, cluster accounts, by decide, by decide, by decide,
    by decide⟩

/-- C78 is false for the items of lists of scalars: the type of the field of the request isn't a Go
type, although that of the response is right. -/
theorem c78_items_refuted :
    requestField t!"example.com/api" here ⟨.list (state v1) (.basic .string), true⟩ = t!"*.StringList" ∧
    responseField t!"example.com/api" here ⟨.list (state v1) (.basic .string), true⟩ = t!"[]string" ∧
    responseGetter t!"example.com/api" here ⟨.list (state v1) (.basic .string), true⟩ = t!"[]string" := by
  decide

/-- C78 is false for request parameters that are maps and response parameters of the interface
type. -/
theorem c78_parameter_refuted :
    (∃ (base : Text) (h : Owner) (p : Param), Usable base h p.typ ∧ EnumsHere base h p.typ ∧
      (parameterType base p).isSome = true ∧
      ¬ Assignable (requestField base (home base h) p) (requestAssigned base (home base h) p)) ∧
    ∃ (base : Text) (h : Owner) (p : Param), Usable base h p.typ ∧ EnumsHere base h p.typ ∧
      (parameterType base p).isSome = true ∧ responseDereferences p = true ∧
      responseField base (home base h) p = t!"interface{}" := by
  constructor
  · refine ⟨t!"example.com/api", v1, ⟨.map (state v1) (.basic .string), false⟩,
      ⟨by decide, usable_v1, by rintro d ⟨⟩, by rintro d ⟨⟩⟩, by rintro ⟨⟩, rfl, ?_⟩
    unfold Assignable
    decide
  · exact ⟨t!"example.com/api", v1, ⟨.basic .interface, false⟩,
      ⟨by decide, usable_v1, by rintro d ⟨⟩, by rintro d ⟨⟩⟩, by rintro ⟨⟩, rfl, rfl, by decide⟩

end GoRef

end Verif
