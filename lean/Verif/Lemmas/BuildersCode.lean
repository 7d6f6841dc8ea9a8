import Verif.Lemmas.BuildersLines
import Verif.Lemmas.TypesCode
import Verif.Spec.BuildersCode

/-! The code that the templates of the builders generator produce. -/

set_option linter.unusedSimpArgs false

namespace Verif.BuildersCode

open GoTemplate GoCode GoProgram
open TypesCode (Item commentOf dot isNil simple itemsLines refEffects run_range run_branch run_set runLines_nil
  digits_1 digits_2 digits_4)

/-- The arguments of the templates. -/
abbrev argsOf (c : TypeCell) : GoTemplate.Value Obj := .args [(t!"Type", .typ c)]

/-- The name of the Go type. -/
abbrev goName (c : TypeCell) : Text := Go.nameOf c.annotations c.name

/-- The variables of the template of builders of objects. -/
abbrev varsOf (c : TypeCell) : List (Text × GoTemplate.Value Obj) :=
  [(t!"$objectName", .text (goName c)), (t!"$builderCtor", .text (t!"New" ++ goName c)),
    (t!"$builderName", .text (goName c ++ t!"Builder"))]

theorem p_object (x : Context) (c : TypeCell) (d : GoTemplate.Value Obj) :
    printed x.env d (varsOf c) [t!"$objectName"] = some (goName c, []) := rfl

theorem p_ctor (x : Context) (c : TypeCell) (d : GoTemplate.Value Obj) :
    printed x.env d (varsOf c) [t!"$builderCtor"] = some (t!"New" ++ goName c, []) := rfl

theorem p_builder (x : Context) (c : TypeCell) (d : GoTemplate.Value Obj) :
    printed x.env d (varsOf c) [t!"$builderName"] = some (goName c ++ t!"Builder", []) := rfl

theorem p_name (x : Context) (c : TypeCell) (vars : List (Text × GoTemplate.Value Obj)) :
    printed x.env (argsOf c) vars [t!".Type.Name"] = some (c.name.toText, []) := rfl

theorem run_ctor (x : Context) (c : TypeCell) (e : Builder) (h1 : e.object = goName c)
    (h2 : e.name = c.name.toText) :
    runLines x.env (argsOf c) (varsOf c) ctorLines = some (itemsLines [e.new], []) := by
  simp only [ctorLines, runLines_line, runLines_nil, runParts, p_builder, p_ctor, p_name, andThen_some,
    Option.map_some]
  simp [itemsLines, Builder.new, Builder.ctor, Builder.builder, h1, h2, Declaration.lines, Func.header, paramsText,
    resultsText, blockLines, Stmt.lines, argsText, Expr.text]

theorem run_identity (x : Context) (c : TypeCell) (e : Builder) (h1 : e.object = goName c) :
    runLines x.env (argsOf c) (varsOf c) identityLines =
      some (itemsLines (if c.isClass then e.identity else []), []) := by
  rw [identityLines, run_branch (he := (rfl : eval x.env (argsOf c) (varsOf c) [t!".Type.IsClass"] =
    some (.flag c.isClass, [])))]
  split
  · simp only [runLines_line, runLines_nil, runParts, p_builder, andThen_some, Option.map_some]
    simp [Builder.identity, Builder.builder, itemsLines, h1, fluent, setBit, Declaration.lines, Func.header,
      paramsText, resultsText, blockLines, Stmt.lines, argsText, Expr.text, dot, intText,
      natText, digits_1, digits_2, digits_4]
  · simp only [runLines_nil, andThen_some]
    rfl

theorem run_empty (x : Context) (c : TypeCell) (e : Builder) (h1 : e.object = goName c)
    (h2 : e.isClass = c.isClass) :
    runLines x.env (argsOf c) (varsOf c) emptyLines = some (itemsLines [e.empty], []) := by
  simp only [emptyLines, runLines_line, runParts, p_builder, andThen_some, Option.map_some]
  rw [run_branch (he := (rfl : eval x.env (argsOf c) (varsOf c) [t!".Type.IsClass"] =
    some (.flag c.isClass, [])))]
  simp only [runLines_line, runLines_nil, runParts, andThen_some, Option.map_some]
  cases hc : c.isClass <;>
    simp [Builder.empty, Builder.builder, itemsLines, h1, h2, hc, simple, Declaration.lines, Func.header, paramsText,
      resultsText, blockLines, Stmt.lines, argsText, Expr.text, dot, isNil, paren, intText, natText, andThen, digits_1]

/-! ## The structure -/

/-- The line of the field of an attribute, if it is boolean or not. -/
def fieldLine (x : Context) (boolean : Bool) : Obj → List Text
  | .attribute _ _ a =>
    if TypesCode.isBoolean (x.typeOf a.typ) = boolean then
      [Go.privateName a.name ++ t!" " ++ GoRef.emit x.pkg (GoRef.builderFieldType x.base (x.attr a))]
    else []
  | _ => []

/-- The effects of the type of the field of an attribute. -/
def fieldEffects (x : Context) (boolean : Bool) : Obj → List Effect
  | .attribute _ _ a =>
    if TypesCode.isBoolean (x.typeOf a.typ) = boolean then
      refEffects (GoRef.builderFieldType x.base (x.attr a))
    else []
  | _ => []

theorem attributes_obj (c : TypeCell) (o : Obj) (h : o ∈ c.attributes.mapIdx (Obj.attribute c)) :
    ∃ i a, c.attributes[i]? = some a ∧ o = .attribute c i a := by
  rw [List.mem_mapIdx] at h
  obtain ⟨i, hi, rfl⟩ := h
  exact ⟨i, c.attributes[i], by simp [hi], rfl⟩

theorem field_line (x : Context) (vars : List (Text × GoTemplate.Value Obj)) (c : TypeCell) (i : Nat)
    (a : Attribute) :
    runLines x.env (.obj (.attribute c i a)) vars
        [.line [.print [t!"fieldName", t!"."], .lit t!" ", .print [t!"fieldType", t!"."]]] =
      some ([Go.privateName a.name ++ t!" " ++ GoRef.emit x.pkg (GoRef.builderFieldType x.base (x.attr a))],
        refEffects (GoRef.builderFieldType x.base (x.attr a))) := by
  have h1 : printed x.env (.obj (.attribute c i a)) vars [t!"fieldName", t!"."] =
    some (Go.privateName a.name, []) := rfl
  have h2 : printed x.env (.obj (.attribute c i a)) vars [t!"fieldType", t!"."] =
    some (GoRef.emit x.pkg (GoRef.builderFieldType x.base (x.attr a)),
      refEffects (GoRef.builderFieldType x.base (x.attr a))) := rfl
  simp only [runLines_line, runLines_nil, runParts, h1, h2, andThen_some, Option.map_some]
  simp

theorem boolean_eq (x : Context) (c : TypeCell) (i : Nat) (a : Attribute) :
    (memberOf x c i a).boolean = TypesCode.isBoolean (x.typeOf a.typ) := rfl

theorem fields_flatMap (x : Context) (c : TypeCell) (b : Bool) :
    (c.attributes.mapIdx (Obj.attribute c)).flatMap (fieldLine x b) =
      ((c.attributes.mapIdx (memberOf x c)).filter (·.boolean == b)).map
        fun m => m.field ++ t!" " ++ m.fieldType := by
  rw [List.mapIdx_eq_zipIdx_map, List.mapIdx_eq_zipIdx_map, List.flatMap_map, List.filter_map, List.map_map]
  induction c.attributes.zipIdx with
  | nil => rfl
  | cons p ps ih =>
    rw [List.flatMap_cons, ih]
    simp only [fieldLine, List.filter_cons, Function.comp_apply, boolean_eq]
    by_cases h : TypesCode.isBoolean (x.typeOf p.1.typ) = b <;> simp [h, memberOf]

theorem run_structure (x : Context) (c : TypeCell) :
    runLines x.env (argsOf c) (varsOf c) structureLines =
      some (itemsLines [({ builderOf x c with bitmap := GoRef.emit x.pkg (TypesCode.bitmapType c) } : Builder).struct],
        refEffects (TypesCode.bitmapType c) ++
          ((c.attributes.mapIdx (Obj.attribute c)).flatMap (fieldEffects x false) ++
          (c.attributes.mapIdx (Obj.attribute c)).flatMap (fieldEffects x true))) := by
  have hb : printed x.env (argsOf c) (varsOf c) [t!"bitmapType", t!".Type"] =
      some (GoRef.emit x.pkg (TypesCode.bitmapType c), refEffects (TypesCode.bitmapType c)) := rfl
  have hd : printed x.env (argsOf c) (varsOf c) [t!"lineComment", t!".Type.Doc"] =
    some (commentOf c.doc, []) := rfl
  simp only [structureLines, runLines_line, runParts, p_builder, p_name, hb, hd, andThen_some, Option.map_some]
  rw [run_branch (he := (rfl : eval x.env (argsOf c) (varsOf c) [t!".Type.IsClass"] =
    some (.flag c.isClass, [])))]
  rw [run_range (he := (rfl : eval x.env (argsOf c) (varsOf c) [t!".Type.Attributes"] =
    some (.list (c.attributes.mapIdx (.attribute c)), []))) (g := fieldLine x false) (h := fieldEffects x false)]
  · rw [run_range (he := (rfl : eval x.env (argsOf c) (varsOf c) [t!".Type.Attributes"] =
      some (.list (c.attributes.mapIdx (.attribute c)), []))) (g := fieldLine x true) (h := fieldEffects x true)]
    · simp only [runLines_line, runLines_nil, runParts, andThen_some, Option.map_some]
      rw [fields_flatMap x c false, fields_flatMap x c true]
      cases h : c.isClass <;>
        (rw [TypeCell.isClass] at h
         simp at h
         simp [itemsLines, Builder.struct, Builder.builder, Declaration.lines, Builder.fields, h, builderOf, andThen,
          spaces, List.map_map, Function.comp_def])
    · intro o ho
      obtain ⟨i, a, -, rfl⟩ := attributes_obj c o ho
      rw [run_branch (he := (rfl : eval x.env (.obj (.attribute c i a)) (varsOf c) [t!".Type.IsBoolean"] =
        some (.flag (TypesCode.isBoolean (x.typeOf a.typ)), [])))]
      rw [field_line, runLines_nil, andThen_nil]
      simp only [fieldLine, fieldEffects]
      cases TypesCode.isBoolean (x.typeOf a.typ) <;> rfl
  · intro o ho
    obtain ⟨i, a, -, rfl⟩ := attributes_obj c o ho
    rw [run_branch (he := (rfl : eval x.env (.obj (.attribute c i a)) (varsOf c) [t!"not", t!".Type.IsBoolean"] =
      some (.flag !(TypesCode.isBoolean (x.typeOf a.typ)), [])))]
    rw [field_line, runLines_nil, andThen_nil]
    simp only [fieldLine, fieldEffects]
    cases TypesCode.isBoolean (x.typeOf a.typ) <;> rfl

/-! ## The attributes -/

theorem typeName_decl (t : GoRef.Typ) : t.decl = typeName t := by
  cases t with
  | basic b => cases b <;> rfl
  | _ => rfl

theorem typeName_struct (d : GoRef.Decl) : typeName (.struct d) = Go.nameOf d.annotations d.name := rfl

theorem printed_call {α : Type} (E : Env α) (d : GoTemplate.Value α) (vars : List (Text × GoTemplate.Value α))
    (f w : Text) (v : GoTemplate.Value α)
    (g : List (GoTemplate.Value α) → Option (GoTemplate.Value α × List Effect))
    (hf : (t!".".isPrefixOf f || t!"$".isPrefixOf f) = false) (hg : function E f = some g)
    (hp : t!"(".isPrefixOf w = false) (hw : operand E d vars w = some v) :
    printed E d vars [f, w] = (g [v]).bind fun (v, fx) => (v.print E).map fun t => (t, fx) := by
  simp [printed, eval, hf, hg, arguments, hp, hw]

theorem eval_call {α : Type} (E : Env α) (d : GoTemplate.Value α) (vars : List (Text × GoTemplate.Value α))
    (f w : Text) (v : GoTemplate.Value α)
    (g : List (GoTemplate.Value α) → Option (GoTemplate.Value α × List Effect))
    (hf : (t!".".isPrefixOf f || t!"$".isPrefixOf f) = false) (hg : function E f = some g)
    (hp : t!"(".isPrefixOf w = false) (hw : operand E d vars w = some v) : eval E d vars [f, w] = g [v] := by
  simp [eval, hf, hg, arguments, hp, hw]

section

variable (x : Context) (c : TypeCell) (i : Nat) (a : Attribute) (vars : List (Text × GoTemplate.Value Obj))

theorem o_element (e : GoRef.Typ) (h : elementOf (x.typeOf a.typ) = some (.ref e [])) :
    operand x.env (.obj (.attribute c i a)) vars t!".Type.Element" = some (.obj (.ref e [])) := by
  have : operand x.env (.obj (.attribute c i a)) vars t!".Type.Element" =
    (elementOf (x.typeOf a.typ)).map .obj := rfl
  rw [this, h]
  rfl

theorem e_elementScalar (e : GoRef.Typ) (h : elementOf (x.typeOf a.typ) = some (.ref e [])) :
    eval x.env (.obj (.attribute c i a)) vars [t!".Type.Element.IsScalar"] = some (.flag e.isScalar, []) := by
  have : eval x.env (.obj (.attribute c i a)) vars [t!".Type.Element.IsScalar"] =
    (((elementOf (x.typeOf a.typ)).map GoTemplate.Value.obj).bind
      (Value.member x.env t!"IsScalar")).map fun v => (v, []) := rfl
  rw [this, h]
  rfl

theorem e_elementStruct (e : GoRef.Typ) (h : elementOf (x.typeOf a.typ) = some (.ref e [])) :
    eval x.env (.obj (.attribute c i a)) vars [t!".Type.Element.IsStruct"] = some (.flag e.isStruct, []) := by
  have : eval x.env (.obj (.attribute c i a)) vars [t!".Type.Element.IsStruct"] =
    (((elementOf (x.typeOf a.typ)).map GoTemplate.Value.obj).bind
      (Value.member x.env t!"IsStruct")).map fun v => (v, []) := rfl
  rw [this, h]
  rfl

theorem p_elementBuilder (e : GoRef.Typ) (h : elementOf (x.typeOf a.typ) = some (.ref e [])) :
    printed x.env (.obj (.attribute c i a)) vars [t!"builderName", t!".Type.Element"] =
      some (GoRef.builderName e, nameErrors e) :=
  printed_call x.env _ vars _ _ _ (x.naming GoRef.builderName) rfl rfl rfl (o_element x c i a vars e h)

theorem e_elementBuilder (e : GoRef.Typ) (h : elementOf (x.typeOf a.typ) = some (.ref e [])) :
    eval x.env (.obj (.attribute c i a)) vars [t!"builderName", t!".Type.Element"] =
      some (.text (GoRef.builderName e), nameErrors e) :=
  eval_call x.env _ vars _ _ _ (x.naming GoRef.builderName) rfl rfl rfl (o_element x c i a vars e h)

theorem p_elementCtor (e : GoRef.Typ) (h : elementOf (x.typeOf a.typ) = some (.ref e [])) :
    printed x.env (.obj (.attribute c i a)) vars [t!"builderCtor", t!".Type.Element"] =
      some (GoRef.builderCtor e, nameErrors e) :=
  printed_call x.env _ vars _ _ _ (x.naming GoRef.builderCtor) rfl rfl rfl (o_element x c i a vars e h)

theorem p_elementObject (e : GoRef.Typ) (h : elementOf (x.typeOf a.typ) = some (.ref e [])) :
    printed x.env (.obj (.attribute c i a)) vars [t!"objectName", t!".Type.Element"] =
      some (GoRef.objectName e, nameErrors e) :=
  printed_call x.env _ vars _ _ _ (x.naming GoRef.objectName) rfl rfl rfl (o_element x c i a vars e h)

theorem e_elementValue (e : GoRef.Typ) (h : elementOf (x.typeOf a.typ) = some (.ref e [])) :
    eval x.env (.obj (.attribute c i a)) vars [t!"valueType", t!".Type.Element"] =
      some (.text (GoRef.emit x.pkg (GoRef.valueReference x.base e)), refEffects (GoRef.valueReference x.base e)) :=
  eval_call x.env _ vars _ _ _ (fun
      | [.obj o] => (x.typeArgument o).map fun t => GoFile.reference x.pkg (GoRef.valueReference x.base t)
      | _ => none) rfl rfl rfl (o_element x c i a vars e h)

theorem e_scalar : eval x.env (.obj (.attribute c i a)) vars [t!".Type.IsScalar"] =
    some (.flag (x.typeOf a.typ).isScalar, []) := rfl

theorem e_struct : eval x.env (.obj (.attribute c i a)) vars [t!".Type.IsStruct"] =
    some (.flag (x.typeOf a.typ).isStruct, []) := rfl

theorem e_list : eval x.env (.obj (.attribute c i a)) vars [t!".Type.IsList"] =
    some (.flag (x.typeOf a.typ).isList, []) := rfl

theorem e_map : eval x.env (.obj (.attribute c i a)) vars [t!".Type.IsMap"] =
    some (.flag (isMap (x.typeOf a.typ)), []) := rfl

theorem e_link : eval x.env (.obj (.attribute c i a)) vars [t!".Link"] = some (.flag a.link, []) := rfl

theorem p_selector : printed x.env (.obj (.attribute c i a)) vars [t!"selectorType", t!"."] =
    some (selectorOf x a, []) := by
  have : printed x.env (.obj (.attribute c i a)) vars [t!"selectorType", t!"."] =
    some (GoRef.selectorType (x.attr a), []) := rfl
  rw [this, GoRef.selectorType, selectorOf, TypesCode.Context.attr]
  cases a.linkOwner <;> rfl

theorem p_typeCtor : printed x.env (.obj (.attribute c i a)) vars [t!"builderCtor", t!".Type"] =
    some (GoRef.builderCtor (x.typeOf a.typ), nameErrors (x.typeOf a.typ)) := rfl

end

/-- The lines of the setter of an attribute. -/
def setterOf (x : Context) : Obj → List Text
  | .attribute c i a => itemsLines [(builderOf x c).setter (memberOf x c i a)]
  | _ => []

/-- The effects of the elements of an attribute. -/
def elementEffects (x : Context) (link : Bool) : GoRef.Typ → List Effect
  | .list _ e =>
    if link then [] else refEffects (GoRef.valueReference x.base e) ++ if e.isScalar then [] else nameErrors e
  | _ => []

/-- The effects of the setter of an attribute. -/
def setterEffects (x : Context) : Obj → List Effect
  | .attribute _ _ a =>
    refEffects (GoRef.builderSetterType x.base (x.attr a)) ++ elementEffects x a.link (x.typeOf a.typ)
  | _ => []

theorem run_setter (x : Context) (c : TypeCell) (i : Nat) (a : Attribute) : ∃ ls,
    (Bitmap.maskText c i = intText ((2 ^ (reservedBits c + i) : Nat) : Int) →
      ls = setterOf x (.attribute c i a)) ∧
    runLines x.env (.obj (.attribute c i a)) (varsOf c) setterBody =
      some (ls, setterEffects x (.attribute c i a)) := by
  rw [setterBody]
  rw [run_set (he := (rfl : eval x.env (.obj (.attribute c i a)) _ [t!"fieldName", t!"."] =
    some (.text (Go.privateName a.name), [])))]
  rw [run_set (he := (rfl : eval x.env (.obj (.attribute c i a)) _ [t!"setterName", t!"."] =
    some (.text (Go.nameOf a.annotations a.name), [])))]
  rw [run_set (he := (rfl : eval x.env (.obj (.attribute c i a)) _ [t!"setterType", t!"."] =
    some (.text (GoRef.emit x.pkg (GoRef.builderSetterType x.base (x.attr a))),
      refEffects (GoRef.builderSetterType x.base (x.attr a)))))]
  rw [run_set (he := (rfl : eval x.env (.obj (.attribute c i a)) _ [t!"bitMask", t!"."] =
    some (.text (Bitmap.maskText c i), [])))]
  rw [run_set (he := (rfl : eval x.env (.obj (.attribute c i a)) _ [t!"selectorType", t!"."] =
    some (.text (GoRef.selectorType (x.attr a)), [])))]
  generalize hv : ((t!"$selectorType", _) :: _ : List (Text × GoTemplate.Value Obj)) = vars
  have h1 : printed x.env (.obj (.attribute c i a)) vars [t!"$setterName"] =
    some (Go.nameOf a.annotations a.name, []) := by subst hv; rfl
  have h2 : printed x.env (.obj (.attribute c i a)) vars [t!"$setterType"] =
    some (GoRef.emit x.pkg (GoRef.builderSetterType x.base (x.attr a)), []) := by subst hv; rfl
  have h3 : printed x.env (.obj (.attribute c i a)) vars [t!"$builderName"] =
    some (goName c ++ t!"Builder", []) := by subst hv; rfl
  have h4 : printed x.env (.obj (.attribute c i a)) vars [t!"$fieldMask"] =
    some (Bitmap.maskText c i, []) := by subst hv; rfl
  have h5 : printed x.env (.obj (.attribute c i a)) vars [t!"$fieldName"] =
    some (Go.privateName a.name, []) := by subst hv; rfl
  have h6 : printed x.env (.obj (.attribute c i a)) vars [t!".Name"] = some (a.name.toText, []) := rfl
  have h7 : printed x.env (.obj (.attribute c i a)) vars [t!"lineComment", t!".Type.Doc"] =
    some (commentOf (x.docOf a.typ), []) := rfl
  have h8 := p_selector x c i a vars
  rw [run_branch (he := e_list x c i a vars)]
  cases hT : x.typeOf a.typ with
  | basic b =>
    simp only [GoRef.Typ.isList, Bool.false_eq_true, if_false]
    simp only [runLines_line, runParts, h1, h2, h3, h4, h5, h6, h7, h8, andThen_some, Option.map_some]
    rw [run_branch (he := e_scalar x c i a vars)]
    simp only [hT, GoRef.Typ.isScalar, if_true, Bool.false_eq_true, if_false]
    simp only [runLines_line, runLines_nil, runParts, h1, h2, h3, h4, h5, h6, h7, h8, andThen_some, Option.map_some, after]
    refine ⟨_, fun hm => ?_, by
      simp only [setterEffects, hT, elementEffects, List.append_nil, List.nil_append]; rfl⟩
    rw [hm]
    simp [setterOf, Builder.setter, Builder.setterDecl, builderOf, memberOf, hT, formOf, elementForm, targetOf,
      typeName_struct, typeName_decl, Form.isList, itemsLines, plainSetter, nullableSetter, copySetter, fluent, setBit, clearBit,
      Builder.builder, Declaration.lines, Func.header, paramsText, resultsText, blockLines, Stmt.lines, argsText,
      Expr.text, dot, paren, reservedBits, GoRef.builderName, GoRef.goTypeName]
  | enum d =>
    simp only [GoRef.Typ.isList, Bool.false_eq_true, if_false]
    simp only [runLines_line, runParts, h1, h2, h3, h4, h5, h6, h7, h8, andThen_some, Option.map_some]
    rw [run_branch (he := e_scalar x c i a vars)]
    simp only [hT, GoRef.Typ.isScalar, if_true, Bool.false_eq_true, if_false]
    simp only [runLines_line, runLines_nil, runParts, h1, h2, h3, h4, h5, h6, h7, h8, andThen_some, Option.map_some, after]
    refine ⟨_, fun hm => ?_, by
      simp only [setterEffects, hT, elementEffects, List.append_nil, List.nil_append]; rfl⟩
    rw [hm]
    simp [setterOf, Builder.setter, Builder.setterDecl, builderOf, memberOf, hT, formOf, elementForm, targetOf,
      typeName_struct, typeName_decl, Form.isList, itemsLines, plainSetter, nullableSetter, copySetter, fluent, setBit, clearBit,
      Builder.builder, Declaration.lines, Func.header, paramsText, resultsText, blockLines, Stmt.lines, argsText,
      Expr.text, dot, paren, reservedBits, GoRef.builderName, GoRef.goTypeName]
  | struct d =>
    simp only [GoRef.Typ.isList, Bool.false_eq_true, if_false]
    simp only [runLines_line, runParts, h1, h2, h3, h4, h5, h6, h7, h8, andThen_some, Option.map_some]
    rw [run_branch (he := e_scalar x c i a vars)]
    simp only [hT, GoRef.Typ.isScalar, if_true, Bool.false_eq_true, if_false]
    simp only [runLines_line, runLines_nil, runParts, h1, h2, h3, h4, h5, h6, h7, h8, andThen_some, Option.map_some, after]
    refine ⟨_, fun hm => ?_, by
      simp only [setterEffects, hT, elementEffects, List.append_nil, List.nil_append]; rfl⟩
    rw [hm]
    simp [setterOf, Builder.setter, Builder.setterDecl, builderOf, memberOf, hT, formOf, elementForm, targetOf,
      typeName_struct, typeName_decl, Form.isList, itemsLines, plainSetter, nullableSetter, copySetter, fluent, setBit, clearBit,
      Builder.builder, Declaration.lines, Func.header, paramsText, resultsText, blockLines, Stmt.lines, argsText,
      Expr.text, dot, paren, reservedBits, GoRef.builderName, GoRef.goTypeName]
  | map d e =>
    simp only [GoRef.Typ.isList, Bool.false_eq_true, if_false]
    simp only [runLines_line, runParts, h1, h2, h3, h4, h5, h6, h7, h8, andThen_some, Option.map_some]
    rw [run_branch (he := e_scalar x c i a vars)]
    simp only [hT, GoRef.Typ.isScalar, if_true, Bool.false_eq_true, if_false]
    simp only [runLines_line, runLines_nil, runParts, h1, h2, h3, h4, h5, h6, h7, h8, andThen_some, Option.map_some, after]
    refine ⟨_, fun hm => ?_, by
      simp only [setterEffects, hT, elementEffects, List.append_nil, List.nil_append]; rfl⟩
    rw [hm]
    cases e <;> simp [setterOf, Builder.setter, Builder.setterDecl, builderOf, memberOf, hT, formOf, elementForm, targetOf,
      typeName_struct, typeName_decl, Form.isList, itemsLines, plainSetter, nullableSetter, copySetter, fluent, setBit, clearBit,
      Builder.builder, Declaration.lines, Func.header, paramsText, resultsText, blockLines, Stmt.lines, argsText,
      Expr.text, dot, paren, reservedBits, GoRef.builderName, GoRef.goTypeName]
  | list d e =>
    have hE : elementOf (x.typeOf a.typ) = some (.ref e []) := by rw [hT]; rfl
    simp only [GoRef.Typ.isList, if_true]
    simp only [runLines_line, runParts, h1, h2, h3, h4, h5, h6, h7, h8, andThen_some, Option.map_some]
    rw [run_branch (he := e_link x c i a vars)]
    cases hl : a.link with
    | true =>
      simp only [if_true]
      simp only [runLines_line, runLines_nil, runParts, h1, h2, h3, h4, h5, h6, h7, h8, andThen_some, Option.map_some, after]
      refine ⟨_, fun hm => ?_, by
        simp only [setterEffects, hT, hl, elementEffects, List.append_nil, List.nil_append, if_true]; rfl⟩
      rw [hm]
      simp [setterOf, Builder.setter, Builder.setterDecl, builderOf, memberOf, hT, formOf, elementForm, targetOf,
      typeName_struct, typeName_decl, Form.isList, itemsLines, plainSetter, nullableSetter, copySetter, fluent, setBit, clearBit,
      Builder.builder, Declaration.lines, Func.header, paramsText, resultsText, blockLines, Stmt.lines, argsText,
      Expr.text, dot, paren, reservedBits, GoRef.builderName, GoRef.goTypeName, hl]
    | false =>
      simp only [Bool.false_eq_true, if_false]
      rw [run_set (he := e_elementValue x c i a vars e hE)]
      generalize hw : ((t!"$elementType", _) :: _ : List (Text × GoTemplate.Value Obj)) = ws
      have w1 : printed x.env (.obj (.attribute c i a)) ws [t!"$setterName"] =
        some (Go.nameOf a.annotations a.name, []) := by subst hw; subst hv; rfl
      have w3 : printed x.env (.obj (.attribute c i a)) ws [t!"$builderName"] =
        some (goName c ++ t!"Builder", []) := by subst hw; subst hv; rfl
      have w4 : printed x.env (.obj (.attribute c i a)) ws [t!"$fieldMask"] =
        some (Bitmap.maskText c i, []) := by subst hw; subst hv; rfl
      have w5 : printed x.env (.obj (.attribute c i a)) ws [t!"$fieldName"] =
        some (Go.privateName a.name, []) := by subst hw; subst hv; rfl
      have w9 : printed x.env (.obj (.attribute c i a)) ws [t!"$elementType"] =
        some (GoRef.emit x.pkg (GoRef.valueReference x.base e), []) := by subst hw; rfl
      rw [run_branch (he := e_elementScalar x c i a ws e hE)]
      cases hs : e.isScalar with
      | true =>
        simp only [if_true]
        simp only [runLines_line, runLines_nil, runParts, w1, w3, w4, w5, w9, andThen_some, Option.map_some, after]
        refine ⟨_, fun hm => ?_, by
          simp only [setterEffects, hT, hl, hs, elementEffects, List.append_nil, List.nil_append, if_true,
            Bool.false_eq_true, if_false]; rfl⟩
        rw [hm]
        cases e <;> simp only [GoRef.Typ.isScalar, Bool.false_eq_true] at hs
        all_goals simp [setterOf, Builder.setter, Builder.setterDecl, builderOf, memberOf, hT, formOf, elementForm, targetOf,
      typeName_struct, typeName_decl, Form.isList, itemsLines, plainSetter, nullableSetter, copySetter, fluent, setBit, clearBit,
      Builder.builder, Declaration.lines, Func.header, paramsText, resultsText, blockLines, Stmt.lines, argsText,
      Expr.text, dot, paren, reservedBits, GoRef.builderName, GoRef.goTypeName, hl]
      | false =>
        simp only [Bool.false_eq_true, if_false]
        rw [run_set (he := e_elementBuilder x c i a ws e hE)]
        generalize hz : ((t!"$elementBuilderName", _) :: _ : List (Text × GoTemplate.Value Obj)) = zs
        have z1 : printed x.env (.obj (.attribute c i a)) zs [t!"$setterName"] =
          some (Go.nameOf a.annotations a.name, []) := by subst hz; subst hw; subst hv; rfl
        have z3 : printed x.env (.obj (.attribute c i a)) zs [t!"$builderName"] =
          some (goName c ++ t!"Builder", []) := by subst hz; subst hw; subst hv; rfl
        have z4 : printed x.env (.obj (.attribute c i a)) zs [t!"$fieldMask"] =
          some (Bitmap.maskText c i, []) := by subst hz; subst hw; subst hv; rfl
        have z5 : printed x.env (.obj (.attribute c i a)) zs [t!"$fieldName"] =
          some (Go.privateName a.name, []) := by subst hz; subst hw; subst hv; rfl
        have z9 : printed x.env (.obj (.attribute c i a)) zs [t!"$elementBuilderName"] =
          some (GoRef.builderName e, []) := by subst hz; rfl
        have z8 := p_selector x c i a zs
        simp only [runLines_line, runLines_nil, runParts, z1, z3, z4, z5, z8, z9, andThen_some, Option.map_some, after]
        refine ⟨_, fun hm => ?_, by
          simp only [setterEffects, hT, hl, hs, elementEffects, List.append_nil, List.nil_append, Bool.false_eq_true,
            if_false]; rfl⟩
        rw [hm]
        cases e <;> simp only [GoRef.Typ.isScalar, Bool.true_eq_false] at hs
        all_goals simp [setterOf, Builder.setter, Builder.setterDecl, builderOf, memberOf, hT, formOf, elementForm, targetOf,
      typeName_struct, typeName_decl, Form.isList, itemsLines, plainSetter, nullableSetter, copySetter, fluent, setBit, clearBit,
      Builder.builder, Declaration.lines, Func.header, paramsText, resultsText, blockLines, Stmt.lines, argsText,
      Expr.text, dot, paren, reservedBits, GoRef.builderName, GoRef.goTypeName, hl]

/-- The effects of the type of the field of an attribute. -/
def fieldRefEffects (x : Context) : Obj → List Effect
  | .attribute _ _ a => refEffects (GoRef.builderFieldType x.base (x.attr a))
  | _ => []

/-- The lines of an attribute in the method. -/
def copyLinesOf (x : Context) : Obj → List Text
  | .attribute c i a => blockLines (Member.copy (memberOf x c i a))
  | _ => []

theorem run_copy (x : Context) (c : TypeCell) (i : Nat) (a : Attribute) :
    runLines x.env (.obj (.attribute c i a)) (varsOf c) copyBody =
      some (copyLinesOf x (.attribute c i a), fieldRefEffects x (.attribute c i a)) := by
  rw [copyBody]
  rw [run_set (he := (rfl : eval x.env (.obj (.attribute c i a)) _ [t!"fieldName", t!"."] =
    some (.text (Go.privateName a.name), [])))]
  rw [run_set (he := (rfl : eval x.env (.obj (.attribute c i a)) _ [t!"fieldType", t!"."] =
    some (.text (GoRef.emit x.pkg (GoRef.builderFieldType x.base (x.attr a))),
      refEffects (GoRef.builderFieldType x.base (x.attr a)))))]
  rw [run_set (he := (rfl : eval x.env (.obj (.attribute c i a)) _ [t!"selectorType", t!"."] =
    some (.text (GoRef.selectorType (x.attr a)), [])))]
  generalize hv : ((t!"$selectorType", _) :: _ : List (Text × GoTemplate.Value Obj)) = vars
  have h1 : printed x.env (.obj (.attribute c i a)) vars [t!"$fieldName"] =
    some (Go.privateName a.name, []) := by subst hv; rfl
  have h2 : printed x.env (.obj (.attribute c i a)) vars [t!"$fieldType"] =
    some (GoRef.emit x.pkg (GoRef.builderFieldType x.base (x.attr a)), []) := by subst hv; rfl
  have h8 := p_selector x c i a vars
  have b1 := p_typeCtor x c i a vars
  rw [run_branch (he := e_scalar x c i a vars), run_branch (he := e_struct x c i a vars),
    run_branch (he := e_list x c i a vars), run_branch (he := e_map x c i a vars)]
  cases hT : x.typeOf a.typ with
  | basic b =>
    simp only [GoRef.Typ.isScalar, if_true]
    simp only [runLines_line, runLines_nil, runParts, h1, h2, h8, andThen_some, Option.map_some, after]
    refine congrArg some (Prod.ext ?_ ?_)
    · simp [copyLinesOf, Member.copy, memberOf, hT, formOf, elementForm, targetOf, typeName_struct, typeName_decl,
      copyOf, copyIf, fieldNotNil, buildInto, blockLines, Stmt.lines, argsText, Expr.text, dot, paren, intText, natText,
      GoRef.builderName, GoRef.builderCtor, GoRef.objectName, GoRef.goTypeName, nameErrors, GoRef.Typ.isStruct,
      GoRef.Typ.isList]
    · simp [fieldRefEffects, refEffects, nameErrors, GoRef.Typ.isStruct, GoRef.Typ.isList]
  | enum d =>
    simp only [GoRef.Typ.isScalar, if_true]
    simp only [runLines_line, runLines_nil, runParts, h1, h2, h8, andThen_some, Option.map_some, after]
    refine congrArg some (Prod.ext ?_ ?_)
    · simp [copyLinesOf, Member.copy, memberOf, hT, formOf, elementForm, targetOf, typeName_struct, typeName_decl,
      copyOf, copyIf, fieldNotNil, buildInto, blockLines, Stmt.lines, argsText, Expr.text, dot, paren, intText, natText,
      GoRef.builderName, GoRef.builderCtor, GoRef.objectName, GoRef.goTypeName, nameErrors, GoRef.Typ.isStruct,
      GoRef.Typ.isList]
    · simp [fieldRefEffects, refEffects, nameErrors, GoRef.Typ.isStruct, GoRef.Typ.isList]
  | struct d =>
    simp only [GoRef.Typ.isScalar, GoRef.Typ.isStruct, Bool.false_eq_true, if_true, if_false]
    simp only [runLines_line, runLines_nil, runParts, h1, h2, h8, andThen_some, Option.map_some, after, b1, hT]
    refine congrArg some (Prod.ext ?_ ?_)
    · simp [copyLinesOf, Member.copy, memberOf, hT, formOf, elementForm, targetOf, typeName_struct, typeName_decl,
      copyOf, copyIf, fieldNotNil, buildInto, blockLines, Stmt.lines, argsText, Expr.text, dot, paren, intText, natText,
      GoRef.builderName, GoRef.builderCtor, GoRef.objectName, GoRef.goTypeName, nameErrors, GoRef.Typ.isStruct,
      GoRef.Typ.isList]
    · simp [fieldRefEffects, refEffects, nameErrors, GoRef.Typ.isStruct, GoRef.Typ.isList]
  | list d e =>
    have hE : elementOf (x.typeOf a.typ) = some (.ref e []) := by rw [hT]; rfl
    have b2 := p_elementBuilder x c i a vars e hE
    have b3 := p_elementCtor x c i a vars e hE
    have b4 := p_elementObject x c i a vars e hE
    simp only [GoRef.Typ.isScalar, GoRef.Typ.isStruct, GoRef.Typ.isList, Bool.false_eq_true, if_true, if_false]
    simp only [runLines_line, runParts, h1, andThen_some, Option.map_some]
    rw [run_branch (he := e_link x c i a vars)]
    cases hl : a.link with
    | true =>
      simp only [if_true]
      simp only [runLines_line, runLines_nil, runParts, h1, h2, h8, andThen_some, Option.map_some, after, b1, hT]
      refine congrArg some (Prod.ext ?_ ?_)
      · simp [copyLinesOf, Member.copy, memberOf, hT, formOf, elementForm, targetOf, typeName_struct, typeName_decl,
        copyOf, copyIf, fieldNotNil, buildInto, blockLines, Stmt.lines, argsText, Expr.text, dot, paren, intText, natText,
        GoRef.builderName, GoRef.builderCtor, GoRef.objectName, GoRef.goTypeName, nameErrors, GoRef.Typ.isStruct,
        GoRef.Typ.isList, hl]
      · simp [fieldRefEffects, refEffects, nameErrors, GoRef.Typ.isStruct, GoRef.Typ.isList]
    | false =>
      simp only [Bool.false_eq_true, if_false]
      rw [run_branch (he := e_elementScalar x c i a vars e hE), run_branch (he := e_elementStruct x c i a vars e hE)]
      cases e
      all_goals
        simp only [GoRef.Typ.isScalar, GoRef.Typ.isStruct, Bool.false_eq_true, if_true, if_false]
        simp only [runLines_line, runLines_nil, runParts, h1, h2, h8, andThen_some, Option.map_some, after, b1, b2, b3, b4]
        refine congrArg some (Prod.ext ?_ ?_)
        · simp [copyLinesOf, Member.copy, memberOf, hT, formOf, elementForm, targetOf, typeName_struct, typeName_decl,
          copyOf, copyIf, fieldNotNil, buildInto, blockLines, Stmt.lines, argsText, Expr.text, dot, paren, intText, natText,
          GoRef.builderName, GoRef.builderCtor, GoRef.objectName, GoRef.goTypeName, nameErrors, GoRef.Typ.isStruct,
          GoRef.Typ.isList, hl]
        · simp [fieldRefEffects, refEffects, nameErrors, GoRef.Typ.isStruct, GoRef.Typ.isList]
  | map d e =>
    have hE : elementOf (x.typeOf a.typ) = some (.ref e []) := by rw [hT]; rfl
    have b2 := p_elementBuilder x c i a vars e hE
    have b3 := p_elementCtor x c i a vars e hE
    have b4 := p_elementObject x c i a vars e hE
    simp only [GoRef.Typ.isScalar, GoRef.Typ.isStruct, GoRef.Typ.isList, isMap, Bool.false_eq_true, if_true, if_false]
    simp only [runLines_line, runParts, h1, andThen_some, Option.map_some]
    rw [run_branch (he := e_elementScalar x c i a vars e hE), run_branch (he := e_elementStruct x c i a vars e hE)]
    cases e
    all_goals
      simp only [GoRef.Typ.isScalar, GoRef.Typ.isStruct, Bool.false_eq_true, if_true, if_false]
      simp only [runLines_line, runLines_nil, runParts, h1, h2, h8, andThen_some, Option.map_some, after, b1, b2, b3, b4]
      refine congrArg some (Prod.ext ?_ ?_)
      · simp [copyLinesOf, Member.copy, memberOf, hT, formOf, elementForm, targetOf, typeName_struct, typeName_decl,
        copyOf, copyIf, fieldNotNil, buildInto, blockLines, Stmt.lines, argsText, Expr.text, dot, paren, intText, natText,
        GoRef.builderName, GoRef.builderCtor, GoRef.objectName, GoRef.goTypeName, nameErrors, GoRef.Typ.isStruct,
        GoRef.Typ.isList]
      · simp [fieldRefEffects, refEffects, nameErrors, GoRef.Typ.isStruct, GoRef.Typ.isList]

/-- The lines of an attribute in the method. -/
def buildLinesOf (x : Context) : Obj → List Text
  | .attribute c i a => blockLines (Member.build (memberOf x c i a))
  | _ => []

theorem run_build (x : Context) (c : TypeCell) (i : Nat) (a : Attribute) :
    runLines x.env (.obj (.attribute c i a)) (varsOf c) buildBody =
      some (buildLinesOf x (.attribute c i a), fieldRefEffects x (.attribute c i a)) := by
  rw [buildBody]
  rw [run_set (he := (rfl : eval x.env (.obj (.attribute c i a)) _ [t!"fieldName", t!"."] =
    some (.text (Go.privateName a.name), [])))]
  rw [run_set (he := (rfl : eval x.env (.obj (.attribute c i a)) _ [t!"fieldType", t!"."] =
    some (.text (GoRef.emit x.pkg (GoRef.builderFieldType x.base (x.attr a))),
      refEffects (GoRef.builderFieldType x.base (x.attr a)))))]
  generalize hv : ((t!"$fieldType", _) :: _ : List (Text × GoTemplate.Value Obj)) = vars
  have h1 : printed x.env (.obj (.attribute c i a)) vars [t!"$fieldName"] =
    some (Go.privateName a.name, []) := by subst hv; rfl
  have h2 : printed x.env (.obj (.attribute c i a)) vars [t!"$fieldType"] =
    some (GoRef.emit x.pkg (GoRef.builderFieldType x.base (x.attr a)), []) := by subst hv; rfl
  have h8 := p_selector x c i a vars
  have b1 := p_typeCtor x c i a vars
  rw [run_branch (he := e_scalar x c i a vars), run_branch (he := e_struct x c i a vars),
    run_branch (he := e_list x c i a vars), run_branch (he := e_map x c i a vars)]
  cases hT : x.typeOf a.typ with
  | basic b =>
    simp only [GoRef.Typ.isScalar, if_true]
    simp only [runLines_line, runLines_nil, runParts, h1, h2, h8, andThen_some, Option.map_some, after]
    refine congrArg some (Prod.ext ?_ ?_)
    · simp [buildLinesOf, Member.build, memberOf, hT, formOf, elementForm, targetOf, typeName_struct, typeName_decl,
      copyOf, copyIf, fieldNotNil, buildInto, blockLines, Stmt.lines, argsText, Expr.text, dot, paren, intText, natText,
      GoRef.builderName, GoRef.builderCtor, GoRef.objectName, GoRef.goTypeName, nameErrors, GoRef.Typ.isStruct,
      GoRef.Typ.isList]
    · simp [fieldRefEffects, refEffects, nameErrors, GoRef.Typ.isStruct, GoRef.Typ.isList]
  | enum d =>
    simp only [GoRef.Typ.isScalar, if_true]
    simp only [runLines_line, runLines_nil, runParts, h1, h2, h8, andThen_some, Option.map_some, after]
    refine congrArg some (Prod.ext ?_ ?_)
    · simp [buildLinesOf, Member.build, memberOf, hT, formOf, elementForm, targetOf, typeName_struct, typeName_decl,
      copyOf, copyIf, fieldNotNil, buildInto, blockLines, Stmt.lines, argsText, Expr.text, dot, paren, intText, natText,
      GoRef.builderName, GoRef.builderCtor, GoRef.objectName, GoRef.goTypeName, nameErrors, GoRef.Typ.isStruct,
      GoRef.Typ.isList]
    · simp [fieldRefEffects, refEffects, nameErrors, GoRef.Typ.isStruct, GoRef.Typ.isList]
  | struct d =>
    simp only [GoRef.Typ.isScalar, GoRef.Typ.isStruct, Bool.false_eq_true, if_true, if_false]
    simp only [runLines_line, runLines_nil, runParts, h1, h2, h8, andThen_some, Option.map_some, after, b1, hT]
    refine congrArg some (Prod.ext ?_ ?_)
    · simp [buildLinesOf, Member.build, memberOf, hT, formOf, elementForm, targetOf, typeName_struct, typeName_decl,
      copyOf, copyIf, fieldNotNil, buildInto, blockLines, Stmt.lines, argsText, Expr.text, dot, paren, intText, natText,
      GoRef.builderName, GoRef.builderCtor, GoRef.objectName, GoRef.goTypeName, nameErrors, GoRef.Typ.isStruct,
      GoRef.Typ.isList]
    · simp [fieldRefEffects, refEffects, nameErrors, GoRef.Typ.isStruct, GoRef.Typ.isList]
  | list d e =>
    have hE : elementOf (x.typeOf a.typ) = some (.ref e []) := by rw [hT]; rfl
    have b2 := p_elementBuilder x c i a vars e hE
    have b3 := p_elementCtor x c i a vars e hE
    have b4 := p_elementObject x c i a vars e hE
    simp only [GoRef.Typ.isScalar, GoRef.Typ.isStruct, GoRef.Typ.isList, Bool.false_eq_true, if_true, if_false]
    simp only [runLines_line, runParts, h1, andThen_some, Option.map_some]
    rw [run_branch (he := e_link x c i a vars)]
    cases hl : a.link with
    | true =>
      simp only [if_true]
      simp only [runLines_line, runLines_nil, runParts, h1, h2, h8, andThen_some, Option.map_some, after, b1, hT]
      refine congrArg some (Prod.ext ?_ ?_)
      · simp [buildLinesOf, Member.build, memberOf, hT, formOf, elementForm, targetOf, typeName_struct, typeName_decl,
        copyOf, copyIf, fieldNotNil, buildInto, blockLines, Stmt.lines, argsText, Expr.text, dot, paren, intText, natText,
        GoRef.builderName, GoRef.builderCtor, GoRef.objectName, GoRef.goTypeName, nameErrors, GoRef.Typ.isStruct,
        GoRef.Typ.isList, hl]
      · simp [fieldRefEffects, refEffects, nameErrors, GoRef.Typ.isStruct, GoRef.Typ.isList]
    | false =>
      simp only [Bool.false_eq_true, if_false]
      rw [run_branch (he := e_elementScalar x c i a vars e hE), run_branch (he := e_elementStruct x c i a vars e hE)]
      cases e
      all_goals
        simp only [GoRef.Typ.isScalar, GoRef.Typ.isStruct, Bool.false_eq_true, if_true, if_false]
        simp only [runLines_line, runLines_nil, runParts, h1, h2, h8, andThen_some, Option.map_some, after, b1, b2, b3, b4]
        refine congrArg some (Prod.ext ?_ ?_)
        · simp [buildLinesOf, Member.build, memberOf, hT, formOf, elementForm, targetOf, typeName_struct, typeName_decl,
          copyOf, copyIf, fieldNotNil, buildInto, blockLines, Stmt.lines, argsText, Expr.text, dot, paren, intText, natText,
          GoRef.builderName, GoRef.builderCtor, GoRef.objectName, GoRef.goTypeName, nameErrors, GoRef.Typ.isStruct,
          GoRef.Typ.isList, hl]
        · simp [fieldRefEffects, refEffects, nameErrors, GoRef.Typ.isStruct, GoRef.Typ.isList]
  | map d e =>
    have hE : elementOf (x.typeOf a.typ) = some (.ref e []) := by rw [hT]; rfl
    have b2 := p_elementBuilder x c i a vars e hE
    have b3 := p_elementCtor x c i a vars e hE
    have b4 := p_elementObject x c i a vars e hE
    simp only [GoRef.Typ.isScalar, GoRef.Typ.isStruct, GoRef.Typ.isList, isMap, Bool.false_eq_true, if_true, if_false]
    simp only [runLines_line, runParts, h1, andThen_some, Option.map_some]
    rw [run_branch (he := e_elementScalar x c i a vars e hE), run_branch (he := e_elementStruct x c i a vars e hE)]
    cases e
    all_goals
      simp only [GoRef.Typ.isScalar, GoRef.Typ.isStruct, Bool.false_eq_true, if_true, if_false]
      simp only [runLines_line, runLines_nil, runParts, h1, h2, h8, andThen_some, Option.map_some, after, b1, b2, b3, b4]
      refine congrArg some (Prod.ext ?_ ?_)
      · simp [buildLinesOf, Member.build, memberOf, hT, formOf, elementForm, targetOf, typeName_struct, typeName_decl,
        copyOf, copyIf, fieldNotNil, buildInto, blockLines, Stmt.lines, argsText, Expr.text, dot, paren, intText, natText,
        GoRef.builderName, GoRef.builderCtor, GoRef.objectName, GoRef.goTypeName, nameErrors, GoRef.Typ.isStruct,
        GoRef.Typ.isList]
      · simp [fieldRefEffects, refEffects, nameErrors, GoRef.Typ.isStruct, GoRef.Typ.isList]

/-! ## The methods -/

theorem run_setters (x : Context) (c : TypeCell) : ∃ ls,
    (reservedBits c + c.attributes.length ≤ 63 →
      ls = itemsLines ((builderOf x c).members.map (builderOf x c).setter)) ∧
    runLines x.env (argsOf c) (varsOf c) [.range [t!".Type.Attributes"] setterBody] =
      some (ls, (c.attributes.mapIdx (Obj.attribute c)).flatMap (setterEffects x)) := by
  have key := fun i a => run_setter x c i a
  let g : Obj → List Text := fun
    | .attribute _ i a => Classical.choose (key i a)
    | _ => []
  refine ⟨(c.attributes.mapIdx (Obj.attribute c)).flatMap g, fun h => ?_, ?_⟩
  · have : ∀ o ∈ c.attributes.mapIdx (Obj.attribute c), g o = setterOf x o := by
      intro o ho
      obtain ⟨i, a, hi, rfl⟩ := attributes_obj c o ho
      exact (Classical.choose_spec (key i a)).1
        (TypesCode.mask_text c h i (List.getElem?_eq_some_iff.mp hi).1)
    rw [TypesCode.flatMap_congr _ _ _ this]
    simp only [itemsLines, builderOf, List.flatMap_map, List.mapIdx_eq_zipIdx_map]
    refine TypesCode.flatMap_congr _ _ _ fun p _ => ?_
    simp [setterOf, itemsLines, builderOf, List.mapIdx_eq_zipIdx_map]
  · rw [run_range (he := (rfl : eval x.env (argsOf c) (varsOf c) [t!".Type.Attributes"] =
      some (.list (c.attributes.mapIdx (.attribute c)), []))) (g := g) (h := setterEffects x)]
    · rw [runLines_nil, andThen_nil]
    · intro o ho
      obtain ⟨i, a, hi, rfl⟩ := attributes_obj c o ho
      exact (Classical.choose_spec (key i a)).2

theorem blockLines_append (a b : List Stmt) : blockLines (a ++ b) = blockLines a ++ blockLines b := by
  induction a with
  | nil => rfl
  | cons s a ih => rw [List.cons_append, blockLines, blockLines, ih, List.append_assoc]

theorem blockLines_flatMap {α : Type} (f : α → List Stmt) (l : List α) :
    blockLines (l.flatMap f) = l.flatMap fun a => blockLines (f a) := by
  induction l with
  | nil => rfl
  | cons a l ih => rw [List.flatMap_cons, List.flatMap_cons, blockLines_append, ih]

theorem run_copies (x : Context) (c : TypeCell) :
    runLines x.env (argsOf c) (varsOf c) [.range [t!".Type.Attributes"] copyBody] =
      some (blockLines ((builderOf x c).members.flatMap Member.copy),
        (c.attributes.mapIdx (Obj.attribute c)).flatMap (fieldRefEffects x)) := by
  rw [run_range (he := (rfl : eval x.env (argsOf c) (varsOf c) [t!".Type.Attributes"] =
    some (.list (c.attributes.mapIdx (.attribute c)), []))) (g := copyLinesOf x) (h := fieldRefEffects x)]
  · rw [runLines_nil, andThen_nil, blockLines_flatMap]
    simp only [builderOf, List.flatMap_map, List.mapIdx_eq_zipIdx_map]
    rfl
  · intro o ho
    obtain ⟨i, a, hi, rfl⟩ := attributes_obj c o ho
    exact run_copy x c i a

theorem run_builds (x : Context) (c : TypeCell) :
    runLines x.env (argsOf c) (varsOf c) [.range [t!".Type.Attributes"] buildBody] =
      some (blockLines ((builderOf x c).members.flatMap Member.build),
        (c.attributes.mapIdx (Obj.attribute c)).flatMap (fieldRefEffects x)) := by
  rw [run_range (he := (rfl : eval x.env (argsOf c) (varsOf c) [t!".Type.Attributes"] =
    some (.list (c.attributes.mapIdx (.attribute c)), []))) (g := buildLinesOf x) (h := fieldRefEffects x)]
  · rw [runLines_nil, andThen_nil, blockLines_flatMap]
    simp only [builderOf, List.flatMap_map, List.mapIdx_eq_zipIdx_map]
    rfl
  · intro o ho
    obtain ⟨i, a, hi, rfl⟩ := attributes_obj c o ho
    exact run_build x c i a

theorem class_eq (x : Context) (c : TypeCell) : (builderOf x c).isClass = c.isClass := rfl

theorem run_copyMethod (x : Context) (c : TypeCell) (e : Builder) (h1 : e.object = goName c)
    (h2 : e.isClass = c.isClass) (fx : List Effect) :
    andThen (runLines x.env (argsOf c) (varsOf c) copyHead)
      (andThen (some (blockLines (e.members.flatMap Member.copy), fx)) (runLines x.env (argsOf c) (varsOf c) copyTail)) =
      some (itemsLines [e.copy], fx) := by
  simp only [copyHead, copyTail, runLines_line, runLines_nil, runParts, p_builder, p_object, p_name, andThen_some,
    Option.map_some]
  rw [run_branch (he := (rfl : eval x.env (argsOf c) (varsOf c) [t!".Type.IsClass"] =
    some (.flag c.isClass, [])))]
  simp only [runLines_line, runLines_nil, runParts, andThen_some, Option.map_some, andThen_nil]
  cases hc : c.isClass <;>
    simp [Builder.copy, Builder.ifClass, Builder.builder, itemsLines, h1, h2, hc, fluent, Declaration.lines,
      Func.header, paramsText, resultsText, blockLines, blockLines_append, Stmt.lines, argsText, Expr.text, dot, isNil,
      paren, andThen]

theorem run_buildMethod (x : Context) (c : TypeCell) (e : Builder) (h1 : e.object = goName c)
    (h2 : e.isClass = c.isClass) (h3 : e.name = c.name.toText) (fx : List Effect) :
    andThen (runLines x.env (argsOf c) (varsOf c) buildHead)
      (andThen (some (blockLines (e.members.flatMap Member.build), fx)) (runLines x.env (argsOf c) (varsOf c) buildTail)) =
      some (itemsLines [e.build], fx) := by
  simp only [buildHead, buildTail, runLines_line, runLines_nil, runParts, p_builder, p_object, p_name, andThen_some,
    Option.map_some]
  rw [run_branch (he := (rfl : eval x.env (argsOf c) (varsOf c) [t!".Type.IsClass"] =
    some (.flag c.isClass, [])))]
  simp only [runLines_line, runLines_nil, runParts, andThen_some, Option.map_some, andThen_nil]
  cases hc : c.isClass <;>
    simp [Builder.build, Builder.ifClass, Builder.builder, itemsLines, h1, h2, h3, hc, fluent, Declaration.lines,
      Func.header, paramsText, resultsText, blockLines, blockLines_append, Stmt.lines, argsText, Expr.text, dot, isNil,
      paren, andThen]

/-! ## The whole template -/

/-- The effects of the template of builders of objects. -/
def builderEffects (x : Context) (c : TypeCell) : List Effect :=
  let os := c.attributes.mapIdx (Obj.attribute c)
  refEffects (TypesCode.bitmapType c) ++ (os.flatMap (fieldEffects x false) ++ os.flatMap (fieldEffects x true)) ++
    (os.flatMap (setterEffects x) ++ (os.flatMap (fieldRefEffects x) ++ os.flatMap (fieldRefEffects x)))

theorem bitmap_eq (x : Context) (c : TypeCell) (hw : Bitmap.width c ≠ none) :
    GoRef.emit x.pkg (TypesCode.bitmapType c) = (builderOf x c).bitmap :=
  TypesCode.bitmap_eq x.toContext c hw

theorem run_builder (x : Context) (c : TypeCell) (hk : c.kind = .class ∨ c.kind = .struct) : ∃ ls,
    (reservedBits c + c.attributes.length ≤ 63 → ls = itemsLines (builderOf x c).items) ∧
    runLines x.env (argsOf c) [] builderLines = some (ls, builderEffects x c) := by
  obtain ⟨gs, hg1, hg2⟩ := run_setters x c
  have ht : x.typ c = .struct { owner := x.owner, name := c.name, annotations := c.annotations } := by
    rcases hk with hk | hk <;> simp [TypesCode.Context.typ, TypeCell.isEnum, hk]
  have e1 : ∀ vars, eval x.env (argsOf c) vars [t!"builderName", t!".Type"] =
      some (.text (goName c ++ t!"Builder"), []) := fun vars => by
    have : eval x.env (argsOf c) vars [t!"builderName", t!".Type"] =
      some (.text (GoRef.builderName (x.typ c)), nameErrors (x.typ c)) := rfl
    rw [this, ht]
    rfl
  have e2 : ∀ vars, eval x.env (argsOf c) vars [t!"builderCtor", t!".Type"] =
      some (.text (t!"New" ++ goName c), []) := fun vars => by
    have : eval x.env (argsOf c) vars [t!"builderCtor", t!".Type"] =
      some (.text (GoRef.builderCtor (x.typ c)), nameErrors (x.typ c)) := rfl
    rw [this, ht]
    rfl
  have e3 : ∀ vars, eval x.env (argsOf c) vars [t!"objectName", t!".Type"] =
      some (.text (goName c), []) := fun vars => by
    have : eval x.env (argsOf c) vars [t!"objectName", t!".Type"] =
      some (.text (GoRef.objectName (x.typ c)), nameErrors (x.typ c)) := rfl
    rw [this, ht]
    rfl
  rw [builderLines, run_set (he := e1 _), run_set (he := e2 _), run_set (he := e3 _)]
  change ∃ ls, _ ∧ after [] (after [] (after [] (runLines x.env (argsOf c) (varsOf c) _))) = _
  have A := fun ls ks h => TypesCode.runLines_append x.env (argsOf c) (varsOf c) ks ls h
  rw [A _ _ rfl, A _ _ rfl, A _ _ rfl, A _ _ rfl, A _ _ rfl, A _ _ rfl, A _ _ rfl, A _ _ rfl, A _ _ rfl, A _ _ rfl]
  rw [run_structure x c, run_ctor x c (builderOf x c) rfl rfl, run_identity x c (builderOf x c) rfl,
    run_empty x c (builderOf x c) rfl rfl, hg2, run_copies, run_builds,
    run_buildMethod x c (builderOf x c) rfl rfl rfl, ← andThen_assoc (runLines x.env (argsOf c) (varsOf c) copyHead),
    ← andThen_assoc (andThen (runLines x.env (argsOf c) (varsOf c) copyHead) _),
    andThen_assoc (runLines x.env (argsOf c) (varsOf c) copyHead),
    run_copyMethod x c (builderOf x c) rfl rfl]
  simp only [andThen_some, after, Option.map_some]
  refine ⟨_, fun h => ?_, congrArg (fun fx => some (_, fx)) (by simp [builderEffects])⟩
  have hw : Bitmap.width c ≠ none := by
    have := (width_some c _).mpr ⟨hk, by omega, rfl⟩
    rw [this]
    simp
  rw [hg1 h, bitmap_eq x c hw]
  simp [itemsLines, Builder.items, class_eq]
  rfl

/-! ## The errors and the imports -/

theorem attributes_mem (c : TypeCell) (p : Obj → Prop) :
    (∀ o ∈ c.attributes.mapIdx (Obj.attribute c), p o) ↔
      ∀ i a, c.attributes[i]? = some a → p (.attribute c i a) := by
  constructor
  · intro h i a hi
    obtain ⟨hlt, rfl⟩ := List.getElem?_eq_some_iff.mp hi
    exact h _ (List.mem_mapIdx.mpr ⟨i, hlt, rfl⟩)
  · intro h o ho
    obtain ⟨i, a, hi, rfl⟩ := attributes_obj c o ho
    exact h i a hi

theorem field_errors (x : Context) (a : Attribute) (d : GoRef.Decl) (e : GoRef.Typ)
    (ht : x.typeOf a.typ = .list d e) (hl : a.link = false) (hs : e.isScalar = false)
    (h : (GoRef.builderFieldType x.base (x.attr a)).errors = 0) : nameErrors e = [] := by
  simp only [GoRef.builderFieldType, TypesCode.Context.attr, ht, hl, hs, Bool.false_eq_true, if_false] at h
  cases e with
  | basic b => cases hs
  | enum d => cases hs
  | struct d => rfl
  | list d e => rfl
  | map d e => simp [GoRef.builderReference] at h

theorem builderErrors (x : Context) (c : TypeCell) :
    TypesCode.errorCount (builderEffects x c) = 0 ↔
      Bitmap.width c ≠ none ∧ ∀ ref, Uses x c ref → ref.errors = 0 := by
  rw [builderEffects]
  simp only [TypesCode.errorCount_append, Nat.add_eq_zero_iff, TypesCode.errorCount_flatMap, attributes_mem,
    TypesCode.errorCount_ref, fieldEffects, setterEffects, fieldRefEffects]
  have hw : (TypesCode.bitmapType c).errors = 0 ↔ Bitmap.width c ≠ none := by
    rw [TypesCode.bitmapType]
    split <;> simp_all
  have hf : ∀ (b : Bool) (a : Attribute), (GoRef.builderFieldType x.base (x.attr a)).errors = 0 →
      TypesCode.errorCount (if TypesCode.isBoolean (x.typeOf a.typ) = b then
        refEffects (GoRef.builderFieldType x.base (x.attr a)) else []) = 0 := by
    intro b a h
    split
    · rw [TypesCode.errorCount_ref, h]
    · rfl
  rw [hw]
  simp only [TypesCode.forall_index c.attributes]
  constructor
  · rintro ⟨⟨h1, -⟩, h2, h3, -⟩
    refine ⟨h1, ?_⟩
    rintro ref ⟨a, ha, rfl | rfl | ⟨d, e, ht, hl, rfl⟩⟩
    · exact h3 a ha
    · exact (h2 a ha).1
    · have := (h2 a ha).2
      rw [ht, hl, elementEffects, if_neg (by simp), TypesCode.errorCount_append, TypesCode.errorCount_ref] at this
      omega
  · rintro ⟨h1, h2⟩
    have h3 : ∀ a ∈ c.attributes, (GoRef.builderFieldType x.base (x.attr a)).errors = 0 :=
      fun a ha => h2 _ ⟨a, ha, .inl rfl⟩
    refine ⟨⟨h1, fun a ha => hf _ a (h3 a ha), fun a ha => hf _ a (h3 a ha)⟩,
      fun a ha => ⟨h2 _ ⟨a, ha, .inr (.inl rfl)⟩, ?_⟩, h3, h3⟩
    cases ht : x.typeOf a.typ with
    | list d e =>
      cases hl : a.link with
      | true => rfl
      | false =>
        rw [elementEffects, if_neg (by simp), TypesCode.errorCount_append, TypesCode.errorCount_ref,
          h2 _ ⟨a, ha, .inr (.inr ⟨d, e, ht, hl, rfl⟩)⟩]
        cases hs : e.isScalar with
        | true => rfl
        | false => rw [field_errors x a d e ht hl hs (h3 a ha)]; rfl
    | _ => rfl

theorem nameErrors_imports (t : GoRef.Typ) (p sel : Text) : Effect.imports p sel ∉ nameErrors t := by
  rw [nameErrors]
  split <;> simp

theorem builderImports (x : Context) (c : TypeCell) (p sel : Text) (hp : p ≠ []) :
    Effect.imports p sel ∈ builderEffects x c ↔ ∃ ref, Uses x c ref ∧ ref.imprt = p ∧ ref.selector = sel := by
  have hb : (TypesCode.bitmapType c).imprt = [] := by
    rw [TypesCode.bitmapType]
    split <;> rfl
  have hm : ∀ o, o ∈ c.attributes.mapIdx (Obj.attribute c) ↔
      ∃ i a, c.attributes[i]? = some a ∧ o = .attribute c i a := fun o => by
    constructor
    · exact attributes_obj c o
    · rintro ⟨i, a, hi, rfl⟩
      obtain ⟨hlt, rfl⟩ := List.getElem?_eq_some_iff.mp hi
      exact List.mem_mapIdx.mpr ⟨i, hlt, rfl⟩
  have he : ∀ a : Attribute, Effect.imports p sel ∈ elementEffects x a.link (x.typeOf a.typ) ↔
      ∃ d e, x.typeOf a.typ = .list d e ∧ a.link = false ∧
        (GoRef.valueReference x.base e).imprt = p ∧ (GoRef.valueReference x.base e).selector = sel := by
    intro a
    cases ht : x.typeOf a.typ with
    | list d e =>
      cases hl : a.link with
      | true => simp [elementEffects]
      | false =>
        have : Effect.imports p sel ∉ if e.isScalar = true then [] else nameErrors e := by
          split
          · simp
          · exact nameErrors_imports e p sel
        rw [elementEffects, if_neg (by simp), List.mem_append, TypesCode.ref_imports]
        constructor
        · rintro (h | h)
          · exact ⟨d, e, rfl, rfl, h⟩
          · exact absurd h this
        · rintro ⟨d', e', h1, -, h⟩
          cases h1
          exact .inl h
    | _ => simp [elementEffects]
  simp only [builderEffects, List.mem_append, TypesCode.ref_imports, List.mem_flatMap, hm, hb]
  constructor
  · rintro ((⟨h, -⟩ | ⟨o, ⟨i, a, hi, rfl⟩, h⟩ | ⟨o, ⟨i, a, hi, rfl⟩, h⟩) | ⟨o, ⟨i, a, hi, rfl⟩, h⟩ |
      ⟨o, ⟨i, a, hi, rfl⟩, h⟩ | ⟨o, ⟨i, a, hi, rfl⟩, h⟩)
    · exact absurd h.symm hp
    · simp only [fieldEffects] at h
      split at h
      · exact ⟨_, ⟨a, List.mem_of_getElem? hi, .inl rfl⟩, (TypesCode.ref_imports _ _ _).mp h⟩
      · cases h
    · simp only [fieldEffects] at h
      split at h
      · exact ⟨_, ⟨a, List.mem_of_getElem? hi, .inl rfl⟩, (TypesCode.ref_imports _ _ _).mp h⟩
      · cases h
    · rcases List.mem_append.mp h with h | h
      · exact ⟨_, ⟨a, List.mem_of_getElem? hi, .inr (.inl rfl)⟩, (TypesCode.ref_imports _ _ _).mp h⟩
      · obtain ⟨d, e, h1, h2, h3⟩ := (he a).mp h
        exact ⟨_, ⟨a, List.mem_of_getElem? hi, .inr (.inr ⟨d, e, h1, h2, rfl⟩)⟩, h3⟩
    · exact ⟨_, ⟨a, List.mem_of_getElem? hi, .inl rfl⟩, (TypesCode.ref_imports _ _ _).mp h⟩
    · exact ⟨_, ⟨a, List.mem_of_getElem? hi, .inl rfl⟩, (TypesCode.ref_imports _ _ _).mp h⟩
  · rintro ⟨ref, ⟨a, ha, hr⟩, h⟩
    obtain ⟨i, hi⟩ := List.mem_iff_getElem?.mp ha
    rcases hr with rfl | rfl | ⟨d, e, h1, h2, rfl⟩
    · exact .inr (.inr (.inl ⟨_, ⟨i, a, hi, rfl⟩, (TypesCode.ref_imports _ _ _).mpr h⟩))
    · exact .inr (.inl ⟨_, ⟨i, a, hi, rfl⟩, List.mem_append_left _ ((TypesCode.ref_imports _ _ _).mpr h)⟩)
    · exact .inr (.inl ⟨_, ⟨i, a, hi, rfl⟩, List.mem_append_right _ ((he a).mpr ⟨d, e, h1, h2, h⟩)⟩)

/-! ## Builders of lists -/

theorem run_listBuilder (x : Context) (l d : GoRef.Decl) :
    runLines x.env (.args [(t!"Type", .ref (.list l (.struct d)) [])]) [] listBuilderLines =
      some (itemsLines (listBuilderOf d).items, []) := by
  generalize hd : GoTemplate.Value.args [(t!"Type", Obj.ref (.list l (.struct d)) [])] = D
  rw [listBuilderLines]
  rw [run_set (v := .text (Go.nameOf d.annotations d.name ++ t!"List")) (fx := []) (he := by subst hd; rfl)]
  rw [run_set (v := .text (Go.nameOf d.annotations d.name ++ t!"ListBuilder")) (fx := []) (he := by subst hd; rfl)]
  rw [run_set (v := .text (t!"New" ++ Go.nameOf d.annotations d.name ++ t!"List")) (fx := [])
    (he := by subst hd; rfl)]
  rw [run_set (v := .text (Go.nameOf d.annotations d.name)) (fx := []) (he := by subst hd; rfl)]
  rw [run_set (v := .text (Go.nameOf d.annotations d.name ++ t!"Builder")) (fx := []) (he := by subst hd; rfl)]
  rw [run_set (v := .text (t!"New" ++ Go.nameOf d.annotations d.name)) (fx := []) (he := by subst hd; rfl)]
  generalize hv : ((t!"$elementBuilderCtor", _) :: _ : List (Text × GoTemplate.Value Obj)) = vars
  have h1 : printed x.env D vars [t!"$objectName"] =
    some (Go.nameOf d.annotations d.name ++ t!"List", []) := by subst hv; rfl
  have h2 : printed x.env D vars [t!"$builderName"] =
    some (Go.nameOf d.annotations d.name ++ t!"ListBuilder", []) := by subst hv; rfl
  have h3 : printed x.env D vars [t!"$builderCtor"] =
    some (t!"New" ++ Go.nameOf d.annotations d.name ++ t!"List", []) := by subst hv; rfl
  have h4 : printed x.env D vars [t!"$elementObjectName"] =
    some (Go.nameOf d.annotations d.name, []) := by subst hv; rfl
  have h5 : printed x.env D vars [t!"$elementBuilderName"] =
    some (Go.nameOf d.annotations d.name ++ t!"Builder", []) := by subst hv; rfl
  have h6 : printed x.env D vars [t!"$elementBuilderCtor"] =
    some (t!"New" ++ Go.nameOf d.annotations d.name, []) := by subst hv; rfl
  have h7 : printed x.env D vars [t!".Type.Element.Name"] = some (d.name.toText, []) := by subst hd; rfl
  simp only [listBuilderBody, runLines_line, runLines_nil, runParts, h1, h2, h3, h4, h5, h6, h7, andThen_some,
    Option.map_some, after]
  simp [ListBuilder.items, ListBuilder.builder, ListBuilder.list, ListBuilder.element, ListBuilder.slice, listBuilderOf,
    itemsLines, fluent, simple, copyOf, buildInto, Declaration.lines, Func.header, paramsText, resultsText, blockLines,
    Stmt.lines, argsText, Expr.text, dot, isNil, paren, intText, natText, spaces]

end Verif.BuildersCode
