import Verif.Lemmas.TypesLines
import Verif.Spec.TypesCode
import Verif.Lemmas.GoFile

/-! The code that the templates of the types generator produce. -/

namespace Verif.TypesCode

open GoTemplate GoCode GoProgram

/-- The arguments of the templates. -/
abbrev argsOf (c : TypeCell) : GoTemplate.Value Obj := .args [(t!"Type", .typ c)]

/-- The name of the Go type. -/
abbrev goName (c : TypeCell) : Text := Go.nameOf c.annotations c.name

/-- The variables of the template of structs. -/
abbrev varsOf (c : TypeCell) : List (Text × GoTemplate.Value Obj) :=
  [(t!"$listName", .text (goName c ++ t!"List")), (t!"$objectName", .text (goName c))]

theorem p_object (x : Context) (c : TypeCell) (dot : GoTemplate.Value Obj) :
    printed x.env dot (varsOf c) [t!"$objectName"] = some (goName c, []) := rfl

theorem p_list (x : Context) (c : TypeCell) (dot : GoTemplate.Value Obj) :
    printed x.env dot (varsOf c) [t!"$listName"] = some (goName c ++ t!"List", []) := rfl

theorem p_name (x : Context) (c : TypeCell) (vars : List (Text × GoTemplate.Value Obj)) :
    printed x.env (argsOf c) vars [t!".Type.Name"] = some (c.name.toText, []) := rfl

theorem metadata_run (x : Context) :
    runLines x.env (.args []) [] metadataLines = some (itemsLines metadataItems, []) := by
  rfl

theorem runLines_nil {α : Type} (E : Env α) (dot : GoTemplate.Value α) (vars : List (Text × GoTemplate.Value α)) :
    runLines E dot vars [] = some ([], []) := by rw [runLines]


/-- The effects of a reference. -/
def refEffects (ref : GoRef.Ref) : List Effect :=
  List.replicate ref.errors .error ++ [.imports ref.imprt ref.selector]

/-! ## Enumerated types -/

theorem each_eq {α β : Type} (f : α → Option (List β × List Effect)) (g : α → List β) (h : α → List Effect) :
    ∀ as : List α, (∀ a ∈ as, f a = some (g a, h a)) → each f as = some (as.flatMap g, as.flatMap h)
  | [], _ => rfl
  | a :: as, ha => by
    rw [each, ha a (by simp), each_eq f g h as (fun b hb => ha b (by simp [hb])), andThen_some]
    rfl

theorem comment_eq (doc : Text) : GoBuffer.lineComment doc = commentOf doc := rfl

theorem run_range {α : Type} (E : Env α) (dot : GoTemplate.Value α) (vars : List (Text × GoTemplate.Value α))
    (w : Text) (body ls : List Line) (as : List α) (g : α → List Text) (h : α → List Effect)
    (he : eval E dot vars [w] = some (.list as, []))
    (hb : ∀ a ∈ as, runLines E (.obj a) vars body = some (g a, h a)) :
    runLines E dot vars (.range [w] body :: ls) =
      andThen (some (as.flatMap g, as.flatMap h)) (runLines E dot vars ls) := by
  have h1 : (Line.range [w] body).run E dot vars = some (as.flatMap g, as.flatMap h) := by
    rw [Line.run, rangeValue, he]
    · change after [] (each (fun p : α × Nat => runLines E (.obj p.1) vars body) as.zipIdx) = _
      rw [each_eq _ (fun p => g p.1) (fun p => h p.1) as.zipIdx (fun p hp => hb p.1 (List.fst_mem_of_mem_zipIdx hp))]
      have hz : ∀ {β : Type} (k : α → List β), (as.zipIdx.flatMap fun p => k p.1) = as.flatMap k := by
        intro β k
        rw [← List.flatMap_map, List.zipIdx_map_fst]
      rw [hz, hz]
      rfl
    · simp
  rw [runLines, h1]
  simp

theorem run_branch {α : Type} (E : Env α) (dot : GoTemplate.Value α) (vars : List (Text × GoTemplate.Value α))
    (e : List Text) (yes no ls : List Line) (b : Bool) (he : eval E dot vars e = some (.flag b, [])) :
    runLines E dot vars (.branch e yes no :: ls) =
      andThen (if b then runLines E dot vars yes else runLines E dot vars no) (runLines E dot vars ls) := by
  have h1 : (Line.branch e yes no).run E dot vars =
      if b then runLines E dot vars yes else runLines E dot vars no := by
    rw [Line.run, he]
    simp only [Option.bind_some, GoTemplate.Value.truth]
    cases b
    · change after [] (runLines E dot vars no) = runLines E dot vars no
      cases runLines E dot vars no <;> rfl
    · change after [] (runLines E dot vars yes) = runLines E dot vars yes
      cases runLines E dot vars yes <;> rfl
  rw [runLines, h1]
  simp

theorem run_set {α : Type} (E : Env α) (dot : GoTemplate.Value α) (vars : List (Text × GoTemplate.Value α))
    (x : Text) (e : List Text) (ls : List Line) (v : GoTemplate.Value α) (fx : List Effect)
    (he : eval E dot vars e = some (v, fx)) :
    runLines E dot vars (.set x e :: ls) = after fx (runLines E dot ((x, v) :: vars) ls) := by
  rw [runLines, he]
  rfl

theorem run_enum (x : Context) (c : TypeCell) (h : c.kind = .enum) :
    runLines x.env (argsOf c) [] enumLines = some (itemsLines (enumerationOf c).items, []) := by
  have he : eval x.env (argsOf c) [] [t!"enumName", t!".Type"] = some (.text (goName c), []) := by
    have : x.typ c = .enum { owner := x.owner, name := c.name, annotations := c.annotations } := by
      simp [Context.typ, TypeCell.isEnum, h]
    have h2 : eval x.env (argsOf c) [] [t!"enumName", t!".Type"] =
      some (.text (GoRef.enumReference x.base (x.typ c)).name,
        List.replicate (GoRef.enumReference x.base (x.typ c)).errors .error) := rfl
    rw [h2, this]
    rfl
  rw [enumLines, run_set (he := he)]
  have hp : ∀ dot, printed x.env dot [(t!"$enumName", .text (goName c))] [t!"$enumName"] =
    some (goName c, []) := fun _ => rfl
  have hv : ∀ v ∈ c.values.map (Obj.value c), runLines x.env (.obj v) [(t!"$enumName", .text (goName c))] [
      .line [.print [t!"lineComment", t!".Doc"]],
      .line [.print [t!"valueName", t!"."], .lit t!" ", .print [t!"$enumName"], .lit t!" = \"",
        .print [t!"valueTag", t!"."], .lit t!"\""]] = some ((match v with
          | .value _ v => [commentOf v.doc, goName c ++ Go.nameOf v.annotations v.name ++ t!" " ++
            goName c ++ t!" = \"" ++ Binding.enumValueName v ++ t!"\""]
          | _ => []), []) := by
    intro v hv
    obtain ⟨v, -, rfl⟩ := List.mem_map.mp hv
    have h1 : printed x.env (.obj (.value c v)) [(t!"$enumName", .text (goName c))]
      [t!"lineComment", t!".Doc"] = some (commentOf v.doc, []) := rfl
    have h2 : printed x.env (.obj (.value c v)) [(t!"$enumName", .text (goName c))]
      [t!"valueName", t!"."] = some (goName c ++ Go.nameOf v.annotations v.name, []) := rfl
    have h3 : printed x.env (.obj (.value c v)) [(t!"$enumName", .text (goName c))]
      [t!"valueTag", t!"."] = some (Binding.enumValueName v, []) := rfl
    simp only [runLines_line, runLines_nil, runParts, hp, h1, h2, h3, andThen_some, Option.map_some]
    simp
  simp only [runLines_line, runLines_nil, runParts, hp, p_name, andThen_some, Option.map_some]
  rw [run_range (he := (rfl : eval x.env (argsOf c) _ [t!".Type.Values"] = some (.list _, []))) (hb := hv)]
  simp only [runLines_line, runLines_nil, runParts, hp, p_name, andThen_some, Option.map_some]
  simp [after, itemsLines, Enumeration.items, enumerationOf, Declaration.lines, List.flatMap_map]

/-! ## Structs and classes -/

theorem zero_text (base : Text) (t : GoRef.Typ) : (zeroOf t).text 0 = GoRef.zeroValue base t := by
  cases t with
  | basic b => cases b <;> rfl
  | enum d => simp [zeroOf, GoRef.zeroValue, Expr.text, GoRef.valueReference, GoRef.goTypeName]
  | _ => rfl

theorem digits_1 : Nat.toDigits 10 1 = t!"1" := by decide

theorem digits_2 : Nat.toDigits 10 2 = t!"2" := by decide

theorem digits_4 : Nat.toDigits 10 4 = t!"4" := by decide

theorem digits_32 : natText 32 = t!"32" := by decide

theorem digits_64 : natText 64 = t!"64" := by decide

theorem run_kinds (x : Context) (c : TypeCell) (e : Entity) (h1 : e.object = goName c)
    (h2 : e.name = c.name.toText) :
    runLines x.env (argsOf c) (varsOf c) kindsLines =
      some (itemsLines (if c.isClass then e.kinds else []), []) := by
  rw [kindsLines, run_branch (he := (rfl : eval x.env (argsOf c) (varsOf c) [t!".Type.IsClass"] =
    some (.flag c.isClass, [])))]
  split
  · simp only [runLines_line, runLines_nil, runParts, p_object, p_list, p_name, andThen_some, Option.map_some]
    simp [Entity.kinds, itemsLines, h1, h2, Declaration.lines]
  · simp only [runLines_nil, andThen_some]
    rfl

theorem run_identity (x : Context) (c : TypeCell) (e : Entity) (h1 : e.object = goName c) :
    runLines x.env (argsOf c) (varsOf c) identityLines =
      some (itemsLines (if c.isClass then e.identity else []), []) := by
  rw [identityLines, run_branch (he := (rfl : eval x.env (argsOf c) (varsOf c) [t!".Type.IsClass"] =
    some (.flag c.isClass, [])))]
  split
  · simp only [runLines_line, runLines_nil, runParts, p_object, p_list, p_name, andThen_some, Option.map_some]
    simp [Entity.identity, itemsLines, h1, simple, getter, getterOk, Declaration.lines, Func.header, paramsText,
      resultsText, blockLines, Stmt.lines, argsText, Expr.text, dot, isNil, notNil, present, bitSet, paren, intText,
      natText, digits_1, digits_2, digits_4]
  · simp only [runLines_nil, andThen_some]
    rfl

theorem run_empty (x : Context) (c : TypeCell) (e : Entity) (h1 : e.object = goName c)
    (h2 : e.isClass = c.isClass) :
    runLines x.env (argsOf c) (varsOf c) emptyLines = some (itemsLines [e.empty], []) := by
  simp only [emptyLines, runLines_line, runParts, p_object, andThen_some, Option.map_some]
  rw [run_branch (he := (rfl : eval x.env (argsOf c) (varsOf c) [t!".Type.IsClass"] =
    some (.flag c.isClass, [])))]
  simp only [runLines_line, runLines_nil, runParts, andThen_some, Option.map_some]
  cases hc : c.isClass <;>
    simp [Entity.empty, itemsLines, h1, h2, hc, simple, Declaration.lines, Func.header, paramsText,
      resultsText, blockLines, Stmt.lines, argsText, Expr.text, dot, isNil, paren, intText, natText, andThen, digits_1]

theorem run_listKinds (x : Context) (c : TypeCell) (e : Entity) (h1 : e.object = goName c)
    (h2 : e.name = c.name.toText) :
    runLines x.env (argsOf c) (varsOf c) listKindsLines = some (itemsLines e.listKinds, []) := by
  simp only [listKindsLines, runLines_line, runLines_nil, runParts, p_object, p_list, p_name, andThen_some,
    Option.map_some]
  simp [Entity.listKinds, itemsLines, Entity.list, h1, h2, Declaration.lines, spaces]

theorem run_listIdentity (x : Context) (c : TypeCell) (e : Entity) (h1 : e.object = goName c) :
    runLines x.env (argsOf c) (varsOf c) listIdentityLines =
      some (itemsLines (if c.isClass then e.listIdentity else []), []) := by
  rw [listIdentityLines, run_branch (he := (rfl : eval x.env (argsOf c) (varsOf c) [t!".Type.IsClass"] =
    some (.flag c.isClass, [])))]
  split
  · simp only [runLines_line, runLines_nil, runParts, p_object, p_list, p_name, andThen_some, Option.map_some]
    simp [Entity.listIdentity, itemsLines, Entity.list, h1, simple, getter, getterOk, Declaration.lines, Func.header,
      paramsText, resultsText, blockLines, Stmt.lines, argsText, Expr.text, dot, isNil, notNil, paren]
  · simp only [runLines_nil, andThen_some]
    rfl

theorem run_listMethods (x : Context) (c : TypeCell) (e : Entity) (h1 : e.object = goName c) :
    runLines x.env (argsOf c) (varsOf c) listMethodsLines = some (itemsLines e.listMethods, []) := by
  simp only [listMethodsLines, runLines_line, runLines_nil, runParts, p_object, p_list, andThen_some,
    Option.map_some]
  simp [Entity.listMethods, itemsLines, Entity.list, h1, simple, setter, Declaration.lines, Func.header, paramsText,
    resultsText, blockLines, Stmt.lines, argsText, Expr.text, dot, isNil, paren, intText, natText]

/-- The line of the field of an attribute, if it is boolean or not. -/
def fieldLine (x : Context) (boolean : Bool) : Obj → List Text
  | .attribute _ _ a =>
    if isBoolean (x.typeOf a.typ) = boolean then
      [Go.privateName a.name ++ t!" " ++ GoRef.emit x.pkg (GoRef.fieldType x.base (x.attr a))]
    else []
  | _ => []

/-- The effects of the type of the field of an attribute. -/
def fieldEffects (x : Context) (boolean : Bool) : Obj → List Effect
  | .attribute _ _ a =>
    if isBoolean (x.typeOf a.typ) = boolean then refEffects (GoRef.fieldType x.base (x.attr a)) else []
  | _ => []

theorem attributes_obj (c : TypeCell) (o : Obj) (h : o ∈ c.attributes.mapIdx (Obj.attribute c)) :
    ∃ i a, c.attributes[i]? = some a ∧ o = .attribute c i a := by
  rw [List.mem_mapIdx] at h
  obtain ⟨i, hi, rfl⟩ := h
  exact ⟨i, c.attributes[i], by simp [hi], rfl⟩

theorem field_line (x : Context) (vars : List (Text × GoTemplate.Value Obj)) (c : TypeCell) (i : Nat)
    (a : Attribute) :
    runLines x.env (.obj (.attribute c i a)) vars
        [.line [.print [t!"fieldName", t!"."], .lit t!" ", .print [t!"fieldType", t!"."]]] =
      some ([Go.privateName a.name ++ t!" " ++ GoRef.emit x.pkg (GoRef.fieldType x.base (x.attr a))],
        refEffects (GoRef.fieldType x.base (x.attr a))) := by
  have h1 : printed x.env (.obj (.attribute c i a)) vars [t!"fieldName", t!"."] =
    some (Go.privateName a.name, []) := rfl
  have h2 : printed x.env (.obj (.attribute c i a)) vars [t!"fieldType", t!"."] =
    some (GoRef.emit x.pkg (GoRef.fieldType x.base (x.attr a)),
      refEffects (GoRef.fieldType x.base (x.attr a))) := rfl
  simp only [runLines_line, runLines_nil, runParts, h1, h2, andThen_some, Option.map_some]
  simp

theorem boolean_eq (x : Context) (c : TypeCell) (i : Nat) (a : Attribute) :
    (memberOf x c i a).boolean = isBoolean (x.typeOf a.typ) := rfl

theorem fields_flatMap (x : Context) (c : TypeCell) (b : Bool) :
    (c.attributes.mapIdx (Obj.attribute c)).flatMap (fieldLine x b) =
      ((c.attributes.mapIdx (memberOf x c)).filter (·.boolean == b)).map
        fun m => m.field ++ t!" " ++ m.fieldType := by
  rw [List.mapIdx_eq_zipIdx_map, List.mapIdx_eq_zipIdx_map, List.flatMap_map, List.filter_map, List.map_map]
  induction c.attributes.zipIdx with
  | nil => rfl
  | cons p ps ih =>
    rw [List.flatMap_cons, ih]
    simp only [fieldLine, List.filter_cons, Function.comp_apply, boolean_eq]
    by_cases h : isBoolean (x.typeOf p.1.typ) = b <;> simp [h, memberOf]

theorem bitmap_eq (x : Context) (c : TypeCell) (hw : Bitmap.width c ≠ none) :
    GoRef.emit x.pkg (bitmapType c) = (entityOf x c).bitmap := by
  obtain ⟨w, hw⟩ := Option.ne_none_iff_exists'.mp hw
  obtain ⟨-, -, rfl⟩ := (width_some c w).mp hw
  rw [bitmapType, hw]
  change GoRef.emit x.pkg { name := _, text := _ } =
    if reservedBits c + c.attributes.length ≤ 32 then t!"uint32" else t!"uint64"
  by_cases h : reservedBits c + c.attributes.length ≤ 32
  · rw [if_pos h, if_pos h, digits_32, GoRef.emit]
    split <;> rfl
  · rw [if_neg h, if_neg h, digits_64, GoRef.emit]
    split <;> rfl

theorem run_structure (x : Context) (c : TypeCell) :
    runLines x.env (argsOf c) (varsOf c) structureLines =
      some (itemsLines [({ entityOf x c with bitmap := GoRef.emit x.pkg (bitmapType c) } : Entity).struct],
        refEffects (bitmapType c) ++ ((c.attributes.mapIdx (Obj.attribute c)).flatMap (fieldEffects x false) ++
          (c.attributes.mapIdx (Obj.attribute c)).flatMap (fieldEffects x true))) := by
  have hb : printed x.env (argsOf c) (varsOf c) [t!"bitmapType", t!".Type"] =
      some (GoRef.emit x.pkg (bitmapType c), refEffects (bitmapType c)) := rfl
  have hd : printed x.env (argsOf c) (varsOf c) [t!"lineComment", t!".Type.Doc"] =
    some (commentOf c.doc, []) := rfl
  simp only [structureLines, runLines_line, runParts, p_object, p_name, hb, hd, andThen_some, Option.map_some]
  rw [run_branch (he := (rfl : eval x.env (argsOf c) (varsOf c) [t!".Type.IsClass"] =
    some (.flag c.isClass, [])))]
  rw [run_range (he := (rfl : eval x.env (argsOf c) (varsOf c) [t!".Type.Attributes"] =
    some (.list (c.attributes.mapIdx (.attribute c)), []))) (g := fieldLine x false) (h := fieldEffects x false)]
  · rw [run_range (he := (rfl : eval x.env (argsOf c) (varsOf c) [t!".Type.Attributes"] =
      some (.list (c.attributes.mapIdx (.attribute c)), []))) (g := fieldLine x true) (h := fieldEffects x true)]
    · simp only [runLines_line, runLines_nil, runParts, andThen_some, Option.map_some]
      rw [fields_flatMap x c false, fields_flatMap x c true]
      cases h : c.isClass <;>
        (rw [TypeCell.isClass] at h
         simp at h
         simp [itemsLines, Entity.struct, Declaration.lines, Entity.fields, h, entityOf, andThen, spaces,
          List.map_map, Function.comp_def])
    · intro o ho
      obtain ⟨i, a, -, rfl⟩ := attributes_obj c o ho
      rw [run_branch (he := (rfl : eval x.env (.obj (.attribute c i a)) (varsOf c) [t!".Type.IsBoolean"] =
        some (.flag (isBoolean (x.typeOf a.typ)), [])))]
      rw [field_line, runLines_nil, andThen_nil]
      simp only [fieldLine, fieldEffects]
      cases isBoolean (x.typeOf a.typ) <;> rfl
  · intro o ho
    obtain ⟨i, a, -, rfl⟩ := attributes_obj c o ho
    rw [run_branch (he := (rfl : eval x.env (.obj (.attribute c i a)) (varsOf c) [t!"not", t!".Type.IsBoolean"] =
      some (.flag !(isBoolean (x.typeOf a.typ)), [])))]
    rw [field_line, runLines_nil, andThen_nil]
    simp only [fieldLine, fieldEffects]
    cases isBoolean (x.typeOf a.typ) <;> rfl

/-- The lines of the getters of an attribute. -/
def gettersOf (x : Context) : Obj → List Text
  | .attribute c i a => itemsLines ((entityOf x c).getters (memberOf x c i a))
  | _ => []

/-- The effects of the getters of an attribute. -/
def getterEffects (x : Context) : Obj → List Effect
  | .attribute _ _ a => refEffects (GoRef.getterType x.base (x.attr a))
  | _ => []

theorem mask_text (c : TypeCell) (h : reservedBits c + c.attributes.length ≤ 63) (i : Nat)
    (hi : i < c.attributes.length) : Bitmap.maskText c i = intText ((2 ^ (reservedBits c + i) : Nat) : Int) := by
  have e : Bitmap.mask c i = BitVec.twoPow 64 (reservedBits c + i) := by
    unfold Bitmap.mask
    rw [bitIndex_eq c i hi, BitVec.twoPow_eq]
  have hlt : 2 ^ (reservedBits c + i) < 2 ^ 63 := Nat.pow_lt_pow_right (by decide) (by omega)
  have hn : (BitVec.twoPow 64 (reservedBits c + i)).toNat = 2 ^ (reservedBits c + i) :=
    BitVec.toNat_twoPow_of_lt (by omega)
  rw [Bitmap.maskText, e, BitVec.toInt_eq_toNat_of_lt (by rw [hn]; omega), hn]

theorem flatMap_congr {α β : Type} (f g : α → List β) : ∀ l : List α, (∀ a ∈ l, f a = g a) →
    l.flatMap f = l.flatMap g
  | [], _ => rfl
  | a :: l, h => by
    rw [List.flatMap_cons, List.flatMap_cons, h a List.mem_cons_self,
      flatMap_congr f g l fun b hb => h b (List.mem_cons_of_mem _ hb)]

theorem run_getter (x : Context) (c : TypeCell) (i : Nat) (a : Attribute) :
    ∀ body, getterLines = [.range [t!".Type.Attributes"] body] → ∃ ls,
    (Bitmap.maskText c i = intText ((2 ^ (reservedBits c + i) : Nat) : Int) →
      ls = gettersOf x (.attribute c i a)) ∧
    runLines x.env (.obj (.attribute c i a)) (varsOf c) body = some (ls, getterEffects x (.attribute c i a)) := by
  intro body hbody
  rw [getterLines] at hbody
  simp only [List.cons.injEq, Line.range.injEq, and_true, true_and] at hbody
  subst hbody
  rw [run_set (he := (rfl : eval x.env (.obj (.attribute c i a)) _ [t!".Type.Name.String"] = some (.text _, [])))]
  rw [run_set (he := (rfl : eval x.env (.obj (.attribute c i a)) _ [t!"fieldName", t!"."] =
    some (.text (Go.privateName a.name), [])))]
  rw [run_set (he := (rfl : eval x.env (.obj (.attribute c i a)) _ [t!"bitMask", t!"."] =
    some (.text (Bitmap.maskText c i), [])))]
  rw [run_set (he := (rfl : eval x.env (.obj (.attribute c i a)) _ [t!"getterName", t!"."] =
    some (.text (Go.nameOf a.annotations a.name), [])))]
  rw [run_set (he := (rfl : eval x.env (.obj (.attribute c i a)) _ [t!"getterType", t!"."] =
    some (.text (GoRef.emit x.pkg (GoRef.getterType x.base (x.attr a))),
      refEffects (GoRef.getterType x.base (x.attr a)))))]
  generalize hv : ((t!"$getterType", _) :: _ : List (Text × GoTemplate.Value Obj)) = vars
  have h1 : printed x.env (.obj (.attribute c i a)) vars [t!"$getterName"] =
    some (Go.nameOf a.annotations a.name, []) := by subst hv; rfl
  have h2 : printed x.env (.obj (.attribute c i a)) vars [t!"$getterType"] =
    some (GoRef.emit x.pkg (GoRef.getterType x.base (x.attr a)), []) := by subst hv; rfl
  have h3 : printed x.env (.obj (.attribute c i a)) vars [t!"$objectName"] = some (goName c, []) := by
    subst hv; rfl
  have h4 : printed x.env (.obj (.attribute c i a)) vars [t!"$fieldMask"] =
    some (Bitmap.maskText c i, []) := by subst hv; rfl
  have h5 : printed x.env (.obj (.attribute c i a)) vars [t!"$fieldName"] =
    some (Go.privateName a.name, []) := by subst hv; rfl
  have h6 : printed x.env (.obj (.attribute c i a)) vars [t!".Name"] = some (a.name.toText, []) := rfl
  have h7 : printed x.env (.obj (.attribute c i a)) vars [t!"lineComment", t!".Doc"] =
    some (commentOf a.doc, []) := rfl
  have h8 : printed x.env (.obj (.attribute c i a)) vars [t!"zeroValue", t!".Type"] =
    some ((zeroOf (x.typeOf a.typ)).text 0, []) := by
    rw [zero_text x.base]
    rfl
  simp only [runLines_line, runLines_nil, runParts, h1, h2, h3, h4, h5, h6, h7, h8, andThen_some,
    Option.map_some, after]
  refine ⟨_, fun hm => ?_, by simp only [getterEffects, List.append_nil, List.nil_append]; rfl⟩
  rw [hm]
  simp [gettersOf, Entity.getters, entityOf, memberOf, itemsLines, getter, getterOk,
    Declaration.lines, Func.header, paramsText, resultsText, blockLines, Stmt.lines, argsText, Expr.text, dot,
    notNil, present, bitSet, paren, reservedBits, refEffects]
  exact ⟨by decide, by decide⟩

theorem run_getters (x : Context) (c : TypeCell) : ∃ ls,
    (reservedBits c + c.attributes.length ≤ 63 →
      ls = itemsLines ((entityOf x c).members.flatMap (entityOf x c).getters)) ∧
    runLines x.env (argsOf c) (varsOf c) getterLines =
      some (ls, (c.attributes.mapIdx (Obj.attribute c)).flatMap (getterEffects x)) := by
  obtain ⟨body, hbody⟩ : ∃ body, getterLines = [.range [t!".Type.Attributes"] body] := ⟨_, rfl⟩
  have key := fun i a => run_getter x c i a body hbody
  let g : Obj → List Text := fun
    | .attribute _ i a => Classical.choose (key i a)
    | _ => []
  refine ⟨(c.attributes.mapIdx (Obj.attribute c)).flatMap g, fun h => ?_, ?_⟩
  · have : ∀ o ∈ c.attributes.mapIdx (Obj.attribute c), g o = gettersOf x o := by
      intro o ho
      obtain ⟨i, a, hi, rfl⟩ := attributes_obj c o ho
      exact (Classical.choose_spec (key i a)).1 (mask_text c h i (List.getElem?_eq_some_iff.mp hi).1)
    rw [flatMap_congr _ _ _ this]
    simp only [entityOf, itemsLines, List.flatMap_assoc, List.mapIdx_eq_zipIdx_map, List.flatMap_map]
    rfl
  · rw [hbody, run_range (he := (rfl : eval x.env (argsOf c) (varsOf c) [t!".Type.Attributes"] =
      some (.list (c.attributes.mapIdx (.attribute c)), []))) (g := g) (h := getterEffects x)]
    · rw [runLines_nil, andThen_nil]
    · intro o ho
      obtain ⟨i, a, hi, rfl⟩ := attributes_obj c o ho
      exact (Classical.choose_spec (key i a)).2

/-! ## The whole template -/

/-- The lines don't start with an assignment. -/
def unset : List Line → Bool
  | [] => true
  | .set _ _ :: _ => false
  | _ :: ls => unset ls

theorem runLines_append {α : Type} (E : Env α) (dot : GoTemplate.Value α) (vars : List (Text × GoTemplate.Value α))
    (ks : List Line) : ∀ ls : List Line, unset ls = true →
    runLines E dot vars (ls ++ ks) = andThen (runLines E dot vars ls) (runLines E dot vars ks)
  | [], _ => by rw [runLines_nil, nil_andThen]; rfl
  | .set _ _ :: _, h => by simp [unset] at h
  | .line ps :: ls, h => by
    rw [List.cons_append, runLines, runLines_append E dot vars ks ls h, runLines, andThen_assoc] <;> simp
  | .branch e a b :: ls, h => by
    rw [List.cons_append, runLines, runLines_append E dot vars ks ls h, runLines, andThen_assoc] <;> simp
  | .range e a :: ls, h => by
    rw [List.cons_append, runLines, runLines_append E dot vars ks ls h, runLines, andThen_assoc] <;> simp

/-- The effects of the template of structs and classes. -/
def structEffects (x : Context) (c : TypeCell) : List Effect :=
  let os := c.attributes.mapIdx (Obj.attribute c)
  refEffects (bitmapType c) ++ (os.flatMap (fieldEffects x false) ++ os.flatMap (fieldEffects x true)) ++
    os.flatMap (getterEffects x)

theorem run_struct (x : Context) (c : TypeCell) : ∃ ls,
    ((c.kind = .class ∨ c.kind = .struct) → reservedBits c + c.attributes.length ≤ 63 →
      ls = itemsLines (entityOf x c).items) ∧
    runLines x.env (argsOf c) [] structLines = some (ls, structEffects x c) := by
  obtain ⟨gs, hg1, hg2⟩ := run_getters x c
  rw [structLines]
  rw [run_set (he := (rfl : eval x.env (argsOf c) [] [t!"objectName", t!".Type"] = some (.text (goName c), [])))]
  rw [run_set (he := (rfl : eval x.env (argsOf c) _ [t!"listName", t!".Type"] =
    some (.text (goName c ++ t!"List"), [])))]
  change ∃ ls, _ ∧ after [] (after [] (runLines x.env (argsOf c) (varsOf c) _)) = _
  rw [runLines_append _ _ _ _ _ rfl, runLines_append _ _ _ _ _ rfl, runLines_append _ _ _ _ _ rfl,
    runLines_append _ _ _ _ _ rfl, runLines_append _ _ _ _ _ rfl, runLines_append _ _ _ _ _ rfl,
    runLines_append _ _ _ _ _ rfl]
  rw [run_kinds x c (entityOf x c) rfl rfl, run_structure x c, run_identity x c (entityOf x c) rfl,
    run_empty x c (entityOf x c) rfl rfl, hg2, run_listKinds x c (entityOf x c) rfl rfl,
    run_listIdentity x c (entityOf x c) rfl, run_listMethods x c (entityOf x c) rfl]
  simp only [andThen_some, after, Option.map_some]
  refine ⟨_, fun hk h => ?_, congrArg (fun fx => some (_, fx)) (by simp [structEffects])⟩
  have hw : Bitmap.width c ≠ none := by
    have := (width_some c _).mpr ⟨hk, by omega, rfl⟩
    rw [this]
    simp
  have hc : (entityOf x c).isClass = c.isClass := rfl
  rw [hg1 h, bitmap_eq x c hw]
  simp [itemsLines, Entity.items, hc]
  rfl

/-! ## The buffer -/

/-- The number of errors. -/
def errorCount : List Effect → Nat
  | [] => 0
  | .error :: fx => errorCount fx + 1
  | .imports _ _ :: fx => errorCount fx

theorem effects_foldl : ∀ (fx : List Effect) (b : GoFile.Buffer),
    (fx.foldl GoFile.Buffer.effect b).errors = b.errors + errorCount fx ∧
    (fx.foldl GoFile.Buffer.effect b).pkg = b.pkg ∧ (fx.foldl GoFile.Buffer.effect b).code = b.code
  | [], b => ⟨rfl, rfl, rfl⟩
  | .error :: fx, b => by
    obtain ⟨h1, h2, h3⟩ := effects_foldl fx (b.effect .error)
    refine ⟨?_, h2, h3⟩
    rw [List.foldl_cons, h1]
    simp only [GoFile.Buffer.effect, errorCount]
    omega
  | .imports p sel :: fx, b => by
    obtain ⟨h1, h2, h3⟩ := effects_foldl fx (b.effect (.imports p sel))
    rw [List.foldl_cons, h1, h2, h3, GoFile.Buffer.effect, GoFile.Buffer.imprt, errorCount]
    split <;> exact ⟨rfl, rfl, rfl⟩

theorem emit_eq {α : Type} (E : Env α) (b : GoFile.Buffer) (template : Text) (args : List (Text × α))
    (ls : List Line) (rs : List Text) (fx : List Effect) (hb : b.errors = 0)
    (hl : hasLines template ls = true) (hr : runLines E (.args args) [] ls = some (rs, fx)) :
    ∃ t, b.emit E template args =
        { fx.foldl GoFile.Buffer.effect b with code := b.code ++ t ++ t!"\n" } ∧
      ∀ r, significant (t ++ r) = code rs ++ significant r := by
  obtain ⟨t, h1, h2⟩ := run_template E (.args args) template ls (hasLines_eq _ _ hl) rs fx hr
  refine ⟨t, ?_, h2⟩
  rw [GoFile.Buffer.emit, if_neg (by omega), h1]
  simp only
  rw [(effects_foldl fx b).2.2]

theorem errorCount_append (a b : List Effect) : errorCount (a ++ b) = errorCount a + errorCount b := by
  induction a with
  | nil => simp [errorCount]
  | cons e a ih => cases e <;> simp only [List.cons_append, errorCount, ih] <;> omega

theorem errorCount_ref (ref : GoRef.Ref) : errorCount (refEffects ref) = ref.errors := by
  rw [refEffects, errorCount_append]
  have : ∀ n, errorCount (List.replicate n .error) = n := by
    intro n
    induction n with
    | zero => rfl
    | succ n ih => rw [List.replicate_succ, errorCount, ih]
  rw [this]
  rfl

theorem errorCount_flatMap {α : Type} (f : α → List Effect) (l : List α) :
    errorCount (l.flatMap f) = 0 ↔ ∀ a ∈ l, errorCount (f a) = 0 := by
  induction l with
  | nil => simp [errorCount]
  | cons a l ih =>
    rw [List.flatMap_cons, errorCount_append]
    simp only [List.mem_cons, forall_eq_or_imp, ← ih]
    omega

theorem attributes_mem (c : TypeCell) (p : Obj → Prop) :
    (∀ o ∈ c.attributes.mapIdx (Obj.attribute c), p o) ↔
      ∀ i a, c.attributes[i]? = some a → p (.attribute c i a) := by
  constructor
  · intro h i a hi
    obtain ⟨hlt, rfl⟩ := List.getElem?_eq_some_iff.mp hi
    exact h _ (List.mem_mapIdx.mpr ⟨i, hlt, rfl⟩)
  · intro h o ho
    obtain ⟨i, a, hi, rfl⟩ := attributes_obj c o ho
    exact h i a hi

theorem forall_index {α : Type} (l : List α) (p : α → Prop) :
    (∀ (i : Nat) (a : α), l[i]? = some a → p a) ↔ ∀ a ∈ l, p a := by
  constructor
  · intro h a ha
    obtain ⟨i, hi⟩ := List.mem_iff_getElem?.mp ha
    exact h i a hi
  · intro h i a hi
    exact h a (List.mem_of_getElem? hi)

theorem structErrors (x : Context) (c : TypeCell) :
    errorCount (structEffects x c) = 0 ↔ Bitmap.width c ≠ none ∧ ∀ a ∈ c.attributes,
      (GoRef.fieldType x.base (x.attr a)).errors = 0 ∧ (GoRef.getterType x.base (x.attr a)).errors = 0 := by
  rw [structEffects]
  simp only [errorCount_append, Nat.add_eq_zero_iff, errorCount_flatMap, attributes_mem, errorCount_ref,
    fieldEffects, getterEffects]
  have hw : (bitmapType c).errors = 0 ↔ Bitmap.width c ≠ none := by
    rw [bitmapType]
    split <;> simp_all
  have hf : ∀ a : Attribute, (errorCount (if isBoolean (x.typeOf a.typ) = false then
      refEffects (GoRef.fieldType x.base (x.attr a)) else []) = 0 ∧
      errorCount (if isBoolean (x.typeOf a.typ) = true then
        refEffects (GoRef.fieldType x.base (x.attr a)) else []) = 0) ↔
      (GoRef.fieldType x.base (x.attr a)).errors = 0 := by
    intro a
    cases isBoolean (x.typeOf a.typ) <;> simp [errorCount_ref, errorCount]
  rw [hw]
  simp only [forall_index c.attributes, and_assoc, ← hf]
  constructor
  · exact fun ⟨h1, h2, h3, h4⟩ => ⟨h1, fun a ha => ⟨h2 a ha, h3 a ha, h4 a ha⟩⟩
  · exact fun ⟨h1, h2⟩ => ⟨h1, fun a ha => (h2 a ha).1, fun a ha => (h2 a ha).2.1, fun a ha => (h2 a ha).2.2⟩

/-! ## The imports -/

theorem imports_foldl (p : Text) : ∀ (fx : List Effect) (b : GoFile.Buffer),
    (∀ sel, (fx.foldl GoFile.Buffer.effect b).imports.find p = some sel →
      b.imports.find p = some sel ∨ (p ≠ [] ∧ p ≠ b.pkg ∧ Effect.imports p sel ∈ fx)) ∧
    ((fx.foldl GoFile.Buffer.effect b).imports.find p = none →
      b.imports.find p = none ∧ ∀ sel, Effect.imports p sel ∈ fx → p = [] ∨ p = b.pkg)
  | [], b => ⟨fun _ h => .inl h, fun h => ⟨h, by simp⟩⟩
  | .error :: fx, b => by
    obtain ⟨h1, h2⟩ := imports_foldl p fx (b.effect .error)
    refine ⟨fun sel h => ?_, fun h => ?_⟩
    · rcases h1 sel h with h | ⟨h3, h4, h5⟩
      · exact .inl h
      · exact .inr ⟨h3, h4, List.mem_cons_of_mem _ h5⟩
    · obtain ⟨h3, h4⟩ := h2 h
      refine ⟨h3, fun sel hs => ?_⟩
      rcases List.mem_cons.mp hs with h | h
      · cases h
      · exact h4 sel h
  | .imports q s :: fx, b => by
    obtain ⟨h1, h2⟩ := imports_foldl p fx (b.effect (.imports q s))
    have hp : (b.effect (.imports q s)).pkg = b.pkg := by
      rw [GoFile.Buffer.effect, GoFile.Buffer.imprt]
      split <;> rfl
    rw [hp] at h1 h2
    rw [List.foldl_cons]
    have hi : (b.effect (.imports q s)).imports.find p =
        if q ≠ [] ∧ q ≠ b.pkg ∧ q = p then some s else b.imports.find p := by
      rw [GoFile.Buffer.effect, GoFile.Buffer.imprt]
      by_cases h : q ≠ [] ∧ q ≠ b.pkg
      · rw [if_pos h]
        by_cases h' : q = p
        · rw [if_pos ⟨h.1, h.2, h'⟩, GoMap.find_insert, if_pos h']
        · rw [if_neg (fun hn => h' hn.2.2), GoMap.find_insert, if_neg h']
      · rw [if_neg h]
        have : ¬ (q ≠ [] ∧ q ≠ b.pkg ∧ q = p) := fun h' => h ⟨h'.1, h'.2.1⟩
        rw [if_neg this]
    rw [hi] at h1 h2
    refine ⟨fun sel h => ?_, fun h => ?_⟩
    · rcases h1 sel h with h | ⟨h3, h4, h5⟩
      · split at h
        · rename_i hq
          cases h
          obtain ⟨h3, h4, rfl⟩ := hq
          exact .inr ⟨h3, h4, List.mem_cons_self⟩
        · exact .inl h
      · exact .inr ⟨h3, h4, List.mem_cons_of_mem _ h5⟩
    · obtain ⟨h3, h4⟩ := h2 h
      split at h3
      · cases h3
      · rename_i hq
        refine ⟨h3, fun sel hs => ?_⟩
        rcases List.mem_cons.mp hs with h | h
        · cases h
          refine Classical.byContradiction fun hn => hq ⟨fun h => hn (.inl h), fun h => hn (.inr h), rfl⟩
        · exact h4 sel h

theorem insert_nodup (m : GoMap Text) (k v : Text) (h : m.keys.Nodup) : (m.insert k v).keys.Nodup := by
  rw [GoMap.keys_insert]
  split
  · exact h
  · rename_i hk
    simp only [List.nodup_append, h, true_and]
    simp
    intro a ha hak
    exact hk (hak ▸ ha)

theorem keys_nodup : ∀ (fx : List Effect) (b : GoFile.Buffer), b.imports.keys.Nodup →
    (fx.foldl GoFile.Buffer.effect b).imports.keys.Nodup
  | [], _, h => h
  | .error :: fx, b, h => keys_nodup fx (b.effect .error) h
  | .imports q s :: fx, b, h => by
    refine keys_nodup fx (b.effect (.imports q s)) ?_
    rw [GoFile.Buffer.effect, GoFile.Buffer.imprt]
    split
    · exact insert_nodup b.imports q s h
    · exact h

theorem ref_imports (ref : GoRef.Ref) (p sel : Text) :
    Effect.imports p sel ∈ refEffects ref ↔ ref.imprt = p ∧ ref.selector = sel := by
  rw [refEffects, List.mem_append, List.mem_singleton, Effect.imports.injEq]
  constructor
  · rintro (h | ⟨rfl, rfl⟩)
    · cases (List.mem_replicate.mp h).2
    · exact ⟨rfl, rfl⟩
  · rintro ⟨rfl, rfl⟩
    exact .inr ⟨rfl, rfl⟩

theorem structImports (x : Context) (c : TypeCell) (p sel : Text) (hp : p ≠ []) :
    Effect.imports p sel ∈ structEffects x c ↔ ∃ ref, Uses x c ref ∧ ref.imprt = p ∧ ref.selector = sel := by
  have hb : (bitmapType c).imprt = [] := by
    rw [bitmapType]
    split <;> rfl
  have hm : ∀ o, o ∈ c.attributes.mapIdx (Obj.attribute c) ↔
      ∃ i a, c.attributes[i]? = some a ∧ o = .attribute c i a := fun o => by
    constructor
    · exact attributes_obj c o
    · rintro ⟨i, a, hi, rfl⟩
      obtain ⟨hlt, rfl⟩ := List.getElem?_eq_some_iff.mp hi
      exact List.mem_mapIdx.mpr ⟨i, hlt, rfl⟩
  simp only [structEffects, List.mem_append, ref_imports, List.mem_flatMap, hm, hb]
  constructor
  · rintro ((⟨h, -⟩ | ⟨o, ⟨i, a, hi, rfl⟩, h⟩ | ⟨o, ⟨i, a, hi, rfl⟩, h⟩) | ⟨o, ⟨i, a, hi, rfl⟩, h⟩)
    · exact absurd h.symm hp
    · simp only [fieldEffects] at h
      split at h
      · exact ⟨_, ⟨a, List.mem_of_getElem? hi, .inl rfl⟩, (ref_imports _ _ _).mp h⟩
      · cases h
    · simp only [fieldEffects] at h
      split at h
      · exact ⟨_, ⟨a, List.mem_of_getElem? hi, .inl rfl⟩, (ref_imports _ _ _).mp h⟩
      · cases h
    · exact ⟨_, ⟨a, List.mem_of_getElem? hi, .inr rfl⟩, (ref_imports _ _ _).mp h⟩
  · rintro ⟨ref, ⟨a, ha, hr⟩, h⟩
    obtain ⟨i, hi⟩ := List.mem_iff_getElem?.mp ha
    rcases hr with rfl | rfl
    · cases hb : isBoolean (x.typeOf a.typ)
      · refine .inl (.inr (.inl ⟨_, ⟨i, a, hi, rfl⟩, ?_⟩))
        simp only [fieldEffects, hb, if_true, ref_imports]
        exact h
      · refine .inl (.inr (.inr ⟨_, ⟨i, a, hi, rfl⟩, ?_⟩))
        simp only [fieldEffects, hb, if_true, ref_imports]
        exact h
    · exact .inr ⟨_, ⟨i, a, hi, rfl⟩, (ref_imports _ _ _).mpr h⟩

end Verif.TypesCode
