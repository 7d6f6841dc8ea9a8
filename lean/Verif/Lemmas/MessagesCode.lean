import Verif.Lemmas.MessagesLines
import Verif.Lemmas.MethodsCode
import Verif.Lemmas.ErrorsCode
import Verif.Spec.MessagesCode

/-! The code that the templates of requests and responses produce. -/

set_option linter.unusedSimpArgs false

namespace Verif.MessagesCode

open GoTemplate GoCode GoFile
open TypesCode (runLines_nil run_range run_set run_branch commentOf refEffects)
open JsonCode (after_nil)
open ErrorsCode (run_truth)

theorem request_name (r : Resource) (m : Method) :
    Go.messageName t!"Request" (Decls.isRoot r) r m = nameOf r m t!"Request" := MethodsCode.request_name r m

theorem response_name (r : Resource) (m : Method) :
    Go.messageName t!"Response" (Decls.isRoot r) r m = nameOf r m t!"Response" := MethodsCode.response_name r m

/-- The parameter, as the calculators of types see it. -/
abbrev param (x : Context) (m : Method) (p : Parameter) : GoRef.Param :=
  { typ := x.typeOf p.typ.id, items := p.isItems m }

/-- The effects of the field of a request. -/
def fieldEffects (x : Context) (m : Method) (p : Parameter) : List Effect :=
  refEffects (GoRef.parameterFieldType x.base (param x m p))

/-- The effects of the accessors. -/
def accessorEffects (x : Context) (m : Method) (p : Parameter) : List Effect :=
  refEffects (GoRef.accessorType x.base (param x m p))

/-- The effects of the field of a response. -/
def responseFieldEffects (x : Context) (m : Method) (p : Parameter) : List Effect :=
  match x.typeOf p.typ.id with
  | .list _ element =>
    if element.isScalar then refEffects (GoRef.valueReference x.base element) else fieldEffects x m p
  | _ => fieldEffects x m p

theorem print_field (x : Context) (m : Method) (p : Parameter) (vars : List (Text × GoTemplate.Value Obj)) :
    printed (env x) (.obj (.parameter m p)) vars [t!"fieldName", t!"."] = some (Go.parameterField p, []) := rfl

theorem print_fieldType (x : Context) (m : Method) (p : Parameter) (vars : List (Text × GoTemplate.Value Obj)) :
    printed (env x) (.obj (.parameter m p)) vars [t!"fieldType", t!"."] =
      some (GoRef.requestField x.base x.pkg (param x m p), fieldEffects x m p) := rfl

theorem run_field (x : Context) (m : Method) (p : Parameter) (vars : List (Text × GoTemplate.Value Obj)) :
    runLines (env x) (.obj (.parameter m p)) vars fieldBody =
      some ([Go.parameterField p ++ t!" " ++ GoRef.requestField x.base x.pkg (param x m p)], fieldEffects x m p) := by
  simp only [fieldBody, runLines_line, runLines_nil, runParts, print_field, print_fieldType, andThen_some,
    Option.map_some]
  simp

theorem run_setter (x : Context) (m : Method) (p : Parameter) (request : Text)
    (vars : List (Text × GoTemplate.Value Obj))
    (hr : ∀ dot a b c, printed (env x) dot ((t!"$setterType", a) :: (t!"$setterName", b) :: (t!"$fieldName", c) :: vars)
      [t!"$requestName"] = some (request, [])) :
    runLines (env x) (.obj (.parameter m p)) vars setterBody =
      some ((inputOf x.base x.pkg m p (x.typeOf p.typ.id)).lines request, accessorEffects x m p) := by
  rw [setterBody]
  rw [run_set (he := (rfl : eval (env x) (.obj (.parameter m p)) _ [t!"fieldName", t!"."] =
    some (.text (Go.parameterField p), [])))]
  rw [run_set (he := (rfl : eval (env x) (.obj (.parameter m p)) _ [t!"setterName", t!"."] =
    some (.text (Go.parameterSetter p), [])))]
  have hs : ∀ vars, eval (env x) (.obj (.parameter m p)) vars [t!"setterType", t!"."] =
    some (.text (GoRef.requestSetter x.base x.pkg (param x m p)), accessorEffects x m p) := fun _ => rfl
  rw [run_set (he := hs _)]
  simp only [after_nil]
  obtain ⟨vs, hvars⟩ : ∃ vs : List (Text × GoTemplate.Value Obj), vs =
    (t!"$setterType", .text (GoRef.requestSetter x.base x.pkg (param x m p))) ::
    (t!"$setterName", .text (Go.parameterSetter p)) :: (t!"$fieldName", .text (Go.parameterField p)) :: vars := ⟨_, rfl⟩
  rw [← hvars]
  have h0 : printed (env x) (.obj (.parameter m p)) vs [t!"$requestName"] = some (request, []) := by
    rw [hvars]; exact hr _ _ _ _
  have h1 : printed (env x) (.obj (.parameter m p)) vs [t!"$fieldName"] = some (Go.parameterField p, []) := by
    rw [hvars]; rfl
  have h2 : printed (env x) (.obj (.parameter m p)) vs [t!"$setterName"] = some (Go.parameterSetter p, []) := by
    rw [hvars]; rfl
  have h3 : printed (env x) (.obj (.parameter m p)) vs [t!"$setterType"] =
    some (GoRef.requestSetter x.base x.pkg (param x m p), []) := by rw [hvars]; rfl
  have h4 : printed (env x) (.obj (.parameter m p)) vs [t!".Name"] = some (p.name.toText, []) := rfl
  have h5 : printed (env x) (.obj (.parameter m p)) vs [t!"lineComment", t!".Doc"] = some (commentOf p.doc, []) := rfl
  have h6 : eval (env x) (.obj (.parameter m p)) vs [t!"or", t!".Type.IsStruct", t!".Type.IsList"] =
    some (.flag ((x.typeOf p.typ.id).isStruct || (x.typeOf p.typ.id).isList), []) := rfl
  clear hvars hr
  simp only [runLines_line, run_branch (he := h6), runLines_nil, runParts, h0, h1, h2, h3, h4, h5, andThen_some,
    Option.map_some]
  unfold inputOf
  simp only [param]
  generalize x.typeOf p.typ.id = t
  cases t <;>
    simp [GoRef.Typ.isStruct, GoRef.Typ.isList, Input.lines, andThen_some, GoTemplate.after]

theorem run_query (x : Context) (m : Method) (p : Parameter) (vars : List (Text × GoTemplate.Value Obj)) :
    runLines (env x) (.obj (.parameter m p)) vars queryBody =
      some (Query.lines { field := Go.parameterField p, name := Binding.queryParameterName p }, []) := by
  rw [queryBody]
  rw [run_set (he := (rfl : eval (env x) (.obj (.parameter m p)) _ [t!"fieldName", t!"."] =
    some (.text (Go.parameterField p), [])))]
  rw [run_set (he := (rfl : eval (env x) (.obj (.parameter m p)) _ [t!"parameterName", t!"."] =
    some (.text (Binding.queryParameterName p), [])))]
  simp only [after_nil]
  obtain ⟨vs, hvars⟩ : ∃ vs : List (Text × GoTemplate.Value Obj), vs =
    (t!"$parameterName", .text (Binding.queryParameterName p)) :: (t!"$fieldName", .text (Go.parameterField p)) ::
      vars := ⟨_, rfl⟩
  rw [← hvars]
  have h1 : printed (env x) (.obj (.parameter m p)) vs [t!"$fieldName"] = some (Go.parameterField p, []) := by
    rw [hvars]; rfl
  have h2 : printed (env x) (.obj (.parameter m p)) vs [t!"$parameterName"] =
    some (Binding.queryParameterName p, []) := by rw [hvars]; rfl
  clear hvars
  simp only [runLines_line, runLines_nil, runParts, h1, h2, andThen_some, Option.map_some]
  simp [Query.lines]

/-- The arguments of the templates. -/
abbrev argsOf (r : Resource) (m : Method) : GoTemplate.Value Obj := .args [(t!"Method", .method r m)]

/-- The variables of the template of requests. -/
def requestVars (r : Resource) (m : Method) : List (Text × GoTemplate.Value Obj) := [
  (t!"$isAction", .flag m.isAction),
  (t!"$responseParameters", .list ((Binding.responseParameters m).map (.parameter m))),
  (t!"$responseName", .text (nameOf r m t!"Response")),
  (t!"$requestBodyLen", .nat ((Binding.requestBodyParameters m).map (Obj.parameter m)).length),
  (t!"$requestBodyParameters", .list ((Binding.requestBodyParameters m).map (.parameter m))),
  (t!"$requestQueryParameters", .list ((Binding.requestQueryParameters m).map (.parameter m))),
  (t!"$requestParameters", .list ((Binding.requestParameters m).map (.parameter m))),
  (t!"$requestName", .text (nameOf r m t!"Request"))]

/-- The effects of the template of requests. -/
def requestEffects (x : Context) (m : Method) : List Effect :=
  (Binding.requestParameters m).flatMap (fieldEffects x m) ++ (Binding.requestParameters m).flatMap (accessorEffects x m)

theorem body_any (m : Method) : (Binding.requestBodyParameters m).isEmpty =
    !(m.parameters.any fun p => p.isIn && (m.isAction || !p.typ.isScalar)) := by
  rw [Binding.requestBodyParameters]
  cases m.isAction
  · simp only [Bool.false_eq_true, if_false, Bool.false_or]
    induction m.parameters with
    | nil => rfl
    | cons p ps ih =>
      rw [List.filter_cons, List.any_cons]
      cases p.isIn && !p.typ.isScalar
      · simpa using ih
      · simp
  · simp only [if_true, Bool.true_or, Bool.and_true]
    induction m.parameters with
    | nil => rfl
    | cons p ps ih =>
      rw [List.filter_cons, List.any_cons]
      cases p.isIn
      · simpa using ih
      · simp

theorem out_any (m : Method) : (Binding.responseParameters m).isEmpty = !(m.parameters.any (·.isOut)) := by
  rw [Binding.responseParameters]
  induction m.parameters with
  | nil => rfl
  | cons p ps ih =>
    rw [List.filter_cons, List.any_cons]
    cases p.isOut
    · simpa using ih
    · simp

theorem list_truth (m : Method) (ps : List Parameter) :
    (GoTemplate.Value.list (ps.map (Obj.parameter m)) : GoTemplate.Value Obj).truth = !ps.isEmpty := by
  cases ps <;> rfl

theorem run_request (x : Context) (r : Resource) (m : Method) :
    runLines (env x) (argsOf r m) [] requestLines = some ((requestOf x r m).lines, requestEffects x m) := by
  rw [requestLines]
  rw [run_set (he := (rfl : eval (env x) (argsOf r m) _ [t!"requestName", t!".Method"] =
    some (.text (Go.messageName t!"Request" (Decls.isRoot r) r m), [])))]
  rw [run_set (he := (rfl : eval (env x) (argsOf r m) _ [t!"requestParameters", t!".Method"] =
    some (.list ((Binding.requestParameters m).map (.parameter m)), [])))]
  rw [run_set (he := (rfl : eval (env x) (argsOf r m) _ [t!"requestQueryParameters", t!".Method"] =
    some (.list ((Binding.requestQueryParameters m).map (.parameter m)), [])))]
  rw [run_set (he := (rfl : eval (env x) (argsOf r m) _ [t!"requestBodyParameters", t!".Method"] =
    some (.list ((Binding.requestBodyParameters m).map (.parameter m)), [])))]
  rw [run_set (he := (rfl : eval (env x) (argsOf r m) _ [t!"len", t!"$requestBodyParameters"] =
    some (.nat ((Binding.requestBodyParameters m).map (Obj.parameter m)).length, [])))]
  rw [run_set (he := (rfl : eval (env x) (argsOf r m) _ [t!"responseName", t!".Method"] =
    some (.text (Go.messageName t!"Response" (Decls.isRoot r) r m), [])))]
  rw [run_set (he := (rfl : eval (env x) (argsOf r m) _ [t!"responseParameters", t!".Method"] =
    some (.list ((Binding.responseParameters m).map (.parameter m)), [])))]
  rw [run_set (he := (rfl : eval (env x) (argsOf r m) _ [t!".Method.IsAction"] = some (.flag m.isAction, [])))]
  simp only [after_nil, request_name, response_name]
  change runLines (env x) (argsOf r m) (requestVars r m) _ = _
  have h1 : printed (env x) (argsOf r m) (requestVars r m) [t!"$requestName"] = some (nameOf r m t!"Request", []) := rfl
  have h2 : printed (env x) (argsOf r m) (requestVars r m) [t!"$responseName"] =
    some (nameOf r m t!"Response", []) := rfl
  have h3 : printed (env x) (argsOf r m) (requestVars r m) [t!".Method.Name"] = some (m.name.toText, []) := rfl
  have h4 : printed (env x) (argsOf r m) (requestVars r m) [t!"writeRequestFunc", t!".Method"] =
    some (Decls.writeRequestFunc r m, []) := rfl
  have h5 : printed (env x) (argsOf r m) (requestVars r m) [t!"readResponseFunc", t!".Method"] =
    some (Decls.readResponseFunc r m, []) := rfl
  have h6 : printed (env x) (argsOf r m) (requestVars r m) [t!"httpMethod", t!".Method"] =
    some (Binding.method m, []) := rfl
  have e1 : eval (env x) (argsOf r m) (requestVars r m) [t!"$requestParameters"] =
    some (.list ((Binding.requestParameters m).map (.parameter m)), []) := rfl
  have e2 : eval (env x) (argsOf r m) (requestVars r m) [t!"$requestQueryParameters"] =
    some (.list ((Binding.requestQueryParameters m).map (.parameter m)), []) := rfl
  have e3 : eval (env x) (argsOf r m) (requestVars r m) [t!"$requestBodyParameters"] =
    some (.list ((Binding.requestBodyParameters m).map (.parameter m)), []) := rfl
  have e4 : eval (env x) (argsOf r m) (requestVars r m) [t!"$responseParameters"] =
    some (.list ((Binding.responseParameters m).map (.parameter m)), []) := rfl
  have b1 : ∀ o ∈ (Binding.requestParameters m).map (Obj.parameter m),
      runLines (env x) (.obj o) (requestVars r m) fieldBody = some ((match o with
        | .parameter m p => [Go.parameterField p ++ t!" " ++ GoRef.requestField x.base x.pkg (param x m p)]
        | _ => []), (match o with
        | .parameter m p => fieldEffects x m p
        | _ => [])) := by
    intro o ho
    obtain ⟨p, -, rfl⟩ := List.mem_map.mp ho
    exact run_field x m p _
  have b2 : ∀ o ∈ (Binding.requestParameters m).map (Obj.parameter m),
      runLines (env x) (.obj o) (requestVars r m) setterBody = some ((match o with
        | .parameter m p => (inputOf x.base x.pkg m p (x.typeOf p.typ.id)).lines (nameOf r m t!"Request")
        | _ => []), (match o with
        | .parameter m p => accessorEffects x m p
        | _ => [])) := by
    intro o ho
    obtain ⟨p, -, rfl⟩ := List.mem_map.mp ho
    exact run_setter x m p _ _ fun _ _ _ _ => rfl
  have b3 : ∀ o ∈ (Binding.requestQueryParameters m).map (Obj.parameter m),
      runLines (env x) (.obj o) (requestVars r m) queryBody = some ((match o with
        | .parameter _ p => Query.lines { field := Go.parameterField p, name := Binding.queryParameterName p }
        | _ => []), (match o with
        | .parameter _ _ => []
        | _ => [])) := by
    intro o ho
    obtain ⟨p, -, rfl⟩ := List.mem_map.mp ho
    exact run_query x m p _
  have r1 := fun ls => run_range (he := e1) (hb := b1) (ls := ls)
  have r2 := fun ls => run_range (he := e1) (hb := b2) (ls := ls)
  have r3 := fun ls => run_range (he := e2) (hb := b3) (ls := ls)
  generalize requestVars r m = vars at *
  simp only [runLines_line, r1, r2, r3, run_truth (he := e3), run_truth (he := e4), runLines_nil, runParts, h1, h2, h3,
    h4, h5, h6, andThen_some, Option.map_some, List.flatMap_map, list_truth, body_any, out_any, Bool.not_not]
  have hq : (Binding.requestQueryParameters m).flatMap (fun p =>
      Query.lines { field := Go.parameterField p, name := Binding.queryParameterName p }) =
      (requestOf x r m).queries.flatMap Query.lines := by
    rw [Binding.requestQueryParameters, requestOf]
    cases m.isAction <;> simp [List.flatMap_map]
  have hf : (Binding.requestParameters m).flatMap (fun p =>
      [Go.parameterField p ++ t!" " ++ GoRef.requestField x.base x.pkg (param x m p)]) =
      (requestOf x r m).inputs.map fun i => i.field ++ t!" " ++ i.fieldType := by
    rw [requestOf, List.map_map, ← List.map_eq_flatMap]
    rfl
  have hi : (Binding.requestParameters m).flatMap (fun p =>
      (inputOf x.base x.pkg m p (x.typeOf p.typ.id)).lines (nameOf r m t!"Request")) =
      (requestOf x r m).inputs.flatMap (Input.lines (requestOf x r m).request) := by
    rw [requestOf, List.flatMap_map]
    rfl
  have hn : ∀ l : List Parameter, l.flatMap (fun _ => ([] : List Effect)) = [] := by simp
  have hw : (requestOf x r m).write = if m.parameters.any fun p => p.isIn && (m.isAction || !p.typ.isScalar)
    then some (Decls.writeRequestFunc r m) else none := by rw [MethodsCode.write_name]; rfl
  have hd : (requestOf x r m).read = if m.parameters.any (·.isOut)
    then some (Decls.readResponseFunc r m) else none := by rw [MethodsCode.read_name]; rfl
  have n1 : nameOf r m t!"Request" = (requestOf x r m).request := rfl
  have n2 : nameOf r m t!"Response" = (requestOf x r m).response := rfl
  have n3 : m.name.toText = (requestOf x r m).declared := rfl
  have n4 : Binding.method m = (requestOf x r m).verb := rfl
  simp only [hq, hn, hf, hi, requestEffects]
  simp only [n1, n2, n3, n4]
  generalize (Binding.requestParameters m).flatMap (fieldEffects x m) = fx1
  generalize (Binding.requestParameters m).flatMap (accessorEffects x m) = fx2
  clear hq hf hi n1 n2 n3 n4 h1 h2 h3 h4 h5 h6 e1 e2 e3 e4 b1 b2 b3 r1 r2 r3
  generalize requestOf x r m = q at *
  generalize (m.parameters.any fun p => p.isIn && (m.isAction || !p.typ.isScalar)) = hasBody at *
  generalize m.parameters.any (·.isOut) = hasOut at *
  generalize Decls.writeRequestFunc r m = w at *
  generalize Decls.readResponseFunc r m = d at *
  cases hasBody <;> cases hasOut <;>
    simp [Request.lines, Request.typeLines, Request.sendLines, hw, hd, andThen_some]

/-! ## Responses -/

theorem run_responseField (x : Context) (m : Method) (p : Parameter) (vars : List (Text × GoTemplate.Value Obj)) :
    runLines (env x) (.obj (.parameter m p)) vars responseFieldBody =
      some ([Go.parameterField p ++ t!" " ++ GoRef.responseField x.base x.pkg (param x m p)],
        responseFieldEffects x m p) := by
  have ht : ∀ t, x.typeOf p.typ.id = t →
      eval (env x) (.obj (.parameter m p)) vars [t!"and", t!".Type.IsList", t!".Type.Element.IsScalar"] =
        some (.flag (match t with
          | .list _ e => e.isScalar
          | _ => false), []) ∧
      ∀ d e, t = .list d e → printed (env x) (.obj (.parameter m p)) vars [t!"valueType", t!".Type.Element"] =
        some (GoRef.emit x.pkg (GoRef.valueReference x.base e), refEffects (GoRef.valueReference x.base e)) := by
    rintro t rfl
    have h1 : eval (env x) (.obj (.parameter m p)) vars [t!"and", t!".Type.IsList", t!".Type.Element.IsScalar"] =
      (((Value.member (env x) t!"IsScalar" (.obj (elementOf (x.typeOf p.typ.id)))).bind fun v =>
        some [v]).map (GoTemplate.Value.flag (x.typeOf p.typ.id).isList :: ·)).bind fun
          | [.flag a, .flag b] => some (.flag (a && b), [])
          | _ => none := rfl
    have h2 : printed (env x) (.obj (.parameter m p)) vars [t!"valueType", t!".Type.Element"] =
      ((functions x t!"valueType").bind fun f => f [.obj (elementOf (x.typeOf p.typ.id))]).bind
        fun (v, fx) => (v.print (env x)).map fun t => (t, fx) := rfl
    rw [h1, h2]
    cases x.typeOf p.typ.id with
    | list d e => exact ⟨rfl, fun _ _ h => by cases h; rfl⟩
    | map d e => exact ⟨rfl, fun _ _ h => by cases h⟩
    | basic b => exact ⟨rfl, fun _ _ h => by cases h⟩
    | enum d => exact ⟨rfl, fun _ _ h => by cases h⟩
    | struct d => exact ⟨rfl, fun _ _ h => by cases h⟩
  obtain ⟨h1, h2⟩ := ht _ rfl
  simp only [responseFieldBody, runLines_line, run_branch (he := h1), runLines_nil, runParts, print_field,
    print_fieldType, andThen_some, Option.map_some]
  rw [responseFieldEffects, GoRef.responseField]
  simp only [param] at *
  generalize hk : x.typeOf p.typ.id = t at *
  cases t with
  | list d e =>
    have h3 := h2 d e rfl
    cases he : e.isScalar <;> simp [he, h3, andThen_some, GoRef.requestField, param, hk]
  | _ => simp [andThen_some, GoRef.requestField, param, hk]

theorem run_getter (x : Context) (m : Method) (p : Parameter) (response : Text)
    (vars : List (Text × GoTemplate.Value Obj))
    (hr : ∀ dot a b c, printed (env x) dot ((t!"$getterType", a) :: (t!"$getterName", b) :: (t!"$fieldName", c) :: vars)
      [t!"$responseName"] = some (response, [])) :
    runLines (env x) (.obj (.parameter m p)) vars getterBody =
      some ((outputOf x.base x.pkg m p (x.typeOf p.typ.id)).lines response, accessorEffects x m p) := by
  rw [getterBody]
  rw [run_set (he := (rfl : eval (env x) (.obj (.parameter m p)) _ [t!"fieldName", t!"."] =
    some (.text (Go.parameterField p), [])))]
  rw [run_set (he := (rfl : eval (env x) (.obj (.parameter m p)) _ [t!"getterName", t!"."] =
    some (.text (Go.parameterGetter p), [])))]
  have hs : ∀ vars, eval (env x) (.obj (.parameter m p)) vars [t!"getterType", t!"."] =
    some (.text (GoRef.responseGetter x.base x.pkg (param x m p)), accessorEffects x m p) := fun _ => rfl
  rw [run_set (he := hs _)]
  simp only [after_nil]
  obtain ⟨vs, hvars⟩ : ∃ vs : List (Text × GoTemplate.Value Obj), vs =
    (t!"$getterType", .text (GoRef.responseGetter x.base x.pkg (param x m p))) ::
    (t!"$getterName", .text (Go.parameterGetter p)) :: (t!"$fieldName", .text (Go.parameterField p)) :: vars := ⟨_, rfl⟩
  rw [← hvars]
  have h0 : printed (env x) (.obj (.parameter m p)) vs [t!"$responseName"] = some (response, []) := by
    rw [hvars]; exact hr _ _ _ _
  have h1 : printed (env x) (.obj (.parameter m p)) vs [t!"$fieldName"] = some (Go.parameterField p, []) := by
    rw [hvars]; rfl
  have h2 : printed (env x) (.obj (.parameter m p)) vs [t!"$getterName"] = some (Go.parameterGetter p, []) := by
    rw [hvars]; rfl
  have h3 : printed (env x) (.obj (.parameter m p)) vs [t!"$getterType"] =
    some (GoRef.responseGetter x.base x.pkg (param x m p), []) := by rw [hvars]; rfl
  have h4 : printed (env x) (.obj (.parameter m p)) vs [t!".Name"] = some (p.name.toText, []) := rfl
  have h5 : printed (env x) (.obj (.parameter m p)) vs [t!"lineComment", t!".Doc"] = some (commentOf p.doc, []) := rfl
  have h6 : eval (env x) (.obj (.parameter m p)) vs [t!".Type.IsScalar"] =
    some (.flag (x.typeOf p.typ.id).isScalar, []) := rfl
  have h7 : eval (env x) (.obj (.parameter m p)) vs [t!"or", t!".Type.IsStruct", t!".Type.IsList", t!".Type.IsMap"] =
    some (.flag ((x.typeOf p.typ.id).isStruct || ((x.typeOf p.typ.id).isList || isMap (x.typeOf p.typ.id))), []) := rfl
  have h8 : printed (env x) (.obj (.parameter m p)) vs [t!"zeroValue", t!".Type"] =
    some (GoRef.zeroValue x.base (x.typeOf p.typ.id), []) := rfl
  clear hvars hr
  simp only [runLines_line, run_branch (he := h6), run_branch (he := h7), runLines_nil, runParts, h0, h1, h2, h3, h4, h5,
    h8, andThen_some, Option.map_some]
  unfold outputOf
  simp only [param]
  generalize x.typeOf p.typ.id = t
  cases t <;>
    simp [GoRef.Typ.isStruct, GoRef.Typ.isList, GoRef.Typ.isScalar, isMap, Output.lines, andThen_some, GoTemplate.after]

/-- The variables of the template of responses. -/
def responseVars (r : Resource) (m : Method) : List (Text × GoTemplate.Value Obj) := [
  (t!"$isAction", .flag m.isAction),
  (t!"$responseBodyLen", .nat ((Binding.responseParameters m).map (Obj.parameter m)).length),
  (t!"$responseParameters", .list ((Binding.responseParameters m).map (.parameter m))),
  (t!"$responseName", .text (nameOf r m t!"Response"))]

/-- The effects of the template of responses. -/
def responseEffects (x : Context) (m : Method) : List Effect :=
  (Binding.responseParameters m).flatMap (responseFieldEffects x m) ++
    (Binding.responseParameters m).flatMap (accessorEffects x m)

theorem run_response (x : Context) (r : Resource) (m : Method) :
    runLines (env x) (argsOf r m) [] responseLines = some ((responseOf x r m).lines, responseEffects x m) := by
  rw [responseLines]
  rw [run_set (he := (rfl : eval (env x) (argsOf r m) _ [t!"responseName", t!".Method"] =
    some (.text (Go.messageName t!"Response" (Decls.isRoot r) r m), [])))]
  rw [run_set (he := (rfl : eval (env x) (argsOf r m) _ [t!"responseParameters", t!".Method"] =
    some (.list ((Binding.responseParameters m).map (.parameter m)), [])))]
  rw [run_set (he := (rfl : eval (env x) (argsOf r m) _ [t!"len", t!"$responseParameters"] =
    some (.nat ((Binding.responseParameters m).map (Obj.parameter m)).length, [])))]
  rw [run_set (he := (rfl : eval (env x) (argsOf r m) _ [t!".Method.IsAction"] = some (.flag m.isAction, [])))]
  simp only [after_nil, response_name]
  change runLines (env x) (argsOf r m) (responseVars r m) _ = _
  have h2 : printed (env x) (argsOf r m) (responseVars r m) [t!"$responseName"] =
    some (nameOf r m t!"Response", []) := rfl
  have h3 : printed (env x) (argsOf r m) (responseVars r m) [t!".Method.Name"] = some (m.name.toText, []) := rfl
  have e1 : eval (env x) (argsOf r m) (responseVars r m) [t!"$responseParameters"] =
    some (.list ((Binding.responseParameters m).map (.parameter m)), []) := rfl
  have b1 : ∀ o ∈ (Binding.responseParameters m).map (Obj.parameter m),
      runLines (env x) (.obj o) (responseVars r m) responseFieldBody = some ((match o with
        | .parameter m p => [Go.parameterField p ++ t!" " ++ GoRef.responseField x.base x.pkg (param x m p)]
        | _ => []), (match o with
        | .parameter m p => responseFieldEffects x m p
        | _ => [])) := by
    intro o ho
    obtain ⟨p, -, rfl⟩ := List.mem_map.mp ho
    exact run_responseField x m p _
  have b2 : ∀ o ∈ (Binding.responseParameters m).map (Obj.parameter m),
      runLines (env x) (.obj o) (responseVars r m) getterBody = some ((match o with
        | .parameter m p => (outputOf x.base x.pkg m p (x.typeOf p.typ.id)).lines (nameOf r m t!"Response")
        | _ => []), (match o with
        | .parameter m p => accessorEffects x m p
        | _ => [])) := by
    intro o ho
    obtain ⟨p, -, rfl⟩ := List.mem_map.mp ho
    exact run_getter x m p _ _ fun _ _ _ _ => rfl
  have r1 := fun ls => run_range (he := e1) (hb := b1) (ls := ls)
  have r2 := fun ls => run_range (he := e1) (hb := b2) (ls := ls)
  generalize responseVars r m = vars at *
  simp only [runLines_line, r1, r2, runLines_nil, runParts, h2, h3, andThen_some, Option.map_some, List.flatMap_map]
  have hf : (Binding.responseParameters m).flatMap (fun p =>
      [Go.parameterField p ++ t!" " ++ GoRef.responseField x.base x.pkg (param x m p)]) =
      (responseOf x r m).outputs.map fun o => o.field ++ t!" " ++ o.fieldType := by
    rw [responseOf, List.map_map, ← List.map_eq_flatMap]
    rfl
  have hi : (Binding.responseParameters m).flatMap (fun p =>
      (outputOf x.base x.pkg m p (x.typeOf p.typ.id)).lines (nameOf r m t!"Response")) =
      (responseOf x r m).outputs.flatMap (Output.lines (responseOf x r m).response) := by
    rw [responseOf, List.flatMap_map]
    rfl
  have n2 : nameOf r m t!"Response" = (responseOf x r m).response := rfl
  have n3 : m.name.toText = (responseOf x r m).declared := rfl
  simp only [hf, hi, responseEffects]
  simp only [n2, n3]
  generalize responseOf x r m = q
  simp [Response.lines]

end Verif.MessagesCode
