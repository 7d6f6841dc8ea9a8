import Verif.Lemmas.MethodsLines
import Verif.Lemmas.JsonCode
import Verif.Lemmas.Outcome
import Verif.Spec.MethodsCode

/-! The code that the templates of the JSON support of resources produce. -/

set_option linter.unusedSimpArgs false

namespace Verif.MethodsCode

open GoTemplate GoCode GoProgram
open TypesCode (Item dot notNil refEffects run_range run_branch run_set runLines_nil runLines_append unset)
open BuildersCode (blockLines_append)
open JsonCode (Form comma nextField camel formOf functionsOf RunsIf Coded readEffects writeEffects code_congr
  skip_branch take_branch after_nil)

/-! ## Names -/

theorem prefix_eq (r : Resource) (m : Method) : Decls.functionBase r m = prefixOf r ++ camel m.name := by
  rw [Decls.functionBase, prefixOf]
  split <;> rfl

theorem write_name (r : Resource) (m : Method) :
    Decls.writeRequestFunc r m = t!"write" ++ prefixOf r ++ camel m.name ++ t!"Request" := by
  rw [Decls.writeRequest_eq, prefix_eq]
  simp only [List.append_assoc]

theorem read_name (r : Resource) (m : Method) :
    Decls.readResponseFunc r m = t!"read" ++ prefixOf r ++ camel m.name ++ t!"Response" := by
  rw [Decls.readResponse_eq, prefix_eq]
  simp only [List.append_assoc]

theorem request_name (r : Resource) (m : Method) :
    clientRequestName r m = typePrefixOf r ++ Go.nameOf m.annotations m.name ++ t!"Request" :=
  Decls.message_eq _ _ _

theorem response_name (r : Resource) (m : Method) :
    clientResponseName r m = typePrefixOf r ++ Go.nameOf m.annotations m.name ++ t!"Response" :=
  Decls.message_eq _ _ _

theorem equals_eq (a b : Name) : Name.equals (some a) (some b) = (a == b) := by
  rw [Bool.eq_iff_iff, Outcome.equals_names, beq_iff_eq]

theorem lastWhere_eq {α : Type} (f : α → Bool) (l : List α) : GoJson.lastWhere f l = l.reverse.find? f := by
  have : ∀ (l : List α) (o : Option α), l.foldl (fun acc a => if f a then some a else acc) o =
      (l.reverse.find? f).or o := by
    intro l
    induction l with
    | nil => intro o; cases o <;> rfl
    | cons a l ih =>
      intro o
      rw [List.foldl_cons, ih, List.reverse_cons, List.find?_append]
      cases l.reverse.find? f with
      | some b => rfl
      | none =>
        cases h : f a <;> cases o <;> simp [h]
  rw [GoJson.lastWhere, this]
  cases l.reverse.find? f <;> rfl

theorem lastNamed_eq (m : Method) (n : Name) : GoJson.lastNamed m n = lastThat m (·.name == n) := by
  rw [GoJson.lastNamed, lastWhere_eq, lastThat]
  simp only [equals_eq]

theorem body_eq (m : Method) : m.getParameter Nom.body = bodyOf m := by
  rw [Method.getParameter, findMember, bodyOf]
  simp only [equals_eq]

theorem others_eq (m : Method) (names : List Name) :
    GoJson.otherParameters m names = m.parameters.filter fun p => !names.contains p.name := by
  rw [GoJson.otherParameters]
  congr 1
  funext p
  congr 1
  induction names with
  | nil => rfl
  | cons n names ih => rw [List.any_cons, equals_eq, ih, List.contains_cons]

theorem body_field (m : Method) (p : Parameter) (h : bodyOf m = some p) : Go.privateName p.name = t!"body" := by
  have := List.find?_some h
  rw [beq_iff_eq] at this
  rw [this]
  decide +kernel

/-! ## Parameters -/

/-- The arguments of the template of the code that reads a parameter. -/
abbrev readArgs (x : Context) (p : Parameter) : GoTemplate.Value Obj := .args [
  (t!"Object", .text t!"response"), (t!"Field", .text (parameterFieldName p)),
  (t!"Tag", .text (Binding.bodyParameterName p)), (t!"Type", .ref (x.typeOf p.typ.id)), (t!"LinkOwner", .owner none)]

/-- The arguments of the template of the code that writes a parameter. -/
abbrev writeArgs (x : Context) (p : Parameter) (value : Text) : GoTemplate.Value Obj := .args [
  (t!"Object", .text t!"request"), (t!"Field", .text (parameterFieldName p)),
  (t!"Tag", .text (Binding.bodyParameterName p)), (t!"Value", .text value), (t!"Type", .ref (x.typeOf p.typ.id)),
  (t!"LinkOwner", .owner none)]

theorem printed_value (x : Context) (bodies : Bodies) (d : GoTemplate.Value Obj)
    (vars : List (Text × GoTemplate.Value Obj)) (e : List Text) (reading : Bool) (v : Text) (t : GoRef.Typ)
    (text : Text) (fx : List Effect)
    (he : eval (env x bodies) d vars e = generating x reading [.text v, .obj (.ref t), .flag false, .obj (.owner none)])
    (hc : JsonCode.valueCode x (JsonCode.depth t) reading v t false none = some (text, fx)) :
    printed (env x bodies) d vars e = some (text, fx) := by
  rw [printed, he, generating, hc]
  rfl

theorem read_parameter (x : Context) (p : Parameter) :
    ∃ text, bodyCode x true t!"response" p = some (text, readEffects x false (x.typeOf p.typ.id)) ∧
      Coded text (blockLines [(fieldOf x p).read]) := by
  obtain ⟨vt, hv, hcv⟩ := JsonCode.read_value x none (x.typeOf p.typ.id) _ t!"value" false (Nat.le_refl _)
  have h1 : printed (parameterEnv x) (readArgs x p) [] [t!".Tag"] = some (Binding.bodyParameterName p, []) := rfl
  have h2 : printed (parameterEnv x) (readArgs x p) [] [t!".Object"] = some (t!"response", []) := rfl
  have h3 : printed (parameterEnv x) (readArgs x p) [] [t!".Field"] = some (parameterFieldName p, []) := rfl
  have h4 : printed (parameterEnv x) (readArgs x p) []
      [t!"generateReadValue", t!"\"value\"", t!".Type", t!"false", t!".LinkOwner"] =
      some (vt, readEffects x false (x.typeOf p.typ.id)) := printed_value x _ _ _ _ true _ _ _ _ rfl hv
  have h5 : eval (parameterEnv x) (readArgs x p) [] [t!".Type.IsScalar"] =
    some (.flag (x.typeOf p.typ.id).isScalar, []) := rfl
  have hr : ∃ ks, runLines (parameterEnv x) (readArgs x p) [] readParameterLines =
      some (ks, readEffects x false (x.typeOf p.typ.id)) ∧ code ks = code (blockLines [(fieldOf x p).read]) := by
    simp only [readParameterLines, runLines_line, runLines_nil, runParts, run_branch (he := h5), h1, h2, h3, h4,
      andThen_some, Option.map_some]
    cases hs : (x.typeOf p.typ.id).isScalar
    · refine ⟨_, by simp only [Bool.false_eq_true, ite_false, andThen_some, List.append_nil, List.nil_append]; rfl, ?_⟩
      simp [Field.read, fieldOf, blockLines, blockLines_append, Stmt.lines, Expr.text, dot, hs, parameterFieldName]
      apply code_congr
      exact hcv.splice _
    · refine ⟨_, by simp only [ite_true, andThen_some, List.append_nil, List.nil_append]; rfl, ?_⟩
      simp [Field.read, fieldOf, blockLines, blockLines_append, Stmt.lines, Expr.text, dot, hs, parameterFieldName,
        paren]
      apply code_congr
      exact hcv.splice _
  obtain ⟨ks, hr, hk⟩ := hr
  obtain ⟨text, h6, h7⟩ := run_template _ _ readParameterTemplate readParameterLines
    (hasLines_eq _ _ readParameter_lines) _ _ hr
  exact ⟨text, h6, fun r => by rw [h7, hk]⟩

/-- The expression that is the value of a parameter of a request. -/
def Field.value (f : Field) : Expr :=
  if f.scalar && !f.anything then .deref (dot t!"request" f.field) else dot t!"request" f.field

theorem pointer_run (x : Context) (field : Text) :
    (parse pointerTemplate).bind (runNodes (parameterEnv x)
      (.args [(t!"Object", .text t!"request"), (t!"Field", .text field)]) []) =
      some (t!"*request." ++ field, []) := by
  have hp : parse pointerTemplate =
      some [.text t!"*", .print [t!".Object"], .text t!".", .print [t!".Field"], .text []] := by
    rfl
  rw [hp]
  have : ∀ f, (t!"*" ++ (t!"request" ++ (t!"." ++ (f ++ []))) : Text) = t!"*request." ++ f := by simp
  rw [← this]
  rfl

theorem value_run (x : Context) (field : Text) :
    (parse valueTemplate).bind (runNodes (parameterEnv x)
      (.args [(t!"Object", .text t!"request"), (t!"Field", .text field)]) []) =
      some (t!"request." ++ field, []) := by
  have hp : parse valueTemplate =
      some [.text [], .print [t!".Object"], .text t!".", .print [t!".Field"], .text []] := by
    rfl
  rw [hp]
  have : ∀ f, (t!"request" ++ (t!"." ++ (f ++ [])) : Text) = t!"request." ++ f := by simp
  rw [← this]
  rfl

theorem interface_eq (x : Context) (p : Parameter) : (fieldOf x p).anything = isInterface (x.typeOf p.typ.id) := by
  cases h : x.typeOf p.typ.id with
  | basic b => cases b <;> simp [fieldOf, isInterface, h]
  | _ => simp [fieldOf, isInterface, h]

theorem write_code (x : Context) (p : Parameter) :
    ∃ value vt, (parse (if (x.typeOf p.typ.id).isScalar && !isInterface (x.typeOf p.typ.id) then pointerTemplate
        else valueTemplate)).bind (runNodes (parameterEnv x)
          (.args [(t!"Object", .text t!"request"), (t!"Field", .text (parameterFieldName p))]) []) =
        some (value, []) ∧
      JsonCode.valueCode x (JsonCode.depth (x.typeOf p.typ.id)) false value (x.typeOf p.typ.id) false none =
        some (vt, writeEffects (x.typeOf p.typ.id)) ∧
      Coded vt (blockLines ((fieldOf x p).form.write (fieldOf x p).value)) := by
  by_cases h : ((x.typeOf p.typ.id).isScalar && !isInterface (x.typeOf p.typ.id)) = true
  · obtain ⟨vt, hv, hc⟩ := JsonCode.write_value x none (x.typeOf p.typ.id) _ (t!"*request." ++ parameterFieldName p)
      false (.var (t!"*request." ++ parameterFieldName p)) (fun _ => rfl) (Nat.le_refl _)
    refine ⟨_, vt, by rw [if_pos h]; exact pointer_run x _, hv, ?_⟩
    have hval : (fieldOf x p).value = .deref (dot t!"request" (parameterFieldName p)) := by
      rw [Field.value, interface_eq, if_pos (by exact h)]
      rfl
    have : blockLines ((fieldOf x p).form.write (fieldOf x p).value) =
        blockLines ((formOf x false none (x.typeOf p.typ.id)).write
          (.var (t!"*request." ++ parameterFieldName p))) := by
      rw [hval]
      change blockLines ((formOf x false none (x.typeOf p.typ.id)).write _) = _
      cases ht : x.typeOf p.typ.id with
      | basic b => cases b <;> simp [formOf, Form.write, blockLines, Stmt.lines, Expr.text, argsText, dot, paren]
      | enum d => simp [formOf, Form.write, blockLines, Stmt.lines, Expr.text, argsText, dot, paren]
      | _ => simp [ht, GoRef.Typ.isScalar] at h
    rw [this]
    exact hc
  · obtain ⟨vt, hv, hc⟩ := JsonCode.write_value x none (x.typeOf p.typ.id) _ (t!"request." ++ parameterFieldName p)
      false (dot t!"request" (parameterFieldName p)) (fun _ => by simp [dot, Expr.text]) (Nat.le_refl _)
    refine ⟨_, vt, by rw [if_neg h]; exact value_run x _, hv, ?_⟩
    have hval : (fieldOf x p).value = dot t!"request" (parameterFieldName p) := by
      rw [Field.value, interface_eq, if_neg (by exact h)]
      rfl
    rw [hval]
    exact hc

theorem write_parameter (x : Context) (p : Parameter) :
    ∃ text, bodyCode x false t!"request" p = some (text, writeEffects (x.typeOf p.typ.id)) ∧
      Coded text (blockLines [(fieldOf x p).write]) := by
  obtain ⟨value, vt, hp, hv, hcv⟩ := write_code x p
  have h1 : printed (parameterEnv x) (writeArgs x p value) [] [t!".Tag"] =
    some (Binding.bodyParameterName p, []) := rfl
  have h2 : printed (parameterEnv x) (writeArgs x p value) [] [t!".Object"] = some (t!"request", []) := rfl
  have h3 : printed (parameterEnv x) (writeArgs x p value) [] [t!".Field"] = some (parameterFieldName p, []) := rfl
  have h4 : printed (parameterEnv x) (writeArgs x p value) []
      [t!"generateWriteValue", t!".Value", t!".Type", t!"false", t!".LinkOwner"] =
      some (vt, writeEffects (x.typeOf p.typ.id)) := printed_value x _ _ _ _ false _ _ _ _ rfl hv
  have hr : ∃ ks, runLines (parameterEnv x) (writeArgs x p value) [] writeParameterLines =
      some (ks, writeEffects (x.typeOf p.typ.id)) ∧ code ks = code (blockLines [(fieldOf x p).write]) := by
    simp only [writeParameterLines, runLines_line, runLines_nil, runParts, h1, h2, h3, h4, andThen_some,
      Option.map_some]
    refine ⟨_, by simp only [List.append_nil, List.nil_append]; rfl, ?_⟩
    have hw : (fieldOf x p).write = .branch (.ne (dot t!"request" (fieldOf x p).field) .nil) (
      comma :: .perform t!"stream.WriteObjectField" [.str (fieldOf x p).tag] ::
      ((fieldOf x p).form.write (fieldOf x p).value ++ [.increment t!"count"])) [] := rfl
    rw [hw]
    have hf : (fieldOf x p).field = parameterFieldName p := rfl
    have ht : (fieldOf x p).tag = Binding.bodyParameterName p := rfl
    simp [blockLines, blockLines_append, Stmt.lines, Expr.text, dot, comma, argsText, hf, ht, paren, intText, natText]
    iterate 5 apply code_congr
    exact hcv.splice _
  obtain ⟨ks, hr, hk⟩ := hr
  obtain ⟨text, h6, h7⟩ := run_template _ _ writeParameterTemplate writeParameterLines
    (hasLines_eq _ _ writeParameter_lines) _ _ hr
  refine ⟨text, ?_, fun r => by rw [h7, hk]⟩
  rw [bodyCode]
  dsimp only
  rw [hp, Option.bind_some]
  dsimp only
  rw [after_nil]
  exact h6

/-! ## Methods -/

/-- The result of some lines. -/
abbrev Runs (x : Context) (d : GoTemplate.Value Obj) (vars : List (Text × GoTemplate.Value Obj)) (ls : List Line)
    (ks : List Text) (fx : List Effect) : Prop := RunsIf True (runLines (methodEnv x) d vars ls) ks fx

theorem Runs.append {x : Context} {d : GoTemplate.Value Obj} {vars : List (Text × GoTemplate.Value Obj)}
    {ls ls' : List Line} {ks ks' : List Text} {fx fx' : List Effect} (h : Runs x d vars ls ks fx)
    (h' : Runs x d vars ls' ks' fx') (hu : unset ls = true) : Runs x d vars (ls ++ ls') (ks ++ ks') (fx ++ fx') := by
  rw [Runs, runLines_append _ _ _ _ _ hu]
  exact h.andThen h'

theorem branch_eq (x : Context) (d : GoTemplate.Value Obj) (vars : List (Text × GoTemplate.Value Obj))
    (e : List Text) (yes no : List Line) (v : GoTemplate.Value Obj)
    (he : eval (methodEnv x) d vars e = some (v, [])) :
    runLines (methodEnv x) d vars [.branch e yes no] =
      if v.truth then runLines (methodEnv x) d vars yes else runLines (methodEnv x) d vars no := by
  have h1 : runLines (methodEnv x) d vars [.branch e yes no] =
      andThen ((Line.branch e yes no).run (methodEnv x) d vars) (runLines (methodEnv x) d vars []) := by
    exact runLines.eq_3 _ _ _ _ _ (by simp)
  rw [h1, runLines_nil, andThen_nil, Line.run, he, Option.bind_some]
  dsimp only
  rw [after_nil]

theorem run_message (x : Context) (d : GoTemplate.Value Obj) (vars : List (Text × GoTemplate.Value Obj)) (s : Message)
    (ws rs : List Line) (fx fy : List Effect)
    (h1 : printed (methodEnv x) d vars [t!"writeRequestFunc", t!".Method"] = some (s.write, []))
    (h2 : printed (methodEnv x) d vars [t!"clientRequestName", t!".Method"] = some (s.requestType, []))
    (h3 : printed (methodEnv x) d vars [t!"readResponseFunc", t!".Method"] = some (s.read, []))
    (h4 : printed (methodEnv x) d vars [t!"clientResponseName", t!".Method"] = some (s.responseType, []))
    (hw : Runs x d vars ws (blockLines s.request.body) fx) (hr : Runs x d vars rs (blockLines s.response.body) fy)
    (uw : unset ws = true) (ur : unset rs = true) :
    Runs x d vars (writeHead :: (ws ++ closeLine :: readHead :: (rs ++ [closeLine]))) (TypesCode.itemsLines s.items)
      (fx ++ fy) := by
  have hc : Runs x d vars [closeLine] [t!"}"] [] := ⟨_, rfl, fun _ => rfl⟩
  have hrh : Runs x d vars [readHead]
      [t!"func " ++ s.read ++ t!"(response *" ++ s.responseType ++ t!", reader io.Reader) error {"] [] := by
    refine .of (ks := [_]) (by
      simp only [readHead, runLines_line, runLines_nil, runParts, h3, h4, andThen_some, Option.map_some]
      simp only [List.append_nil, List.nil_append]
      rfl) ?_
    simp
  have hwh : Runs x d vars [writeHead]
      [t!"func " ++ s.write ++ t!"(request *" ++ s.requestType ++ t!", writer io.Writer) error {"] [] := by
    refine .of (ks := [_]) (by
      simp only [writeHead, runLines_line, runLines_nil, runParts, h1, h2, andThen_some, Option.map_some]
      simp only [List.append_nil, List.nil_append]
      rfl) ?_
    simp
  have := hwh.append ((hw.append (hc.append (hrh.append (hr.append hc ur) rfl) rfl) uw)) rfl
  have e : TypesCode.itemsLines s.items =
      [t!"func " ++ s.write ++ t!"(request *" ++ s.requestType ++ t!", writer io.Writer) error {"] ++
      (blockLines s.request.body ++ ([t!"}"] ++
      ([t!"func " ++ s.read ++ t!"(response *" ++ s.responseType ++ t!", reader io.Reader) error {"] ++
      (blockLines s.response.body ++ [t!"}"])))) := by
    simp [TypesCode.itemsLines, Message.items, Message.writeFunc, Message.readFunc, Declaration.lines, Func.header,
      paramsText, resultsText]
  rw [e]
  simpa using this

/-! ### Bodies that aren't objects with fields -/

theorem run_nil (x : Context) (d : GoTemplate.Value Obj) (vars : List (Text × GoTemplate.Value Obj)) :
    Runs x d vars nilLines (blockLines Request.nothing.body) [] := ⟨_, rfl, fun _ => rfl⟩

theorem run_marshalBody (x : Context) (d : GoTemplate.Value Obj) (vars : List (Text × GoTemplate.Value Obj))
    (t : GoRef.Typ)
    (h : eval (methodEnv x) d vars [t!"marshalTypeFunc", t!".Body.Type"] =
      ofType JsonCode.marshalTypeFunc [.obj (.ref t)]) :
    Runs x d vars marshalBodyLines (blockLines (Request.whole t!"body" (functionsOf t).marshal).body) [] := by
  have h' : printed (methodEnv x) d vars [t!"marshalTypeFunc", t!".Body.Type"] =
      some (JsonCode.marshalTypeFunc t, []) := by
    rw [printed, h]
    rfl
  refine .of (by
    simp only [marshalBodyLines, runLines_line, runLines_nil, runParts, h', andThen_some, Option.map_some]
    simp only [List.append_nil, List.nil_append]
    rfl) ?_
  simp [Request.body, blockLines, Stmt.lines, argsText, Expr.text, dot, functionsOf, JsonCode.marshalTypeFunc]

theorem run_unmarshalBody (x : Context) (d : GoTemplate.Value Obj) (vars : List (Text × GoTemplate.Value Obj))
    (t : GoRef.Typ)
    (h : eval (methodEnv x) d vars [t!"unmarshalTypeFunc", t!".Body.Type"] =
      ofType JsonCode.unmarshalTypeFunc [.obj (.ref t)]) :
    Runs x d vars unmarshalBodyLines (blockLines (Response.whole t!"body" (functionsOf t).unmarshal).body) [] := by
  have h' : printed (methodEnv x) d vars [t!"unmarshalTypeFunc", t!".Body.Type"] =
      some (JsonCode.unmarshalTypeFunc t, []) := by
    rw [printed, h]
    rfl
  refine .of (by
    simp only [unmarshalBodyLines, runLines_line, runLines_nil, runParts, h', andThen_some, Option.map_some]
    simp only [List.append_nil, List.nil_append]
    rfl) ?_
  simp [Response.body, blockLines, Stmt.lines, argsText, Expr.text, dot, functionsOf, JsonCode.unmarshalTypeFunc]

theorem run_optionMarshal (x : Context) (d : GoTemplate.Value Obj) (vars : List (Text × GoTemplate.Value Obj))
    (w : Text) (o : Option Parameter)
    (h1 : eval (methodEnv x) d vars [w] = some (inject (pointer o), []))
    (h2 : ∀ p, o = some p → printed (methodEnv x) d vars [t!"marshalTypeFunc", w ++ t!".Type"] =
      some (JsonCode.marshalTypeFunc (x.typeOf p.typ.id), []))
    (h3 : ∀ p, o = some p → printed (methodEnv x) d vars [t!"parameterFieldName", w] =
      some (parameterFieldName p, [])) :
    Runs x d vars (optionMarshalLines w) (blockLines (wholeRequest x o).body) [] := by
  rw [Runs, optionMarshalLines, branch_eq (he := h1)]
  cases o with
  | none => exact run_nil x d vars
  | some p =>
    simp only [pointer, inject, GoTemplate.Value.truth, if_true]
    refine .of (by
      simp only [runLines_line, runLines_nil, runParts, h2 p rfl, h3 p rfl, andThen_some, Option.map_some]
      simp only [List.append_nil, List.nil_append]
      rfl) ?_
    simp [wholeRequest, Request.body, blockLines, Stmt.lines, argsText, Expr.text, dot, functionsOf,
      JsonCode.marshalTypeFunc, parameterFieldName]

theorem run_optionUnmarshal (x : Context) (d : GoTemplate.Value Obj) (vars : List (Text × GoTemplate.Value Obj))
    (w : Text) (o : Option Parameter)
    (h1 : eval (methodEnv x) d vars [w] = some (inject (pointer o), []))
    (h2 : ∀ p, o = some p → printed (methodEnv x) d vars [t!"unmarshalTypeFunc", w ++ t!".Type"] =
      some (JsonCode.unmarshalTypeFunc (x.typeOf p.typ.id), []))
    (h3 : ∀ p, o = some p → printed (methodEnv x) d vars [t!"parameterFieldName", w] =
      some (parameterFieldName p, [])) :
    Runs x d vars (optionUnmarshalLines w) (blockLines (wholeResponse x o).body) [] := by
  rw [Runs, optionUnmarshalLines, branch_eq (he := h1)]
  cases o with
  | none => exact ⟨_, rfl, fun _ => rfl⟩
  | some p =>
    simp only [pointer, inject, GoTemplate.Value.truth, if_true]
    refine .of (by
      simp only [runLines_line, runLines_nil, runParts, h2 p rfl, h3 p rfl, andThen_some, Option.map_some]
      simp only [List.append_nil, List.nil_append]
      rfl) ?_
    simp [wholeResponse, Response.body, blockLines, Stmt.lines, argsText, Expr.text, dot, functionsOf,
      JsonCode.unmarshalTypeFunc, parameterFieldName]

/-! ### Objects with fields -/

/-- The effects of the code that reads some parameters. -/
def fieldsEffects (x : Context) (ps : List Parameter) : List Effect :=
  ps.flatMap fun p => readEffects x false (x.typeOf p.typ.id)

/-- The cases of some parameters. -/
def casesOf (x : Context) (ps : List Parameter) : List Stmt := ps.map fun p => (fieldOf x p).read

theorem blockLines_flatMap {α : Type} (f : α → Stmt) (l : List α) :
    blockLines (l.map f) = l.flatMap fun a => blockLines [f a] := by
  induction l with
  | nil => rfl
  | cons a l ih =>
    rw [List.map_cons, List.flatMap_cons, ← ih, ← blockLines_append]
    rfl

theorem run_field (x : Context) (d : GoTemplate.Value Obj) (vars : List (Text × GoTemplate.Value Obj)) (w : Text)
    (p : Parameter)
    (h : eval (methodEnv x) d vars [t!"generateReadBodyParameter", t!"\"response\"", w] =
      ofBody (bodyCode x true) [.text t!"response", .obj (.parameter p)]) :
    Runs x d vars [.line [.print [t!"generateReadBodyParameter", t!"\"response\"", w]]]
      (blockLines [(fieldOf x p).read]) (readEffects x false (x.typeOf p.typ.id)) := by
  obtain ⟨text, h1, h2⟩ := read_parameter x p
  have h' : printed (methodEnv x) d vars [t!"generateReadBodyParameter", t!"\"response\"", w] =
      some (text, readEffects x false (x.typeOf p.typ.id)) := by
    rw [printed, h, ofBody, h1]
    rfl
  have := RunsIf.line (P := True) (methodEnv x) d vars _ [] text _ [] _ [] h' h2 ⟨_, runLines_nil _ _ _, fun _ => rfl⟩
  simpa using this

theorem run_option (x : Context) (d : GoTemplate.Value Obj) (vars : List (Text × GoTemplate.Value Obj)) (w : Text)
    (o : Option Parameter) (h1 : eval (methodEnv x) d vars [w] = some (inject (pointer o), []))
    (h2 : ∀ p, o = some p → eval (methodEnv x) d vars [t!"generateReadBodyParameter", t!"\"response\"", w] =
      ofBody (bodyCode x true) [.text t!"response", .obj (.parameter p)]) :
    Runs x d vars (optionLines w) (blockLines (casesOf x o.toList)) (fieldsEffects x o.toList) := by
  rw [Runs, optionLines, branch_eq (he := h1)]
  cases o with
  | none => exact ⟨_, rfl, fun _ => rfl⟩
  | some p =>
    have := run_field x d vars w p (h2 p rfl)
    simpa [fieldsEffects, casesOf, pointer, inject, GoTemplate.Value.truth] using this

theorem run_others (x : Context) (d : GoTemplate.Value Obj) (ps : List Parameter)
    (h : eval (methodEnv x) d [] [t!".Other"] = some (.list (ps.map .parameter), [])) :
    Runs x d [] otherLines (blockLines (casesOf x (ps.filter (·.isOut)))) (fieldsEffects x (ps.filter (·.isOut))) := by
  let g : Obj → List Text
    | .parameter p => if p.isOut then blockLines [(fieldOf x p).read] else []
    | _ => []
  let e : Obj → List Effect
    | .parameter p => if p.isOut then readEffects x false (x.typeOf p.typ.id) else []
    | _ => []
  have key : Runs x d [] otherLines ((ps.map Obj.parameter).flatMap g) ((ps.map Obj.parameter).flatMap e) := by
    refine RunsIf.range _ _ _ t!".Other" _ _ g e h ?_
    intro a ha
    obtain ⟨p, hp, rfl⟩ := List.mem_map.mp ha
    have hb : eval (methodEnv x) (.obj (.parameter p)) [] [t!".Out"] = some (.flag p.isOut, []) := rfl
    rw [branch_eq (he := hb)]
    simp only [g, e, GoTemplate.Value.truth]
    cases p.isOut
    · exact ⟨_, rfl, fun _ => rfl⟩
    · simp only [if_true]
      exact run_field x _ _ _ p rfl
  have h1 : (ps.map Obj.parameter).flatMap g = blockLines (casesOf x (ps.filter (·.isOut))) := by
    rw [casesOf, blockLines_flatMap]
    clear key h
    induction ps with
    | nil => rfl
    | cons p ps ih =>
      rw [List.map_cons, List.flatMap_cons, ih, List.filter_cons]
      simp only [g]
      cases p.isOut <;> simp
  have h2 : (ps.map Obj.parameter).flatMap e = fieldsEffects x (ps.filter (·.isOut)) := by
    rw [fieldsEffects]
    clear key h h1
    induction ps with
    | nil => rfl
    | cons p ps ih =>
      rw [List.map_cons, List.flatMap_cons, ih, List.filter_cons]
      simp only [e]
      cases p.isOut <;> simp
  rw [← h1, ← h2]
  exact key

/-- The lines before the cases. -/
def startTexts : List Text := [
  t!"iterator, err := helpers.NewIterator(reader)", t!"if err != nil {", t!"return err", t!"}", t!"for {",
  t!"field := iterator.ReadObject()", t!"if field == \"\" {", t!"break", t!"}", t!"switch field {"]

/-- The lines after the cases. -/
def endTexts : List Text := [t!"default:", t!"iterator.ReadAny()", t!"}", t!"}", t!"return iterator.Error"]

theorem readFields_lines (cases : List Stmt) :
    blockLines (readFields cases) = startTexts ++ (blockLines cases ++ endTexts) := by
  simp [readFields, blockLines, blockLines_append, Stmt.lines, argsText, Expr.text, notNil, paren, nextField,
    startTexts, endTexts]

theorem run_start (x : Context) (d : GoTemplate.Value Obj) (vars : List (Text × GoTemplate.Value Obj)) :
    Runs x d vars readStart startTexts [] := ⟨_, rfl, fun _ => rfl⟩

theorem run_end (x : Context) (d : GoTemplate.Value Obj) (vars : List (Text × GoTemplate.Value Obj)) :
    Runs x d vars readEnd endTexts [] := ⟨_, rfl, fun _ => rfl⟩

/-- The effects of the code that puts the items of a page in their structure. -/
def itemsEffects (x : Context) (t : GoRef.Typ) : List Effect :=
  if (pageList x t).isSome then refEffects (GoRef.structReference x.base t) else []

/-- What the arguments of the template of a page should be. -/
structure PageArgs (x : Context) (d : GoTemplate.Value Obj) (page size total : Option Parameter) (items : Parameter)
    (others : List Parameter) : Prop where
  atPage : eval (methodEnv x) d [] [t!".Page"] = some (inject (pointer page), [])
  readPage : ∀ p, page = some p → eval (methodEnv x) d [] [t!"generateReadBodyParameter", t!"\"response\"", t!".Page"] =
    ofBody (bodyCode x true) [.text t!"response", .obj (.parameter p)]
  atSize : eval (methodEnv x) d [] [t!".Size"] = some (inject (pointer size), [])
  readSize : ∀ p, size = some p → eval (methodEnv x) d [] [t!"generateReadBodyParameter", t!"\"response\"", t!".Size"] =
    ofBody (bodyCode x true) [.text t!"response", .obj (.parameter p)]
  atTotal : eval (methodEnv x) d [] [t!".Total"] = some (inject (pointer total), [])
  readTotal : ∀ p, total = some p →
    eval (methodEnv x) d [] [t!"generateReadBodyParameter", t!"\"response\"", t!".Total"] =
      ofBody (bodyCode x true) [.text t!"response", .obj (.parameter p)]
  atOthers : eval (methodEnv x) d [] [t!".Other"] = some (.list (others.map .parameter), [])
  atItems : eval (methodEnv x) d []
      [t!"generateReadValue", t!"\"items\"", t!".Items.Type", t!"false", t!".LinkOwner"] =
    generating x true [.text t!"items", .obj (.ref (x.typeOf items.typ.id)), .flag false, .obj (.owner none)]
  scalar : eval (methodEnv x) d [] [t!"and", t!".Items.Type.IsList", t!".Items.Type.Element.IsScalar"] =
    some (.flag (pageList x (x.typeOf items.typ.id)).isNone, [])
  list : printed (methodEnv x) d [] [t!"structName", t!".Items.Type"] =
    some (GoRef.emit x.pkg (GoRef.structReference x.base (x.typeOf items.typ.id)),
      refEffects (GoRef.structReference x.base (x.typeOf items.typ.id)))

theorem pageList_eq (x : Context) (t : GoRef.Typ) : ∀ typ, pageList x t = some typ →
    typ = GoRef.emit x.pkg (GoRef.structReference x.base t) := by
  intro typ h
  cases t with
  | list d e =>
    simp only [pageList] at h
    split at h
    · cases h
    · exact (Option.some.inj h).symm
  | _ => exact (Option.some.inj h).symm

theorem run_page (x : Context) (d : GoTemplate.Value Obj) (page size total : Option Parameter) (items : Parameter)
    (others : List Parameter) (h : PageArgs x d page size total items others) :
    Runs x d [] pageLines
      (blockLines (Response.page
        ((page.toList ++ size.toList ++ total.toList ++ others.filter (·.isOut)).map (fieldOf x))
        (formOf x false none (x.typeOf items.typ.id)) (pageList x (x.typeOf items.typ.id))).body)
      (fieldsEffects x (page.toList ++ size.toList ++ total.toList ++ others.filter (·.isOut)) ++
        (readEffects x false (x.typeOf items.typ.id) ++ itemsEffects x (x.typeOf items.typ.id))) := by
  obtain ⟨vt, hv, hcv⟩ := JsonCode.read_value x none (x.typeOf items.typ.id) _ t!"items" false (Nat.le_refl _)
  have hi : printed (methodEnv x) d []
      [t!"generateReadValue", t!"\"items\"", t!".Items.Type", t!"false", t!".LinkOwner"] =
      some (vt, readEffects x false (x.typeOf items.typ.id)) := printed_value x _ _ _ _ true _ _ _ _ h.atItems hv
  have h1 := run_option x d [] t!".Page" page h.atPage h.readPage
  have h2 := run_option x d [] t!".Size" size h.atSize h.readSize
  have h3 := run_option x d [] t!".Total" total h.atTotal h.readTotal
  have h4 := run_others x d others h.atOthers
  have hl : Runs x d [] itemLines
      (blockLines [match pageList x (x.typeOf items.typ.id) with
        | none => Stmt.assign (dot t!"response" t!"items") (.var t!"items")
        | some typ => Stmt.assignNew (dot t!"response" t!"items") typ t!"items" (.var t!"items")])
      (itemsEffects x (x.typeOf items.typ.id)) := by
    rw [Runs, itemLines, branch_eq (he := h.scalar), itemsEffects]
    cases hp : pageList x (x.typeOf items.typ.id) with
    | none =>
      refine ⟨_, rfl, fun _ => ?_⟩
      simp [blockLines, Stmt.lines, Expr.text, dot]
    | some typ =>
      simp only [GoTemplate.Value.truth, Option.isNone, Bool.false_eq_true, if_false, Option.isSome, if_true]
      refine .of (by
        simp only [runLines_line, runLines_nil, runParts, h.list, andThen_some, Option.map_some]
        simp only [List.append_nil, List.nil_append]
        rfl) ?_
      rw [pageList_eq x _ _ hp]
      simp [blockLines, Stmt.lines, Expr.text, dot]
  have hc : Runs x d [] [.line [.lit t!"case \"items\":"]] [t!"case \"items\":"] [] := ⟨_, rfl, fun _ => rfl⟩
  have hr := RunsIf.line (P := True) (methodEnv x) d [] _ (itemLines ++ readEnd) vt _ _ _ _ hi hcv
    (hl.append (run_end x d []) rfl)
  have := (run_start x d []).append (h1.append (h2.append (h3.append (h4.append (hc.append hr rfl) rfl) rfl) rfl) rfl)
    rfl
  have e1 : blockLines (Response.page
        ((page.toList ++ size.toList ++ total.toList ++ others.filter (·.isOut)).map (fieldOf x))
        (formOf x false none (x.typeOf items.typ.id)) (pageList x (x.typeOf items.typ.id))).body =
      startTexts ++ (blockLines (casesOf x page.toList) ++ (blockLines (casesOf x size.toList) ++
        (blockLines (casesOf x total.toList) ++ (blockLines (casesOf x (others.filter (·.isOut))) ++
        ([t!"case \"items\":"] ++ (blockLines ((formOf x false none (x.typeOf items.typ.id)).read t!"items") ++
        (blockLines [match pageList x (x.typeOf items.typ.id) with
          | none => Stmt.assign (dot t!"response" t!"items") (.var t!"items")
          | some typ => Stmt.assignNew (dot t!"response" t!"items") typ t!"items" (.var t!"items")] ++ endTexts)))))))
      := by
    rw [Response.body, readFields_lines]
    simp only [List.map_append, blockLines_append, List.map_map, casesOf, readItems]
    simp [blockLines, Stmt.lines, blockLines_append, Function.comp_def]
    cases pageList x (x.typeOf items.typ.id) <;> rfl
  have e2 : fieldsEffects x (page.toList ++ size.toList ++ total.toList ++ others.filter (·.isOut)) ++
        (readEffects x false (x.typeOf items.typ.id) ++ itemsEffects x (x.typeOf items.typ.id)) =
      [] ++ (fieldsEffects x page.toList ++ (fieldsEffects x size.toList ++ (fieldsEffects x total.toList ++
        (fieldsEffects x (others.filter (·.isOut)) ++
          ([] ++ (readEffects x false (x.typeOf items.typ.id) ++ (itemsEffects x (x.typeOf items.typ.id) ++ []))))))) := by
    simp only [fieldsEffects, List.flatMap_append, List.append_assoc, List.nil_append, List.append_nil]
  rw [e1, e2]
  exact this

/-! ### Actions -/

/-- The effects of the code that writes some parameters. -/
def writesEffects (x : Context) (ps : List Parameter) : List Effect :=
  ps.flatMap fun p => writeEffects (x.typeOf p.typ.id)

/-- The lines before the fields. -/
def writeStartTexts : List Text := [
  t!"count := 0", t!"stream := helpers.NewStream(writer)", t!"stream.WriteObjectStart()"]

/-- The lines after the fields. -/
def writeEndTexts : List Text := [
  t!"stream.WriteObjectEnd()", t!"err := stream.Flush()", t!"if err != nil {", t!"return err", t!"}",
  t!"return stream.Error"]

theorem run_writeField (x : Context) (vars : List (Text × GoTemplate.Value Obj)) (p : Parameter) :
    Runs x (.obj (.parameter p)) vars [.line [.print [t!"generateWriteBodyParameter", t!"\"request\"", t!"."]]]
      (blockLines [(fieldOf x p).write]) (writeEffects (x.typeOf p.typ.id)) := by
  obtain ⟨text, h1, h2⟩ := write_parameter x p
  have h' : printed (methodEnv x) (.obj (.parameter p)) vars
      [t!"generateWriteBodyParameter", t!"\"request\"", t!"."] =
      some (text, writeEffects (x.typeOf p.typ.id)) := by
    have : eval (methodEnv x) (.obj (.parameter p)) vars [t!"generateWriteBodyParameter", t!"\"request\"", t!"."] =
      ofBody (bodyCode x false) [.text t!"request", .obj (.parameter p)] := rfl
    rw [printed, this, ofBody, h1]
    rfl
  have := RunsIf.line (P := True) (methodEnv x) (.obj (.parameter p)) vars _ [] text _ [] _ [] h' h2
    ⟨_, runLines_nil _ _ _, fun _ => rfl⟩
  simpa using this

/-- A loop over parameters. -/
theorem run_each (x : Context) (d : GoTemplate.Value Obj) (vars : List (Text × GoTemplate.Value Obj)) (w : Text)
    (body : List Line) (ps : List Parameter) (g : Parameter → Stmt) (e : Parameter → List Effect)
    (h : eval (methodEnv x) d vars [w] = some (.list (ps.map .parameter), []))
    (hb : ∀ p, Runs x (.obj (.parameter p)) vars body (blockLines [g p]) (e p)) :
    Runs x d vars [.range [w] body] (blockLines (ps.map g)) (ps.flatMap e) := by
  let g' : Obj → List Text
    | .parameter p => blockLines [g p]
    | _ => []
  let e' : Obj → List Effect
    | .parameter p => e p
    | _ => []
  have key : Runs x d vars [.range [w] body] ((ps.map Obj.parameter).flatMap g')
      ((ps.map Obj.parameter).flatMap e') := by
    refine RunsIf.range _ _ _ w _ _ g' e' h ?_
    intro a ha
    obtain ⟨p, hp, rfl⟩ := List.mem_map.mp ha
    exact hb p
  rw [List.flatMap_map, List.flatMap_map] at key
  rw [blockLines_flatMap]
  exact key

theorem run_actionWrite (x : Context) (d : GoTemplate.Value Obj) (vars : List (Text × GoTemplate.Value Obj))
    (ps : List Parameter)
    (h : eval (methodEnv x) d vars [t!"$requestBodyParameters"] = some (.list (ps.map .parameter), [])) :
    Runs x d vars actionWriteLines (blockLines (requestFields x ps).body) (writesEffects x ps) := by
  rw [Runs, actionWriteLines, branch_eq (he := h)]
  cases ps with
  | nil => exact ⟨_, rfl, fun _ => rfl⟩
  | cons p ps =>
    simp only [List.map_cons, GoTemplate.Value.truth]
    have h1 := run_each x d vars t!"$requestBodyParameters" _ (p :: ps) (fun p => (fieldOf x p).write) _ h
      (run_writeField x vars)
    have h2 : Runs x d vars writeStart writeStartTexts [] := ⟨_, rfl, fun _ => rfl⟩
    have h3 : Runs x d vars writeEnd writeEndTexts [] := ⟨_, rfl, fun _ => rfl⟩
    have := h2.append (h1.append h3 rfl) rfl
    have e : blockLines (requestFields x (p :: ps)).body = writeStartTexts ++
        (blockLines ((p :: ps).map fun p => (fieldOf x p).write) ++ writeEndTexts) := by
      rw [requestFields, Request.body, blockLines_append, blockLines_append, List.map_map, List.append_assoc]
      · simp [blockLines, Stmt.lines, argsText, Expr.text, notNil, paren, writeStartTexts, writeEndTexts,
          Function.comp_def, intText, natText]
      · simp
    rw [e]
    simpa [writesEffects] using this

theorem run_actionRead (x : Context) (d : GoTemplate.Value Obj) (vars : List (Text × GoTemplate.Value Obj))
    (ps : List Parameter)
    (h : eval (methodEnv x) d vars [t!"$responseBodyParameters"] = some (.list (ps.map .parameter), [])) :
    Runs x d vars actionReadLines (blockLines (responseFields x ps).body) (fieldsEffects x ps) := by
  rw [Runs, actionReadLines, branch_eq (he := h)]
  cases ps with
  | nil => exact ⟨_, rfl, fun _ => rfl⟩
  | cons p ps =>
    simp only [List.map_cons, GoTemplate.Value.truth]
    have h1 := run_each x d vars t!"$responseBodyParameters"
      [.line [.print [t!"generateReadBodyParameter", t!"\"response\"", t!"."]]] (p :: ps) (fun p => (fieldOf x p).read)
      (fun p => readEffects x false (x.typeOf p.typ.id)) h
      (fun p => run_field x _ vars _ p rfl)
    have := (run_start x d vars).append (h1.append (run_end x d vars) rfl) rfl
    have e : blockLines (responseFields x (p :: ps)).body = startTexts ++
        (blockLines ((p :: ps).map fun p => (fieldOf x p).read) ++ endTexts) := by
      rw [responseFields, Response.body, readFields_lines, List.map_map]
      · rfl
      · simp
    rw [e]
    simpa [fieldsEffects] using this

/-! ### All the kinds -/

theorem names (x : Context) (r : Resource) (m : Method) (d : GoTemplate.Value Obj)
    (vars : List (Text × GoTemplate.Value Obj)) (ws rs : List Line) (fx fy : List Effect)
    (h1 : eval (methodEnv x) d vars [t!"writeRequestFunc", t!".Method"] =
      ofMethod Decls.writeRequestFunc [.obj (.method r m)])
    (h2 : eval (methodEnv x) d vars [t!"clientRequestName", t!".Method"] =
      ofMethod clientRequestName [.obj (.method r m)])
    (h3 : eval (methodEnv x) d vars [t!"readResponseFunc", t!".Method"] =
      ofMethod Decls.readResponseFunc [.obj (.method r m)])
    (h4 : eval (methodEnv x) d vars [t!"clientResponseName", t!".Method"] =
      ofMethod clientResponseName [.obj (.method r m)])
    (hw : Runs x d vars ws (blockLines (requestOf x m).body) fx)
    (hr : Runs x d vars rs (blockLines (responseOf x m).body) fy)
    (uw : unset ws = true) (ur : unset rs = true) :
    Runs x d vars (writeHead :: (ws ++ closeLine :: readHead :: (rs ++ [closeLine])))
      (TypesCode.itemsLines (messageOf x r m).items) (fx ++ fy) := by
  refine run_message x d vars (messageOf x r m) ws rs fx fy ?_ ?_ ?_ ?_ hw hr uw ur
  · rw [printed, h1, ofMethod, write_name]; rfl
  · rw [printed, h2, ofMethod, request_name]; rfl
  · rw [printed, h3, ofMethod, read_name]; rfl
  · rw [printed, h4, ofMethod, response_name]; rfl

/-- The effects of the code of a method. -/
def methodEffects (x : Context) (m : Method) : List Effect :=
  match kindOf m with
  | .list => match itemsOf m with
    | none => []
    | some items => fieldsEffects x (pageFields m [Nom.page, Nom.size, Nom.total, Nom.items]) ++
        (readEffects x false (x.typeOf items.typ.id) ++ itemsEffects x (x.typeOf items.typ.id))
  | .search => match itemsOf m with
    | none => []
    | some items => fieldsEffects x (pageFields m [Nom.page, Nom.size, Nom.total, Nom.body, Nom.items]) ++
        (readEffects x false (x.typeOf items.typ.id) ++ itemsEffects x (x.typeOf items.typ.id))
  | .action =>
    writesEffects x (m.parameters.filter (·.isIn)) ++ fieldsEffects x (m.parameters.filter (·.isOut))
  | _ => []

theorem run_add (x : Context) (r : Resource) (m : Method) (p : Parameter)
    (hk : kindOf m = .add ∨ kindOf m = .update) (hb : bodyOf m = some p) :
    Runs x (.args [(t!"Method", .method r m), (t!"Body", pointer (some p))]) [] addLines
      (TypesCode.itemsLines (messageOf x r m).items) [] := by
  refine names x r m _ [] marshalBodyLines unmarshalBodyLines [] [] rfl rfl rfl rfl ?_ ?_ rfl rfl
  · have : requestOf x m = .whole t!"body" (functionsOf (x.typeOf p.typ.id)).marshal := by
      rcases hk with hk | hk <;> simp only [requestOf, hk, hb, wholeRequest, body_field m p hb]
    rw [this]
    exact run_marshalBody x _ _ _ rfl
  · have : responseOf x m = .whole t!"body" (functionsOf (x.typeOf p.typ.id)).unmarshal := by
      rcases hk with hk | hk <;> simp only [responseOf, hk, hb, wholeResponse, body_field m p hb]
    rw [this]
    exact run_unmarshalBody x _ _ _ rfl

theorem run_delete (x : Context) (r : Resource) (m : Method) (hk : kindOf m = .delete) :
    Runs x (.args [(t!"Method", .method r m)]) [] deleteLines (TypesCode.itemsLines (messageOf x r m).items) [] := by
  refine names x r m _ [] nilLines nilLines [] [] rfl rfl rfl rfl ?_ ?_ rfl rfl
  · simp only [requestOf, hk]
    exact run_nil x _ _
  · simp only [responseOf, hk]
    exact run_nil x _ _

theorem run_get (x : Context) (r : Resource) (m : Method) (p : Parameter) (hk : kindOf m = .get)
    (hb : bodyOf m = some p) :
    Runs x (.args [(t!"Method", .method r m), (t!"Body", pointer (some p))]) [] getLines
      (TypesCode.itemsLines (messageOf x r m).items) [] := by
  refine names x r m _ [] nilLines unmarshalBodyLines [] [] rfl rfl rfl rfl ?_ ?_ rfl rfl
  · simp only [requestOf, hk]
    exact run_nil x _ _
  · have : responseOf x m = .whole t!"body" (functionsOf (x.typeOf p.typ.id)).unmarshal := by
      simp only [responseOf, hk, hb, wholeResponse, body_field m p hb]
    rw [this]
    exact run_unmarshalBody x _ _ _ rfl

theorem run_post (x : Context) (r : Resource) (m : Method) (hk : kindOf m = .post) :
    Runs x (.args [(t!"Method", .method r m), (t!"Request", pointer (lastThat m (·.isIn))),
        (t!"Response", pointer (lastThat m (·.isOut)))]) [] postLines
      (TypesCode.itemsLines (messageOf x r m).items) [] := by
  refine names x r m _ [] (optionMarshalLines t!".Request") (optionUnmarshalLines t!".Response") [] []
    rfl rfl rfl rfl ?_ ?_ rfl rfl
  · simp only [requestOf, hk]
    refine run_optionMarshal x _ _ _ _ rfl ?_ ?_
    · intro p hp; rw [hp]; rfl
    · intro p hp; rw [hp]; rfl
  · simp only [responseOf, hk]
    refine run_optionUnmarshal x _ _ _ _ rfl ?_ ?_
    · intro p hp; rw [hp]; rfl
    · intro p hp; rw [hp]; rfl

theorem scalar_eq (x : Context) (t : GoRef.Typ) :
    (pageList x t).isNone = (t.isList && match elementOf t with
      | .ref e => e.isScalar
      | _ => false) := by
  cases t with
  | list d e => simp only [pageList, elementOf, GoRef.Typ.isList]; cases e.isScalar <;> rfl
  | _ => rfl

/-- The condition that says if the items of a page are scalar values. -/
def scalarCondition (x : Context) (t : GoRef.Typ) : Option (GoTemplate.Value Obj × List Effect) :=
  (functions x (bodyCode x) t!"and").bind fun f =>
    (((GoTemplate.Value.member (methodEnv x) t!"IsScalar" (.obj (elementOf t))).bind fun v =>
      Option.map (v :: ·) (some [])).map (GoTemplate.Value.flag t.isList :: ·)).bind f

theorem scalar_condition (x : Context) (t : GoRef.Typ) :
    scalarCondition x t = some (.flag (pageList x t).isNone, []) := by
  rw [scalar_eq]
  cases t <;> rfl

theorem list_args (x : Context) (r : Resource) (m : Method) (page size total : Option Parameter) (items : Parameter)
    (others : List Parameter) :
    PageArgs x (.args [(t!"Method", .method r m), (t!"Page", pointer page), (t!"Size", pointer size),
      (t!"Total", pointer total), (t!"Items", pointer (some items)), (t!"Other", .parameters others),
      (t!"LinkOwner", .owner none)]) page size total items others := by
  refine ⟨rfl, ?_, rfl, ?_, rfl, ?_, rfl, rfl, ?_, rfl⟩
  · rintro p rfl; rfl
  · rintro p rfl; rfl
  · rintro p rfl; rfl
  · exact scalar_condition x (x.typeOf items.typ.id)

theorem search_args (x : Context) (r : Resource) (m : Method) (body page size total : Option Parameter)
    (items : Parameter) (others : List Parameter) :
    PageArgs x (.args [(t!"Body", pointer body), (t!"Method", .method r m), (t!"Page", pointer page),
      (t!"Size", pointer size), (t!"Total", pointer total), (t!"Items", pointer (some items)),
      (t!"Other", .parameters others), (t!"LinkOwner", .owner none)]) page size total items others := by
  refine ⟨rfl, ?_, rfl, ?_, rfl, ?_, rfl, rfl, ?_, rfl⟩
  · rintro p rfl; rfl
  · rintro p rfl; rfl
  · rintro p rfl; rfl
  · exact scalar_condition x (x.typeOf items.typ.id)

theorem pageFields_eq (m : Method) (known : List Name) :
    (lastThat m (·.name == Nom.page)).toList ++ (lastThat m (·.name == Nom.size)).toList ++
      (lastThat m (·.name == Nom.total)).toList ++
      (m.parameters.filter fun p => !known.contains p.name).filter (·.isOut) = pageFields m known := by
  rw [pageFields, List.filter_filter]
  simp only [Bool.and_comm]

theorem run_list (x : Context) (r : Resource) (m : Method) (items : Parameter) (hk : kindOf m = .list)
    (hi : itemsOf m = some items) :
    Runs x (.args (pageArgs r m [Nom.page, Nom.size, Nom.total, Nom.items])) [] listLines
      (TypesCode.itemsLines (messageOf x r m).items) (methodEffects x m) := by
  have hi' : lastThat m (·.name == Nom.items) = some items := hi
  rw [pageArgs, lastNamed_eq, lastNamed_eq, lastNamed_eq, lastNamed_eq, others_eq, hi']
  have := run_page x _ _ _ _ _ _ (list_args x r m (lastThat m (·.name == Nom.page)) (lastThat m (·.name == Nom.size))
    (lastThat m (·.name == Nom.total)) items
    (m.parameters.filter fun p => ![Nom.page, Nom.size, Nom.total, Nom.items].contains p.name))
  rw [pageFields_eq] at this
  have e : methodEffects x m = [] ++ (fieldsEffects x (pageFields m [Nom.page, Nom.size, Nom.total, Nom.items]) ++
        (readEffects x false (x.typeOf items.typ.id) ++ itemsEffects x (x.typeOf items.typ.id))) := by
    simp only [methodEffects, hk, hi, List.nil_append]
  rw [e]
  refine names x r m _ [] nilLines pageLines [] _ rfl rfl rfl rfl ?_ ?_ rfl rfl
  · simp only [requestOf, hk]
    exact run_nil x _ _
  · simp only [responseOf, hk, hi]
    exact this

theorem run_search (x : Context) (r : Resource) (m : Method) (items : Parameter) (hk : kindOf m = .search)
    (hi : itemsOf m = some items) :
    Runs x (.args ((t!"Body", pointer (GoJson.lastNamed m Nom.body)) ::
        pageArgs r m [Nom.page, Nom.size, Nom.total, Nom.body, Nom.items])) [] searchLines
      (TypesCode.itemsLines (messageOf x r m).items) (methodEffects x m) := by
  have hi' : lastThat m (·.name == Nom.items) = some items := hi
  rw [pageArgs, lastNamed_eq, lastNamed_eq, lastNamed_eq, lastNamed_eq, lastNamed_eq, others_eq, hi']
  have := run_page x _ _ _ _ _ _ (search_args x r m (lastThat m (·.name == Nom.body))
    (lastThat m (·.name == Nom.page)) (lastThat m (·.name == Nom.size))
    (lastThat m (·.name == Nom.total)) items
    (m.parameters.filter fun p => ![Nom.page, Nom.size, Nom.total, Nom.body, Nom.items].contains p.name))
  rw [pageFields_eq] at this
  have e : methodEffects x m = [] ++
      (fieldsEffects x (pageFields m [Nom.page, Nom.size, Nom.total, Nom.body, Nom.items]) ++
        (readEffects x false (x.typeOf items.typ.id) ++ itemsEffects x (x.typeOf items.typ.id))) := by
    simp only [methodEffects, hk, hi, List.nil_append]
  rw [e]
  refine names x r m _ [] (optionMarshalLines t!".Body") pageLines [] _ rfl rfl rfl rfl ?_ ?_ rfl rfl
  · simp only [requestOf, hk]
    refine run_optionMarshal x _ _ _ _ rfl ?_ ?_
    · intro p hp; rw [hp]; rfl
    · intro p hp; rw [hp]; rfl
  · simp only [responseOf, hk, hi]
    exact this

theorem action_kind (m : Method) : m.isAction = true ↔ kindOf m = .action := by
  simp only [Method.isAction, Method.isAdd, Method.isDelete, Method.isAsyncDelete, Method.isGet, Method.isList,
    Method.isPost, Method.isSearch, Method.isUpdate, Method.isAsyncUpdate, Method.named, equals_eq, kindOf, beq_iff_eq]
  repeat' split
  all_goals simp_all

theorem run_action (x : Context) (r : Resource) (m : Method) (hk : kindOf m = .action) :
    Runs x (.args [(t!"Method", .method r m)]) [] actionLines (TypesCode.itemsLines (messageOf x r m).items)
      (methodEffects x m) := by
  have hq : Binding.requestBodyParameters m = m.parameters.filter (·.isIn) := by
    rw [Binding.requestBodyParameters, if_pos ((action_kind m).mpr hk)]
  have hs : Binding.responseParameters m = m.parameters.filter (·.isOut) := rfl
  have e1 : eval (methodEnv x) (.args [(t!"Method", .method r m)]) []
      [t!"requestBodyParameters", t!".Method"] =
      some (.list ((m.parameters.filter (·.isIn)).map .parameter), []) := by
    rw [← hq]
    rfl
  rw [Runs, actionLines, run_set (he := e1), after_nil]
  have e2 : ∀ vars, eval (methodEnv x) (.args [(t!"Method", .method r m)]) vars
      [t!"responseBodyParameters", t!".Method"] =
      some (.list ((m.parameters.filter (·.isOut)).map .parameter), []) := fun _ => rfl
  rw [run_set (he := e2 _), after_nil]
  have e : methodEffects x m =
      writesEffects x (m.parameters.filter (·.isIn)) ++ fieldsEffects x (m.parameters.filter (·.isOut)) := by
    simp only [methodEffects, hk]
  rw [e]
  refine names x r m _ _ actionWriteLines actionReadLines _ _ rfl rfl rfl rfl ?_ ?_ rfl rfl
  · simp only [requestOf, hk]
    exact run_actionWrite x _ _ _ rfl
  · simp only [responseOf, hk]
    exact run_actionRead x _ _ _ rfl

/-! ## Templates that fail -/

theorem template_none {α : Type} (E : Env α) (dot : GoTemplate.Value α) (template : Text) (ls : List Line)
    (hl : hasLines template ls = true) (hr : runLines E dot [] ls = none) :
    (parse template).bind (runNodes E dot []) = none := by
  have hl := hasLines_eq _ _ hl
  cases hp : parse template with
  | none => rfl
  | some nodes =>
    rw [hp] at hl
    rcases lines_run E dot [] nodes [] ls hl [] [] [] rfl rfl with ⟨h, _⟩ | ⟨t, fx', rs', h1, h2, h3⟩
    · exact h
    · rw [hr] at h2
      cases h2

theorem andThen_none {β : Type} (a : Option (List β × List Effect)) : andThen a none = none := by cases a <;> rfl

theorem none_andThen {β : Type} (a : Option (List β × List Effect)) : andThen none a = none := rfl

theorem page_none (x : Context) (d : GoTemplate.Value Obj) (rest : List Line)
    (h : printed (methodEnv x) d []
      [t!"generateReadValue", t!"\"items\"", t!".Items.Type", t!"false", t!".LinkOwner"] = none) :
    runLines (methodEnv x) d [] (pageLines ++ rest) = none := by
  have : runLines (methodEnv x) d []
      (.line [.print [t!"generateReadValue", t!"\"items\"", t!".Items.Type", t!"false", t!".LinkOwner"]] ::
        (itemLines ++ (readEnd ++ rest))) = none := by
    rw [runLines_line, runParts, h]
    rfl
  simp only [pageLines, List.append_assoc, List.cons_append]
  rw [runLines_append _ _ _ _ _ rfl, runLines_append _ _ _ _ _ rfl, runLines_append _ _ _ _ _ rfl,
    runLines_append _ _ _ _ _ rfl, runLines_append _ _ _ _ _ rfl, runLines_line, this]
  simp only [andThen_none]

theorem list_none (x : Context) (r : Resource) (m : Method) (page size total : Obj) (others : List Parameter) :
    runLines (methodEnv x) (.args [(t!"Method", .method r m), (t!"Page", page), (t!"Size", size),
      (t!"Total", total), (t!"Items", pointer none), (t!"Other", .parameters others),
      (t!"LinkOwner", .owner none)]) [] listLines = none := by
  have hp := page_none x (.args [(t!"Method", .method r m), (t!"Page", page), (t!"Size", size),
      (t!"Total", total), (t!"Items", pointer none), (t!"Other", .parameters others),
      (t!"LinkOwner", .owner none)]) [closeLine] rfl
  have : listLines = [writeHead] ++ (nilLines ++ ([closeLine] ++ ([readHead] ++ (pageLines ++ [closeLine])))) := rfl
  rw [this, runLines_append _ _ _ _ _ rfl, runLines_append _ _ _ _ _ rfl, runLines_append _ _ _ _ _ rfl,
    runLines_append _ _ _ _ _ rfl, hp]
  simp only [andThen_none]

theorem search_none (x : Context) (r : Resource) (m : Method) (body page size total : Obj) (others : List Parameter) :
    runLines (methodEnv x) (.args [(t!"Body", body), (t!"Method", .method r m), (t!"Page", page), (t!"Size", size),
      (t!"Total", total), (t!"Items", pointer none), (t!"Other", .parameters others),
      (t!"LinkOwner", .owner none)]) [] searchLines = none := by
  have hp := page_none x (.args [(t!"Body", body), (t!"Method", .method r m), (t!"Page", page), (t!"Size", size),
      (t!"Total", total), (t!"Items", pointer none), (t!"Other", .parameters others),
      (t!"LinkOwner", .owner none)]) [closeLine] rfl
  have : searchLines = [writeHead] ++
      (optionMarshalLines t!".Body" ++ ([closeLine] ++ ([readHead] ++ (pageLines ++ [closeLine])))) := rfl
  rw [this, runLines_append _ _ _ _ _ rfl, runLines_append _ _ _ _ _ rfl, runLines_append _ _ _ _ _ rfl,
    runLines_append _ _ _ _ _ rfl, hp]
  simp only [andThen_none]

theorem add_none (x : Context) (r : Resource) (m : Method) :
    runLines (methodEnv x) (.args [(t!"Method", .method r m), (t!"Body", pointer none)]) [] addLines = none := rfl

theorem get_none (x : Context) (r : Resource) (m : Method) :
    runLines (methodEnv x) (.args [(t!"Method", .method r m), (t!"Body", pointer none)]) [] getLines = none := rfl

/-! ## The buffer -/

open TypesCode (errorCount errorCount_append errorCount_ref errorCount_flatMap ref_imports effects_foldl emit_eq)
open JsonCode (importEffects importErrors import_mem)
open GoFile (Buffer)

/-- The imports that are added before the code of each method. -/
def baseImports (x : Context) : List (Text × Text) := [(t!"net/http", []), (Go.helpersImport x.base, [])]

/-- The code of a method is added to a buffer, with the effects that it has. -/
def Adds (b b' : Buffer) (fx : List Effect) (ls : List Text) : Prop :=
  ∃ t, b' = { fx.foldl Buffer.effect b with code := b.code ++ t ++ t!"\n" } ∧
    ∀ r, significant (t ++ r) = code ls ++ significant r

theorem emit_runs (x : Context) (template : Text) (args : List (Text × Obj)) (b : Buffer) (ls : List Line)
    (ks : List Text) (fx : List Effect) (he : b.errors = 0) (hl : hasLines template ls = true)
    (hr : Runs x (.args args) [] ls ks fx) :
    Adds b (emitMethod x template args b) (importEffects (baseImports x) ++ fx) ks := by
  obtain ⟨rs, h1, h2⟩ := hr
  have he' : ((importEffects (baseImports x)).foldl Buffer.effect b).errors = 0 := by
    rw [(effects_foldl _ _).1, importErrors, he]
  obtain ⟨t, h3, h4⟩ := emit_eq (methodEnv x) _ template args ls rs fx he' hl h1
  refine ⟨t, ?_, fun r => by rw [h4, h2 trivial]⟩
  rw [List.foldl_append]
  have := (effects_foldl (importEffects (baseImports x)) b).2.2
  rw [this] at h3
  exact h3

theorem emit_fails (x : Context) (template : Text) (args : List (Text × Obj)) (b : Buffer) (ls : List Line)
    (hl : hasLines template ls = true) (hr : runLines (methodEnv x) (.args args) [] ls = none) :
    (emitMethod x template args b).errors ≠ 0 := by
  rw [emitMethod, Buffer.emit]
  split
  · dsimp only
    omega
  · rw [template_none _ _ _ _ hl hr]
    exact Nat.succ_ne_zero _

theorem emit_errors (x : Context) (template : Text) (args : List (Text × Obj)) (b : Buffer) (he : b.errors ≠ 0) :
    (emitMethod x template args b).errors ≠ 0 := by
  have : ∀ (b : Buffer) p sel, (b.imprt p sel).errors = b.errors := by
    intro b p sel
    rw [Buffer.imprt]
    split <;> rfl
  rw [emitMethod, Buffer.emit, if_pos]
  · dsimp only
    rw [this, this]
    exact he
  · rw [this, this]
    omega

theorem kind_add (m : Method) : m.isAdd = true ↔ kindOf m = .add := by
  simp only [Method.isAdd, Method.named, equals_eq, beq_iff_eq, kindOf]
  repeat' split
  all_goals simp_all

theorem method_eq (x : Context) (r : Resource) (b : Buffer) (m : Method) :
    methodSource x r b m = match kindOf m with
      | .add => emitMethod x addTemplate [(t!"Method", .method r m), (t!"Body", pointer (bodyOf m))] b
      | .delete => emitMethod x deleteTemplate [(t!"Method", .method r m)] b
      | .get => emitMethod x getTemplate [(t!"Method", .method r m), (t!"Body", pointer (bodyOf m))] b
      | .list => emitMethod x listTemplate (pageArgs r m [Nom.page, Nom.size, Nom.total, Nom.items]) b
      | .post => emitMethod x postTemplate [(t!"Method", .method r m), (t!"Request", pointer (lastThat m (·.isIn))),
        (t!"Response", pointer (lastThat m (·.isOut)))] b
      | .search => emitMethod x searchTemplate
        ((t!"Body", pointer (GoJson.lastNamed m Nom.body)) ::
          pageArgs r m [Nom.page, Nom.size, Nom.total, Nom.body, Nom.items]) b
      | .update => emitMethod x updateTemplate [(t!"Method", .method r m), (t!"Body", pointer (bodyOf m))] b
      | .action => emitMethod x actionTemplate [(t!"Method", .method r m)] b := by
  have ha := action_kind m
  rw [methodSource, body_eq, lastWhere_eq, lastWhere_eq]
  change _ = _
  have hb : ∀ n : Name, m.named n = true ↔ m.name = n := by
    intro n
    rw [Method.named, equals_eq, beq_iff_eq]
  simp only [Method.isAdd, Method.isDelete, Method.isAsyncDelete, Method.isGet, Method.isList,
    Method.isPost, Method.isSearch, Method.isUpdate, Method.isAsyncUpdate, Bool.or_eq_true, hb, ha]
  rw [kindOf]
  by_cases h1 : m.name = Nom.add
  · simp only [if_pos h1]
  by_cases h2 : m.name = Nom.delete ∨ m.name = Nom.asyncDelete
  · simp only [if_neg h1, if_pos h2]
  by_cases h3 : m.name = Nom.get
  · simp only [if_neg h1, if_neg h2, if_pos h3]
  by_cases h4 : m.name = Nom.list
  · simp only [if_neg h1, if_neg h2, if_neg h3, if_pos h4]
  by_cases h5 : m.name = Nom.post
  · simp only [if_neg h1, if_neg h2, if_neg h3, if_neg h4, if_pos h5]
    rfl
  by_cases h6 : m.name = Nom.search
  · simp only [if_neg h1, if_neg h2, if_neg h3, if_neg h4, if_neg h5, if_pos h6]
  by_cases h7 : m.name = Nom.update ∨ m.name = Nom.asyncUpdate
  · simp only [if_neg h1, if_neg h2, if_neg h3, if_neg h4, if_neg h5, if_neg h6, if_pos h7]
  · simp only [if_neg h1, if_neg h2, if_neg h3, if_neg h4, if_neg h5, if_neg h6, if_neg h7, if_true]

theorem method_errors (x : Context) (r : Resource) (b : Buffer) (m : Method) (he : b.errors ≠ 0) :
    (methodSource x r b m).errors ≠ 0 := by
  rw [method_eq]
  split <;> exact emit_errors _ _ _ _ he

theorem method_runs (x : Context) (r : Resource) (b : Buffer) (m : Method) (he : b.errors = 0) :
    (Complete m → Adds b (methodSource x r b m) (importEffects (baseImports x) ++ methodEffects x m)
      (TypesCode.itemsLines (messageOf x r m).items)) ∧
    (¬ Complete m → (methodSource x r b m).errors ≠ 0) := by
  rw [method_eq]
  have hn : ∀ {α : Type} (o : Option α), ¬ o ≠ none → o = none := by
    intro α o h
    cases o with
    | none => rfl
    | some a => exact absurd (by simp) h
  cases hk : kindOf m with
  | add =>
    have hm : methodEffects x m = [] := by simp only [methodEffects, hk]
    dsimp only
    simp only [Complete, hk, hm]
    constructor
    · intro h
      obtain ⟨p, hp⟩ := Option.ne_none_iff_exists'.mp h
      rw [hp]
      exact emit_runs x _ _ b _ _ _ he add_lines (run_add x r m p (.inl hk) hp)
    · intro h
      rw [hn _ h]
      exact emit_fails x _ _ b _ add_lines (add_none x r m)
  | delete =>
    have hm : methodEffects x m = [] := by simp only [methodEffects, hk]
    dsimp only
    simp only [Complete, hk, hm]
    exact ⟨fun _ => emit_runs x _ _ b _ _ _ he delete_lines (run_delete x r m hk), fun h => absurd trivial h⟩
  | get =>
    have hm : methodEffects x m = [] := by simp only [methodEffects, hk]
    dsimp only
    simp only [Complete, hk, hm]
    constructor
    · intro h
      obtain ⟨p, hp⟩ := Option.ne_none_iff_exists'.mp h
      rw [hp]
      exact emit_runs x _ _ b _ _ _ he get_lines (run_get x r m p hk hp)
    · intro h
      rw [hn _ h]
      exact emit_fails x _ _ b _ get_lines (get_none x r m)
  | list =>
    dsimp only
    simp only [Complete, hk]
    constructor
    · intro h
      obtain ⟨p, hp⟩ := Option.ne_none_iff_exists'.mp h
      exact emit_runs x _ _ b _ _ _ he list_lines (run_list x r m p hk hp)
    · intro h
      have hi : lastThat m (·.name == Nom.items) = none := hn _ h
      refine emit_fails x _ _ b _ list_lines ?_
      rw [pageArgs, lastNamed_eq m Nom.items, hi]
      exact list_none x r m _ _ _ _
  | post =>
    have hm : methodEffects x m = [] := by simp only [methodEffects, hk]
    dsimp only
    simp only [Complete, hk, hm]
    exact ⟨fun _ => emit_runs x _ _ b _ _ _ he post_lines (run_post x r m hk), fun h => absurd trivial h⟩
  | search =>
    dsimp only
    simp only [Complete, hk]
    constructor
    · intro h
      obtain ⟨p, hp⟩ := Option.ne_none_iff_exists'.mp h
      exact emit_runs x _ _ b _ _ _ he search_lines (run_search x r m p hk hp)
    · intro h
      have hi : lastThat m (·.name == Nom.items) = none := hn _ h
      refine emit_fails x _ _ b _ search_lines ?_
      rw [pageArgs, lastNamed_eq m Nom.items, hi]
      exact search_none x r m _ _ _ _ _
  | update =>
    have hm : methodEffects x m = [] := by simp only [methodEffects, hk]
    dsimp only
    simp only [Complete, hk, hm]
    constructor
    · intro h
      obtain ⟨p, hp⟩ := Option.ne_none_iff_exists'.mp h
      rw [hp]
      exact emit_runs x _ _ b _ _ _ he update_lines (run_add x r m p (.inr hk) hp)
    · intro h
      rw [hn _ h]
      exact emit_fails x _ _ b _ update_lines (add_none x r m)
  | action =>
    dsimp only
    simp only [Complete, hk]
    exact ⟨fun _ => emit_runs x _ _ b _ _ _ he action_lines (run_action x r m hk), fun h => absurd trivial h⟩

/-! ## Errors and imports -/

theorem itemsErrors (x : Context) (t : GoRef.Typ) : errorCount (itemsEffects x t) = 0 ↔
    ((pageList x t).isSome → (GoRef.structReference x.base t).errors = 0) := by
  rw [itemsEffects]
  split
  · rename_i h
    rw [errorCount_ref]
    exact ⟨fun h _ => h, fun g => g h⟩
  · rename_i h
    exact ⟨fun _ g => absurd g h, fun _ => rfl⟩

theorem fieldsErrors (x : Context) (ps : List Parameter) : errorCount (fieldsEffects x ps) = 0 ↔
    ∀ p ∈ ps, ∀ ref, JsonCode.ValueUses x false (x.typeOf p.typ.id) ref → ref.errors = 0 := by
  rw [fieldsEffects, errorCount_flatMap]
  simp only [JsonCode.readErrors]

theorem pageErrors (x : Context) (ps : List Parameter) (t : GoRef.Typ) :
    errorCount (fieldsEffects x ps ++ (readEffects x false t ++ itemsEffects x t)) = 0 ↔
      (∀ p ∈ ps, ∀ ref, JsonCode.ValueUses x false (x.typeOf p.typ.id) ref → ref.errors = 0) ∧
      (∀ ref, JsonCode.ValueUses x false t ref → ref.errors = 0) ∧
      ((pageList x t).isSome → (GoRef.structReference x.base t).errors = 0) := by
  rw [errorCount_append, errorCount_append, Nat.add_eq_zero_iff, Nat.add_eq_zero_iff, fieldsErrors, itemsErrors,
    JsonCode.readErrors]

theorem methodErrors (x : Context) (m : Method) (hc : Complete m) :
    errorCount (methodEffects x m) = 0 ↔ ∀ ref, Uses x m ref → ref.errors = 0 := by
  have page : ∀ (ps : List Parameter) (items : Parameter), (∀ p, ReadField m p ↔ p ∈ ps) →
      (kindOf m = .list ∨ kindOf m = .search) → itemsOf m = some items →
      (errorCount (fieldsEffects x ps ++
        (readEffects x false (x.typeOf items.typ.id) ++ itemsEffects x (x.typeOf items.typ.id))) = 0 ↔
        ∀ ref, Uses x m ref → ref.errors = 0) := by
    intro ps items hps hk hi
    rw [pageErrors]
    constructor
    · rintro ⟨h1, h2, h3⟩ ref (⟨p, hp, hr⟩ | ⟨-, i, hi', hr | ⟨hs, rfl⟩⟩)
      · exact h1 p ((hps p).mp hp) ref hr
      · rw [hi] at hi'
        cases hi'
        exact h2 ref hr
      · rw [hi] at hi'
        cases hi'
        exact h3 hs
    · intro h
      exact ⟨fun p hp ref hr => h ref (.inl ⟨p, (hps p).mpr hp, hr⟩),
        fun ref hr => h ref (.inr ⟨hk, items, hi, .inl hr⟩),
        fun hs => h _ (.inr ⟨hk, items, hi, .inr ⟨hs, rfl⟩⟩)⟩
  have none : (∀ p, ¬ ReadField m p) → ¬ (kindOf m = .list ∨ kindOf m = .search) → methodEffects x m = [] →
      (errorCount (methodEffects x m) = 0 ↔ ∀ ref, Uses x m ref → ref.errors = 0) := by
    intro h1 h2 h3
    rw [h3]
    refine ⟨fun _ ref hr => ?_, fun _ => rfl⟩
    rcases hr with ⟨p, hp, -⟩ | ⟨hk, -⟩
    · exact absurd hp (h1 p)
    · exact absurd hk h2
  cases hk : kindOf m with
  | list =>
    have hc' : itemsOf m ≠ Option.none := by simpa only [Complete, hk] using hc
    obtain ⟨items, hi⟩ := Option.ne_none_iff_exists'.mp hc'
    simp only [methodEffects, hk, hi]
    exact page _ items (fun p => by simp only [ReadField, hk]) (.inl hk) hi
  | search =>
    have hc' : itemsOf m ≠ Option.none := by simpa only [Complete, hk] using hc
    obtain ⟨items, hi⟩ := Option.ne_none_iff_exists'.mp hc'
    simp only [methodEffects, hk, hi]
    exact page _ items (fun p => by simp only [ReadField, hk]) (.inr hk) hi
  | action =>
    have hw : errorCount (writesEffects x (m.parameters.filter (·.isIn))) = 0 := by
      rw [writesEffects, errorCount_flatMap]
      exact fun p _ => JsonCode.writeErrors _
    simp only [methodEffects, hk]
    rw [errorCount_append, hw, Nat.zero_add, fieldsErrors]
    have hf : ∀ p, ReadField m p ↔ p ∈ m.parameters.filter (·.isOut) := fun p => by simp only [ReadField, hk]
    constructor
    · rintro h ref (⟨p, hp, hr⟩ | ⟨h', -⟩)
      · exact h p ((hf p).mp hp) ref hr
      · rw [hk] at h'
        simp at h'
    · exact fun h p hp ref hr => h ref (.inl ⟨p, (hf p).mpr hp, hr⟩)
  | _ => exact none (fun p => by simp only [ReadField, hk]; exact not_false) (by rw [hk]; simp)
          (by simp only [methodEffects, hk])

theorem itemsImports (x : Context) (t : GoRef.Typ) (p sel : Text) : Effect.imports p sel ∈ itemsEffects x t ↔
    (pageList x t).isSome ∧ (GoRef.structReference x.base t).imprt = p ∧
      (GoRef.structReference x.base t).selector = sel := by
  rw [itemsEffects]
  split
  · rename_i h
    rw [ref_imports]
    exact ⟨fun g => ⟨h, g⟩, fun g => g.2⟩
  · rename_i h
    exact ⟨fun g => absurd g List.not_mem_nil, fun g => absurd g.1 h⟩

theorem fieldsImports (x : Context) (ps : List Parameter) (p sel : Text) :
    Effect.imports p sel ∈ fieldsEffects x ps ↔ (ps ≠ [] ∧ p = t!"time" ∧ sel = []) ∨
      ∃ q ∈ ps, ∃ ref, JsonCode.ValueUses x false (x.typeOf q.typ.id) ref ∧ ref.imprt = p ∧ ref.selector = sel := by
  rw [fieldsEffects, List.mem_flatMap]
  simp only [JsonCode.readImports]
  constructor
  · rintro ⟨q, hq, h | h⟩
    · exact .inl ⟨List.ne_nil_of_mem hq, h⟩
    · exact .inr ⟨q, hq, h⟩
  · rintro (⟨hne, h⟩ | ⟨q, hq, h⟩)
    · obtain ⟨q, hq⟩ := List.exists_mem_of_ne_nil ps hne
      exact ⟨q, hq, .inl h⟩
    · exact ⟨q, hq, .inr h⟩

theorem methodImports (x : Context) (m : Method) (hc : Complete m) (p sel : Text) :
    Effect.imports p sel ∈ importEffects (baseImports x) ++ methodEffects x m ↔ Needs x m p sel := by
  rw [List.mem_append, import_mem, Needs]
  refine or_congr Iff.rfl ?_
  have page : ∀ (ps : List Parameter) (items : Parameter), (∀ p, ReadField m p ↔ p ∈ ps) →
      (kindOf m = .list ∨ kindOf m = .search) → itemsOf m = some items →
      (Effect.imports p sel ∈ fieldsEffects x ps ++
        (readEffects x false (x.typeOf items.typ.id) ++ itemsEffects x (x.typeOf items.typ.id)) ↔
      (ReadsValues m ∧ p = t!"time" ∧ sel = []) ∨
      (kindOf m = .action ∧ m.parameters.filter (·.isIn) ≠ [] ∧ p ∈ [t!"sort", t!"time"] ∧ sel = []) ∨
      ∃ ref, Uses x m ref ∧ ref.imprt = p ∧ ref.selector = sel) := by
    intro ps items hps hk hi
    rw [List.mem_append, List.mem_append, fieldsImports, JsonCode.readImports, itemsImports]
    constructor
    · rintro ((⟨-, h⟩ | ⟨q, hq, ref, hr, h⟩) | (h | ⟨ref, hr, h⟩) | ⟨hs, h⟩)
      · exact .inl ⟨.inr hk, h⟩
      · exact .inr (.inr ⟨ref, .inl ⟨q, (hps q).mpr hq, hr⟩, h⟩)
      · exact .inl ⟨.inr hk, h⟩
      · exact .inr (.inr ⟨ref, .inr ⟨hk, items, hi, .inl hr⟩, h⟩)
      · exact .inr (.inr ⟨_, .inr ⟨hk, items, hi, .inr ⟨hs, rfl⟩⟩, h⟩)
    · rintro (⟨-, h⟩ | ⟨hk', -⟩ | ⟨ref, ⟨q, hq, hr⟩ | ⟨-, i, hi', hr | ⟨hs, rfl⟩⟩, h⟩)
      · exact .inr (.inl (.inl h))
      · rcases hk with hk | hk <;> rw [hk] at hk' <;> cases hk'
      · exact .inl (.inr ⟨q, (hps q).mp hq, ref, hr, h⟩)
      · rw [hi] at hi'
        cases hi'
        exact .inr (.inl (.inr ⟨ref, hr, h⟩))
      · rw [hi] at hi'
        cases hi'
        exact .inr (.inr ⟨hs, h⟩)
  have none : (∀ p, ¬ ReadField m p) → ¬ (kindOf m = .list ∨ kindOf m = .search) → kindOf m ≠ .action →
      methodEffects x m = [] →
      (Effect.imports p sel ∈ methodEffects x m ↔ (ReadsValues m ∧ p = t!"time" ∧ sel = []) ∨
      (kindOf m = .action ∧ m.parameters.filter (·.isIn) ≠ [] ∧ p ∈ [t!"sort", t!"time"] ∧ sel = []) ∨
      ∃ ref, Uses x m ref ∧ ref.imprt = p ∧ ref.selector = sel) := by
    intro h1 h2 h3 h4
    rw [h4]
    refine ⟨fun h => absurd h List.not_mem_nil, ?_⟩
    rintro (⟨⟨q, hq⟩ | hk, -⟩ | ⟨hk, -⟩ | ⟨ref, ⟨q, hq, -⟩ | ⟨hk, -⟩, -⟩)
    · exact absurd hq (h1 q)
    · exact absurd hk h2
    · exact absurd hk h3
    · exact absurd hq (h1 q)
    · exact absurd hk h2
  cases hk : kindOf m with
  | list =>
    have hc' : itemsOf m ≠ Option.none := by simpa only [Complete, hk] using hc
    obtain ⟨items, hi⟩ := Option.ne_none_iff_exists'.mp hc'
    have := page (pageFields m [Nom.page, Nom.size, Nom.total, Nom.items]) items
      (fun p => by simp only [ReadField, hk]) (.inl hk) hi
    rw [hk] at this
    simp only [methodEffects, hk, hi]
    exact this
  | search =>
    have hc' : itemsOf m ≠ Option.none := by simpa only [Complete, hk] using hc
    obtain ⟨items, hi⟩ := Option.ne_none_iff_exists'.mp hc'
    have := page (pageFields m [Nom.page, Nom.size, Nom.total, Nom.body, Nom.items]) items
      (fun p => by simp only [ReadField, hk]) (.inr hk) hi
    rw [hk] at this
    simp only [methodEffects, hk, hi]
    exact this
  | action =>
    have hf : ∀ p, ReadField m p ↔ p ∈ m.parameters.filter (·.isOut) := fun p => by simp only [ReadField, hk]
    have hw : Effect.imports p sel ∈ writesEffects x (m.parameters.filter (·.isIn)) ↔
        m.parameters.filter (·.isIn) ≠ [] ∧ p ∈ [t!"sort", t!"time"] ∧ sel = [] := by
      rw [writesEffects, List.mem_flatMap]
      simp only [JsonCode.writeImports]
      constructor
      · rintro ⟨q, hq, h1, h2⟩
        exact ⟨List.ne_nil_of_mem hq, by simpa using h2, h1⟩
      · rintro ⟨hne, h1, h2⟩
        obtain ⟨q, hq⟩ := List.exists_mem_of_ne_nil _ hne
        exact ⟨q, hq, h2, by simpa using h1⟩
    simp only [methodEffects, hk]
    rw [List.mem_append, hw, fieldsImports]
    constructor
    · rintro (h | ⟨hne, h⟩ | ⟨q, hq, ref, hr, h⟩)
      · exact .inr (.inl ⟨trivial, h⟩)
      · obtain ⟨q, hq⟩ := List.exists_mem_of_ne_nil _ hne
        exact .inl ⟨.inl ⟨q, (hf q).mpr hq⟩, h⟩
      · exact .inr (.inr ⟨ref, .inl ⟨q, (hf q).mpr hq, hr⟩, h⟩)
    · rintro (⟨⟨q, hq⟩ | hk', h⟩ | ⟨-, h⟩ | ⟨ref, ⟨q, hq, hr⟩ | ⟨hk', -⟩, h⟩)
      · exact .inr (.inl ⟨List.ne_nil_of_mem ((hf q).mp hq), h⟩)
      · rw [hk] at hk'
        simp at hk'
      · exact .inl h
      · exact .inr (.inr ⟨q, (hf q).mp hq, ref, hr, h⟩)
      · rw [hk] at hk'
        simp at hk'
  | _ =>
    have := none (fun p => by simp only [ReadField, hk]; exact not_false) (by rw [hk]; simp) (by rw [hk]; simp)
      (by simp only [methodEffects, hk])
    rw [hk] at this
    exact this

/-! ## All the methods -/

/-- The effects of some methods. -/
def allEffects (x : Context) (ms : List Method) : List Effect :=
  ms.flatMap fun m => importEffects (baseImports x) ++ methodEffects x m

theorem methods_fail (x : Context) (r : Resource) : ∀ (ms : List Method) (b : Buffer), b.errors ≠ 0 →
    (ms.foldl (methodSource x r) b).errors ≠ 0
  | [], _, h => h
  | m :: ms, b, h => by
    rw [List.foldl_cons]
    exact methods_fail x r ms _ (method_errors x r b m h)

theorem methods_run (x : Context) (r : Resource) : ∀ (ms : List Method) (b : Buffer) (cs : List Text) (u : Text),
    b.errors = 0 → ((b.code = u ++ t!"\n") ∨ b.code = [] ∧ u = []) →
    (∀ s, significant (u ++ s) = cs ++ significant s) →
    ((∀ m ∈ ms, Generable x m) → ∃ t, ms.foldl (methodSource x r) b =
        { (allEffects x ms).foldl Buffer.effect b with code := t } ∧
      ∃ u, (t = u ++ t!"\n" ∨ t = [] ∧ u = []) ∧ (t = [] → ms = []) ∧
        ∀ s, significant (u ++ s) =
        (cs ++ code (TypesCode.itemsLines (ms.flatMap fun m => (messageOf x r m).items))) ++ significant s) ∧
    ((¬ ∀ m ∈ ms, Generable x m) → (ms.foldl (methodSource x r) b).errors ≠ 0) := by
  intro ms
  induction ms with
  | nil =>
    intro b cs u he hc hs
    refine ⟨fun _ => ⟨b.code, rfl, u, hc, fun _ => rfl, fun s => ?_⟩, fun h => absurd (by simp) h⟩
    rw [hs]
    simp [TypesCode.itemsLines, code]
  | cons m ms ih =>
    intro b cs u he hc hs
    obtain ⟨h1, h2⟩ := method_runs x r b m he
    rw [List.foldl_cons]
    by_cases hm : Complete m
    · obtain ⟨t, h3, h4⟩ := h1 hm
      have f := effects_foldl (importEffects (baseImports x) ++ methodEffects x m) b
      have he1 : (methodSource x r b m).errors = errorCount (methodEffects x m) := by
        rw [h3]
        dsimp only
        rw [f.1, he, errorCount_append, importErrors]
        omega
      by_cases hg : errorCount (methodEffects x m) = 0
      · have hgm : Generable x m := ⟨hm, (methodErrors x m hm).mp hg⟩
        have hsig : ∀ s, significant (b.code ++ t ++ s) =
            (cs ++ code (TypesCode.itemsLines (messageOf x r m).items)) ++ significant s := by
          intro s
          rcases hc with hc | ⟨hc, hu⟩
          · rw [hc]
            have := hs (t!"\n" ++ (t ++ s))
            rw [List.append_assoc, List.append_assoc, this]
            have nl : ∀ s, significant (t!"\n" ++ s) = significant s := fun s => sig_nl [] s
            rw [nl, h4, List.append_assoc]
          · have := hs []
            rw [hu] at this
            have hcs : cs = [] := by simpa [sig_nil] using this.symm
            rw [hc, hcs, List.nil_append, List.nil_append, h4]
        obtain ⟨i1, i2⟩ := ih (methodSource x r b m)
          (cs ++ code (TypesCode.itemsLines (messageOf x r m).items)) (b.code ++ t) (by rw [he1, hg])
          (.inl (by rw [h3])) hsig
        constructor
        · intro h
          obtain ⟨t', h5, u', h6, h7, h8⟩ := i1 fun m' hm' => h m' (by simp [hm'])
          refine ⟨t', ?_, u', h6, ?_, ?_⟩
          · have hcode : ∀ (fx : List Effect) (b : Buffer) (c : Text),
                { fx.foldl Buffer.effect { b with code := c } with code := t' } =
                  { fx.foldl Buffer.effect b with code := t' } := by
              intro fx
              induction fx with
              | nil => intro b c; rfl
              | cons f fx ih =>
                intro b c
                rw [List.foldl_cons, List.foldl_cons, ← ih (b.effect f) c]
                congr 1
                congr 1
                cases f with
                | error => rfl
                | imports p sel =>
                  simp only [Buffer.effect, Buffer.imprt]
                  split <;> rfl
            have ha : allEffects x (m :: ms) =
                (importEffects (baseImports x) ++ methodEffects x m) ++ allEffects x ms := List.flatMap_cons
            have hb : (allEffects x (m :: ms)).foldl Buffer.effect b = (allEffects x ms).foldl Buffer.effect
                ((importEffects (baseImports x) ++ methodEffects x m).foldl Buffer.effect b) := by
              rw [ha, List.foldl_append]
            rw [h5, h3, hcode, hb]
          · intro ht
            subst ht
            have hms := h7 rfl
            subst hms
            exfalso
            rw [List.foldl_nil, h3] at h5
            have := congrArg Buffer.code h5
            simp at this
          · intro s
            have ha : ∀ a b, TypesCode.itemsLines (a ++ b) = TypesCode.itemsLines a ++ TypesCode.itemsLines b :=
              fun a b => List.flatMap_append
            rw [h8, List.flatMap_cons, ha, GoFile.code_append]
            simp only [List.append_assoc]
        · intro h
          refine i2 fun h' => h fun m' hm' => ?_
          rcases List.mem_cons.mp hm' with rfl | hm'
          · exact hgm
          · exact h' m' hm'
      · have hf := methods_fail x r ms (methodSource x r b m) (by rw [he1]; exact hg)
        exact ⟨fun h => absurd ((methodErrors x m hm).mpr (h m (by simp)).2) hg, fun _ => hf⟩
    · have hf := methods_fail x r ms (methodSource x r b m) (h2 hm)
      exact ⟨fun h => absurd (h m (by simp)).1 hm, fun _ => hf⟩

end Verif.MethodsCode
