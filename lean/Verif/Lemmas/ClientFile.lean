import Verif.Lemmas.ClientLines
import Verif.Lemmas.MessagesCode
import Verif.Lemmas.ResourceClient
import Verif.Spec.ClientFile

/-! The code that the template of polling produces. -/

set_option linter.unusedSimpArgs false

namespace Verif.ClientFile

open GoTemplate GoCode GoFile
open TypesCode (Context runLines_nil run_range run_set commentOf refEffects errorCount errorCount_append effects_foldl
  emit_eq)
open JsonCode (after_nil importEffects imports_effects importErrors)
open MessagesCode (Obj param accessorEffects env)
open MethodsCode (Adds)

/-- The accessors of an input and an output parameter. -/
abbrev setterOf (x : Context) (m : Method) (p : Parameter) : Accessor :=
  ⟨p.name.toText, p.doc, Go.parameterSetter p, GoRef.requestSetter x.base x.pkg (param x m p)⟩

abbrev getterOf (x : Context) (m : Method) (p : Parameter) : Accessor :=
  ⟨p.name.toText, p.doc, Go.parameterGetter p, GoRef.responseGetter x.base x.pkg (param x m p)⟩

theorem run_pollSetter (x : Context) (m : Method) (p : Parameter) (request : Text)
    (vars : List (Text × GoTemplate.Value Obj))
    (hr : ∀ dot a b, printed (env x) dot ((t!"$setterType", a) :: (t!"$setterName", b) :: vars)
      [t!"$requestName"] = some (request, [])) :
    runLines (env x) (.obj (.parameter m p)) vars pollSetterBody =
      some ((setterOf x m p).setterLines request, accessorEffects x m p) := by
  rw [pollSetterBody]
  rw [run_set (he := (rfl : eval (env x) (.obj (.parameter m p)) _ [t!"setterName", t!"."] =
    some (.text (Go.parameterSetter p), [])))]
  have hs : ∀ vars, eval (env x) (.obj (.parameter m p)) vars [t!"setterType", t!"."] =
    some (.text (GoRef.requestSetter x.base x.pkg (param x m p)), accessorEffects x m p) := fun _ => rfl
  rw [run_set (he := hs _)]
  simp only [after_nil]
  obtain ⟨vs, hvars⟩ : ∃ vs : List (Text × GoTemplate.Value Obj), vs =
    (t!"$setterType", .text (GoRef.requestSetter x.base x.pkg (param x m p))) ::
    (t!"$setterName", .text (Go.parameterSetter p)) :: vars := ⟨_, rfl⟩
  rw [← hvars]
  have h0 : printed (env x) (.obj (.parameter m p)) vs [t!"$requestName"] = some (request, []) := by
    rw [hvars]; exact hr _ _ _
  have h2 : printed (env x) (.obj (.parameter m p)) vs [t!"$setterName"] = some (Go.parameterSetter p, []) := by
    rw [hvars]; rfl
  have h3 : printed (env x) (.obj (.parameter m p)) vs [t!"$setterType"] =
    some (GoRef.requestSetter x.base x.pkg (param x m p), []) := by rw [hvars]; rfl
  have h4 : printed (env x) (.obj (.parameter m p)) vs [t!".Name"] = some (p.name.toText, []) := rfl
  have h5 : printed (env x) (.obj (.parameter m p)) vs [t!"lineComment", t!".Doc"] = some (commentOf p.doc, []) := rfl
  clear hvars hr
  simp only [runLines_line, runLines_nil, runParts, h0, h2, h3, h4, h5, andThen_some, Option.map_some]
  simp [Accessor.setterLines, GoTemplate.after]

theorem run_pollGetter (x : Context) (m : Method) (p : Parameter) (response : Text)
    (vars : List (Text × GoTemplate.Value Obj))
    (hr : ∀ dot a b c d, printed (env x) dot ((t!"$getterType", a) :: (t!"$getterName", b) :: (t!"$fieldName", c) ::
      (t!"$parameterType", d) :: vars) [t!"$responseName"] = some (response, [])) :
    runLines (env x) (.obj (.parameter m p)) vars pollGetterBody =
      some ((getterOf x m p).getterLines response, accessorEffects x m p) := by
  rw [pollGetterBody]
  obtain ⟨tn, ht⟩ : ∃ tn, ∀ vars, eval (env x) (.obj (.parameter m p)) vars [t!".Type.Name.String"] =
    some (.text tn, []) := ⟨_, fun _ => rfl⟩
  rw [run_set (he := ht _)]
  rw [run_set (he := (rfl : eval (env x) (.obj (.parameter m p)) _ [t!"fieldName", t!"."] =
    some (.text (Go.parameterField p), [])))]
  rw [run_set (he := (rfl : eval (env x) (.obj (.parameter m p)) _ [t!"getterName", t!"."] =
    some (.text (Go.parameterGetter p), [])))]
  have hs : ∀ vars, eval (env x) (.obj (.parameter m p)) vars [t!"getterType", t!"."] =
    some (.text (GoRef.responseGetter x.base x.pkg (param x m p)), accessorEffects x m p) := fun _ => rfl
  rw [run_set (he := hs _)]
  simp only [after_nil]
  obtain ⟨vs, hvars⟩ : ∃ vs : List (Text × GoTemplate.Value Obj), vs =
    (t!"$getterType", .text (GoRef.responseGetter x.base x.pkg (param x m p))) ::
    (t!"$getterName", .text (Go.parameterGetter p)) :: (t!"$fieldName", .text (Go.parameterField p)) ::
    (t!"$parameterType", .text tn) :: vars := ⟨_, rfl⟩
  rw [← hvars]
  have h0 : printed (env x) (.obj (.parameter m p)) vs [t!"$responseName"] = some (response, []) := by
    rw [hvars]; exact hr _ _ _ _ _
  have h2 : printed (env x) (.obj (.parameter m p)) vs [t!"$getterName"] = some (Go.parameterGetter p, []) := by
    rw [hvars]; rfl
  have h3 : printed (env x) (.obj (.parameter m p)) vs [t!"$getterType"] =
    some (GoRef.responseGetter x.base x.pkg (param x m p), []) := by rw [hvars]; rfl
  have h4 : printed (env x) (.obj (.parameter m p)) vs [t!".Name"] = some (p.name.toText, []) := rfl
  have h5 : printed (env x) (.obj (.parameter m p)) vs [t!"lineComment", t!".Doc"] = some (commentOf p.doc, []) := rfl
  clear hvars hr
  simp only [runLines_line, runLines_nil, runParts, h0, h2, h3, h4, h5, andThen_some, Option.map_some]
  simp [Accessor.getterLines, GoTemplate.after]

/-- The arguments of the template. -/
abbrev pollArgs (r : Resource) (m : Method) : GoTemplate.Value Obj :=
  .args [(t!"Resource", .resource r), (t!"Method", .method r m)]

/-- The variables of the template. -/
def pollVars (r : Resource) (m : Method) : List (Text × GoTemplate.Value Obj) := [
  (t!"$methodResponseParameters", .list ((Binding.responseParameters m).map (.parameter m))),
  (t!"$methodRequestParameters", .list ((Binding.requestParameters m).map (.parameter m))),
  (t!"$methodResponseName", .text (MessagesCode.nameOf r m t!"Response")),
  (t!"$methodRequestName", .text (MessagesCode.nameOf r m t!"Request")),
  (t!"$responseName", .text (Go.nameOf r.annotations r.name ++ t!"PollResponse")),
  (t!"$requestName", .text (Go.nameOf r.annotations r.name ++ t!"PollRequest")),
  (t!"$clientName", .text (ResourceClient.nameFor r))]

/-- The effects of the template. -/
def pollEffects (x : Context) (m : Method) : List Effect :=
  (Binding.requestParameters m).flatMap (accessorEffects x m) ++
    (Binding.responseParameters m).flatMap (accessorEffects x m)

theorem run_poll (x : Context) (r : Resource) (m : Method) :
    runLines (env x) (pollArgs r m) [] pollLines = some ((pollOf x r m).lines, pollEffects x m) := by
  rw [pollLines]
  rw [run_set (he := (rfl : eval (env x) (pollArgs r m) _ [t!"clientName", t!".Resource"] =
    some (.text (Decls.clientName r), [])))]
  rw [run_set (he := (rfl : eval (env x) (pollArgs r m) _ [t!"pollRequestName", t!".Resource"] =
    some (.text (Decls.pollName t!"PollRequest" r), [])))]
  rw [run_set (he := (rfl : eval (env x) (pollArgs r m) _ [t!"pollResponseName", t!".Resource"] =
    some (.text (Decls.pollName t!"PollResponse" r), [])))]
  rw [run_set (he := (rfl : eval (env x) (pollArgs r m) _ [t!"requestName", t!".Method"] =
    some (.text (Go.messageName t!"Request" (Decls.isRoot r) r m), [])))]
  rw [run_set (he := (rfl : eval (env x) (pollArgs r m) _ [t!"responseName", t!".Method"] =
    some (.text (Go.messageName t!"Response" (Decls.isRoot r) r m), [])))]
  rw [run_set (he := (rfl : eval (env x) (pollArgs r m) _ [t!"requestParameters", t!".Method"] =
    some (.list ((Binding.requestParameters m).map (.parameter m)), [])))]
  rw [run_set (he := (rfl : eval (env x) (pollArgs r m) _ [t!"responseParameters", t!".Method"] =
    some (.list ((Binding.responseParameters m).map (.parameter m)), [])))]
  simp only [after_nil, MessagesCode.request_name, MessagesCode.response_name, ResourceClient.name_eq, Decls.pollName]
  change runLines (env x) (pollArgs r m) (pollVars r m) _ = _
  have h1 : printed (env x) (pollArgs r m) (pollVars r m) [t!"$requestName"] =
    some (Go.nameOf r.annotations r.name ++ t!"PollRequest", []) := rfl
  have h2 : printed (env x) (pollArgs r m) (pollVars r m) [t!"$responseName"] =
    some (Go.nameOf r.annotations r.name ++ t!"PollResponse", []) := rfl
  have h3 : printed (env x) (pollArgs r m) (pollVars r m) [t!"$methodRequestName"] =
    some (MessagesCode.nameOf r m t!"Request", []) := rfl
  have h4 : printed (env x) (pollArgs r m) (pollVars r m) [t!"$methodResponseName"] =
    some (MessagesCode.nameOf r m t!"Response", []) := rfl
  have h5 : printed (env x) (pollArgs r m) (pollVars r m) [t!"$clientName"] =
    some (ResourceClient.nameFor r, []) := rfl
  have h6 : printed (env x) (pollArgs r m) (pollVars r m) [t!"methodName", t!".Method"] =
    some (Go.nameOf m.annotations m.name, []) := rfl
  have e1 : eval (env x) (pollArgs r m) (pollVars r m) [t!"$methodRequestParameters"] =
    some (.list ((Binding.requestParameters m).map (.parameter m)), []) := rfl
  have e2 : eval (env x) (pollArgs r m) (pollVars r m) [t!"$methodResponseParameters"] =
    some (.list ((Binding.responseParameters m).map (.parameter m)), []) := rfl
  have b1 : ∀ o ∈ (Binding.requestParameters m).map (Obj.parameter m),
      runLines (env x) (.obj o) (pollVars r m) pollSetterBody = some ((match o with
        | .parameter m p => (setterOf x m p).setterLines (Go.nameOf r.annotations r.name ++ t!"PollRequest")
        | _ => []), (match o with
        | .parameter m p => accessorEffects x m p
        | _ => [])) := by
    intro o ho
    obtain ⟨p, -, rfl⟩ := List.mem_map.mp ho
    exact run_pollSetter x m p _ _ fun _ _ _ => rfl
  have b2 : ∀ o ∈ (Binding.responseParameters m).map (Obj.parameter m),
      runLines (env x) (.obj o) (pollVars r m) pollGetterBody = some ((match o with
        | .parameter m p => (getterOf x m p).getterLines (Go.nameOf r.annotations r.name ++ t!"PollResponse")
        | _ => []), (match o with
        | .parameter m p => accessorEffects x m p
        | _ => [])) := by
    intro o ho
    obtain ⟨p, -, rfl⟩ := List.mem_map.mp ho
    exact run_pollGetter x m p _ _ fun _ _ _ _ _ => rfl
  have r1 := fun ls => run_range (he := e1) (hb := b1) (ls := ls)
  have r2 := fun ls => run_range (he := e2) (hb := b2) (ls := ls)
  generalize pollVars r m = vars at *
  simp only [runLines_line, r1, r2, runLines_nil, runParts, h1, h2, h3, h4, h5, h6, andThen_some, Option.map_some,
    List.flatMap_map]
  have hs : (Binding.requestParameters m).flatMap (fun p =>
      (setterOf x m p).setterLines (Go.nameOf r.annotations r.name ++ t!"PollRequest")) =
      (pollOf x r m).setters.flatMap (Accessor.setterLines (pollOf x r m).request) := by
    rw [pollOf, MessagesCode.requestOf]
    simp only [List.map_map, List.flatMap_map]
    rfl
  have hg : (Binding.responseParameters m).flatMap (fun p =>
      (getterOf x m p).getterLines (Go.nameOf r.annotations r.name ++ t!"PollResponse")) =
      (pollOf x r m).getters.flatMap (Accessor.getterLines (pollOf x r m).response) := by
    rw [pollOf, MessagesCode.responseOf]
    simp only [List.map_map, List.flatMap_map]
    rfl
  have n1 : Go.nameOf r.annotations r.name ++ t!"PollRequest" = (pollOf x r m).request := rfl
  have n2 : Go.nameOf r.annotations r.name ++ t!"PollResponse" = (pollOf x r m).response := rfl
  have n3 : MessagesCode.nameOf r m t!"Request" = (pollOf x r m).methodRequest := rfl
  have n4 : MessagesCode.nameOf r m t!"Response" = (pollOf x r m).methodResponse := rfl
  have n5 : ResourceClient.nameFor r = (pollOf x r m).client := rfl
  have n6 : Go.nameOf m.annotations m.name = (pollOf x r m).method := rfl
  simp only [hs, hg, pollEffects]
  simp only [n1, n2, n3, n4, n5, n6]
  generalize (Binding.requestParameters m).flatMap (accessorEffects x m) = fx1
  generalize (Binding.responseParameters m).flatMap (accessorEffects x m) = fx2
  generalize pollOf x r m = q
  simp [Poll.lines]

/-! ## The parts of the file -/

theorem effects_code : ∀ (fx : List Effect) (b : Buffer) (c : Text),
    fx.foldl Buffer.effect { b with code := c } = { fx.foldl Buffer.effect b with code := c }
  | [], _, _ => rfl
  | .error :: fx, b, c => effects_code fx { b with errors := b.errors + 1 } c
  | .imports p sel :: fx, b, c => by
    have h : Buffer.effect { b with code := c } (.imports p sel) = { b.effect (.imports p sel) with code := c } := by
      simp only [Buffer.effect, Buffer.imprt]
      split <;> rfl
    rw [List.foldl_cons, h, effects_code fx _ c]
    rfl

theorem adds_trans {b b1 b2 : Buffer} {fx1 fx2 : List Effect} {ls1 ls2 : List Text} (h1 : Adds b b1 fx1 ls1)
    (h2 : Adds b1 b2 fx2 ls2) : Adds b b2 (fx1 ++ fx2) (ls1 ++ ls2) := by
  obtain ⟨t1, e1, s1⟩ := h1
  obtain ⟨t2, e2, s2⟩ := h2
  refine ⟨t1 ++ t!"\n" ++ t2, ?_, fun r => ?_⟩
  · rw [e2, e1, effects_code, List.foldl_append]
    simp only [List.append_assoc]
  · rw [List.append_assoc, List.append_assoc, s1]
    have nl : ∀ s, significant (t!"\n" ++ s) = significant s := fun s => sig_nl [] s
    rw [nl, s2, code_append, List.append_assoc]

/-- Something that adds lines to a buffer, unless there are errors before, or it produces errors. -/
def Does (f : Buffer → Buffer) (fx : List Effect) (ls : List Text) : Prop :=
  ∀ b : Buffer, (b.errors = 0 → Adds b (f b) fx ls) ∧ (b.errors ≠ 0 → (f b).errors ≠ 0)

theorem adds_errors {b b' : Buffer} {fx : List Effect} {ls : List Text} (h : Adds b b' fx ls) :
    b'.errors = b.errors + errorCount fx := by
  obtain ⟨t, e, -⟩ := h
  rw [e]
  exact (effects_foldl fx b).1

/-- What is known of a buffer after adding some parts. -/
def State (b b' : Buffer) (fx : List Effect) (ls : List Text) : Prop :=
  (errorCount fx = 0 → Adds b b' fx ls) ∧ (b'.errors = 0 ↔ errorCount fx = 0)

theorem state_step {b b' : Buffer} {fx1 fx2 : List Effect} {ls1 ls2 : List Text} {f : Buffer → Buffer}
    (h : State b b' fx1 ls1) (hf : Does f fx2 ls2) : State b (f b') (fx1 ++ fx2) (ls1 ++ ls2) := by
  obtain ⟨h1, h2⟩ := h
  obtain ⟨f1, f2⟩ := hf b'
  rw [State, errorCount_append, Nat.add_eq_zero_iff]
  constructor
  · rintro ⟨h0, -⟩
    exact adds_trans (h1 h0) (f1 (h2.mpr h0))
  · by_cases h0 : errorCount fx1 = 0
    · rw [adds_errors (f1 (h2.mpr h0)), h2.mpr h0]
      omega
    · constructor
      · intro h
        exact absurd h (f2 fun h => h0 (h2.mp h))
      · exact fun h => absurd h.1 h0

theorem does_emit {α : Type} (E : GoTemplate.Env α) (is : List (Text × Text)) (template : Text) (args : List (Text × α))
    (ls : List Line) (rs : List Text) (fx : List Effect) (hl : hasLines template ls = true)
    (hr : runLines E (.args args) [] ls = some (rs, fx)) :
    Does (fun b => (JsonCode.Buffer.imports b is).emit E template args) (importEffects is ++ fx) rs := by
  intro b
  dsimp only
  rw [imports_effects]
  have he : ((importEffects is).foldl Buffer.effect b).errors = b.errors := by
    rw [(effects_foldl _ _).1, importErrors, Nat.add_zero]
  constructor
  · intro hb
    obtain ⟨t, h1, h2⟩ := emit_eq E _ template args ls rs fx (by rw [he, hb]) hl hr
    refine ⟨t, ?_, h2⟩
    rw [h1, List.foldl_append, (effects_foldl _ b).2.2]
  · intro hb
    rw [Buffer.emit, if_pos (by omega)]
    rw [he]
    exact hb

theorem state_start {b : Buffer} {fx : List Effect} {ls : List Text} {f : Buffer → Buffer} (hf : Does f fx ls)
    (hb : b.errors = 0) : State b (f b) fx ls := by
  have := (hf b).1 hb
  refine ⟨fun _ => this, ?_⟩
  rw [adds_errors this, hb]
  omega

end Verif.ClientFile
