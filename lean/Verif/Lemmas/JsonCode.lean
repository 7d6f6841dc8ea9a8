import Verif.Lemmas.JsonLines
import Verif.Lemmas.BuildersCode
import Verif.Lemmas.Declarations
import Verif.Spec.JsonCode

/-! The code that the templates of the JSON support generator produce. -/

set_option linter.unusedSimpArgs false

namespace Verif.JsonCode

open GoTemplate GoCode GoProgram
open TypesCode (Item dot notNil bitSet itemsLines refEffects run_range run_branch run_set runLines_nil runLines_append
  digits_1 digits_2 digits_4)
open BuildersCode (blockLines_append)

/-! ## Names -/

theorem camel_eq (n : Name) : upperCamel n = camel n := rfl

theorem write_name (t : GoRef.Typ) : writeTypeFunc t = t!"Write" ++ camel (TypesCode.nameOf t) :=
  Decls.public_write _

theorem read_name (t : GoRef.Typ) : readTypeFunc t = t!"Read" ++ camel (TypesCode.nameOf t) :=
  Decls.public_read _

theorem writeRef_name (t : GoRef.Typ) (o : Option GoRef.Owner) :
    writeRefTypeFunc t o = selectorOf o ++ t!"Write" ++ camel (TypesCode.nameOf t) := by
  cases o with
  | none => exact write_name t
  | some o => simp [writeRefTypeFunc, selectorOf, write_name]

theorem readRef_name (t : GoRef.Typ) (o : Option GoRef.Owner) :
    readRefTypeFunc t o = selectorOf o ++ t!"Read" ++ camel (TypesCode.nameOf t) := by
  cases o with
  | none => exact read_name t
  | some o => simp [readRefTypeFunc, selectorOf, read_name]

theorem selector_eq (o : Option GoRef.Owner) : selectorFromLinkOwner o = selectorOf o := by
  cases o <;> rfl

/-! ## Values -/

/-- The effects of the code that reads values of a type. -/
def readEffects (x : Context) (link : Bool) : GoRef.Typ → List Effect
  | .list d e =>
    .imports t!"time" [] :: if link then refEffects (GoRef.structReference x.base (.list d e)) else []
  | .map d e => .imports t!"time" [] :: (refEffects (GoRef.valueReference x.base (.map d e)) ++ readEffects x false e)
  | _ => [.imports t!"time" []]

/-- The effects of the code that writes values of a type. -/
def writeEffects : GoRef.Typ → List Effect
  | .map _ e => .imports t!"sort" [] :: .imports t!"time" [] :: writeEffects e
  | _ => [.imports t!"sort" [], .imports t!"time" []]

/-- A text that is the given code. -/
def Coded (text : Text) (ls : List Text) : Prop := ∀ r, significant (text ++ r) = code ls ++ significant r

theorem Coded.splice {text : Text} {ls : List Text} (h : Coded text ls) (ks : List Text) :
    GoCode.code (text :: ks) = GoCode.code (ls ++ ks) := by
  have := h []
  rw [List.append_nil, sig_nil, List.append_nil] at this
  rw [GoFile.code_cons, this, GoFile.code_append]

theorem code_congr (a : Text) {ls ks : List Text} (h : code ls = code ks) : code (a :: ls) = code (a :: ks) := by
  rw [GoFile.code_cons, GoFile.code_cons, h]

theorem skip_branch {α : Type} (E : Env α) (d : GoTemplate.Value α) (vars : List (Text × GoTemplate.Value α))
    (e : List Text) (yes no : List Line) (he : eval E d vars e = some (.flag false, [])) :
    runLines E d vars [.branch e yes no] = runLines E d vars no := by
  rw [run_branch (he := he), if_neg (by simp), runLines_nil, andThen_nil]

theorem take_branch {α : Type} (E : Env α) (d : GoTemplate.Value α) (vars : List (Text × GoTemplate.Value α))
    (e : List Text) (yes no : List Line) (he : eval E d vars e = some (.flag true, [])) :
    runLines E d vars [.branch e yes no] = runLines E d vars yes := by
  rw [run_branch (he := he), if_pos rfl, runLines_nil, andThen_nil]

theorem printed_values (E : Env Obj) (d : GoTemplate.Value Obj) (vars : List (Text × GoTemplate.Value Obj))
    (e : List Text) (values : Values) (reading : Bool) (v : Text) (t : GoRef.Typ) (link : Bool)
    (o : Option GoRef.Owner) (text : Text) (fx : List Effect)
    (he : eval E d vars e = generating values reading [.text v, .obj (.ref t), .flag link, .obj (.owner o)])
    (hc : values reading v t link o = some (text, fx)) : printed E d vars e = some (text, fx) := by
  rw [printed, he, generating, hc]
  rfl

/-- The arguments of the template of the code that reads values. -/
abbrev readArgs (v : Text) (t : GoRef.Typ) (link : Bool) (o : Option GoRef.Owner) : GoTemplate.Value Obj :=
  .args [(t!"Variable", .text v), (t!"Type", .ref t), (t!"Link", .flag link), (t!"LinkOwner", .owner o)]

/-- The arguments of the template of the code that writes values. -/
abbrev writeArgs (v : Text) (t : GoRef.Typ) (link : Bool) (o : Option GoRef.Owner) : GoTemplate.Value Obj :=
  .args [(t!"Value", .text v), (t!"Type", .ref t), (t!"Link", .flag link), (t!"LinkOwner", .owner o)]

/-- The result of a template. -/
def Runs (r : Option (List Text × List Effect)) (ls : List Text) (fx : List Effect) : Prop :=
  ∃ ks, r = some (ks, fx) ∧ code ks = code ls

theorem run_readLink (x : Context) (values : Values) (v : Text) (o : Option GoRef.Owner) (d : GoRef.Decl)
    (e : GoRef.Typ) :
    Runs (runLines (env x values) (readArgs v (.list d e) true o) [] readLinkLines)
      (blockLines ((formOf x true o (.list d e)).read v)) (refEffects (GoRef.structReference x.base (.list d e))) := by
  rw [readLinkLines]
  rw [run_set (he := (rfl : eval (env x values) (readArgs v (.list d e) true o) []
    [t!"selectorFromLinkOwner", t!".LinkOwner"] = some (.text (selectorFromLinkOwner o), [])))]
  rw [run_set (he := (rfl : eval (env x values) (readArgs v (.list d e) true o) _ [t!"structName", t!".Type"] =
    some (.text (GoRef.emit x.pkg (GoRef.structReference x.base (.list d e))),
      refEffects (GoRef.structReference x.base (.list d e)))))]
  generalize hv : ((t!"$structName", _) :: _ : List (Text × GoTemplate.Value Obj)) = vars
  have h1 : printed (env x values) (readArgs v (.list d e) true o) vars [t!"$selectorFromLinkOwner"] =
    some (selectorFromLinkOwner o, []) := by subst hv; rfl
  have h2 : printed (env x values) (readArgs v (.list d e) true o) vars [t!"$structName"] =
    some (GoRef.emit x.pkg (GoRef.structReference x.base (.list d e)), []) := by subst hv; rfl
  have h3 : printed (env x values) (readArgs v (.list d e) true o) vars [t!".Variable"] = some (v, []) := rfl
  have h4 : printed (env x values) (readArgs v (.list d e) true o) vars
    [t!"readRefTypeFunc", t!".Type", t!".LinkOwner"] = some (readRefTypeFunc (.list d e) o, []) := rfl
  simp only [runLines_line, runLines_nil, runParts, h1, h2, h3, h4, andThen_some, Option.map_some, after]
  refine ⟨_, by simp only [List.append_nil, List.nil_append]; rfl, ?_⟩
  simp [formOf, Form.read, blockLines, Stmt.lines, Expr.text, argsText, readString, nextField, paren, selector_eq,
    readRef_name, TypesCode.nameOf]

theorem run_readMap (x : Context) (values : Values) (v : Text) (link : Bool) (o : Option GoRef.Owner) (d : GoRef.Decl)
    (e : GoRef.Typ) (text : Text) (fx : List Effect) (hc : values true t!"item" e false o = some (text, fx))
    (ht : Coded text (blockLines ((formOf x false o e).read t!"item"))) :
    Runs (runLines (env x values) (readArgs v (.map d e) link o) [] readMapLines)
      (blockLines ((formOf x link o (.map d e)).read v))
      (refEffects (GoRef.valueReference x.base (.map d e)) ++ fx) := by
  have h1 : printed (env x values) (readArgs v (.map d e) link o) [] [t!".Variable"] = some (v, []) := rfl
  have h2 : printed (env x values) (readArgs v (.map d e) link o) [] [t!"valueReference", t!".Type"] =
    some (GoRef.emit x.pkg (GoRef.valueReference x.base (.map d e)),
      refEffects (GoRef.valueReference x.base (.map d e))) := rfl
  have h3 : printed (env x values) (readArgs v (.map d e) link o) []
      [t!"generateReadValue", t!"\"item\"", t!".Type.Element", t!"false", t!".LinkOwner"] = some (text, fx) :=
    printed_values _ _ _ _ values true _ _ _ _ _ _ rfl hc
  simp only [readMapLines, runLines_line, runLines_nil, runParts, h1, h2, h3, andThen_some, Option.map_some]
  refine ⟨_, by simp only [List.append_nil, List.nil_append]; rfl, ?_⟩
  simp [formOf, Form.read, blockLines, Stmt.lines, Expr.text, argsText, readString, nextField, paren,
    blockLines_append]
  iterate 6 apply code_congr
  exact ht.splice _

theorem run_read (x : Context) (values : Values) (v : Text) (link : Bool) (o : Option GoRef.Owner) (t : GoRef.Typ)
    (hm : ∀ d e, t = .map d e → ∃ text, values true t!"item" e false o = some (text, readEffects x false e) ∧
      Coded text (blockLines ((formOf x false o e).read t!"item"))) :
    Runs (runLines (env x values) (readArgs v t link o) [] readLines)
      (blockLines ((formOf x link o t).read v)) (readEffects x link t).tail := by
  cases t with
  | basic b =>
    cases b <;> exact ⟨_, rfl, by
      simp [formOf, Form.read, blockLines, Stmt.lines, Expr.text, argsText, readString, notNil, paren]⟩
  | enum d =>
    refine ⟨_, rfl, ?_⟩
    simp [formOf, Form.read, blockLines, Stmt.lines, Expr.text, argsText, readString, GoRef.enumReference,
      GoRef.valueReference]
  | struct d =>
    refine ⟨_, rfl, ?_⟩
    simp [formOf, Form.read, blockLines, Stmt.lines, Expr.text, argsText, readRef_name, TypesCode.nameOf]
  | list d e =>
    cases link
    · refine ⟨_, rfl, ?_⟩
      simp [formOf, Form.read, blockLines, Stmt.lines, Expr.text, argsText, read_name, TypesCode.nameOf]
    · have h : runLines (env x values) (readArgs v (.list d e) true o) [] readLines =
          runLines (env x values) (readArgs v (.list d e) true o) [] readLinkLines := by
        rw [readLines, skip_branch, skip_branch, skip_branch, skip_branch, skip_branch, skip_branch, skip_branch,
          skip_branch, skip_branch, take_branch, take_branch] <;> rfl
      rw [h]
      exact run_readLink x values v o d e
  | map d e =>
    obtain ⟨text, h1, h2⟩ := hm d e rfl
    have h : runLines (env x values) (readArgs v (.map d e) link o) [] readLines =
        runLines (env x values) (readArgs v (.map d e) link o) [] readMapLines := by
      rw [readLines, skip_branch, skip_branch, skip_branch, skip_branch, skip_branch, skip_branch, skip_branch,
        skip_branch, skip_branch, skip_branch, take_branch] <;> rfl
    rw [h]
    exact run_readMap x values v link o d e text _ h1 h2

theorem run_writeMap (x : Context) (values : Values) (v : Text) (link : Bool) (o : Option GoRef.Owner) (d : GoRef.Decl)
    (e : GoRef.Typ) (text : Text) (fx : List Effect) (hc : values false t!"item" e false o = some (text, fx))
    (ht : Coded text (blockLines ((formOf x false o e).write (.var t!"item")))) (E : Expr)
    (hE : ∀ p, E.text p = v) :
    Runs (runLines (env x values) (writeArgs v (.map d e) link o) [] writeMapLines)
      (blockLines ((formOf x link o (.map d e)).write E)) fx := by
  have h1 : printed (env x values) (writeArgs v (.map d e) link o) [] [t!".Value"] = some (v, []) := rfl
  have h3 : printed (env x values) (writeArgs v (.map d e) link o) []
      [t!"generateWriteValue", t!"\"item\"", t!".Type.Element", t!"false", t!".LinkOwner"] = some (text, fx) :=
    printed_values _ _ _ _ values false _ _ _ _ _ _ rfl hc
  simp only [writeMapLines, runLines_line, runLines_nil, runParts, h1, h3, andThen_some, Option.map_some]
  refine ⟨_, by simp only [List.append_nil, List.nil_append]; rfl, ?_⟩
  simp [formOf, Form.write, blockLines, Stmt.lines, Expr.text, argsText, paren, hE, intText, natText]
  iterate 15 apply code_congr
  exact ht.splice _

theorem run_write (x : Context) (values : Values) (v : Text) (link : Bool) (o : Option GoRef.Owner) (t : GoRef.Typ)
    (hm : ∀ d e, t = .map d e → ∃ text, values false t!"item" e false o = some (text, writeEffects e) ∧
      Coded text (blockLines ((formOf x false o e).write (.var t!"item")))) (E : Expr) (hE : ∀ p, E.text p = v) :
    Runs (runLines (env x values) (writeArgs v t link o) [] writeLines)
      (blockLines ((formOf x link o t).write E)) ((writeEffects t).drop 2) := by
  cases t with
  | basic b =>
    cases b <;> exact ⟨_, rfl, by
      simp [formOf, Form.write, blockLines, Stmt.lines, Expr.text, argsText, hE]⟩
  | enum d =>
    refine ⟨_, rfl, ?_⟩
    simp [formOf, Form.write, blockLines, Stmt.lines, Expr.text, argsText, hE]
  | struct d =>
    refine ⟨_, rfl, ?_⟩
    simp [formOf, Form.write, blockLines, Stmt.lines, Expr.text, argsText, writeRef_name, TypesCode.nameOf, hE]
  | list d e =>
    cases link
    · refine ⟨_, rfl, ?_⟩
      simp [formOf, Form.write, blockLines, Stmt.lines, Expr.text, argsText, write_name, TypesCode.nameOf, hE]
    · refine ⟨_, rfl, ?_⟩
      simp [formOf, Form.write, blockLines, Stmt.lines, Expr.text, argsText, writeRef_name, TypesCode.nameOf, hE]
  | map d e =>
    obtain ⟨text, h1, h2⟩ := hm d e rfl
    have h : runLines (env x values) (writeArgs v (.map d e) link o) [] writeLines =
        runLines (env x values) (writeArgs v (.map d e) link o) [] writeMapLines := by
      rw [writeLines, skip_branch, skip_branch, skip_branch, skip_branch, skip_branch, skip_branch, skip_branch,
        skip_branch, skip_branch, skip_branch, take_branch] <;> rfl
    rw [h]
    exact run_writeMap x values v link o d e text _ h1 h2 E hE

theorem read_value (x : Context) (o : Option GoRef.Owner) : ∀ (t : GoRef.Typ) (n : Nat) (v : Text) (link : Bool),
    depth t ≤ n → ∃ text, valueCode x n true v t link o = some (text, readEffects x link t) ∧
      Coded text (blockLines ((formOf x link o t).read v)) := by
  have key : ∀ (t : GoRef.Typ) (n : Nat) (v : Text) (link : Bool),
      (∀ d e, t = .map d e → ∃ text, valueCode x n true t!"item" e false o = some (text, readEffects x false e) ∧
        Coded text (blockLines ((formOf x false o e).read t!"item"))) →
      ∃ text, valueCode x (n + 1) true v t link o = some (text, readEffects x link t) ∧
        Coded text (blockLines ((formOf x link o t).read v)) := by
    intro t n v link hm
    obtain ⟨ks, h1, h2⟩ := run_read x (valueCode x n) v link o t hm
    obtain ⟨text, h3, h4⟩ := run_template _ _ readTemplate readLines (hasLines_eq _ _ read_lines) _ _ h1
    refine ⟨text, ?_, fun r => ?_⟩
    · rw [valueCode, h3]
      simp only [after, Option.map_some]
      cases t <;> rfl
    · rw [h4, h2]
  intro t
  induction t with
  | map d e ih =>
    intro n v link hn
    obtain ⟨n, rfl⟩ : ∃ k, n = k + 1 := ⟨n - 1, by simp only [depth] at hn; omega⟩
    refine key _ n v link fun d' e' h => ?_
    cases h
    exact ih n _ false (by simp only [depth] at hn; omega)
  | _ =>
    intro n v link hn
    obtain ⟨n, rfl⟩ : ∃ k, n = k + 1 := ⟨n - 1, by simp only [depth] at hn; omega⟩
    exact key _ n v link (by intro d e h; cases h)

theorem write_value (x : Context) (o : Option GoRef.Owner) : ∀ (t : GoRef.Typ) (n : Nat) (v : Text) (link : Bool)
    (E : Expr), (∀ p, E.text p = v) →
    depth t ≤ n → ∃ text, valueCode x n false v t link o = some (text, writeEffects t) ∧
      Coded text (blockLines ((formOf x link o t).write E)) := by
  have key : ∀ (t : GoRef.Typ) (n : Nat) (v : Text) (link : Bool) (E : Expr), (∀ p, E.text p = v) →
      (∀ d e, t = .map d e → ∃ text, valueCode x n false t!"item" e false o = some (text, writeEffects e) ∧
        Coded text (blockLines ((formOf x false o e).write (.var t!"item")))) →
      ∃ text, valueCode x (n + 1) false v t link o = some (text, writeEffects t) ∧
        Coded text (blockLines ((formOf x link o t).write E)) := by
    intro t n v link E hE hm
    obtain ⟨ks, h1, h2⟩ := run_write x (valueCode x n) v link o t hm E hE
    obtain ⟨text, h3, h4⟩ := run_template _ _ writeTemplate writeLines (hasLines_eq _ _ write_lines) _ _ h1
    refine ⟨text, ?_, fun r => ?_⟩
    · rw [valueCode, h3]
      simp only [after, Option.map_some]
      cases t <;> rfl
    · rw [h4, h2]
  intro t
  induction t with
  | map d e ih =>
    intro n v link E hE hn
    obtain ⟨n, rfl⟩ : ∃ k, n = k + 1 := ⟨n - 1, by simp only [depth] at hn; omega⟩
    refine key _ n v link E hE fun d' e' h => ?_
    cases h
    exact ih n _ false _ (fun _ => rfl) (by simp only [depth] at hn; omega)
  | _ =>
    intro n v link E hE hn
    obtain ⟨n, rfl⟩ : ∃ k, n = k + 1 := ⟨n - 1, by simp only [depth] at hn; omega⟩
    exact key _ n v link E hE (by intro d e h; cases h)

/-! ## Objects -/

/-- The result of a template, if a condition holds. The effects don't depend on the condition. -/
def RunsIf (P : Prop) (r : Option (List Text × List Effect)) (ls : List Text) (fx : List Effect) : Prop :=
  ∃ ks, r = some (ks, fx) ∧ (P → code ks = code ls)

theorem RunsIf.andThen {P : Prop} {a b : Option (List Text × List Effect)} {ls ks : List Text} {fx fy : List Effect}
    (ha : RunsIf P a ls fx) (hb : RunsIf P b ks fy) : RunsIf P (andThen a b) (ls ++ ks) (fx ++ fy) := by
  obtain ⟨as, rfl, h1⟩ := ha
  obtain ⟨bs, rfl, h2⟩ := hb
  exact ⟨_, andThen_some, fun h => by rw [GoFile.code_append, GoFile.code_append, h1 h, h2 h]⟩

theorem RunsIf.of {P : Prop} {a : Option (List Text × List Effect)} {ls ks : List Text} {fx : List Effect}
    (h : a = some (ks, fx)) (hc : code ks = code ls) : RunsIf P a ls fx := ⟨ks, h, fun _ => hc⟩

theorem RunsIf.line {α : Type} {P : Prop} (E : Env α) (d : GoTemplate.Value α)
    (vars : List (Text × GoTemplate.Value α))
    (e : List Text) (rest : List Line) (text : Text) (ls ks : List Text) (fx fy : List Effect)
    (hp : printed E d vars e = some (text, fx)) (ht : Coded text ls) (hr : RunsIf P (runLines E d vars rest) ks fy) :
    RunsIf P (runLines E d vars (.line [.print e] :: rest)) (ls ++ ks) (fx ++ fy) := by
  obtain ⟨as, h1, h2⟩ := hr
  refine ⟨text :: as, ?_, fun h => ?_⟩
  · simp only [runLines_line, runParts, hp, h1, andThen_some, Option.map_some]
    simp
  · rw [ht.splice, GoFile.code_append, GoFile.code_append, h2 h]

theorem RunsIf.each {α : Type} {P : Prop} {f : α → Option (List Text × List Effect)} {g : α → List Text}
    {h : α → List Effect} : ∀ {as : List α}, (∀ a ∈ as, RunsIf P (f a) (g a) (h a)) →
    RunsIf P (GoTemplate.each f as) (as.flatMap g) (as.flatMap h)
  | [], _ => ⟨[], rfl, fun _ => rfl⟩
  | a :: as, ha => by
    rw [GoTemplate.each, List.flatMap_cons, List.flatMap_cons]
    exact (ha a (by simp)).andThen (RunsIf.each fun b hb => ha b (by simp [hb]))

theorem after_nil {β : Type} (a : Option (β × List Effect)) : after [] a = a := by cases a <;> rfl

theorem RunsIf.range {α : Type} {P : Prop} (E : Env α) (d : GoTemplate.Value α)
    (vars : List (Text × GoTemplate.Value α))
    (w : Text) (body : List Line) (as : List α) (g : α → List Text) (h : α → List Effect)
    (he : eval E d vars [w] = some (.list as, []))
    (hb : ∀ a ∈ as, RunsIf P (runLines E (.obj a) vars body) (g a) (h a)) :
    RunsIf P (runLines E d vars [.range [w] body]) (as.flatMap g) (as.flatMap h) := by
  have h1 : runLines E d vars [.range [w] body] =
      GoTemplate.each (fun p : α × Nat => runLines E (.obj p.1) vars body) as.zipIdx := by
    rw [runLines, runLines_nil, andThen_nil, Line.run, rangeValue, he]
    · exact after_nil _
    · simp
    · simp
  have hz : ∀ {β : Type} (k : α → List β), as.flatMap k = as.zipIdx.flatMap fun p => k p.1 := by
    intro β k
    have : (as.zipIdx.flatMap fun p => k p.1) = as.flatMap k := by rw [← List.flatMap_map, List.zipIdx_map_fst]
    exact this.symm
  rw [h1, hz, hz]
  exact RunsIf.each fun p hp => hb p.1 (List.fst_mem_of_mem_zipIdx hp)

theorem RunsIf.rangeIndex {P : Prop} (E : Env Obj) (d : GoTemplate.Value Obj)
    (vars : List (Text × GoTemplate.Value Obj)) (i v w : Text) (body : List Line) (as : List Obj)
    (g : Obj × Nat → List Text) (h : Obj × Nat → List Effect) (he : eval E d vars [w] = some (.list as, []))
    (hb : ∀ p ∈ as.zipIdx,
      RunsIf P (runLines E (.obj p.1) ((v, .obj p.1) :: (i.dropLast, .nat p.2) :: vars) body) (g p) (h p)) :
    RunsIf P (runLines E d vars [.range [i, v, t!":=", w] body]) (as.zipIdx.flatMap g) (as.zipIdx.flatMap h) := by
  have h1 : runLines E d vars [.range [i, v, t!":=", w] body] = GoTemplate.each
      (fun p : Obj × Nat => runLines E (.obj p.1) ((v, .obj p.1) :: (i.dropLast, .nat p.2) :: vars) body)
      as.zipIdx := by
    rw [runLines, runLines_nil, andThen_nil, Line.run, rangeValue, if_pos rfl, he]
    · exact after_nil _
    · simp
  rw [h1]
  exact RunsIf.each hb

/-- The arguments of the template of objects. -/
abbrev objectArgs (c : TypeCell) : GoTemplate.Value Obj := .args [(t!"Type", .typ c)]

/-- The name of the Go type. -/
abbrev objectName (x : Context) (c : TypeCell) : Text := GoRef.emit x.pkg (GoRef.structReference x.base (x.typ c))

/-- The variables of the template of objects. -/
abbrev objectVars (x : Context) (c : TypeCell) : List (Text × GoTemplate.Value Obj) :=
  [(t!"$readTypeFunc", .text (readTypeFunc (x.typ c))), (t!"$unmarshalTypeFunc", .text (unmarshalTypeFunc (x.typ c))),
    (t!"$writeTypeFunc", .text (writeTypeFunc (x.typ c))), (t!"$marshalTypeFunc", .text (marshalTypeFunc (x.typ c))),
    (t!"$structName", .text (objectName x c))]

section

variable (x : Context) (c : TypeCell) (d : GoTemplate.Value Obj)

theorem p_struct : printed (typeEnv x) d (objectVars x c) [t!"$structName"] = some (objectName x c, []) := rfl

theorem p_marshal : printed (typeEnv x) d (objectVars x c) [t!"$marshalTypeFunc"] =
    some (marshalTypeFunc (x.typ c), []) := rfl

theorem p_write : printed (typeEnv x) d (objectVars x c) [t!"$writeTypeFunc"] =
    some (t!"Write" ++ camel (TypesCode.nameOf (x.typ c)), []) := by
  rw [← write_name]; rfl

theorem p_unmarshal : printed (typeEnv x) d (objectVars x c) [t!"$unmarshalTypeFunc"] =
    some (unmarshalTypeFunc (x.typ c), []) := rfl

theorem p_read : printed (typeEnv x) d (objectVars x c) [t!"$readTypeFunc"] =
    some (t!"Read" ++ camel (TypesCode.nameOf (x.typ c)), []) := by
  rw [← read_name]; rfl

theorem p_typeName : printed (typeEnv x) (objectArgs c) (objectVars x c) [t!".Type.Name"] =
    some (c.name.toText, []) := rfl

theorem e_class : eval (typeEnv x) (objectArgs c) (objectVars x c) [t!".Type.IsClass"] =
    some (.flag c.isClass, []) := rfl

theorem e_attributes : eval (typeEnv x) (objectArgs c) (objectVars x c) [t!".Type.Attributes"] =
    some (.list (c.attributes.mapIdx (.attribute c)), []) := rfl

end

theorem run_marshal (x : Context) (c : TypeCell) :
    runLines (typeEnv x) (objectArgs c) (objectVars x c) marshalLines =
      some (itemsLines [{
        comment := [t!"// " ++ (functionsOf (x.typ c)).marshal ++ t!" writes a value of the '" ++ c.name.toText ++
          t!"' type to the given writer."]
        decl := marshalFunc (functionsOf (x.typ c)) t!"object" (t!"*" ++ objectName x c) }], []) := by
  simp only [marshalLines, runLines_line, runLines_nil, runParts, p_struct, p_marshal, p_write, p_typeName,
    andThen_some, Option.map_some]
  simp [itemsLines, marshalFunc, functionsOf, marshalTypeFunc, Declaration.lines, Func.header, paramsText,
    resultsText, blockLines, Stmt.lines, argsText, Expr.text, notNil, paren]

theorem run_unmarshal (x : Context) (c : TypeCell) :
    runLines (typeEnv x) (objectArgs c) (objectVars x c) unmarshalLines =
      some (itemsLines [{
        comment := [
          t!"// " ++ (functionsOf (x.typ c)).unmarshal ++ t!" reads a value of the '" ++ c.name.toText ++
            t!"' type from the given",
          t!"// source, which can be an slice of bytes, a string or a reader."]
        decl := unmarshalFunc (functionsOf (x.typ c)) t!"object" (t!"*" ++ objectName x c) }], []) := by
  simp only [unmarshalLines, runLines_line, runLines_nil, runParts, p_struct, p_unmarshal, p_read, p_typeName,
    andThen_some, Option.map_some]
  simp [itemsLines, unmarshalFunc, functionsOf, unmarshalTypeFunc, Declaration.lines, Func.header, paramsText,
    resultsText, blockLines, Stmt.lines, argsText, Expr.text, notNil, paren]

theorem run_writeIdentity (x : Context) (c : TypeCell) :
    runLines (typeEnv x) (objectArgs c) (objectVars x c) writeIdentity =
      some (blockLines (if c.isClass then (entityOf x c).writeIdentity else []), []) := by
  rw [writeIdentity, run_branch (he := e_class x c)]
  have he : (runLines (typeEnv x) (objectArgs c) (objectVars x c) [
      .branch [t!".Type.Attributes"] [.line [.lit t!"count++"]] [], .line [.lit t!"}"]]) =
      some ((if c.attributes.isEmpty then [] else [t!"count++"]) ++ [t!"}"], []) := by
    rw [runLines, Line.run, e_attributes]
    · simp only [Option.bind_some, GoTemplate.Value.truth, runLines_line, runLines_nil, runParts, andThen_some,
        Option.map_some]
      cases c.attributes <;> simp [after, andThen]
    · simp
  split
  · simp only [runLines_line, runLines_nil, runParts, p_struct, he, andThen_some, Option.map_some]
    cases h : c.attributes <;>
    simp [Entity.writeIdentity, entityOf, h, comma, blockLines, Stmt.lines, argsText, Expr.text, dot, bitSet,
      paren, intText, natText, digits_1, digits_2, digits_4]
  · simp only [runLines_nil, andThen_some]
    rfl

theorem run_readIdentity (x : Context) (c : TypeCell) :
    runLines (typeEnv x) (objectArgs c) (objectVars x c) readIdentity =
      some (blockLines (if c.isClass then (entityOf x c).readIdentity else []), []) := by
  rw [readIdentity, run_branch (he := e_class x c)]
  split
  · simp only [runLines_line, runLines_nil, runParts, p_struct, andThen_some, Option.map_some]
    simp [Entity.readIdentity, entityOf, setBit, readString, blockLines, Stmt.lines, argsText, Expr.text, dot,
      paren, intText, natText, digits_1, digits_2, digits_4]
  · simp only [runLines_nil, andThen_some]
    rfl

/-- The effects of the code that writes an attribute. -/
def attributeWrite (x : Context) : Obj → List Effect
  | .attribute _ _ a => writeEffects (x.typeOf a.typ)
  | _ => []

/-- The effects of the code that reads an attribute. -/
def attributeRead (x : Context) : Obj → List Effect
  | .attribute _ _ a => readEffects x a.link (x.typeOf a.typ)
  | _ => []

/-- The mask of an attribute is the one of its bit. -/
abbrev Masked (c : TypeCell) : Prop :=
  ∀ i, i < c.attributes.length → Bitmap.maskText c i = intText ((2 ^ ((if c.kind = .class then 3 else 0) + i) : Nat) : Int)

theorem run_writeBody (x : Context) (c : TypeCell) (i : Nat) (a : Attribute) (hi : c.attributes[i]? = some a) :
    RunsIf (Masked c) (runLines (typeEnv x) (.obj (.attribute c i a))
        ((t!"$v", .obj (.attribute c i a)) :: (t!"$i", .nat i) :: (t!"$n", .nat c.attributes.length) ::
          objectVars x c) writeBody)
      (blockLines ((memberOf x c i a).write (decide (i + 1 = c.attributes.length))))
      (writeEffects (x.typeOf a.typ)) := by
  have hlt : i < c.attributes.length := (List.getElem?_eq_some_iff.mp hi).1
  rw [writeBody]
  rw [run_set (he := (rfl : eval (typeEnv x) (.obj (.attribute c i a)) _ [t!"fieldName", t!"$v"] =
    some (.text (Go.privateName a.name), [])))]
  rw [run_set (he := (rfl : eval (typeEnv x) (.obj (.attribute c i a)) _ [t!"fieldTag", t!"$v"] =
    some (.text (Binding.attributeName a), [])))]
  rw [run_set (he := (rfl : eval (typeEnv x) (.obj (.attribute c i a)) _ [t!"bitMask", t!"$v"] =
    some (.text (Bitmap.maskText c i), [])))]
  rw [after_nil, after_nil, after_nil]
  generalize hv : ((t!"$fieldMask", _) :: _ : List (Text × GoTemplate.Value Obj)) = vs
  have h1 : printed (typeEnv x) (.obj (.attribute c i a)) vs [t!"$fieldMask"] =
    some (Bitmap.maskText c i, []) := by subst hv; rfl
  have h2 : printed (typeEnv x) (.obj (.attribute c i a)) vs [t!"$fieldName"] =
    some (Go.privateName a.name, []) := by subst hv; rfl
  have h3 : printed (typeEnv x) (.obj (.attribute c i a)) vs [t!"$fieldTag"] =
    some (Binding.attributeName a, []) := by subst hv; rfl
  have h4 : eval (typeEnv x) (.obj (.attribute c i a)) vs [t!".Type.IsScalar"] =
    some (.flag (x.typeOf a.typ).isScalar, []) := rfl
  have h5 : eval (typeEnv x) (.obj (.attribute c i a)) vs [t!"lt", t!"$i", t!"(sub", t!"$n", t!"1)"] =
      some (.flag (decide (i < c.attributes.length - 1)), []) := by
    subst hv; rfl
  obtain ⟨text, hc, ht⟩ := write_value x (a.linkOwner.map x.ownerOf) (x.typeOf a.typ) (depth (x.typeOf a.typ))
    (t!"object." ++ (Go.privateName a.name ++ [])) a.link (dot t!"object" (Go.privateName a.name))
    (fun p => by simp [dot, Expr.text]) (Nat.le_refl _)
  have h6 : printed (typeEnv x) (.obj (.attribute c i a)) vs [t!"generateWriteValue", t!"(print", t!"\"object.\"",
      t!"$fieldName)", t!"$v.Type", t!"$v.Link", t!"$v.LinkOwner"] = some (text, writeEffects (x.typeOf a.typ)) :=
    printed_values _ _ _ _ (fun reading v t => valueCode x (depth t) reading v t) false _ _ _ _ _ _
      (by subst hv; rfl) hc
  have h7 : runLines (typeEnv x) (.obj (.attribute c i a)) vs [
      .branch [t!"lt", t!"$i", t!"(sub", t!"$n", t!"1)"] [.line [.lit t!"count++"]] [], .line [.lit t!"}"]] =
      some ((if i + 1 = c.attributes.length then [] else [t!"count++"]) ++ [t!"}"], []) := by
    rw [run_branch (he := h5)]
    simp only [runLines_line, runLines_nil, runParts, andThen_some, Option.map_some]
    by_cases hl : i + 1 = c.attributes.length
    · simp [hl, andThen, show ¬ i < c.attributes.length - 1 by omega]
    · simp [hl, andThen, show i < c.attributes.length - 1 by omega]
  obtain ⟨ks, h8, h9⟩ := RunsIf.line (P := True) (typeEnv x) (.obj (.attribute c i a)) vs _ _ _ _ _ _ _ h6 ht
    (RunsIf.of h7 rfl)
  rw [run_branch (he := h4)]
  simp only [runLines_line, runLines_nil, runParts, h1, h2, h3, h8, andThen_some, Option.map_some]
  have h9 := h9 trivial
  by_cases hs : (x.typeOf a.typ).isScalar = true
  · simp only [hs, if_true, andThen_some]
    refine ⟨_, by simp only [List.append_nil, List.nil_append]; rfl, fun hm => ?_⟩
    rw [hm i hlt]
    by_cases hl : i + 1 = c.attributes.length <;>
    simp [Member.write, memberOf, hs, hl, comma, blockLines, blockLines_append, Stmt.lines, argsText, Expr.text, bitSet,
      paren, intText, natText] <;>
    (iterate 6 apply code_congr) <;> simpa [hl] using h9
  · simp only [hs, if_false, andThen_some, Bool.false_eq_true]
    refine ⟨_, by simp only [List.append_nil, List.nil_append]; rfl, fun hm => ?_⟩
    rw [hm i hlt]
    by_cases hl : i + 1 = c.attributes.length <;>
    simp [Member.write, memberOf, hs, hl, comma, blockLines, blockLines_append, Stmt.lines, argsText, Expr.text, bitSet,
      paren, intText, natText] <;>
    (iterate 6 apply code_congr) <;> simpa [hl] using h9

theorem run_readBody (x : Context) (c : TypeCell) (i : Nat) (a : Attribute) (hi : c.attributes[i]? = some a) :
    RunsIf (Masked c) (runLines (typeEnv x) (.obj (.attribute c i a)) (objectVars x c) readBody)
      (memberOf x c i a).read.lines (readEffects x a.link (x.typeOf a.typ)) := by
  have hlt : i < c.attributes.length := (List.getElem?_eq_some_iff.mp hi).1
  rw [readBody]
  rw [run_set (he := (rfl : eval (typeEnv x) (.obj (.attribute c i a)) _ [t!"fieldName", t!"."] =
    some (.text (Go.privateName a.name), [])))]
  rw [run_set (he := (rfl : eval (typeEnv x) (.obj (.attribute c i a)) _ [t!"fieldTag", t!"."] =
    some (.text (Binding.attributeName a), [])))]
  rw [run_set (he := (rfl : eval (typeEnv x) (.obj (.attribute c i a)) _ [t!"bitMask", t!"."] =
    some (.text (Bitmap.maskText c i), [])))]
  rw [after_nil, after_nil, after_nil]
  generalize hv : ((t!"$fieldMask", _) :: _ : List (Text × GoTemplate.Value Obj)) = vs
  have h1 : printed (typeEnv x) (.obj (.attribute c i a)) vs [t!"$fieldMask"] =
    some (Bitmap.maskText c i, []) := by subst hv; rfl
  have h2 : printed (typeEnv x) (.obj (.attribute c i a)) vs [t!"$fieldName"] =
    some (Go.privateName a.name, []) := by subst hv; rfl
  have h3 : printed (typeEnv x) (.obj (.attribute c i a)) vs [t!"$fieldTag"] =
    some (Binding.attributeName a, []) := by subst hv; rfl
  obtain ⟨text, hc, ht⟩ := read_value x (a.linkOwner.map x.ownerOf) (x.typeOf a.typ) (depth (x.typeOf a.typ))
    t!"value" a.link (Nat.le_refl _)
  have h6 : printed (typeEnv x) (.obj (.attribute c i a)) vs [t!"generateReadValue", t!"\"value\"", t!".Type",
      t!".Link", t!".LinkOwner"] = some (text, readEffects x a.link (x.typeOf a.typ)) :=
    printed_values _ _ _ _ (fun reading v t => valueCode x (depth t) reading v t) true _ _ _ _ _ _ rfl hc
  simp only [runLines_line, runLines_nil, runParts, h1, h2, h3, h6, andThen_some, Option.map_some]
  refine ⟨_, by simp only [List.append_nil, List.nil_append]; rfl, fun hm => ?_⟩
  rw [hm i hlt]
  simp [Member.read, memberOf, Stmt.lines, blockLines, blockLines_append, setBit, Expr.text, dot]
  apply code_congr
  exact ht.splice _

theorem write_members : ∀ (ms : List Member) (k : Nat),
    writeMembers ms = (ms.zipIdx k).flatMap fun p => p.1.write (decide (p.2 + 1 = k + ms.length))
  | [], _ => rfl
  | m :: ms, k => by
    rw [writeMembers, List.zipIdx_cons, List.flatMap_cons, write_members ms (k + 1)]
    have h1 : ms.isEmpty = decide (k + 1 = k + (m :: ms).length) := by cases ms <;> simp
    have h2 : k + 1 + ms.length = k + (m :: ms).length := by simp; omega
    rw [h1, h2]

theorem attributes_obj (c : TypeCell) (o : Obj) (h : o ∈ c.attributes.mapIdx (Obj.attribute c)) :
    ∃ i a, c.attributes[i]? = some a ∧ o = .attribute c i a := by
  rw [List.mem_mapIdx] at h
  obtain ⟨i, hi, rfl⟩ := h
  exact ⟨i, c.attributes[i], by simp [hi], rfl⟩

/-- The lines of the code that writes an attribute. -/
def attributeLines (x : Context) (n : Nat) : Obj × Nat → List Text
  | (.attribute c i a, _) => blockLines ((memberOf x c i a).write (decide (i + 1 = n)))
  | _ => []

/-- The lines of the case of an attribute. -/
def caseLines (x : Context) : Obj → List Text
  | .attribute c i a => (memberOf x c i a).read.lines
  | _ => []

theorem zipIdx_mapIdx {α β : Type} (f : Nat → α → β) (l : List α) :
    (l.mapIdx f).zipIdx = l.zipIdx.map fun p => (f p.2 p.1, p.2) := by
  rw [List.mapIdx_eq_zipIdx_map]
  apply List.ext_getElem?
  intro i
  simp only [List.getElem?_zipIdx, List.getElem?_map, Option.map_map]
  cases l[i]? <;> simp

theorem run_writeAttributes (x : Context) (c : TypeCell) :
    RunsIf (Masked c) (runLines (typeEnv x) (objectArgs c) (objectVars x c) writeAttributes)
      (blockLines (if (entityOf x c).members.isEmpty then []
        else .var t!"present_" t!"bool" :: writeMembers (entityOf x c).members))
      ((c.attributes.mapIdx (Obj.attribute c)).flatMap (attributeWrite x)) := by
  have h1 : runLines (typeEnv x) (objectArgs c) (objectVars x c) writeAttributes =
      if c.attributes.isEmpty then some ([], []) else
        andThen (some ([t!"var present_ bool"], [])) (runLines (typeEnv x) (objectArgs c)
          ((t!"$n", .nat c.attributes.length) :: objectVars x c)
          [.range [t!"$i,", t!"$v", t!":=", t!".Type.Attributes"] writeBody]) := by
    rw [writeAttributes, runLines, runLines_nil, andThen_nil, Line.run, e_attributes]
    · have ht : (GoTemplate.Value.list (c.attributes.mapIdx (Obj.attribute c))).truth = !c.attributes.isEmpty := by
        cases c.attributes <;> simp [GoTemplate.Value.truth]
      rw [Option.bind_some]
      dsimp only
      rw [after_nil, runLines_nil, ht]
      cases hc : c.attributes.isEmpty with
      | true => rfl
      | false =>
        rw [if_pos (by rfl), if_neg (by simp), runLines_line, run_set (he := (rfl : eval (typeEnv x) (objectArgs c)
          (objectVars x c) [t!"len", t!".Type.Attributes"] =
            some (.nat (c.attributes.mapIdx (Obj.attribute c)).length, []))), after_nil, List.length_mapIdx]
        rfl
    · simp
  rw [h1]
  have hm : (entityOf x c).members = c.attributes.mapIdx (memberOf x c) := rfl
  by_cases he : c.attributes = []
  · rw [hm, he]
    exact ⟨[], rfl, fun _ => rfl⟩
  · rw [if_neg (by simpa using he), if_neg (by rw [hm]; simpa using he)]
    have h2 := RunsIf.rangeIndex (P := Masked c) (typeEnv x) (objectArgs c)
      ((t!"$n", .nat c.attributes.length) :: objectVars x c) t!"$i," t!"$v" t!".Type.Attributes" writeBody
      (c.attributes.mapIdx (.attribute c)) (attributeLines x c.attributes.length) (fun p => attributeWrite x p.1) rfl
      (by
        intro p hp
        rw [zipIdx_mapIdx, List.mem_map] at hp
        obtain ⟨⟨a, i⟩, hi, rfl⟩ := hp
        exact run_writeBody x c i a (List.mem_zipIdx_iff_getElem?.mp hi))
    have h3 := (RunsIf.of (P := Masked c) (rfl : some ([t!"var present_ bool"], ([] : List Effect)) = some _)
      rfl).andThen h2
    have e1 : (c.attributes.mapIdx (Obj.attribute c)).zipIdx.flatMap (attributeLines x c.attributes.length) =
        blockLines (writeMembers (entityOf x c).members) := by
      rw [hm, write_members _ 0, zipIdx_mapIdx, zipIdx_mapIdx, List.flatMap_map, List.flatMap_map,
        BuildersCode.blockLines_flatMap, List.length_mapIdx, Nat.zero_add]
      rfl
    have e2 : ((c.attributes.mapIdx (Obj.attribute c)).zipIdx.flatMap fun p => attributeWrite x p.1) =
        (c.attributes.mapIdx (Obj.attribute c)).flatMap (attributeWrite x) := by
      rw [← List.flatMap_map, List.zipIdx_map_fst]
    rw [e1, e2] at h3
    exact h3

theorem run_readAttributes (x : Context) (c : TypeCell) :
    RunsIf (Masked c) (runLines (typeEnv x) (objectArgs c) (objectVars x c) readAttributes)
      (blockLines ((entityOf x c).members.map Member.read))
      ((c.attributes.mapIdx (Obj.attribute c)).flatMap (attributeRead x)) := by
  have h := RunsIf.range (P := Masked c) (typeEnv x) (objectArgs c) (objectVars x c) t!".Type.Attributes" readBody
    (c.attributes.mapIdx (.attribute c)) (caseLines x) (attributeRead x) rfl (by
      intro o ho
      obtain ⟨i, a, hi, rfl⟩ := attributes_obj c o ho
      exact run_readBody x c i a hi)
  have e : (c.attributes.mapIdx (Obj.attribute c)).flatMap (caseLines x) =
      blockLines ((entityOf x c).members.map Member.read) := by
    have hb : ∀ ss : List Stmt, blockLines ss = ss.flatMap Stmt.lines := by
      intro ss
      induction ss with
      | nil => rfl
      | cons s ss ih => rw [blockLines, ih, List.flatMap_cons]
    rw [hb, List.flatMap_map]
    simp only [entityOf, List.mapIdx_eq_zipIdx_map, List.flatMap_map]
    rfl
  rw [e] at h
  exact h

/-- The effects of the template of objects. -/
def structEffects (x : Context) (c : TypeCell) : List Effect :=
  refEffects (GoRef.structReference x.base (x.typ c)) ++
    ((c.attributes.mapIdx (Obj.attribute c)).flatMap (attributeWrite x) ++
      (c.attributes.mapIdx (Obj.attribute c)).flatMap (attributeRead x))

theorem run_struct (x : Context) (c : TypeCell) :
    RunsIf (Masked c) (runLines (typeEnv x) (objectArgs c) [] structLines) (itemsLines (entityOf x c).items)
      (structEffects x c) := by
  rw [structLines]
  rw [run_set (he := (rfl : eval (typeEnv x) (objectArgs c) _ [t!"structName", t!".Type"] =
    some (.text (objectName x c), refEffects (GoRef.structReference x.base (x.typ c)))))]
  rw [run_set (he := (rfl : eval (typeEnv x) (objectArgs c) _ [t!"marshalTypeFunc", t!".Type"] =
    some (.text (marshalTypeFunc (x.typ c)), [])))]
  rw [run_set (he := (rfl : eval (typeEnv x) (objectArgs c) _ [t!"writeTypeFunc", t!".Type"] =
    some (.text (writeTypeFunc (x.typ c)), [])))]
  rw [run_set (he := (rfl : eval (typeEnv x) (objectArgs c) _ [t!"unmarshalTypeFunc", t!".Type"] =
    some (.text (unmarshalTypeFunc (x.typ c)), [])))]
  rw [run_set (he := (rfl : eval (typeEnv x) (objectArgs c) _ [t!"readTypeFunc", t!".Type"] =
    some (.text (readTypeFunc (x.typ c)), [])))]
  rw [after_nil, after_nil, after_nil, after_nil]
  change RunsIf _ (after _ (runLines (typeEnv x) (objectArgs c) (objectVars x c) _)) _ _
  rw [runLines_append _ _ _ _ _ rfl, runLines_append _ _ _ _ _ rfl, runLines_append _ _ _ _ _ rfl,
    runLines_append _ _ _ _ _ rfl, runLines_append _ _ _ _ _ rfl, runLines_append _ _ _ _ _ rfl,
    runLines_append _ _ _ _ _ rfl, runLines_append _ _ _ _ _ rfl, runLines_append _ _ _ _ _ rfl]
  have w1 : runLines (typeEnv x) (objectArgs c) (objectVars x c) writeHead = some ([
      t!"// " ++ (functionsOf (x.typ c)).write ++ t!" writes a value of the '" ++ c.name.toText ++
        t!"' type to the given stream.",
      t!"func " ++ (functionsOf (x.typ c)).write ++ t!"(object *" ++ objectName x c ++
        t!", stream *jsoniter.Stream) {",
      t!"count := 0", t!"stream.WriteObjectStart()"], []) := by
    simp only [writeHead, runLines_line, runLines_nil, runParts, p_struct, p_write, p_typeName, andThen_some,
      Option.map_some]
    simp [functionsOf]
  have w2 : runLines (typeEnv x) (objectArgs c) (objectVars x c) writeTail =
    some ([t!"stream.WriteObjectEnd()", t!"}"], []) := rfl
  have r1 : runLines (typeEnv x) (objectArgs c) (objectVars x c) readHead = some ([
      t!"// " ++ (functionsOf (x.typ c)).read ++ t!" reads a value of the '" ++ c.name.toText ++
        t!"' type from the given iterator.",
      t!"func " ++ (functionsOf (x.typ c)).read ++ t!"(iterator *jsoniter.Iterator) *" ++ objectName x c ++ t!" {",
      t!"object := &" ++ objectName x c ++ t!"{}", t!"for {", t!"field := iterator.ReadObject()",
      t!"if field == \"\" {", t!"break", t!"}", t!"switch field {"], []) := by
    simp only [readHead, runLines_line, runLines_nil, runParts, p_struct, p_read, p_typeName, andThen_some,
      Option.map_some]
    simp [functionsOf]
  have r2 : runLines (typeEnv x) (objectArgs c) (objectVars x c) readTail =
    some ([t!"default:", t!"iterator.ReadAny()", t!"}", t!"}", t!"return object", t!"}"], []) := rfl
  rw [run_marshal, run_unmarshal, run_writeIdentity, run_readIdentity, w1, w2, r1, r2]
  obtain ⟨ws, a1, a2⟩ := run_writeAttributes x c
  obtain ⟨rs, b1, b2⟩ := run_readAttributes x c
  rw [a1, b1]
  simp only [andThen_some, after, Option.map_some]
  refine ⟨_, by simp only [List.append_nil, List.nil_append]; rfl, fun hm => ?_⟩
  · simp only [GoFile.code_append, a2 hm, b2 hm]
    simp only [← GoFile.code_append]
    congr 1
    have hk : c.isClass = decide (c.kind = .class) := rfl
    have e1 : (entityOf x c).isClass = decide (c.kind = .class) := rfl
    have e2 : (entityOf x c).functions = functionsOf (x.typ c) := rfl
    have e3 : (entityOf x c).object = objectName x c := rfl
    have e4 : (entityOf x c).name = c.name.toText := rfl
    generalize entityOf x c = e at *
    simp [itemsLines, Entity.items, Entity.writeFunc, Entity.readFunc, nextField, e1, e2, e3, e4, hk, Declaration.lines,
      Func.header, paramsText, resultsText, blockLines, blockLines_append, Stmt.lines, argsText, Expr.text, paren,
      intText, natText]

/-! ## Lists -/

/-- The arguments of the template of lists. -/
abbrev listArgs (t : GoRef.Typ) : GoTemplate.Value Obj := .args [(t!"Type", .ref t), (t!"linkOwner", .owner none)]

/-- The effects of the template of lists. -/
def listEffects (x : Context) (d : GoRef.Decl) (e : GoRef.Typ) : List Effect :=
  refEffects (GoRef.structReference x.base (.list d e)) ++ (refEffects (GoRef.valueReference x.base (.list d e)) ++
    (writeEffects e ++ (refEffects (GoRef.valueReference x.base (.list d e)) ++ readEffects x false e)))

theorem run_list (x : Context) (d : GoRef.Decl) (e : GoRef.Typ) :
    RunsIf True (runLines (typeEnv x) (listArgs (.list d e)) [] listLines) (itemsLines (listingOf x d e).items)
      (listEffects x d e) := by
  rw [listLines]
  rw [run_set (he := (rfl : eval (typeEnv x) (listArgs (.list d e)) _ [t!"structName", t!".Type"] =
    some (.text (GoRef.emit x.pkg (GoRef.structReference x.base (.list d e))),
      refEffects (GoRef.structReference x.base (.list d e)))))]
  rw [run_set (he := (rfl : eval (typeEnv x) (listArgs (.list d e)) _ [t!"valueReference", t!".Type"] =
    some (.text (GoRef.emit x.pkg (GoRef.valueReference x.base (.list d e))),
      refEffects (GoRef.valueReference x.base (.list d e)))))]
  rw [run_set (he := (rfl : eval (typeEnv x) (listArgs (.list d e)) _ [t!"marshalTypeFunc", t!".Type"] =
    some (.text (marshalTypeFunc (.list d e)), [])))]
  rw [run_set (he := (rfl : eval (typeEnv x) (listArgs (.list d e)) _ [t!"writeTypeFunc", t!".Type"] =
    some (.text (writeTypeFunc (.list d e)), [])))]
  rw [run_set (he := (rfl : eval (typeEnv x) (listArgs (.list d e)) _ [t!"unmarshalTypeFunc", t!".Type"] =
    some (.text (unmarshalTypeFunc (.list d e)), [])))]
  rw [run_set (he := (rfl : eval (typeEnv x) (listArgs (.list d e)) _ [t!"readTypeFunc", t!".Type"] =
    some (.text (readTypeFunc (.list d e)), [])))]
  rw [after_nil, after_nil, after_nil, after_nil]
  generalize hv : ((t!"$readTypeFunc", _) :: _ : List (Text × GoTemplate.Value Obj)) = vs
  have p1 : printed (typeEnv x) (listArgs (.list d e)) vs [t!"$sliceType"] =
    some (GoRef.emit x.pkg (GoRef.valueReference x.base (.list d e)), []) := by subst hv; rfl
  have p2 : printed (typeEnv x) (listArgs (.list d e)) vs [t!"$marshalTypeFunc"] =
    some (marshalTypeFunc (.list d e), []) := by subst hv; rfl
  have p3 : printed (typeEnv x) (listArgs (.list d e)) vs [t!"$writeTypeFunc"] =
    some (t!"Write" ++ camel d.name, []) := by
      have := write_name (.list d e)
      rw [TypesCode.nameOf] at this
      rw [← this]; subst hv; rfl
  have p4 : printed (typeEnv x) (listArgs (.list d e)) vs [t!"$unmarshalTypeFunc"] =
    some (unmarshalTypeFunc (.list d e), []) := by subst hv; rfl
  have p5 : printed (typeEnv x) (listArgs (.list d e)) vs [t!"$readTypeFunc"] =
    some (t!"Read" ++ camel d.name, []) := by
      have := read_name (.list d e)
      rw [TypesCode.nameOf] at this
      rw [← this]; subst hv; rfl
  have p6 : printed (typeEnv x) (listArgs (.list d e)) vs [t!".Type.Element.Name"] =
    some ((TypesCode.nameOf e).toText, []) := rfl
  have p7 : printed (typeEnv x) (listArgs (.list d e)) vs [t!"valueReference", t!".Type"] =
    some (GoRef.emit x.pkg (GoRef.valueReference x.base (.list d e)),
      refEffects (GoRef.valueReference x.base (.list d e))) := rfl
  obtain ⟨wt, hw1, hw2⟩ := write_value x none e (depth e) t!"value" false (.var t!"value") (fun _ => rfl)
    (Nat.le_refl _)
  obtain ⟨rt, hr1, hr2⟩ := read_value x none e (depth e) t!"item" false (Nat.le_refl _)
  have p8 : printed (typeEnv x) (listArgs (.list d e)) vs [t!"generateWriteValue", t!"\"value\"", t!".Type.Element",
      t!"false", t!".linkOwner"] = some (wt, writeEffects e) :=
    printed_values _ _ _ _ (fun reading v t => valueCode x (depth t) reading v t) false _ _ _ _ _ _ rfl hw1
  have p9 : printed (typeEnv x) (listArgs (.list d e)) vs [t!"generateReadValue", t!"\"item\"", t!".Type.Element",
      t!"false", t!".linkOwner"] = some (rt, readEffects x false e) :=
    printed_values _ _ _ _ (fun reading v t => valueCode x (depth t) reading v t) true _ _ _ _ _ _ rfl hr1
  rw [runLines_append _ _ _ _ _ rfl, runLines_append _ _ _ _ _ rfl]
  have hr : RunsIf True (runLines (typeEnv x) (listArgs (.list d e)) vs listReadTail)
      [t!"list = append(list, item)", t!"}", t!"return list", t!"}"] [] := RunsIf.of rfl rfl
  have hr := RunsIf.line _ _ _ _ _ _ _ _ _ _ p9 hr2 hr
  have hh : RunsIf True (runLines (typeEnv x) (listArgs (.list d e)) vs listReadHead) [
      t!"// Read" ++ camel d.name ++ t!" reads list of values of the ''" ++ (TypesCode.nameOf e).toText ++
        t!"' type from",
      t!"// the given iterator.",
      t!"func Read" ++ camel d.name ++ t!"(iterator *jsoniter.Iterator) " ++
        GoRef.emit x.pkg (GoRef.valueReference x.base (.list d e)) ++ t!" {",
      t!"list := " ++ GoRef.emit x.pkg (GoRef.valueReference x.base (.list d e)) ++ t!"{}",
      t!"for iterator.ReadArray() {"] (refEffects (GoRef.valueReference x.base (.list d e))) := by
    simp only [listReadHead, runLines_line, runLines_nil, runParts, p1, p5, p6, p7, andThen_some, Option.map_some]
    exact RunsIf.of (by simp only [List.append_nil, List.nil_append]; rfl) (by simp)
  have hr := hh.andThen hr
  rw [← runLines_append _ _ _ _ _ rfl] at hr
  have hu : RunsIf True (runLines (typeEnv x) (listArgs (.list d e)) vs listUnmarshalLines)
      (itemsLines [{
        comment := [
          t!"// " ++ (functionsOf (.list d e)).unmarshal ++ t!" reads a list of values of the '" ++
            (TypesCode.nameOf e).toText ++ t!"' type",
          t!"// from the given source, which can be a slice of bytes, a string or a reader."]
        decl := unmarshalFunc (functionsOf (.list d e)) t!"items"
          (GoRef.emit x.pkg (GoRef.valueReference x.base (.list d e))) }]) [] := by
    simp only [listUnmarshalLines, runLines_line, runLines_nil, runParts, p1, p4, p5, p6, andThen_some,
      Option.map_some]
    refine RunsIf.of rfl ?_
    simp [itemsLines, unmarshalFunc, functionsOf, unmarshalTypeFunc, TypesCode.nameOf, Declaration.lines, Func.header,
      paramsText, resultsText, blockLines, Stmt.lines, argsText, Expr.text, notNil, paren]
  have hr := hu.andThen hr
  rw [← runLines_append _ _ _ _ _ rfl] at hr
  have hr := (RunsIf.of (rfl : runLines (typeEnv x) (listArgs (.list d e)) vs listWriteTail =
    some ([t!"}", t!"stream.WriteArrayEnd()", t!"}"], [])) rfl).andThen hr
  rw [← runLines_append _ _ _ _ _ rfl] at hr
  have hr := RunsIf.line _ _ _ _ _ _ _ _ _ _ p8 hw2 hr
  have hh : RunsIf True (runLines (typeEnv x) (listArgs (.list d e)) vs listWriteHead) [
      t!"// Write" ++ camel d.name ++ t!" writes a list of value of the '" ++ (TypesCode.nameOf e).toText ++
        t!"' type to",
      t!"// the given stream.",
      t!"func Write" ++ camel d.name ++ t!"(list " ++
        GoRef.emit x.pkg (GoRef.valueReference x.base (.list d e)) ++ t!", stream *jsoniter.Stream) {",
      t!"stream.WriteArrayStart()", t!"for i, value := range list {", t!"if i > 0 {", t!"stream.WriteMore()",
      t!"}"] [] := by
    simp only [listWriteHead, runLines_line, runLines_nil, runParts, p1, p3, p6, andThen_some, Option.map_some]
    exact RunsIf.of rfl (by simp)
  have hr := hh.andThen hr
  have hm : RunsIf True (runLines (typeEnv x) (listArgs (.list d e)) vs listMarshalLines)
      (itemsLines [{
        comment := [
          t!"// " ++ (functionsOf (.list d e)).marshal ++ t!" writes a list of values of the '" ++
            (TypesCode.nameOf e).toText ++ t!"' type to",
          t!"// the given writer."]
        decl := marshalFunc (functionsOf (.list d e)) t!"list"
          (GoRef.emit x.pkg (GoRef.valueReference x.base (.list d e))) }]) [] := by
    simp only [listMarshalLines, runLines_line, runLines_nil, runParts, p1, p2, p3, p6, andThen_some,
      Option.map_some]
    refine RunsIf.of rfl ?_
    simp [itemsLines, marshalFunc, functionsOf, marshalTypeFunc, TypesCode.nameOf, Declaration.lines, Func.header,
      paramsText, resultsText, blockLines, Stmt.lines, argsText, Expr.text, notNil, paren]
  obtain ⟨ks, h1, h2⟩ := hm.andThen hr
  rw [h1]
  refine ⟨ks, ?_, fun hm => ?_⟩
  · simp [after, listEffects, refEffects]
  · rw [h2 hm]
    congr 1
    simp [itemsLines, Listing.items, Listing.writeFunc, Listing.readFunc, listingOf, functionsOf, TypesCode.nameOf,
      Declaration.lines, Func.header, paramsText, resultsText, blockLines, blockLines_append, Stmt.lines, argsText,
      Expr.text, paren, intText, natText]

/-! ## References and imports -/

open TypesCode (errorCount errorCount_append errorCount_ref errorCount_flatMap ref_imports imports_foldl keys_nodup)

theorem writeErrors (t : GoRef.Typ) : errorCount (writeEffects t) = 0 := by
  induction t with
  | map d e ih => simpa [writeEffects, errorCount] using ih
  | _ => rfl

theorem readErrors (x : Context) : ∀ (t : GoRef.Typ) (link : Bool),
    errorCount (readEffects x link t) = 0 ↔ ∀ ref, ValueUses x link t ref → ref.errors = 0 := by
  intro t
  induction t with
  | map d e ih =>
    intro link
    rw [readEffects, errorCount, errorCount_append, errorCount_ref, Nat.add_eq_zero_iff, ih]
    constructor
    · rintro ⟨h1, h2⟩ ref hr
      cases hr with
      | map => exact h1
      | element _ _ _ _ h => exact h2 _ h
    · exact fun h => ⟨h _ (.map _ _ _), fun ref hr => h _ (.element _ _ _ _ hr)⟩
  | list d e ih =>
    intro link
    rw [readEffects, errorCount]
    cases link with
    | false =>
      simp only [Bool.false_eq_true, if_false, errorCount, true_iff]
      intro ref hr
      cases hr
    | true =>
      rw [if_pos rfl, errorCount_ref]
      constructor
      · intro h ref hr
        cases hr
        exact h
      · exact fun h => h _ (.link d e)
  | _ =>
    intro link
    simp only [readEffects, errorCount, true_iff]
    intro ref hr
    cases hr

theorem writeImports (t : GoRef.Typ) (p sel : Text) :
    Effect.imports p sel ∈ writeEffects t ↔ sel = [] ∧ (p = t!"sort" ∨ p = t!"time") := by
  induction t with
  | map d e ih =>
    simp only [writeEffects, List.mem_cons, Effect.imports.injEq, ih]
    grind
  | _ =>
    simp only [writeEffects, List.mem_cons, Effect.imports.injEq, List.not_mem_nil]
    grind

theorem readImports (x : Context) (p sel : Text) : ∀ (t : GoRef.Typ) (link : Bool),
    Effect.imports p sel ∈ readEffects x link t ↔ (p = t!"time" ∧ sel = []) ∨
      ∃ ref, ValueUses x link t ref ∧ ref.imprt = p ∧ ref.selector = sel := by
  intro t
  induction t with
  | map d e ih =>
    intro link
    rw [readEffects, List.mem_cons, List.mem_append, ref_imports, ih, Effect.imports.injEq]
    constructor
    · rintro (h | h | h | ⟨ref, h, h'⟩)
      · exact .inl h
      · exact .inr ⟨_, .map _ _ _, h⟩
      · exact .inl h
      · exact .inr ⟨ref, .element _ _ _ _ h, h'⟩
    · rintro (h | ⟨ref, h, h'⟩)
      · exact .inl h
      · cases h with
        | map => exact .inr (.inl h')
        | element _ _ _ _ h => exact .inr (.inr (.inr ⟨ref, h, h'⟩))
  | list d e ih =>
    intro link
    rw [readEffects, List.mem_cons, Effect.imports.injEq]
    cases link with
    | false =>
      simp only [Bool.false_eq_true, if_false, List.not_mem_nil, or_false]
      refine ⟨.inl, ?_⟩
      rintro (h | ⟨ref, h, -⟩)
      · exact h
      · cases h
    | true =>
      rw [if_pos rfl, ref_imports]
      constructor
      · rintro (h | h)
        · exact .inl h
        · exact .inr ⟨_, .link d e, h⟩
      · rintro (h | ⟨ref, h, h'⟩)
        · exact .inl h
        · cases h
          exact .inr h'
  | _ =>
    intro link
    simp only [readEffects, List.mem_singleton, Effect.imports.injEq]
    refine ⟨.inl, ?_⟩
    rintro (h | ⟨ref, h, -⟩)
    · exact h
    · cases h

theorem attribute_mem (c : TypeCell) (o : Obj) :
    o ∈ c.attributes.mapIdx (Obj.attribute c) ↔ ∃ i a, c.attributes[i]? = some a ∧ o = .attribute c i a := by
  constructor
  · exact attributes_obj c o
  · rintro ⟨i, a, hi, rfl⟩
    obtain ⟨hlt, rfl⟩ := List.getElem?_eq_some_iff.mp hi
    exact List.mem_mapIdx.mpr ⟨i, hlt, rfl⟩

theorem structErrors (x : Context) (c : TypeCell) :
    errorCount (structEffects x c) = 0 ↔ ∀ ref, Uses x c ref → ref.errors = 0 := by
  rw [structEffects, errorCount_append, errorCount_append, errorCount_ref, Nat.add_eq_zero_iff, Nat.add_eq_zero_iff,
    errorCount_flatMap, errorCount_flatMap]
  simp only [attribute_mem]
  constructor
  · rintro ⟨h1, -, h2⟩ ref (rfl | ⟨a, ha, hr⟩)
    · exact h1
    · obtain ⟨i, hi⟩ := List.mem_iff_getElem?.mp ha
      exact (readErrors x _ _).mp (h2 _ ⟨i, a, hi, rfl⟩) ref hr
  · intro h
    refine ⟨h _ (.inl rfl), ?_, ?_⟩
    · rintro o ⟨i, a, hi, rfl⟩
      exact writeErrors _
    · rintro o ⟨i, a, hi, rfl⟩
      exact (readErrors x _ _).mpr fun ref hr => h ref (.inr ⟨a, List.mem_of_getElem? hi, hr⟩)

theorem listErrors (x : Context) (d : GoRef.Decl) (e : GoRef.Typ) :
    errorCount (listEffects x d e) = 0 ↔ ∀ ref, ListUses x d e ref → ref.errors = 0 := by
  simp only [listEffects, errorCount_append, errorCount_ref, Nat.add_eq_zero_iff, readErrors, writeErrors, true_and]
  constructor
  · rintro ⟨h1, h2, -, h3⟩ ref (rfl | rfl | h)
    · exact h1
    · exact h2
    · exact h3 _ h
  · exact fun h => ⟨h _ (.inl rfl), h _ (.inr (.inl rfl)), h _ (.inr (.inl rfl)), fun ref hr => h _ (.inr (.inr hr))⟩

/-- The effects of adding some imports. -/
def importEffects (l : List (Text × Text)) : List Effect := l.map fun i => .imports i.1 i.2

theorem imports_effects (l : List (Text × Text)) (b : GoFile.Buffer) :
    Buffer.imports b l = (importEffects l).foldl GoFile.Buffer.effect b := by
  induction l generalizing b with
  | nil => rfl
  | cons i l ih =>
    rw [importEffects, List.map_cons, List.foldl_cons, Buffer.imports, List.foldl_cons]
    exact ih _

theorem import_mem (l : List (Text × Text)) (p sel : Text) :
    Effect.imports p sel ∈ importEffects l ↔ (p, sel) ∈ l := by
  rw [importEffects, List.mem_map]
  constructor
  · rintro ⟨i, hi, h⟩
    cases h
    exact hi
  · exact fun h => ⟨_, h, rfl⟩

theorem importErrors (l : List (Text × Text)) : errorCount (importEffects l) = 0 := by
  induction l with
  | nil => rfl
  | cons i l ih => exact ih

theorem imports_order (fx : List Effect) (pkg : Text) (order : List (Text × Text))
    (ho : order.Perm (fx.foldl GoFile.Buffer.effect { pkg := pkg }).imports) :
    (order.map Prod.fst).Nodup ∧
    (∀ path, path ∈ order.map Prod.fst ↔ path ≠ [] ∧ path ≠ pkg ∧ ∃ sel, Effect.imports path sel ∈ fx) ∧
    ∀ path sel, (path, sel) ∈ order → Effect.imports path sel ∈ fx := by
  have hn := keys_nodup fx { pkg := pkg } List.nodup_nil
  have hf := fun p => imports_foldl p fx { pkg := pkg }
  generalize hm : (fx.foldl GoFile.Buffer.effect { pkg := pkg }).imports = m at ho hn
  simp only [hm] at hf
  have hmem : ∀ p, p ∈ order.map Prod.fst ↔ m.find p ≠ none := by
    intro p
    rw [Ne, GoMap.find_none, Classical.not_not]
    exact (ho.map Prod.fst).mem_iff
  have hstart : ∀ p, GoMap.find ([] : GoMap Text) p = none := fun _ => rfl
  refine ⟨(ho.map Prod.fst).nodup_iff.mpr hn, fun p => ?_, fun p sel hp => ?_⟩
  · rw [hmem]
    constructor
    · intro h
      obtain ⟨sel, hs⟩ := Option.ne_none_iff_exists'.mp h
      rcases (hf p).1 sel hs with h | ⟨h3, h4, h5⟩
      · rw [hstart] at h
        cases h
      · exact ⟨h3, h4, sel, h5⟩
    · rintro ⟨h3, h4, sel, hs⟩ hn
      rcases ((hf _).2 hn).2 sel hs with h | h
      · exact h3 h
      · exact h4 h
  · have hs : m.find p = some sel := GoMap.find_of_mem hn (ho.mem_iff.mp hp)
    rcases (hf p).1 sel hs with h | ⟨h3, h4, h5⟩
    · rw [hstart] at h
      cases h
    · exact h5

theorem structImports (x : Context) (c : TypeCell) (links : List (Text × Text)) (p sel : Text) :
    Effect.imports p sel ∈ importEffects links ++ (importEffects [(t!"fmt", []), (t!"io", []), (t!"time", []),
      (t!"github.com/json-iterator/go", t!"jsoniter"), (Go.helpersImport x.base, [])] ++ structEffects x c) ↔
      Needs x c links p sel := by
  simp only [List.mem_append, import_mem, structEffects, ref_imports, List.mem_flatMap, attribute_mem, Needs]
  constructor
  · rintro (h | h | h | ⟨o, ⟨i, a, hi, rfl⟩, h⟩ | ⟨o, ⟨i, a, hi, rfl⟩, h⟩)
    · exact .inl h
    · exact .inr (.inl h)
    · exact .inr (.inr (.inr ⟨_, .inl rfl, h⟩))
    · have hne : c.attributes ≠ [] := by
        intro h
        rw [h] at hi
        cases hi
      obtain ⟨rfl, rfl | rfl⟩ := (writeImports _ p sel).mp h
      · exact .inr (.inr (.inl ⟨hne, rfl, rfl⟩))
      · exact .inr (.inl (by simp))
    · rcases (readImports x p sel _ _).mp h with ⟨rfl, rfl⟩ | ⟨ref, hr, h⟩
      · exact .inr (.inl (by simp))
      · exact .inr (.inr (.inr ⟨ref, .inr ⟨a, List.mem_of_getElem? hi, hr⟩, h⟩))
  · rintro (h | h | ⟨h, rfl, rfl⟩ | ⟨ref, rfl | ⟨a, ha, hr⟩, h⟩)
    · exact .inl h
    · exact .inr (.inl h)
    · obtain ⟨a, as, h⟩ := List.exists_cons_of_ne_nil h
      exact .inr (.inr (.inr (.inl ⟨.attribute c 0 a, ⟨0, a, by rw [h]; rfl, rfl⟩, (writeImports _ _ _).mpr
        ⟨rfl, .inl rfl⟩⟩)))
    · exact .inr (.inr (.inl h))
    · obtain ⟨i, hi⟩ := List.mem_iff_getElem?.mp ha
      exact .inr (.inr (.inr (.inr ⟨.attribute c i a, ⟨i, a, hi, rfl⟩, (readImports x _ _ _ _).mpr
        (.inr ⟨ref, hr, h⟩)⟩)))

theorem listImports (x : Context) (d : GoRef.Decl) (e : GoRef.Typ) (links : List (Text × Text)) (p sel : Text) :
    Effect.imports p sel ∈ importEffects links ++ (importEffects [(t!"fmt", []), (Go.helpersImport x.base, []),
      (t!"github.com/json-iterator/go", t!"jsoniter")] ++ listEffects x d e) ↔ ListNeeds x d e links p sel := by
  simp only [List.mem_append, import_mem, listEffects, ref_imports, writeImports, readImports, ListNeeds]
  constructor
  · rintro (h | h | h | h | ⟨rfl, rfl | rfl⟩ | h | ⟨rfl, rfl⟩ | ⟨ref, hr, h⟩)
    · exact .inl h
    · exact .inr (.inl (by simp only [List.mem_cons] at h ⊢; grind))
    · exact .inr (.inr ⟨_, .inl rfl, h⟩)
    · exact .inr (.inr ⟨_, .inr (.inl rfl), h⟩)
    · exact .inr (.inl (by simp))
    · exact .inr (.inl (by simp))
    · exact .inr (.inr ⟨_, .inr (.inl rfl), h⟩)
    · exact .inr (.inl (by simp))
    · exact .inr (.inr ⟨_, .inr (.inr hr), h⟩)
  · rintro (h | h | ⟨ref, rfl | rfl | hr, h⟩)
    · exact .inl h
    · simp only [List.mem_cons, List.not_mem_nil, or_false, Prod.mk.injEq] at h ⊢
      grind
    · exact .inr (.inr (.inl h))
    · exact .inr (.inr (.inr (.inl h)))
    · exact .inr (.inr (.inr (.inr (.inr (.inr (.inr ⟨ref, hr, h⟩))))))

end Verif.JsonCode
