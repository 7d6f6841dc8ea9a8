import Verif.Lemmas.Reporter
import Verif.Props.Checks
import Verif.Props.GoNames

/-!
# Property C80: messages

What is written to the two streams, how elements are named in the messages, and which messages are
reported by the checks. The flaws that the checks should report are in `Spec/Reporter.lean`.
-/

namespace Verif

namespace Report

/-! ## The streams and the counter -/

theorem calls_eq (cs : List Call) : ∀ r : Reporter,
    calls r cs = { out := r.out ++ cs.flatMap outLine, err := r.err ++ cs.flatMap errorLine,
                   errors := r.errors + (cs.filter fun c => match c with
                     | .error _ _ => true | _ => false).length } := by
  induction cs with
  | nil => intro r; simp [calls]
  | cons c cs ih =>
    intro r
    show calls (call r c) cs = _
    rw [ih]
    cases c <;>
      simp [call, infof, warnf, errorf, outLine, errorLine, infoPrefix, warnPrefix, errorPrefix,
        List.append_assoc, Nat.add_assoc, Nat.add_comm 1]

/-- Every error is a line of the error stream, every other message is a line of the output stream,
both in the order of the calls. -/
theorem c80_streams (cs : List Call) :
    (calls new cs).err = cs.flatMap errorLine ∧ (calls new cs).out = cs.flatMap outLine := by
  rw [calls_eq]
  exact ⟨rfl, rfl⟩

/-- The number of errors is the number of times that an error was reported, whatever the order. -/
theorem c80_errors (cs : List Call) :
    Counts (fun c => ∃ f as, c = Call.error f as) cs (calls new cs).errors := by
  rw [calls_eq, counts_iff (fun c => match c with | .error _ _ => true | _ => false)]
  · exact Nat.zero_add _
  · intro c
    cases c <;> simp

/-- In particular it is zero if and only if no error was reported. -/
theorem c80_no_errors_iff (cs : List Call) :
    (calls new cs).errors = 0 ↔ ∀ f as, Call.error f as ∉ cs := by
  rw [calls_eq]
  show 0 + _ = 0 ↔ _
  rw [Nat.zero_add, List.length_eq_zero_iff, List.filter_eq_nil_iff]
  constructor
  · intro h f as hm
    exact h _ hm rfl
  · intro h c hc
    cases c with
    | error f as => exact absurd hc (h f as)
    | _ => simp

/-- The error returned is the text that has been written. -/
theorem c80_returned (r : Reporter) (f : Text) (as : List Arg) :
    (errorf r f as).1.err = r.err ++ t!"\x1b[0;31mE:\x1b[m " ++ (errorf r f as).2 ++ t!"\n" := rfl

set_option maxRecDepth 4000 in
example :
    calls new [.info t!"Loading %s" [.text t!"a"], .error t!"Bad %s" [.name (parseUsingCase t!"MyType")],
        .warn t!"Hm" [], .error t!"Worse" []] =
      { out := t!"\x1b[0;32mI:\x1b[m Loading a\n\x1b[0;33mW:\x1b[m Hm\n"
        err := t!"\x1b[0;31mE:\x1b[m Bad MyType\n\x1b[0;31mE:\x1b[m Worse\n"
        errors := 2 } := by decide

/-! ## Formats and names -/

theorem intercalate_inj (c : Char) : ∀ (a b : List Text), (∀ x ∈ a, c ∉ x) → (∀ x ∈ b, c ∉ x) →
    a.length = b.length → List.intercalate [c] a = List.intercalate [c] b → a = b
  | [], [], _, _, _, _ => rfl
  | [x], [y], _, _, _, h => by simpa [List.intercalate] using h
  | x :: x' :: a, y :: y' :: b, ha, hb, hl, h => by
    have h' : x ++ c :: List.intercalate [c] (x' :: a) =
        y ++ c :: List.intercalate [c] (y' :: b) := by
      simpa [List.intercalate, List.intersperse] using h
    obtain ⟨h1, h2⟩ := append_sep_inj (ha x List.mem_cons_self) (hb y List.mem_cons_self) h'
    rw [h1, intercalate_inj c (x' :: a) (y' :: b) (fun z hz => ha z (List.mem_cons_of_mem _ hz))
      (fun z hz => hb z (List.mem_cons_of_mem _ hz)) (by simpa using hl) h2]

theorem sprintf_text (t : Text) (h : '%' ∉ t) (rest : Text) (as : List Text) :
    sprintf (t ++ rest) as = t ++ sprintf rest as := by
  induction t with
  | nil => rfl
  | cons c t ih =>
    have hc : c ≠ '%' := fun e => h (e ▸ List.mem_cons_self)
    rw [List.cons_append, List.cons_append, ← ih (fun hm => h (List.mem_cons_of_mem _ hm))]
    rw [sprintf]
    · intro _ _ _ _ e _
      exact hc e
    · intro _ _ e _
      exact hc e

theorem sprintf_end (t : Text) (h : '%' ∉ t) (as : List Text) :
    sprintf t as = t ++ sprintf [] as := by
  have := sprintf_text t h [] as
  rwa [List.append_nil] at this

theorem sprintf_missing (pieces : List Text) : ∀ (first : Text), '%' ∉ first →
    (∀ p ∈ pieces, '%' ∉ p) →
    sprintf (interleave first (pieces.map fun p => (t!"%s", p))) [] =
      interleave first (pieces.map fun p => (t!"%!s(MISSING)", p)) := by
  induction pieces with
  | nil =>
    intro first h _
    simpa [interleave, sprintf] using sprintf_end first h []
  | cons p pieces ih =>
    intro first h hp
    show sprintf (first ++ t!"%s" ++ interleave p _) [] =
      first ++ t!"%!s(MISSING)" ++ interleave p _
    rw [List.append_assoc, sprintf_text first h, List.append_assoc]
    show first ++ (t!"%!s(MISSING)" ++ sprintf (interleave p _) _) = _
    rw [ih p (hp p List.mem_cons_self) (fun q hq => hp q (List.mem_cons_of_mem _ hq))]

theorem sprintf_interleave (tail : List Text) (pieces : List (Text × Text)) :
    ∀ (first : Text), '%' ∉ first → (∀ p ∈ pieces, '%' ∉ p.2) →
    sprintf (interleave first (pieces.map fun p => (t!"%s", p.2)))
        ((pieces.map fun p => p.1) ++ tail) =
      interleave first pieces ++ sprintf [] tail := by
  induction pieces with
  | nil =>
    intro first h _
    exact sprintf_end first h tail
  | cons p pieces ih =>
    intro first h hp
    show sprintf (first ++ t!"%s" ++ interleave p.2 _) (p.1 :: _) =
      first ++ p.1 ++ interleave p.2 _ ++ _
    rw [List.append_assoc, sprintf_text first h, List.append_assoc, List.append_assoc]
    show first ++ (p.1 ++ sprintf (interleave p.2 _) _) = _
    have := ih p.2 (hp p List.mem_cons_self) (fun q hq => hp q (List.mem_cons_of_mem _ hq))
    simp only [List.append_eq, List.map_cons, List.append_assoc] at this ⊢
    rw [this]

theorem extras_eq : ∀ as : List Text,
    extras as = List.intercalate t!", " (as.map fun a => t!"string=" ++ a)
  | [] => rfl
  | [a] => by simp [extras, List.intercalate]
  | a :: b :: as => by
    rw [extras, extras_eq (b :: as)]
    simp [List.intercalate, List.intersperse]

/-- A format with as many `%s` as arguments is written with each of them replaced by the text of its
argument, in order, and with the rest of the format unchanged. -/
theorem c80_format (first : Text) (pieces : List (Arg × Text)) (hf : '%' ∉ first)
    (hp : ∀ p ∈ pieces, '%' ∉ p.2) :
    printf (interleave first (pieces.map fun p => (t!"%s", p.2))) (pieces.map fun p => p.1) =
      interleave first (pieces.map fun p => (argText p.1, p.2)) := by
  have := sprintf_interleave [] (pieces.map fun p => (argText p.1, p.2)) first hf (by
    intro p hm
    obtain ⟨q, hq, rfl⟩ := List.mem_map.mp hm
    exact hp q hq)
  simpa [printf, sprintf, List.map_map, Function.comp_def] using this

/-- Arguments without a `%s` aren't lost: they are added at the end. -/
theorem c80_extra (first : Text) (pieces : List (Arg × Text)) (tail : List Arg) (hf : '%' ∉ first)
    (hp : ∀ p ∈ pieces, '%' ∉ p.2) (ht : tail ≠ []) :
    printf (interleave first (pieces.map fun p => (t!"%s", p.2)))
        ((pieces.map fun p => p.1) ++ tail) =
      interleave first (pieces.map fun p => (argText p.1, p.2)) ++ t!"%!(EXTRA " ++
        List.intercalate t!", " (tail.map fun a => t!"string=" ++ argText a) ++ t!")" := by
  have := sprintf_interleave (tail.map argText) (pieces.map fun p => (argText p.1, p.2)) first hf (by
    intro p hm
    obtain ⟨q, hq, rfl⟩ := List.mem_map.mp hm
    exact hp q hq)
  cases tail with
  | nil => exact absurd rfl ht
  | cons a tail =>
    have e := extras_eq ((a :: tail).map argText)
    simp only [List.map_map, Function.comp_def] at e this
    simp only [printf, List.map_append, List.map_map, Function.comp_def]
    rw [this, List.map_cons, sprintf, ← List.map_cons, e]
    simp only [List.append_assoc]

/-- A `%s` without an argument is marked. -/
theorem c80_missing (first : Text) (pieces : List Text) (hf : '%' ∉ first)
    (hp : ∀ p ∈ pieces, '%' ∉ p) :
    printf (interleave first (pieces.map fun p => (t!"%s", p))) [] =
      interleave first (pieces.map fun p => (t!"%!s(MISSING)", p)) :=
  sprintf_missing pieces first hf hp

example : printf t!"Type of %s should be %s" [.method (parseUsingCase t!"A")
    (parseUsingCase t!"V1") (parseUsingCase t!"Root") (parseUsingCase t!"Get"),
    .text t!"x"] = t!"Type of A.V1.Root.Get should be x" := by decide

/-- The arguments written with the names of their owners: all the elements but the types. -/
def qualified : Arg → Prop
  | .type _ _ _ _ => False
  | .text _ => False
  | _ => True

/-- Elements other than types are written with the names of all their owners. -/
theorem c80_qualified (a : Arg) (h : qualified a) : argText a = fullName (namesOf a) := by
  have key : ∀ ns, fqn ns = fullName ns := fun ns => joinText_eq_intercalate ['.'] _
  cases a with
  | type => exact h.elim
  | text => exact h.elim
  | name n => simp [argText, fullName, namesOf, List.intercalate]
  | _ => exact key _

/-- So the text tells elements of the same depth apart, as far as their names differ in camel case. -/
theorem c80_distinct_iff (ns ms : List Name) (hl : ns.length = ms.length)
    (hn : ∀ n ∈ ns, '.' ∉ n.camel) (hm : ∀ n ∈ ms, '.' ∉ n.camel) :
    fullName ns = fullName ms ↔ ns.map Name.camel = ms.map Name.camel := by
  constructor
  · exact fun h => intercalate_inj '.' _ _ (by simpa using hn) (by simpa using hm)
      (by simpa using hl) h
  · intro h
    unfold fullName
    rw [h]

/-- Types should be written with the names of their version and their service, at least when they
aren't scalars. They never are: the condition of the code is met by all the kinds of types. -/
theorem c80_types_refuted (k : Kind) (s v t : Name) : argText (.type k s v t) = t.camel := by
  cases k <;> rfl

/-- Two classes of the same name, of different services, are written in the same way. -/
theorem c80_types_collide_refuted :
    ∃ a b : Arg, namesOf a ≠ namesOf b ∧ (∃ s v t, a = .type .class s v t) ∧
      (∃ s v t, b = .type .class s v t) ∧ argText a = argText b :=
  ⟨.type .class (parseUsingCase t!"A") (parseUsingCase t!"V1") (parseUsingCase t!"X"),
    .type .class (parseUsingCase t!"B") (parseUsingCase t!"V1") (parseUsingCase t!"X"),
    by decide, ⟨_, _, _, rfl⟩, ⟨_, _, _, rfl⟩, rfl⟩

end Report

open Check

/-! ## Messages of the checks -/

theorem error_mem_method (b : Builtins) (hb : b.Present) (m : Method) (pr : Problem)
    (category : List Message)
    (h : checkMethod b m = category ++ m.parameters.flatMap (checkParameter b)) :
    Message.error pr ∈ checkMethod b m ↔ Message.error pr ∈ category ∨ Flaw.Default b m pr := by
  rw [h, List.mem_append, error_mem_defaults b hb]

/-- The category of a method of the given name. -/
macro "category" m:term "," hm:term : tactic => `(tactic|
  (have h : ∀ n, Method.named $m n = true ↔ ($m).name = n := fun n => named_iff $m n
   unfold checkMethod
   simp only [Method.isAdd, Method.isDelete, Method.isAsyncDelete, Method.isGet, Method.isList,
     Method.isPost, Method.isSearch, Method.isUpdate, Method.isAsyncUpdate, Bool.or_eq_true, h,
     $hm:term]
   simp (decide := true) only [if_true, if_false]))

/-- The errors reported for an Add method are its flaws: each message names a parameter that has the
flaw, or the right number of structs, and no flaw goes without a message. -/
theorem c80_add_reports_iff (b : Builtins) (hb : b.Present) (m : Method) (hm : m.name = Nom.add)
    (pr : Problem) :
    Message.error pr ∈ checkMethod b m ↔ Flaw.Add m pr ∨ Flaw.Default b m pr := by
  rw [error_mem_method b hb m pr (checkAdd m) (by category m, hm), flaws_add]

/-- The same for Get. -/
theorem c80_get_reports_iff (b : Builtins) (hb : b.Present) (m : Method) (hm : m.name = Nom.get)
    (pr : Problem) :
    Message.error pr ∈ checkMethod b m ↔ Flaw.Get m pr ∨ Flaw.Default b m pr := by
  rw [error_mem_method b hb m pr (checkGet m) (by category m, hm), flaws_get]

/-- The same for List. -/
theorem c80_list_reports_iff (b : Builtins) (hb : b.Present) (m : Method) (hm : m.name = Nom.list)
    (pr : Problem) :
    Message.error pr ∈ checkMethod b m ↔
      (Flaw.List m pr ∨ Flaw.Paging b m pr) ∨ Flaw.Default b m pr := by
  rw [error_mem_method b hb m pr (checkList b m) (by category m, hm), flaws_list]

/-- The same for Post. -/
theorem c80_post_reports_iff (b : Builtins) (hb : b.Present) (m : Method) (hm : m.name = Nom.post)
    (pr : Problem) :
    Message.error pr ∈ checkMethod b m ↔ Flaw.Post m pr ∨ Flaw.Default b m pr := by
  rw [error_mem_method b hb m pr (checkPost m) (by category m, hm), flaws_post]

/-- The same for Search. -/
theorem c80_search_reports_iff (b : Builtins) (hb : b.Present) (m : Method)
    (hm : m.name = Nom.search) (pr : Problem) :
    Message.error pr ∈ checkMethod b m ↔
      (Flaw.Search m pr ∨ Flaw.Paging b m pr) ∨ Flaw.Default b m pr := by
  rw [error_mem_method b hb m pr (checkSearch b m) (by category m, hm), flaws_search]

/-- The same for Update and AsyncUpdate. -/
theorem c80_update_reports_iff (b : Builtins) (hb : b.Present) (m : Method)
    (hm : m.name = Nom.update ∨ m.name = Nom.asyncUpdate) (pr : Problem) :
    Message.error pr ∈ checkMethod b m ↔ Flaw.Update m pr ∨ Flaw.Default b m pr := by
  rw [error_mem_method b hb m pr (checkUpdate m)
    (by rcases hm with hm | hm <;> category m, hm), flaws_update]

/-- The same for Delete and AsyncDelete, but the message about the type of a parameter doesn't name
the parameter: it names the method. -/
theorem c80_delete_reports_iff_partial (b : Builtins) (hb : b.Present) (m : Method)
    (hm : m.name = Nom.delete ∨ m.name = Nom.asyncDelete) (pr : Problem) :
    Message.error pr ∈ checkMethod b m ↔
      ((∃ p ∈ m.parameters, ¬ Rule.Scalar p ∧ pr = .wrongType m.name p.typ.kind) ∨
       (∃ p ∈ m.parameters, ¬ Rule.OnlyIn p ∧ pr = .wrongDirection p.name)) ∨
      Flaw.Default b m pr := by
  rw [error_mem_method b hb m pr (checkDelete m)
    (by rcases hm with hm | hm <;> category m, hm), flaws_delete]

/-- So the statement for Delete is false. -/
theorem c80_delete_refuted :
    ¬ ∀ (b : Builtins) (m : Method) (pr : Problem), b.Present → m.name = Nom.delete →
      (Message.error pr ∈ checkMethod b m ↔ Flaw.Delete m pr ∨ Flaw.Default b m pr) := by
  intro h
  have h1 := (h exBuiltins { name := Nom.delete, parameters := [exBody true false] }
    (.wrongType Nom.delete .class) ⟨rfl, rfl, rfl⟩ rfl).mp (by decide)
  rcases h1 with ⟨p, hp, hn, -⟩ | h1
  · cases hp with
    | head => revert hn; decide
    | tail _ hp => cases hp
  · exact h1

/-- A method whose name is none of those is an action, or is of no category: no message about its
parameters but those about default values. -/
theorem c80_action_reports_iff (b : Builtins) (hb : b.Present) (m : Method)
    (hm : m.name ∉ [Nom.add, Nom.delete, Nom.asyncDelete, Nom.get, Nom.list, Nom.post, Nom.search,
      Nom.update, Nom.asyncUpdate]) (pr : Problem) :
    Message.error pr ∈ checkMethod b m ↔ Flaw.Default b m pr := by
  have h : ∀ n, Method.named m n = true ↔ m.name = n := fun n => named_iff m n
  simp only [List.mem_cons, List.not_mem_nil, or_false, not_or] at hm
  obtain ⟨h1, h2, h3, h4, h5, h6, h7, h8, h9⟩ := hm
  have e : checkMethod b m = [] ++ m.parameters.flatMap (checkParameter b) := by
    unfold checkMethod
    have ha : m.isAction = true := by
      have hf : ∀ n, m.name ≠ n → m.named n = false := fun n hn => by
        rw [← Bool.not_eq_true, h]; exact hn
      simp [Method.isAction, Method.isAdd, Method.isDelete, Method.isAsyncDelete, Method.isGet,
        Method.isList, Method.isPost, Method.isSearch, Method.isUpdate, Method.isAsyncUpdate, hf,
        h1, h2, h3, h4, h5, h6, h7, h8, h9]
    simp only [Method.isAdd, Method.isDelete, Method.isAsyncDelete, Method.isGet, Method.isList,
      Method.isPost, Method.isSearch, Method.isUpdate, Method.isAsyncUpdate, Bool.or_eq_true, h,
      h1, h2, h3, h4, h5, h6, h7, h8, h9, or_self, if_false]
    rw [if_pos ha]
    rfl
  rw [error_mem_method b hb m pr [] e]
  simp

/-- Two structs in an Add method, one of them with the wrong name and direction: one message for the
number, one for the name and one for the direction. -/
example :
    checkMethod exBuiltins { name := Nom.add, parameters :=
        [exBody true true, { exBody true false with name := Nom.items }] } =
      [.error (.wrongCount Nom.add 2), .error (.wrongDirection Nom.items),
        .error (.wrongName Nom.items)] := by decide

end Verif
