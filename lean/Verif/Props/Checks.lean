import Verif.Lemmas.Checks
import Verif.Lemmas.Concepts
import Verif.Props.Resources

/-!
# Properties C11 to C16: rules for methods

`Accepted` says that no error was reported. The rules, in `Spec/Checks.lean`, are the English
rules. The hypothesis on the built-in types is met by every version, see `builtins_present`.
-/

namespace Verif

open Check

/-- The built-in types of the checks are present. -/
def Builtins.Present (b : Builtins) : Prop :=
  b.boolean.isSome = true ∧ b.integer.isSome = true ∧ b.string.isSome = true

/-- A new version has them. -/
theorem builtins_present (heap : Heap) (version : VersionId) :
    (TypeTable.newVersion heap version).builtins.Present := by
  rw [newVersion_eq]
  exact ⟨rfl, rfl, rfl⟩

/-- Adding types never removes them. -/
theorem builtins_present_addType (t : TypeTable) (id : TypeId) (h : t.builtins.Present) :
    (t.addType id).builtins.Present := by
  have key : ∀ n, (t.findType n).isSome = true → ((t.addType id).findType n).isSome = true := by
    intro n hn
    unfold TypeTable.addType TypeTable.findType at *
    split
    · exact hn
    · rw [GoMap.find_insert]
      split <;> simp_all
  exact ⟨key _ h.1, key _ h.2.1, key _ h.2.2⟩

/-- Default values of all the parameters of a method. -/
def DefaultsFit (b : Builtins) (m : Method) : Prop :=
  ∀ p ∈ m.parameters, Rule.DefaultFits b p

theorem accepted_checkMethod (b : Builtins) (hb : b.Present) (m : Method) :
    Accepted (checkMethod b m) ↔
      Accepted (if m.isAdd then checkAdd m
        else if m.isDelete || m.isAsyncDelete then checkDelete m
        else if m.isGet then checkGet m
        else if m.isList then checkList b m
        else if m.isPost then checkPost m
        else if m.isSearch then checkSearch b m
        else if m.isUpdate || m.isAsyncUpdate then checkUpdate m
        else if m.isAction then checkAction m
        else [.error (.unknownCategory m.name)]) ∧ DefaultsFit b m := by
  unfold checkMethod DefaultsFit
  rw [accepted_append, accepted_flatMap]
  simp only [accepted_parameter b hb]

/-! Parameters used in the examples. -/

/-- The built-in types of the examples: pointers zero, two and eight. -/
def exBuiltins : Builtins := { boolean := some 0, integer := some 2, string := some 8 }
/-- An `in` scalar. -/
def exScalar : Parameter :=
  { name := parseUsingCase t!"Force", typ := ⟨0, .scalar⟩, isIn := true, dflt := some (.bool true) }
/-- A struct. -/
def exBody (i o : Bool) : Parameter :=
  { name := Nom.body, typ := ⟨20, .class⟩, isIn := i, isOut := o }
/-- A list. -/
def exItems : Parameter := { name := Nom.items, typ := ⟨21, .list⟩, isOut := true }
/-- Page. -/
def exPage (d : Int) : Parameter :=
  { name := Nom.page, typ := ⟨2, .scalar⟩, isIn := true, isOut := true, dflt := some (.int d) }

/-- The loops of the checks, in terms of the rules. -/
macro "check_simp" : tactic => `(tactic|
  simp only [accepted_append, accepted_forParams, accepted_reportIf, List.mem_filter,
    bne_eq_false_iff_eq, bad_scalar_struct, bad_scalar_list, bad_scalar_struct_list, bad_scalar,
    bad_struct, bad_inOut, bad_onlyIn, bad_onlyIn', bad_onlyOut, bad_onlyOut', bad_scalar_onlyIn,
    bad_name, kind_struct, kind_list, kind_struct_in, kind_struct_list,
    exactlyOne_iff _ _ kind_struct, exactlyOne_iff _ _ kind_list,
    exactlyOne_iff _ _ kind_struct_in, exactlyOne_iff _ _ kind_struct_list, items_isNone,
    and_imp, and_assoc])

/-! ## C11: Add -/

/-- An Add method is accepted if and only if all its parameters are scalars or structs, exactly
one is a struct, that struct is input and output and named `Body`, and default values are of the
type of the parameter. -/
theorem c11_add_accepted_iff (b : Builtins) (hb : b.Present) (m : Method)
    (hm : m.name = Nom.add) :
    Accepted (checkMethod b m) ↔ Rule.Add m ∧ DefaultsFit b m := by
  rw [accepted_checkMethod b hb, if_pos (show m.isAdd = true from (named_iff m _).mpr hm)]
  apply and_congr_left'
  unfold checkAdd
  check_simp
  constructor
  · rintro ⟨h1, h2, h3, h4⟩
    exact ⟨h1, h2, fun p hp hs => ⟨h3 p hp hs, h4 p hp hs⟩⟩
  · rintro ⟨h1, h2, h3⟩
    exact ⟨h1, h2, fun p hp hs => (h3 p hp hs).1, fun p hp hs => (h3 p hp hs).2⟩

/-- Accepted, and rejected because of the direction, the name, a second struct, or a default value
of the wrong type. -/
example :
    Accepted (checkMethod exBuiltins { name := Nom.add, parameters := [exScalar, exBody true true] }) ∧
    ¬ Accepted (checkMethod exBuiltins { name := Nom.add, parameters := [exBody false true] }) ∧
    ¬ Accepted (checkMethod exBuiltins
      { name := Nom.add, parameters := [{ exBody true true with name := Nom.items }] }) ∧
    ¬ Accepted (checkMethod exBuiltins
      { name := Nom.add, parameters := [exBody true true, exBody true true] }) ∧
    ¬ Accepted (checkMethod exBuiltins
      { name := Nom.add, parameters := [{ exScalar with dflt := some (.int 1) }, exBody true true] }) := by
  decide

/-! ## C12: Delete and AsyncDelete -/

/-- A Delete or AsyncDelete method is accepted if and only if all its parameters are scalars, input
only, and default values are of the type of the parameter. -/
theorem c12_delete_accepted_iff (b : Builtins) (hb : b.Present) (m : Method)
    (hm : m.name = Nom.delete ∨ m.name = Nom.asyncDelete) :
    Accepted (checkMethod b m) ↔ Rule.Delete m ∧ DefaultsFit b m := by
  have h1 : (m.isDelete || m.isAsyncDelete) = true := by
    rw [Bool.or_eq_true]
    exact hm.imp (named_iff m _).mpr (named_iff m _).mpr
  have h2 : ¬ m.isAdd = true := by
    rw [show m.isAdd = m.named Nom.add from rfl, named_iff]
    rcases hm with hm | hm <;> rw [hm] <;> decide
  rw [accepted_checkMethod b hb, if_neg h2, if_pos h1]
  apply and_congr_left'
  unfold checkDelete
  check_simp
  exact ⟨fun h => ⟨h.1, h.2⟩, fun h => ⟨h.1, h.2⟩⟩

example :
    Accepted (checkMethod exBuiltins { name := Nom.delete, parameters := [exScalar] }) ∧
    Accepted (checkMethod exBuiltins { name := Nom.asyncDelete, parameters := [exScalar] }) ∧
    ¬ Accepted (checkMethod exBuiltins
      { name := Nom.delete, parameters := [{ exScalar with isOut := true }] }) := by decide

/-! ## C13: Get -/

/-- A Get method is accepted if and only if all its parameters are scalars or structs, exactly one
is a struct, scalars are input only, the struct is output only and named `Body`, and default values
are of the type of the parameter. -/
theorem c13_get_accepted_iff (b : Builtins) (hb : b.Present) (m : Method)
    (hm : m.name = Nom.get) :
    Accepted (checkMethod b m) ↔ Rule.Get m ∧ DefaultsFit b m := by
  have h : ∀ n, m.named n = true ↔ Nom.get = n := by intro n; rw [named_iff, hm]
  rw [accepted_checkMethod b hb]
  simp only [Method.isAdd, Method.isDelete, Method.isAsyncDelete, Method.isGet, Bool.or_eq_true, h]
  rw [if_neg (by decide), if_neg (by decide), if_pos trivial]
  apply and_congr_left'
  unfold checkGet
  check_simp
  constructor
  · rintro ⟨h1, h2, h3, h4, h5⟩
    exact ⟨h1, h2, h3, fun p hp hs => ⟨h4 p hp hs, h5 p hp hs⟩⟩
  · rintro ⟨h1, h2, h3, h4⟩
    exact ⟨h1, h2, h3, fun p hp hs => (h4 p hp hs).1, fun p hp hs => (h4 p hp hs).2⟩

example :
    Accepted (checkMethod exBuiltins { name := Nom.get, parameters := [exScalar, exBody false true] }) ∧
    ¬ Accepted (checkMethod exBuiltins { name := Nom.get, parameters := [exBody true true] }) := by
  decide

/-! ## C14: List -/

/-- A List method is accepted if and only if all its parameters are scalars or lists, exactly one
is a list, it is output only and named `Items`, the parameters `Page`, `Size` and `Total` that are
present are as required, and default values are of the type of the parameter. -/
theorem c14_list_accepted_iff (b : Builtins) (hb : b.Present) (m : Method)
    (hm : m.name = Nom.list) :
    Accepted (checkMethod b m) ↔ Rule.List b m ∧ DefaultsFit b m := by
  have h : ∀ n, m.named n = true ↔ Nom.list = n := by intro n; rw [named_iff, hm]
  rw [accepted_checkMethod b hb]
  simp only [Method.isAdd, Method.isDelete, Method.isAsyncDelete, Method.isGet, Method.isList,
    Bool.or_eq_true, h]
  rw [if_neg (by decide), if_neg (by decide), if_neg (by decide), if_pos trivial]
  apply and_congr_left'
  unfold checkList
  check_simp
  constructor
  · rintro ⟨h1, h2, h3, h4, h5, -, h6, h7⟩
    exact ⟨h1, h2, fun p hp hs => ⟨h6 p hp hs, h7 p hp hs⟩,
      (accepted_paging b m).mp ⟨h3, h4, h5⟩⟩
  · rintro ⟨h1, h2, h3, h4⟩
    obtain ⟨h5, h6, h7⟩ := (accepted_paging b m).mpr h4
    obtain ⟨p, hp, hl⟩ := exactlyOne_mem h2
    exact ⟨h1, h2, h5, h6, h7, ⟨p, hp, (h3 p hp hl).2⟩, fun p hp hs => (h3 p hp hs).1,
      fun p hp hs => (h3 p hp hs).2⟩

/-- The absence of `Page`, `Size` or `Total` only produces a warning. -/
theorem c14_absent_paging_warns (b : Builtins) (m : Method) (name : Name) (dflt : Int)
    (h : ∀ p ∈ m.parameters, p.name ≠ name) :
    requestParameter b m name dflt = [.warning (.missing m.name name)] ∧
    responseParameter b m name = [.warning (.missing m.name name)] := by
  have := (getParameter_none m name).mpr h
  simp [requestParameter, responseParameter, this]

example :
    Accepted (checkMethod exBuiltins { name := Nom.list, parameters := [exItems, exPage 1] }) ∧
    ¬ Accepted (checkMethod exBuiltins { name := Nom.list, parameters := [exItems, exPage 2] }) ∧
    ¬ Accepted (checkMethod exBuiltins { name := Nom.list, parameters := [exPage 1] }) := by decide

/-! ## C15: Search and Post -/

/-- A Search method is accepted if and only if outputs are scalars or lists, inputs are scalars or
structs, there is exactly one list, output only and named `Items`, exactly one input struct, input
only and named `Body`, paging parameters are as required, and default values are of the type of the
parameter. -/
theorem c15_search_accepted_iff (b : Builtins) (hb : b.Present) (m : Method)
    (hm : m.name = Nom.search) :
    Accepted (checkMethod b m) ↔ Rule.Search b m ∧ DefaultsFit b m := by
  have h : ∀ n, m.named n = true ↔ Nom.search = n := by intro n; rw [named_iff, hm]
  rw [accepted_checkMethod b hb]
  simp only [Method.isAdd, Method.isDelete, Method.isAsyncDelete, Method.isGet, Method.isList,
    Method.isPost, Method.isSearch, Bool.or_eq_true, h]
  rw [if_neg (by decide), if_neg (by decide), if_neg (by decide), if_neg (by decide),
    if_neg (by decide), if_pos trivial]
  apply and_congr_left'
  unfold checkSearch
  check_simp
  constructor
  · rintro ⟨h1, h2, h3, h4, h5, h6, -, h7, h8, h9, h10, h11⟩
    exact ⟨h1, h2, h3, fun p hp hs => ⟨h7 p hp hs, h8 p hp hs⟩, h9,
      fun p hp hs hi => ⟨h10 p hp hs hi, h11 p hp hs hi⟩, (accepted_paging b m).mp ⟨h4, h5, h6⟩⟩
  · rintro ⟨h1, h2, h3, h4, h5, h6, h7⟩
    obtain ⟨p1, p2, p3⟩ := (accepted_paging b m).mpr h7
    obtain ⟨p, hp, hl⟩ := exactlyOne_mem h3
    exact ⟨h1, h2, h3, p1, p2, p3, ⟨p, hp, (h4 p hp hl).2⟩, fun p hp hs => (h4 p hp hs).1,
      fun p hp hs => (h4 p hp hs).2, h5, fun p hp hs hi => (h6 p hp hs hi).1,
      fun p hp hs hi => (h6 p hp hs hi).2⟩

/-- A Post method is accepted if and only if it has at most one input, exactly one output, all of
them are structs, and default values are of the type of the parameter. -/
theorem c15_post_accepted_iff (b : Builtins) (hb : b.Present) (m : Method)
    (hm : m.name = Nom.post) :
    Accepted (checkMethod b m) ↔ Rule.Post m ∧ DefaultsFit b m := by
  have h : ∀ n, m.named n = true ↔ Nom.post = n := by intro n; rw [named_iff, hm]
  rw [accepted_checkMethod b hb]
  simp only [Method.isAdd, Method.isDelete, Method.isAsyncDelete, Method.isGet, Method.isList,
    Method.isPost, Bool.or_eq_true, h]
  rw [if_neg (by decide), if_neg (by decide), if_neg (by decide), if_neg (by decide), if_pos trivial]
  apply and_congr_left'
  unfold checkPost
  check_simp
  rw [exactlyOne_iff (fun p : Parameter => p.isOut) _ (fun _ => Iff.rfl), decide_eq_false_iff_not,
    Nat.not_lt, atMostOne_iff]
  constructor
  · rintro ⟨h1, h2, h3, h4⟩
    exact ⟨h1, h3, fun p hp => fun
      | .inl hi => h2 p hp hi
      | .inr ho => h4 p hp ho⟩
  · rintro ⟨h1, h2, h3⟩
    exact ⟨h1, fun p hp hi => h3 p hp (.inl hi), h2, fun p hp ho => h3 p hp (.inr ho)⟩

example :
    Accepted (checkMethod exBuiltins
      { name := Nom.search, parameters := [exBody true false, exItems, exPage 1] }) ∧
    ¬ Accepted (checkMethod exBuiltins { name := Nom.search, parameters := [exItems, exPage 1] }) ∧
    Accepted (checkMethod exBuiltins
      { name := Nom.post, parameters := [exBody true false, exBody false true] }) ∧
    Accepted (checkMethod exBuiltins { name := Nom.post, parameters := [exBody true true] }) ∧
    ¬ Accepted (checkMethod exBuiltins { name := Nom.post, parameters := [] }) := by decide

/-! ## C16: Update and AsyncUpdate -/

/-- An Update or AsyncUpdate method is accepted if and only if all its parameters are scalars,
structs or lists, exactly one is a struct or a list, it is input and output and named `Body`,
scalars are input only, and default values are of the type of the parameter. -/
theorem c16_update_accepted_iff (b : Builtins) (hb : b.Present) (m : Method)
    (hm : m.name = Nom.update ∨ m.name = Nom.asyncUpdate) :
    Accepted (checkMethod b m) ↔ Rule.Update m ∧ DefaultsFit b m := by
  rw [accepted_checkMethod b hb]
  have e : (if m.isAdd then checkAdd m
        else if m.isDelete || m.isAsyncDelete then checkDelete m
        else if m.isGet then checkGet m
        else if m.isList then checkList b m
        else if m.isPost then checkPost m
        else if m.isSearch then checkSearch b m
        else if m.isUpdate || m.isAsyncUpdate then checkUpdate m
        else if m.isAction then checkAction m
        else [.error (.unknownCategory m.name)]) = checkUpdate m := by
    rcases hm with hm | hm
    · have h : ∀ n, m.named n = true ↔ Nom.update = n := by intro n; rw [named_iff, hm]
      simp only [Method.isAdd, Method.isDelete, Method.isAsyncDelete, Method.isGet, Method.isList,
        Method.isPost, Method.isSearch, Method.isUpdate, Bool.or_eq_true, h]
      rw [if_neg (by decide), if_neg (by decide), if_neg (by decide), if_neg (by decide),
        if_neg (by decide), if_neg (by decide), if_pos (by simp)]
    · have h : ∀ n, m.named n = true ↔ Nom.asyncUpdate = n := by intro n; rw [named_iff, hm]
      simp only [Method.isAdd, Method.isDelete, Method.isAsyncDelete, Method.isGet, Method.isList,
        Method.isPost, Method.isSearch, Method.isUpdate, Method.isAsyncUpdate, Bool.or_eq_true, h]
      rw [if_neg (by decide), if_neg (by decide), if_neg (by decide), if_neg (by decide),
        if_neg (by decide), if_neg (by decide), if_pos (by simp)]
  rw [e]
  apply and_congr_left'
  unfold checkUpdate
  check_simp
  constructor
  · rintro ⟨h1, h2, h3, h4, h5⟩
    exact ⟨h1, h2, h3, fun p hp hs => ⟨h4 p hp hs, h5 p hp hs⟩⟩
  · rintro ⟨h1, h2, h3, h4⟩
    exact ⟨h1, h2, h3, fun p hp hs => (h4 p hp hs).1, fun p hp hs => (h4 p hp hs).2⟩

/-- Actions are accepted whatever their parameters, as long as default values fit, and there is
no method of unknown category. -/
theorem c16_action_accepted_iff (b : Builtins) (hb : b.Present) (m : Method)
    (hm : m.name ∉ [Nom.add, Nom.delete, Nom.asyncDelete, Nom.get, Nom.list, Nom.post, Nom.search,
      Nom.update, Nom.asyncUpdate]) :
    Accepted (checkMethod b m) ↔ DefaultsFit b m := by
  simp only [List.mem_cons, List.not_mem_nil, or_false, not_or] at hm
  obtain ⟨h1, h2, h3, h4, h5, h6, h7, h8, h9⟩ := hm
  rw [accepted_checkMethod b hb]
  simp only [Method.isAction, Method.isAdd, Method.isDelete, Method.isAsyncDelete, Method.isGet,
    Method.isList, Method.isPost, Method.isSearch, Method.isUpdate, Method.isAsyncUpdate,
    Bool.or_eq_true, named_iff, h1, h2, h3, h4, h5, h6, h7, h8, h9, if_false, or_self,
    checkAction, accepted_nil, true_and, if_true]

example :
    Accepted (checkMethod exBuiltins { name := Nom.update, parameters := [exScalar, exBody true true] }) ∧
    Accepted (checkMethod exBuiltins
      { name := Nom.asyncUpdate, parameters := [{ exItems with name := Nom.body, isIn := true }] }) ∧
    ¬ Accepted (checkMethod exBuiltins { name := Nom.update, parameters := [exScalar] }) ∧
    Accepted (checkMethod exBuiltins
      { name := parseUsingCase t!"Hibernate", parameters := [exScalar, exItems] }) := by decide

/-! ## C61 and C62: versions and models -/

/-- The checks of a version with a root always finish, and report no error if and only if all the
methods of all its resources are accepted and no chain of locators from the root visits the same
resource twice. -/
theorem c62_version_accepted_iff (g : Graph) (hw : WellFormed g) (v : VersionView) (root : ResId)
    (hr : v.root = some root) (hv : ∀ r ∈ v.resources, r < g.length) :
    ∃ messages, (∀ fuel, g.length ≤ fuel → checkVersion g fuel v = .done messages) ∧
      (Accepted messages ↔
        (∀ r ∈ v.resources, ∀ resource, g[r]? = some resource →
          ∀ m ∈ resource.methods, Accepted (checkMethod v.builtins m)) ∧
        ¬ HasLoop g root) := by
  obtain ⟨reports, h1, h2, -⟩ := c09_loops_reported_iff hw root
  refine ⟨reportIf false .noRoot ++ (v.resources.flatMap fun r =>
      match g[r]? with
      | none => []
      | some resource => checkResource v.builtins resource) ++
      reports.map fun l => .error (.loop l),
    fun fuel hf => by unfold checkVersion; rw [hr, h1 fuel hf]; rfl, ?_⟩
  rw [accepted_append, accepted_append, accepted_reportIf, accepted_flatMap]
  have e1 : Accepted (reports.map fun l => Message.error (.loop l)) ↔ ¬ HasLoop g root := by
    rw [← h2, Decidable.not_not]
    constructor
    · intro h
      cases reports with
      | nil => rfl
      | cons a as => exact absurd (by simp) (h (.loop a))
    · rintro rfl; exact accepted_nil
  rw [e1]
  simp only [true_and]
  apply and_congr_left'
  constructor
  · intro h r hr resource hg m hm
    have := h r hr
    rw [hg] at this
    exact (accepted_flatMap _ _).mp this m hm
  · intro h r hr
    have hlt := hv r hr
    rw [List.getElem?_eq_getElem hlt]
    exact (accepted_flatMap _ _).mpr fun m hm =>
      h r hr g[r] (List.getElem?_eq_getElem hlt) m hm

example : (checkVersion exGraph 10 { builtins := exBuiltins, root := some 0, resources := [0, 1, 3] } =
    .done []) ∧ WellFormed exGraph := ⟨by decide, exGraph_wellFormed⟩

/-- Checking a model stops at nothing: all versions are checked, and the model is accepted if and
only if each of them is. -/
theorem c62_model_accepted_iff (g : Graph) (fuel : Nat) (vs : List VersionView)
    (messages : List Message) (h : checkModel g fuel vs = .done messages) :
    Accepted messages ↔ ∀ v ∈ vs, ∃ ms, checkVersion g fuel v = .done ms ∧ Accepted ms := by
  induction vs generalizing messages with
  | nil => cases h; simp [accepted_nil]
  | cons v vs ih =>
    obtain ⟨a, ha, h⟩ := Run.bind_done h
    obtain ⟨b, hb, h⟩ := Run.bind_done h
    cases h
    rw [accepted_append, ih b hb]
    constructor
    · rintro ⟨h1, h2⟩ w hw
      rcases List.mem_cons.mp hw with rfl | hw
      · exact ⟨a, ha, h1⟩
      · exact h2 w hw
    · intro h
      refine ⟨?_, fun w hw => h w (by simp [hw])⟩
      obtain ⟨ms, h1, h2⟩ := h v (by simp)
      rw [ha] at h1
      cases h1
      exact h2

/-- A version without root makes the reader crash: the error about the missing root is sent, and
then the check of the loops dereferences the nil root. -/
theorem c61_no_root_panics (g : Graph) (fuel : Nat) (v : VersionView) (h : v.root = none) :
    checkVersion g fuel v = .panic := by
  unfold checkVersion checkLocatorLoops
  rw [h]
  rfl

/-- So it isn't true that the checks of a version always finish. -/
theorem c61_checks_finish_refuted :
    ¬ ∀ (g : Graph), WellFormed g → ∀ v : VersionView, (∀ r ∈ v.resources, r < g.length) →
      ∃ fuel messages, checkVersion g fuel v = .done messages := by
  intro h
  obtain ⟨fuel, ms, hm⟩ := h exGraph exGraph_wellFormed
    { builtins := exBuiltins, root := none, resources := [1] } (by decide)
  rw [c61_no_root_panics _ _ _ rfl] at hm
  cases hm

/-- The version of `exGraph` where the target of the only locator of the root is missing: the error
reported by the reader is followed by a crash in the checks. -/
theorem c61_no_target_panics (g : Graph) (fuel : Nat) (v : VersionView) (root : ResId)
    (l : Locator) (ls : List Locator)
    (hr : v.root = some root) (hl : g.locators root = l :: ls) (ht : l.target = none) :
    checkVersion g (fuel + 1) v = .panic := by
  have : findLoop none [l] = none := by simp [findLoop]
  unfold checkVersion checkLocatorLoops
  rw [hr]
  simp only [hl, forEach, checkPathLoops, this, ht, Run.bind]

/-- With a root the checks always finish. -/
theorem c61_checks_finish_partial (g : Graph) (hw : WellFormed g) (v : VersionView)
    (h : v.root.isSome = true) :
    ∃ messages, ∀ fuel, g.length ≤ fuel → checkVersion g fuel v = .done messages := by
  obtain ⟨root, hr⟩ := Option.isSome_iff_exists.mp h
  obtain ⟨reports, h1, -⟩ := c09_loops_reported_iff hw root
  exact ⟨_, fun fuel hf => by unfold checkVersion; rw [hr, h1 fuel hf]; rfl⟩

end Verif
