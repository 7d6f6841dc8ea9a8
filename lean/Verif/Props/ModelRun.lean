import Verif.Lemmas.ModelRun
import Verif.Lemmas.FieldTypes
import Verif.Lemmas.Accept
import Verif.Props.BuildersCopy
import Verif.Props.TypesRun
import Verif.Props.Whole

/-!
# The generated program of a model

**C94.** The generated Go code of the types of every model that is read is code like the one that the properties
C90, C92 and C93 are about: the fields of structures have the types and zero values that the model of the generated
code gives to them, the bits of the attributes are those of the model, and the names of other builders that are used
in a package are those of builders that exist, in the same package or in other one.
-/

namespace Verif.ModelRun

open GoJson (Val Schema Shape AttrShape)
open GoProgram
open TypesRun (Legal value SameKind)
open BuildersRun (Program Code Whole Holds Frame Valid construct call)
open Whole (HeapOk typeOf Defined load_inv)
open Session (load)

/-- The types of some versions of every model that is read can be used, if their names and the names of the versions
can be used in Go and all of them are defined. -/
theorem c94_loaded (inputs : List SourceModel) (base : Text) (hb : base ≠ []) (K : VersionId → Bool)
    (hd : Defined (load inputs)) (hv : GoodVersions (load inputs) K) (hn : GoodNames (load inputs) K) :
    Usable (load inputs) (ofVersions K) base := by
  have i := load_inv inputs
  have hown : ∀ (id : Nat) c, (load inputs).heap[id]? = some c → ofVersions K c = true →
      ∃ w a b l v, c.owner = some w ∧ (load inputs).services.find a = some l ∧ l.versions.find b = some v ∧ v.id = w ∧
        Packageable { service := l.name, version := v.name } := by
    intro id c hc hT
    unfold ofVersions at hT
    cases ho : c.owner with
    | none => rw [ho] at hT; cases hT
    | some w =>
      rw [ho] at hT
      obtain ⟨a, b, l, v, h1, h2, h3, h4⟩ := hv w hT
      exact ⟨w, a, b, l, v, rfl, h1, h2, h3, h4⟩
  have hlocal : ∀ {c : TypeCell} {e : TypeId}, ofVersions K c = true → Whole.Owned (load inputs).heap c.owner e →
      ∃ u, (load inputs).heap[e]? = some u ∧ ofVersions K u = true ∧ u.owner = c.owner := by
    rintro c e hT ⟨u, hu, ho⟩
    refine ⟨u, hu, ?_, ho⟩
    unfold ofVersions at hT ⊢
    rw [ho]
    exact hT
  have hment : ∀ (id : Nat) c, (load inputs).heap[id]? = some c → ofVersions K c = true → ∀ a ∈ c.attributes, ∀ u,
      Mentions (load inputs) a.typ u → u.owner = c.owner := by
    rintro id c hc hT a ha u ⟨w, hw, h⟩
    obtain ⟨w', hw', hwT, hwo⟩ := hlocal hT ((i.locals.cells id c hc).attributes a ha).1
    rw [hw] at hw'
    cases hw'
    rcases h with rfl | ⟨-, e, he, hu⟩
    · exact hwo
    · obtain ⟨u', hu', -, huo⟩ := hlocal hwT ((i.locals.cells _ w hw).element e he)
      rw [hu] at hu'
      cases hu'
      exact huo.trans hwo
  refine ⟨hb, ?_, hn, ?_, ?_, ?_, ?_, ?_⟩
  · intro id c hc hT
    obtain ⟨w, a, b, l, v, h0, h1, h2, h3, -⟩ := hown id c hc hT
    have hver : (load inputs).version a b = some v := by
      unfold Session.version
      rw [h1]
      exact h2
    have hf := i.locals.own a b v hver id c hc (by rw [h0, h3])
    exact hd a b v hver _ (View.ofCell (load inputs).heap c) (by
      unfold Session.typeView
      rw [hf, Option.bind_some, hc]
      rfl)
  · intro id c hc hT h
    obtain ⟨w, a, b, l, v, h0, -⟩ := hown id c hc hT
    rw [h] at h0
    cases h0
  · intro id c hc hT
    obtain ⟨w, a, b, l, v, h0, h1, h2, h3, h4⟩ := hown id c hc hT
    rw [h0, ← h3, Whole.ownerOf_version i.model h1 h2]
    exact h4
  · intro id c hc hT a ha
    obtain ⟨u, h1, h2, -⟩ := hlocal hT ((i.locals.cells id c hc).attributes a ha).1
    exact ⟨u, h1, h2⟩
  · intro id c hc hT e he
    obtain ⟨u, h1, h2, -⟩ := hlocal hT ((i.locals.cells id c hc).element e he)
    exact ⟨u, h1, h2⟩
  · intro id c hc hT a ha
    refine ⟨fun u hm _ _ => hment id c hc hT a ha u hm, fun u v _ _ hl => ?_, fun u hm _ => hment id c hc hT a ha u hm⟩
    rw [((i.locals.cells id c hc).attributes a ha).2] at hl
    cases hl

/-- The program that contains the generated code of a part of a model, and nothing else, contains it. The Go compiler
accepts it if the names of each package are different. -/
theorem c94_program (s : Session) (T : TypeCell → Bool) (base : Text)
    (hl : ∀ pkg, Legal (programOf s T base pkg)) : Contains (programOf s T base) s T base := by
  have mem : ∀ (id : Nat) c, s.heap[id]? = some c → T c = true → ∀ d ∈ declarationsOf s base c,
      d ∈ programOf s T base (packageOf s c) := by
    intro id c hc hT d hd
    exact List.mem_flatMap.mpr ⟨c, List.mem_filter.mpr ⟨List.mem_of_getElem? hc, by simp [hT]⟩, hd⟩
  refine ⟨hl, fun id c hc hT hk d hd => mem id c hc hT d ?_, fun id c hc hT hk i hi => mem id c hc hT _ ?_⟩
  · rw [declarationsOf, if_pos hk]
    exact hd
  · rw [declarationsOf, if_neg (by rw [hk]; decide), if_pos hk]
    exact List.mem_map.mpr ⟨i, hi, rfl⟩

/-- The code of a model that can be used, when it is part of a Go program, is code like the one that the properties
C92 and C93 are about. -/
theorem c94_whole (P : Program) (s : Session) (T : TypeCell → Bool) (base : Text) (h : HeapOk s.heap)
    (hu : Usable s T base) (hP : Contains P s T base) : Whole P (goZero P) (schemaOf s T) (codeOf s base) :=
  whole h hu hP

/-- The zero values of the types of getters are those of the types of the model, as the property C90 requires. -/
theorem c94_zeros (P : Program) (s : Session) (T : TypeCell → Bool) (base : Text) (h : HeapOk s.heap)
    (hu : Usable s T base) (hP : Contains P s T base) (id : TypeId) (c : TypeCell) (hc : s.heap[id]? = some c)
    (hT : T c = true) :
    let x := TypesCode.contextOf s base (c.owner.getD 0)
    (∀ a ∈ c.attributes, SameKind (x.typeOf a.typ) (schemaOf s T a.typ)) ∧
    TypesRun.Zeros (goZero P (packageOf s c)) x c (schemaOf s T) := by
  refine ⟨fun a ha => ?_, rfl, rfl, rfl, rfl, fun a ha => ?_⟩
  · obtain ⟨w, hw, hwT⟩ := hu.types id c hc hT a ha
    exact (seen h hu hw hwT).same
  · obtain ⟨w, hw, hwT⟩ := hu.types id c hc hT a ha
    exact zero_getterType (a := (TypesCode.contextOf s base (c.owner.getD 0)).attr a) hu.base (seen h hu hw hwT).same
      (zeroable h hu hP hc hT ha)

/-- The methods of the attributes of the objects of every model that is read return what the property C90 says,
when they are executed. -/
theorem c94_getters {σ : Type} (P : Program) (inputs : List SourceModel) (base : Text) (hb : base ≠ []) (K : VersionId → Bool)
    (hd : Defined (load inputs)) (hv : GoodVersions (load inputs) K) (hn : GoodNames (load inputs) K)
    (hP : Contains P (load inputs) (ofVersions K) base)
    (id : TypeId) (c : TypeCell) (hc : (load inputs).heap[id]? = some c) (hT : ofVersions K c = true)
    (hl : Legal (TypesRun.programOf (cellCode (load inputs) base c).entity))
    (funcs : Text → Option (List (Value Val) → σ → Value Val × σ))
    (s : State Val σ) (r : Value Val) (o : Val) (ho : TypesRun.IsObject (cellCode (load inputs) base c).entity s r o)
    (i : Nat) (a : Attribute) (ha : c.attributes[i]? = some a) :
    let S := schemaOf (load inputs) (ofVersions K)
    let run := fun name => GoProgram.call (TypesRun.programOf (cellCode (load inputs) base c).entity)
      (goZero P (packageOf (load inputs) c)) funcs (goName c) name r [] s
    let attr := GoJson.attrShape c i a
    run (Go.nameOf a.annotations a.name) = .ok ([value (GoTypes.get S i attr o)], s) ∧
    run (t!"Get" ++ Go.nameOf a.annotations a.name) =
      .ok ([value (GoTypes.getOk S i attr o).1, .bool (GoTypes.getOk S i attr o).2], s) := by
  obtain ⟨h1, h2⟩ := c94_zeros P _ _ base (load_inv inputs).ok.heap (c94_loaded inputs base hb K hd hv hn) hP id c hc hT
  exact TypesRun.c90_getters _ c hl _ h1 _ h2 funcs s r o ho i a ha

/-- Creating a builder, copying an object to it and building gives a copy of the object, for the objects of every
model that is read, as the property C93 says. -/
theorem c94_clone {σ : Type} (P : Program) (inputs : List SourceModel) (base : Text) (hb : base ≠ [])
    (K : VersionId → Bool) (hd : Defined (load inputs)) (hv : GoodVersions (load inputs) K)
    (hn : GoodNames (load inputs) K) (hP : Contains P (load inputs) (ofVersions K) base)
    (id : TypeId) (c : TypeCell) (hc : (load inputs).heap[id]? = some c) (hT : ofVersions K c = true)
    (hk : c.kind.isStruct = true)
    (hE : GoBuilder.SimpleElements (schemaOf (load inputs) (ofVersions K)))
    (s : State Val σ) (object : Val) (y : Value Val) (ho : object.isNil = false)
    (ht : GoBuilder.typed (schemaOf (load inputs) (ofVersions K)) id false object = true)
    (hy : Holds (schemaOf (load inputs) (ofVersions K)) (codeOf (load inputs) base) (fun _ => True) s id object y) :
    let S := schemaOf (load inputs) (ofVersions K)
    let U := codeOf (load inputs) base
    let pkg := packageOf (load inputs) c
    ∃ n, ∀ fuel, n ≤ fuel → ∃ x s1 s2 p s3,
      construct P (goZero P) fuel pkg (t!"New" ++ goName c) s = .ok ([x], s1) ∧
      call P (goZero P) fuel pkg (goName c ++ t!"Builder") t!"Copy" x [y] s1 = .ok ([x], s2) ∧
      call P (goZero P) fuel pkg (goName c ++ t!"Builder") t!"Build" x [] s2 = .ok ([p, .nil], s3) ∧
      Frame (fun _ => True) s s3 ∧
      Holds S U (fun l => ¬ Valid s l) s3 id (GoBuilder.rebuilt S id object) p ∧
      (GoBuilder.Plain object → Holds S U (fun l => ¬ Valid s l) s3 id object p) := by
  have hu := c94_loaded inputs base hb K hd hv hn
  have h := (load_inv inputs).ok.heap
  have hw := c94_whole P _ _ base h hu hP
  have hS : ∃ cl n as, schemaOf (load inputs) (ofVersions K) id = .struct cl n as := by
    cases seen h hu hc hT with
    | basic b h1 h2 =>
      have := typeOf_struct h hc hk
      rw [h1] at this
      cases this
    | enum hk' h1 h2 => rw [hk'] at hk; cases hk
    | struct hk h1 h2 => exact ⟨_, _, _, h2⟩
    | list e u n hk' => rw [hk'] at hk; cases hk
    | map e u hk' => rw [hk'] at hk; cases hk
  obtain ⟨cl, n, as, hS⟩ := hS
  have := BuildersRun.c93_clone hw hE hS ho ht hy
  rw [codeOf_eq hc] at this
  exact this

/-! ## The types -/

/-- The types of the model are those that the generated readers and writers of JSON use, if the declarations of each
version are good. -/
theorem c94_schema (inputs : List SourceModel) (hr : ∀ m ∈ inputs, m.Readable)
    (hg : ∀ before a b ds after, versionDirs inputs = before ++ (a, b, ds) :: after →
      GoodDecls (versionDecls before a b ++ ds)) (K : VersionId → Bool) (a b : Text) (v : LoadedVersion)
    (hv : (load inputs).version a b = some v) (hK : K v.id = true) (id : TypeId) (c : TypeCell)
    (hc : (load inputs).heap[id]? = some c) (ho : c.owner = some v.id) :
    schemaOf (load inputs) (ofVersions K) id =
      GoJson.shapeOf { version := v.id, heap := (load inputs).heap, types := v.types } id := by
  generalize ht : ({ version := v.id, heap := (load inputs).heap, types := v.types } : TypeTable) = t
  have hheap : t.heap = (load inputs).heap := by rw [← ht]
  have hfind : ∀ n, t.findType n = v.types.find n.toText := by rw [← ht]; exact fun _ => rfl
  have hver := (Whole.versionIs inputs hr hg).2 a b v hv
  have i := hver.inv
  have ok := i.ok.heap id c hc
  have hown := i.locals.own a b v hv id c hc ho
  have hT : ofVersions K c = true := by unfold ofVersions; rw [ho]; exact hK
  have hbuiltin : ∀ n ∈ Whole.scalarNames, v.types.find n.toText = some id → c.kind = .scalar ∧ c.name = n := by
    intro n hn hf
    have hat : Whole.TypeAt (load inputs) v n.toText id c := by
      obtain ⟨c', h'⟩ := Whole.typeAt_of_find i hv hf
      have := h'.cell
      rw [hc] at this
      cases this
      exact h'
    have hkey : n.toText ∈ [t!"boolean", t!"integer", t!"long", t!"float", t!"string", t!"date"] := by
      have : ∀ n ∈ Whole.scalarNames, n.toText ∈
        [t!"boolean", t!"integer", t!"long", t!"float", t!"string", t!"date"] := by decide
      exact this n hn
    have hkind : c.kind = .scalar := by
      obtain ⟨x, hx, hb⟩ := hver.types.builtin n.toText (by
        have : ∀ k ∈ [t!"boolean", t!"integer", t!"long", t!"float", t!"string", t!"date"], k ∈ builtinKeys := by decide
        exact this _ hkey)
      rw [hat.view] at hx
      cases hx
      rcases Accept.builtin_exact hb with ⟨-, h⟩ | ⟨h, -⟩ | ⟨h, -⟩
      · exact h
      · rw [h] at hkey
        exact absurd hkey (by decide)
      · exfalso
        have : ∀ k ∈ [t!"boolean", t!"integer", t!"long", t!"float", t!"string", t!"date"],
            k ∉ Whole.predefinedLists := by decide
        exact this _ hkey h
    refine ⟨hkind, ?_⟩
    have h1 := ok.scalar hkind
    have h2 := hat.key
    have hall : ∀ m ∈ Whole.scalarNames, ∀ n ∈ Whole.scalarNames, m.toText = n.toText → m = n := by decide
    exact hall _ h1 n hn h2
  have hno : c.kind ≠ .scalar → ∀ n ∈ Whole.scalarNames, t.findType n ≠ some id :=
    fun h n hn hf => h (hbuiltin n hn ((hfind n).symm.trans hf)).1
  have hother : ∀ n ∈ Whole.scalarNames, c.name ≠ n → t.findType n ≠ some id :=
    fun n hn hne hf => hne (hbuiltin n hn ((hfind n).symm.trans hf)).2
  have hown : t.findType c.name = some id := (hfind _).trans hown
  have hS : schemaOf (load inputs) (ofVersions K) id = _ := schemaOf_eq hc hT
  rw [hS]
  unfold GoJson.shapeOf
  rw [hheap, hc]
  dsimp only
  cases hk : c.kind with
  | scalar =>
    have h1 := ok.scalar hk
    simp only [Whole.scalarNames, List.mem_cons, List.not_mem_nil, or_false] at h1
    have h2 := hother
    simp only [Whole.scalarNames, List.mem_cons, List.not_mem_nil, or_false, forall_eq_or_imp, forall_eq] at h2
    obtain ⟨b1, b2, b3, b4, b5, b6⟩ := h2
    have hi : c.isInterface = false := by unfold TypeCell.isInterface; rw [hk]; rfl
    rcases h1 with h1 | h1 | h1 | h1 | h1 | h1 <;> rw [h1] at hown b1 b2 b3 b4 b5 b6 ⊢
    · rw [if_pos hown]; rfl
    · rw [if_neg (b1 (by decide)), if_pos hown]; rfl
    · rw [if_neg (b1 (by decide)), if_neg (b2 (by decide)), if_pos hown]; rfl
    · rw [if_neg (b1 (by decide)), if_neg (b2 (by decide)), if_neg (b3 (by decide)), if_pos hown]; rfl
    · rw [if_neg (b1 (by decide)), if_neg (b2 (by decide)), if_neg (b3 (by decide)), if_neg (b4 (by decide)),
        if_pos hown]; rfl
    · rw [if_neg (b1 (by decide)), if_neg (b2 (by decide)), if_neg (b3 (by decide)), if_neg (b4 (by decide)),
        if_neg (b5 (by decide)), if_neg (by simp [hi]), if_pos hown]; rfl
  | undefined | interface | enum | struct | «class» | list | map =>
    have h2 := hno (by simp [hk])
    simp only [Whole.scalarNames, List.mem_cons, List.not_mem_nil, or_false, forall_eq_or_imp, forall_eq] at h2
    obtain ⟨b1, b2, b3, b4, b5, b6⟩ := h2
    simp only [b1, b2, b3, b4, b5, b6, if_false, TypeCell.isInterface, TypeCell.isEnum, TypeCell.isList,
      TypeCell.isMap, TypeCell.isClass, hk]
    try rfl
    try
      obtain ⟨e, he, hl⟩ := ok.element (by simp [hk])
      have : ∃ u, (load inputs).heap[e]? = some u := by
        have h3 := (List.getElem?_eq_some_iff.mp hc).1
        exact ⟨_, List.getElem?_eq_getElem (Nat.lt_trans hl h3)⟩
      obtain ⟨u, hu⟩ := this
      rw [he]
      dsimp only
      rw [hu]
      rfl

/-! ## An example -/

/-- The first version of the example: a class with a list that is a link, an enumerated type and a struct. -/
def exampleVersion (w : VersionId) : Bool := w == 0

theorem example_versions : GoodVersions (load [exampleInput]) exampleVersion := by
  intro w hw
  have : w = 0 := by simpa [exampleVersion] using hw
  subst this
  refine ⟨t!"clusters_mgmt", t!"v1", _, _, rfl, rfl, rfl, ⟨by decide, by decide, by decide, by decide⟩, by decide,
    by decide⟩

theorem example_names : GoodNames (load [exampleInput]) exampleVersion := by
  intro id c hc hT hk
  have h : ∀ c ∈ (load [exampleInput]).heap, ofVersions exampleVersion c = true →
      c.kind.isStruct = true ∨ c.kind = .enum →
      ((goName c).head?.map Char.isUpper) = some true ∧ '.' ∉ goName c := by decide +kernel
  obtain ⟨h1, h2⟩ := h c (List.mem_of_getElem? hc) hT hk
  refine ⟨?_, h2⟩
  cases hn : goName c with
  | nil => rw [hn] at h1; cases h1
  | cons x y => rw [hn] at h1; exact ⟨x, y, rfl, by simpa using h1⟩

theorem example_defined : Defined (load [exampleInput]) := by
  intro a b v hv k x hx
  obtain ⟨id, c, hc, rfl⟩ := Whole.typeAt_of_view (load_inv _) hv hx
  have h : ∀ c ∈ (load [exampleInput]).heap, c.kind ≠ .undefined := by decide +kernel
  exact h c (List.mem_of_getElem? hc.cell)

/-- The base package of the example. -/
def exampleBase : Text := t!"example.com/api"

theorem example_contains : Contains (programOf (load [exampleInput]) (ofVersions exampleVersion) exampleBase)
    (load [exampleInput]) (ofVersions exampleVersion) exampleBase := by
  apply c94_program
  intro pkg
  by_cases h : pkg = t!"v1"
  · subst h
    unfold Legal
    decide +kernel
  · have hnone : ∀ c ∈ (load [exampleInput]).heap, ofVersions exampleVersion c = true →
        packageOf (load [exampleInput]) c = t!"v1" := by decide +kernel
    have : programOf (load [exampleInput]) (ofVersions exampleVersion) exampleBase pkg = [] := by
      unfold programOf
      rw [List.filter_eq_nil_iff.mpr]
      · rfl
      · intro c hc hk
        simp only [Bool.and_eq_true, beq_iff_eq] at hk
        exact h (hk.2.symm.trans (hnone c hc hk.1))
    rw [this]
    exact List.nodup_nil

/-- The class of the example has code. -/
example : ∃ (id : TypeId) (c : TypeCell), (load [exampleInput]).heap[id]? = some c ∧ ofVersions exampleVersion c = true ∧
    goName c = t!"Cluster" ∧ c.kind = .class ∧ c.attributes.length = 2 ∧
    (cellCode (load [exampleInput]) exampleBase c).builder.members.map (fun m => (m.field, m.fieldType, m.bit)) =
      [(t!"groups", t!"*GroupListBuilder", 3), (t!"state", t!"State", 4)] ∧
    Whole (programOf (load [exampleInput]) (ofVersions exampleVersion) exampleBase)
      (goZero (programOf (load [exampleInput]) (ofVersions exampleVersion) exampleBase))
      (schemaOf (load [exampleInput]) (ofVersions exampleVersion)) (codeOf (load [exampleInput]) exampleBase) := by
  refine ⟨17, (load [exampleInput]).heap[17]'(by decide +kernel), by rw [List.getElem?_eq_getElem], by decide +kernel,
    by decide +kernel, by decide +kernel, by decide +kernel, by decide +kernel, ?_⟩
  exact c94_whole _ _ _ _ (load_inv _).ok.heap
    (c94_loaded _ _ (by decide) _ example_defined example_versions example_names) example_contains

end Verif.ModelRun
