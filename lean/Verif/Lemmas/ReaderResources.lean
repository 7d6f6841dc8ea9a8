import Verif.Lemmas.ReaderTypes

/-! Helper lemmas about the reader: the parts of the abstract machine that deal with resources,
with errors, and with the problems that depend only on one declaration. -/

namespace Verif

open Reader

/-! ## Resources -/

/-- The part of the abstract state that deals with resources. -/
structure RState where
  resources : Text → Option ResourceView
  rundef : Text → Bool
  dups : List Name

/-- Names of resources reported as already defined. -/
def resourceDups (ps : List ReadProblem) : List Name :=
  ps.filterMap fun p => match p with | .resourceDefined n => some n | _ => none

def AState.r (a : AState) : RState :=
  { resources := a.resources, rundef := a.rundef, dups := resourceDups a.problems }

namespace RState

def rmention (t : RState) (k : Text) : RState :=
  match t.resources k with
  | some _ => t
  | none =>
    { t with resources := upd t.resources k (some .unknown), rundef := upd t.rundef k true }

def rdeclare (t : RState) (name : Name) (view : ResourceView) : RState :=
  match t.resources name.toText with
  | none => { t with resources := upd t.resources name.toText (some view) }
  | some _ =>
    if t.rundef name.toText then
      { t with
        resources := upd t.resources name.toText (some view)
        rundef := upd t.rundef name.toText false }
    else { t with dups := t.dups ++ [name] }

end RState

/-- The resource that a declaration declares. -/
def Decl.resourceDecl : Decl → Option (Name × ResourceView)
  | .resource name doc annotations members =>
    some (parseUsingCase name, resourceDeclView name doc annotations members)
  | _ => none

def RState.decl (t : RState) (d : Decl) : RState :=
  let t := d.targets.foldl RState.rmention t
  match d.resourceDecl with
  | none => t
  | some (name, view) => t.rdeclare name view

theorem r_mention (v : VersionId) (a : AState) (k : Text) : (a.mention v k).r = a.r := by
  unfold AState.mention
  cases a.types k <;> rfl

theorem r_derive (a : AState) (k : Text) (view : TypeView) : (a.derive k view).r = a.r := by
  unfold AState.derive
  cases a.types k <;> rfl

theorem r_typeRef (v : VersionId) (a : AState) (e : TypeExpr) : (a.typeRef v e).r = a.r := by
  cases e <;> simp only [AState.typeRef, r_mention, r_derive]

theorem r_typeRefs (v : VersionId) (a : AState) (es : List TypeExpr) : (a.typeRefs v es).r = a.r := by
  unfold AState.typeRefs
  induction es generalizing a with
  | nil => rfl
  | cons e es ih => rw [List.foldl_cons, ih, r_typeRef]

theorem r_report (a : AState) (p : ReadProblem) (h : ∀ n, p ≠ .resourceDefined n) :
    (a.report p).r = a.r := by
  simp only [AState.r, AState.report, resourceDups, List.filterMap_append, RState.mk.injEq,
    true_and]
  cases p with
  | resourceDefined n => exact absurd rfl (h n)
  | _ => simp

theorem r_declare (a : AState) (name : Name) (view : TypeView) :
    (a.declare name view).r = a.r := by
  unfold AState.declare
  cases a.types name.toText with
  | none => rfl
  | some x =>
    dsimp only
    split
    · rfl
    · exact r_report _ _ (by simp)

theorem r_rmention (a : AState) (k : Text) : (a.rmention k).r = a.r.rmention k := by
  unfold AState.rmention RState.rmention
  rw [show a.r.resources k = a.resources k from rfl]
  cases a.resources k <;> rfl

theorem r_rmentions (a : AState) (ks : List Text) :
    (ks.foldl AState.rmention a).r = ks.foldl RState.rmention a.r := by
  induction ks generalizing a with
  | nil => rfl
  | cons k ks ih => rw [List.foldl_cons, ih, r_rmention]; rfl

theorem r_locator (a : AState) (l : LocatorDecl) :
    (a.locator l).r = l.targets.foldl RState.rmention a.r := by
  unfold AState.locator
  dsimp only
  split
  · rw [r_report _ _ (by simp), r_rmentions]
  · rw [r_rmentions]

theorem r_members (v : VersionId) (a : AState) (name doc : Text) (annotations : List Annotation)
    (ms : List ResourceMember) :
    (ms.foldl (AState.resourceMember v) a).r =
      (Decl.resource name doc annotations ms).targets.foldl RState.rmention a.r := by
  induction ms generalizing a with
  | nil => rfl
  | cons m ms ih =>
    rw [List.foldl_cons, ih]
    simp only [Decl.targets, List.flatMap_cons, List.foldl_append]
    cases m with
    | method m => rw [show a.resourceMember v (.method m) = a.typeRefs v _ from rfl, r_typeRefs]; rfl
    | locator l => rw [show a.resourceMember v (.locator l) = a.locator l from rfl, r_locator]

theorem r_rdeclare (a : AState) (name : Name) (view : ResourceView) :
    (a.rdeclare name view).r = a.r.rdeclare name view := by
  unfold AState.rdeclare RState.rdeclare
  rw [show a.r.resources name.toText = a.resources name.toText from rfl,
    show a.r.rundef name.toText = a.rundef name.toText from rfl]
  cases a.resources name.toText with
  | none => rfl
  | some x =>
    dsimp only
    split
    · rfl
    · simp only [AState.r, AState.report, resourceDups, List.filterMap_append]
      rfl

theorem r_code (a : AState) (text : Text) : (a.code text).r = a.r := by
  unfold AState.code
  split
  · rfl
  · exact r_report _ _ (by simp)

theorem r_codes (a : AState) (ts : List Text) : (ts.foldl AState.code a).r = a.r := by
  induction ts generalizing a with
  | nil => rfl
  | cons k ks ih => rw [List.foldl_cons, ih, r_code]

theorem r_decl (v : VersionId) (a : AState) (d : Decl) : (a.decl v d).r = a.r.decl d := by
  cases d with
  | enum name doc annotations values => exact r_declare _ _ _
  | «class» name doc annotations members =>
    simp only [AState.decl, RState.decl, Decl.resourceDecl, Decl.targets, List.foldl_nil]
    rw [r_declare, r_typeRefs]
  | struct name doc annotations members =>
    simp only [AState.decl, RState.decl, Decl.resourceDecl, Decl.targets, List.foldl_nil]
    rw [r_declare, r_typeRefs]
  | resource name doc annotations members =>
    simp only [AState.decl, RState.decl, Decl.resourceDecl]
    rw [r_rdeclare, r_members]
  | error name doc annotations codes =>
    simp only [AState.decl, RState.decl, Decl.resourceDecl, Decl.targets, AState.errorDecl,
      List.foldl_nil]
    split
    · exact r_codes a codes
    · rw [r_report _ _ (by simp), r_codes]

theorem r_decls (v : VersionId) (a : AState) (ds : List Decl) :
    (ds.foldl (AState.decl v) a).r = ds.foldl RState.decl a.r := by
  induction ds generalizing a with
  | nil => rfl
  | cons d ds ih => rw [List.foldl_cons, ih, r_decl]; rfl

/-- Invariant of the resources. -/
structure RInv (mentioned : List Text) (declared : List (Name × ResourceView)) (t : RState) :
    Prop where
  dom : ∀ k, (t.resources k).isSome = true ↔
    k ∈ mentioned ∨ k ∈ declared.map fun d => d.1.toText
  undef : ∀ k, t.rundef k = true ↔ k ∈ mentioned ∧ k ∉ declared.map fun d => d.1.toText
  source : ∀ k x, t.resources k = some x →
    (∃ d ∈ declared, d.1.toText = k ∧ d.2 = x) ∨
    (x = .unknown ∧ k ∉ declared.map fun d => d.1.toText)

theorem RInv.rmention {mentioned : List Text} {declared : List (Name × ResourceView)} {t : RState}
    (i : RInv mentioned declared t) (k : Text) :
    RInv (mentioned ++ [k]) declared (t.rmention k) := by
  unfold RState.rmention
  cases hk : t.resources k with
  | some x =>
    have hd := (i.dom k).mp (by simp [hk])
    refine ⟨fun k' => ?_, fun k' => ?_, i.source⟩
    · rw [i.dom k', List.mem_append, List.mem_singleton]
      constructor
      · rintro (h | h)
        · exact .inl (.inl h)
        · exact .inr h
      · rintro ((h | h) | h)
        · exact .inl h
        · subst h; exact hd
        · exact .inr h
    · rw [i.undef k', List.mem_append, List.mem_singleton]
      constructor
      · rintro ⟨h, h'⟩; exact ⟨.inl h, h'⟩
      · rintro ⟨h | h, h'⟩
        · exact ⟨h, h'⟩
        · subst h
          exact ⟨hd.resolve_right h', h'⟩
  | none =>
    have hm : k ∉ mentioned := fun h => by
      have := (i.dom k).mpr (.inl h); rw [hk] at this; cases this
    have hd : k ∉ declared.map fun d => d.1.toText := fun h => by
      have := (i.dom k).mpr (.inr h); rw [hk] at this; cases this
    refine ⟨fun k' => ?_, fun k' => ?_, fun k' x hx => ?_⟩
    · dsimp only
      by_cases e : k' = k
      · subst e; simp [upd_self]
      · rw [upd_other _ _ _ _ e, i.dom k']; simp [e]
    · dsimp only
      by_cases e : k' = k
      · subst e; rw [upd_self]; simp only [List.mem_append, List.mem_singleton, or_true, true_and, true_iff]; exact hd
      · rw [upd_other _ _ _ _ e, i.undef k']; simp [e]
    · dsimp only at hx
      by_cases e : k' = k
      · subst e; rw [upd_self] at hx; cases hx; exact .inr ⟨rfl, hd⟩
      · rw [upd_other _ _ _ _ e] at hx; exact i.source k' x hx

theorem RInv.rmentions {mentioned : List Text} {declared : List (Name × ResourceView)} {t : RState}
    (i : RInv mentioned declared t) (ks : List Text) :
    RInv (mentioned ++ ks) declared (ks.foldl RState.rmention t) := by
  induction ks generalizing mentioned t with
  | nil => simpa using i
  | cons k ks ih => simpa [List.append_assoc] using ih (i.rmention k)

theorem RInv.new {mentioned : List Text} {declared : List (Name × ResourceView)} {t : RState}
    (i : RInv mentioned declared t) (name : Name) :
    ((t.resources name.toText).isSome = true ∧ t.rundef name.toText = false) ↔
      name.toText ∈ declared.map fun d => d.1.toText := by
  have h1 := i.dom name.toText
  have h2 := i.undef name.toText
  constructor
  · rintro ⟨h, h'⟩
    by_cases hc : name.toText ∈ declared.map fun d => d.1.toText
    · exact hc
    · rcases h1.mp h with h | h
      · have := h2.mpr ⟨h, hc⟩; rw [h'] at this; cases this
      · exact h
  · intro h
    refine ⟨h1.mpr (.inr h), ?_⟩
    cases hu : t.rundef name.toText with
    | false => rfl
    | true => exact absurd h (h2.mp hu).2

theorem rdeclare_dups {mentioned : List Text} {declared : List (Name × ResourceView)} {t : RState}
    (i : RInv mentioned declared t) (name : Name) (x : ResourceView) :
    (t.rdeclare name x).dups =
      t.dups ++ if name.toText ∈ declared.map (fun d => d.1.toText) then [name] else [] := by
  have hn := i.new name
  unfold RState.rdeclare
  cases hk : t.resources name.toText with
  | none =>
    rw [hk] at hn
    simp only [Option.isSome_none, Bool.false_eq_true, false_and, false_iff] at hn
    rw [if_neg hn]
    simp
  | some y =>
    rw [hk] at hn
    simp only [Option.isSome_some, true_and] at hn
    dsimp only
    split
    · rename_i hu
      rw [if_neg (by rw [← hn, hu]; simp)]
      simp
    · rename_i hu
      rw [if_pos (hn.mp (by simpa using hu))]

theorem RInv.rdeclare {mentioned : List Text} {declared : List (Name × ResourceView)} {t : RState}
    (i : RInv mentioned declared t) (name : Name) (x : ResourceView) :
    RInv mentioned (declared ++ [(name, x)]) (t.rdeclare name x) := by
  have hmem : ∀ k, (k ∈ (declared ++ [(name, x)]).map fun d => d.1.toText) ↔
      (k ∈ declared.map fun d => d.1.toText) ∨ k = name.toText := by
    intro k; simp
  have key : RInv mentioned (declared ++ [(name, x)])
      { t with
        resources := upd t.resources name.toText (some x)
        rundef := upd t.rundef name.toText false } := by
    refine ⟨fun k => ?_, fun k => ?_, fun k y hy => ?_⟩
    · rw [hmem]
      try dsimp only at *
      by_cases e : k = name.toText
      · simp [e, upd_self]
      · rw [upd_other _ _ _ _ e, i.dom k]; simp [e]
    · rw [hmem]
      try dsimp only at *
      by_cases e : k = name.toText
      · simp [e, upd_self]
      · rw [upd_other _ _ _ _ e, i.undef k]; simp [e]
    · rw [hmem]
      try dsimp only at *
      by_cases e : k = name.toText
      · subst e
        rw [upd_self] at hy
        cases hy
        exact .inl ⟨(name, x), by simp, rfl, rfl⟩
      · rw [upd_other _ _ _ _ e] at hy
        rcases i.source k y hy with ⟨d, hd, h⟩ | ⟨h, h'⟩
        · exact .inl ⟨d, by simp [hd], h⟩
        · exact .inr ⟨h, by simp only [e, or_false]; exact h'⟩
  unfold RState.rdeclare
  cases hk : t.resources name.toText with
  | none =>
    dsimp only
    have hu : t.rundef name.toText = false := by
      cases hu : t.rundef name.toText with
      | false => rfl
      | true =>
        have := (i.dom _).mpr (.inl ((i.undef _).mp hu).1)
        rw [hk] at this
        cases this
    have he : upd t.rundef name.toText false = t.rundef := by
      funext k
      by_cases e : k = name.toText
      · subst e; rw [upd_self, hu]
      · rw [upd_other _ _ _ _ e]
    rw [he] at key
    exact key
  | some y =>
    dsimp only
    split
    · exact key
    · rename_i hu
      have hd := (i.new name).mp ⟨by simp [hk], by simpa using hu⟩
      have hmem' : ∀ k, (k ∈ (declared ++ [(name, x)]).map fun d => d.1.toText) ↔
          (k ∈ declared.map fun d => d.1.toText) := by
        intro k
        rw [hmem]
        constructor
        · rintro (h | h)
          · exact h
          · subst h; exact hd
        · exact .inl
      refine ⟨fun k => ?_, fun k => ?_, fun k z hz => ?_⟩
      · rw [hmem']; exact i.dom k
      · rw [hmem']; exact i.undef k
      · rw [hmem']
        rcases i.source k z hz with ⟨d, hd, h⟩ | h
        · exact .inl ⟨d, by simp [hd], h⟩
        · exact .inr h

theorem RInv.decls {mentioned : List Text} {declared : List (Name × ResourceView)} {t : RState}
    (i : RInv mentioned declared t) (ds : List Decl) :
    RInv (mentioned ++ mentionedResources ds) (declared ++ ds.filterMap Decl.resourceDecl)
      (ds.foldl RState.decl t) := by
  induction ds generalizing mentioned declared t with
  | nil => simpa [mentionedResources] using i
  | cons d ds ih =>
    have i' := i.rmentions d.targets
    rw [List.foldl_cons]
    simp only [mentionedResources, List.flatMap_cons, List.filterMap_cons]
    rw [← List.append_assoc]
    have e : t.decl d = match d.resourceDecl with
        | none => d.targets.foldl RState.rmention t
        | some (name, view) => (d.targets.foldl RState.rmention t).rdeclare name view := rfl
    rw [e]
    cases hx : d.resourceDecl with
    | none => exact ih i'
    | some x =>
      have := ih (i'.rdeclare x.1 x.2)
      simpa [List.append_assoc, mentionedResources] using this

theorem mem_repeated_congr (a b : List Text) (h : ∀ k, k ∈ a ↔ k ∈ b) (ns : List Name) :
    repeated a ns = repeated b ns := by
  induction ns generalizing a b with
  | nil => rfl
  | cons n ns ih =>
    unfold repeated
    by_cases hn : n.toText ∈ a
    · rw [if_pos hn, if_pos ((h _).mp hn), ih a b h]
    · rw [if_neg hn, if_neg (fun x => hn ((h _).mpr x))]
      refine ih _ _ fun k => ?_
      simp [h k]

theorem repeated_cons (used : List Text) (n : Name) (ns : List Name) :
    repeated used (n :: ns) =
      (if n.toText ∈ used then [n] else []) ++ repeated (used ++ [n.toText]) ns := by
  unfold repeated
  by_cases h : n.toText ∈ used
  · rw [if_pos h, if_pos h]
    simp only [List.cons_append, List.nil_append, List.cons.injEq, true_and]
    cases ns with
    | nil => rfl
    | cons m ms =>
      refine mem_repeated_congr _ _ (fun k => ?_) (m :: ms)
      simp only [List.mem_append, List.mem_singleton]
      constructor
      · exact .inl
      · rintro (h' | h')
        · exact h'
        · subst h'; exact h
  · rw [if_neg h, if_neg h]
    simp only [List.nil_append]
    cases ns with
    | nil => rfl
    | cons m ms =>
      refine mem_repeated_congr _ _ (fun k => ?_) (m :: ms)
      simp [or_comm]

theorem repeated_nil (used : List Text) (ns : List Name) :
    repeated used ns = [] ↔ (ns.map Name.toText).Nodup ∧ ∀ n ∈ ns, n.toText ∉ used := by
  induction ns generalizing used with
  | nil => simp [repeated]
  | cons n ns ih =>
    rw [repeated_cons, List.append_eq_nil_iff, ih]
    simp only [List.map_cons, List.nodup_cons, List.mem_cons, List.mem_append, List.not_mem_nil,
      or_false, forall_eq_or_imp]
    by_cases h : n.toText ∈ used
    · simp [h]
    · simp only [h, if_false, true_and, not_false_eq_true]
      constructor
      · rintro ⟨h1, h2⟩
        refine ⟨⟨fun hm => ?_, h1⟩, fun m hm => fun hu => h2 m hm (.inl hu)⟩
        obtain ⟨m, hm, he⟩ := List.mem_map.mp hm
        exact h2 m hm (.inr he)
      · rintro ⟨⟨h1, h2⟩, h3⟩
        refine ⟨h2, fun m hm => ?_⟩
        rintro (hu | hu)
        · exact h3 m hm hu
        · exact h1 (List.mem_map.mpr ⟨m, hm, hu⟩)

theorem resourceDecl_name (d : Decl) : d.resourceDecl.map Prod.fst = d.resourceName := by
  cases d <;> rfl

theorem rmentions_dups (t : RState) (ks : List Text) :
    (ks.foldl RState.rmention t).dups = t.dups := by
  induction ks generalizing t with
  | nil => rfl
  | cons k ks ih =>
    rw [List.foldl_cons, ih]
    unfold RState.rmention
    cases t.resources k <;> rfl

theorem RInv.dups {mentioned : List Text} {declared : List (Name × ResourceView)} {t : RState}
    (i : RInv mentioned declared t) (ds : List Decl) :
    (ds.foldl RState.decl t).dups = t.dups ++
      repeated (declared.map fun d => d.1.toText) (ds.filterMap Decl.resourceName) := by
  induction ds generalizing mentioned declared t with
  | nil => simp [repeated]
  | cons d ds ih =>
    have i' := i.rmentions d.targets
    rw [List.foldl_cons]
    have e : t.decl d = match d.resourceDecl with
        | none => d.targets.foldl RState.rmention t
        | some (name, view) => (d.targets.foldl RState.rmention t).rdeclare name view := rfl
    have hn := resourceDecl_name d
    rw [e]
    cases hx : d.resourceDecl with
    | none =>
      rw [hx] at hn
      dsimp only
      rw [ih i', rmentions_dups, List.filterMap_cons, ← hn]
      rfl
    | some x =>
      rw [hx] at hn
      dsimp only
      rw [ih (i'.rdeclare x.1 x.2), rdeclare_dups i', rmentions_dups, List.filterMap_cons, ← hn]
      simp only [Option.map_some]
      rw [repeated_cons, List.append_assoc]
      simp

/-! ## Errors -/

/-- Names of errors reported as already defined. -/
def errorDups (ps : List ReadProblem) : List Name :=
  ps.filterMap fun p => match p with | .errorDefined n => some n | _ => none

/-- The other problems. -/
def otherProblems (ps : List ReadProblem) : List ReadProblem :=
  ps.filter fun p => match p with
    | .typeDefined _ => false | .resourceDefined _ => false | .errorDefined _ => false | _ => true

/-- The problems that depend only on the declaration. -/
def Decl.ownProblems : Decl → List ReadProblem
  | .resource _ _ _ members => members.flatMap fun m => match m with
    | .method _ => []
    | .locator l => if l.targets.isEmpty then [.noTarget (parseUsingCase l.name)] else []
  | .error _ _ _ codes => codes.flatMap fun c => if (atoi c).2 then [] else [.badCode c]
  | _ => []

structure EState where
  errors : GoMap ErrorConcept
  dups : List Name
  others : List ReadProblem

def AState.e (a : AState) : EState :=
  { errors := a.errors, dups := errorDups a.problems, others := otherProblems a.problems }

theorem e_mention (v : VersionId) (a : AState) (k : Text) : (a.mention v k).e = a.e := by
  unfold AState.mention
  cases a.types k <;> rfl

theorem e_derive (a : AState) (k : Text) (view : TypeView) : (a.derive k view).e = a.e := by
  unfold AState.derive
  cases a.types k <;> rfl

theorem e_typeRef (v : VersionId) (a : AState) (e : TypeExpr) : (a.typeRef v e).e = a.e := by
  cases e <;> simp only [AState.typeRef, e_mention, e_derive]

theorem e_typeRefs (v : VersionId) (a : AState) (es : List TypeExpr) : (a.typeRefs v es).e = a.e := by
  unfold AState.typeRefs
  induction es generalizing a with
  | nil => rfl
  | cons e es ih => rw [List.foldl_cons, ih, e_typeRef]

theorem e_declare (a : AState) (name : Name) (view : TypeView) :
    (a.declare name view).e = a.e := by
  unfold AState.declare
  cases a.types name.toText with
  | none => rfl
  | some x =>
    dsimp only
    split
    · rfl
    · simp [AState.e, AState.report, errorDups, otherProblems, List.filterMap_append,
        List.filter_append]

theorem e_rmention (a : AState) (k : Text) : (a.rmention k).e = a.e := by
  unfold AState.rmention
  cases a.resources k <;> rfl

theorem e_rmentions (a : AState) (ks : List Text) : (ks.foldl AState.rmention a).e = a.e := by
  induction ks generalizing a with
  | nil => rfl
  | cons k ks ih => rw [List.foldl_cons, ih, e_rmention]

theorem e_rdeclare (a : AState) (name : Name) (view : ResourceView) :
    (a.rdeclare name view).e = a.e := by
  unfold AState.rdeclare
  cases a.resources name.toText with
  | none => rfl
  | some x =>
    dsimp only
    split
    · rfl
    · simp [AState.e, AState.report, errorDups, otherProblems, List.filterMap_append,
        List.filter_append]

def EState.other (e : EState) (ps : List ReadProblem) : EState :=
  { e with others := e.others ++ ps }

theorem e_members (v : VersionId) (a : AState) (name doc : Text) (annotations : List Annotation)
    (ms : List ResourceMember) :
    (ms.foldl (AState.resourceMember v) a).e =
      a.e.other (Decl.resource name doc annotations ms).ownProblems := by
  induction ms generalizing a with
  | nil => simp [EState.other, Decl.ownProblems]
  | cons m ms ih =>
    rw [List.foldl_cons, ih]
    cases m with
    | method m =>
      rw [show a.resourceMember v (.method m) = a.typeRefs v _ from rfl, e_typeRefs]
      simp [EState.other, Decl.ownProblems]
    | locator l =>
      rw [show a.resourceMember v (.locator l) = a.locator l from rfl]
      have : (a.locator l).e = a.e.other
          (if l.targets.isEmpty then [.noTarget (parseUsingCase l.name)] else []) := by
        unfold AState.locator
        have hm := e_rmentions a l.targets
        dsimp only
        split
        · rw [← hm]
          simp [AState.e, EState.other, AState.report, errorDups, otherProblems,
            List.filterMap_append, List.filter_append]
        · rw [hm]
          simp [EState.other]
      rw [this]
      simp [EState.other, Decl.ownProblems]

theorem e_codes (a : AState) (name doc : Text) (as : List Annotation) (ts : List Text) :
    (ts.foldl AState.code a).e = a.e.other (Decl.error name doc as ts).ownProblems := by
  induction ts generalizing a with
  | nil => simp [EState.other, Decl.ownProblems]
  | cons c ts ih =>
    rw [List.foldl_cons, ih]
    unfold AState.code
    by_cases h : (atoi c).2 = true
    · simp [h, EState.other, Decl.ownProblems]
    · simp [h, EState.other, Decl.ownProblems, AState.e, AState.report, errorDups, otherProblems,
        List.filterMap_append, List.filter_append]

/-- The error that a declaration declares. -/
def Decl.errorDecl : Decl → Option (Name × ErrorConcept)
  | .error name doc annotations codes =>
    some (parseUsingCase name,
      { supportName := some (parseUsingCase name), ownName := none, doc := doc
        annotations := annotations
        code := ((codes.map fun t => (atoi t).1).getLast?).getD 0 })
  | _ => none

def EState.decl (e : EState) (d : Decl) : EState :=
  let e := e.other d.ownProblems
  match d.errorDecl with
  | none => e
  | some (name, err) =>
    match e.errors.find name.toText with
    | none => { e with errors := e.errors.insert name.toText err }
    | some _ => { e with dups := e.dups ++ [name] }

theorem other_nil (e : EState) : e.other [] = e := by simp [EState.other]

theorem e_decl (v : VersionId) (a : AState) (d : Decl) : (a.decl v d).e = a.e.decl d := by
  cases d with
  | enum name doc annotations values =>
    simp only [AState.decl, EState.decl, Decl.errorDecl, Decl.ownProblems, other_nil]
    exact e_declare _ _ _
  | «class» name doc annotations members =>
    simp only [AState.decl, EState.decl, Decl.errorDecl, Decl.ownProblems, other_nil]
    rw [e_declare, e_typeRefs]
  | struct name doc annotations members =>
    simp only [AState.decl, EState.decl, Decl.errorDecl, Decl.ownProblems, other_nil]
    rw [e_declare, e_typeRefs]
  | resource name doc annotations members =>
    simp only [AState.decl, EState.decl, Decl.errorDecl]
    rw [e_rdeclare, e_members]
  | error name doc annotations codes =>
    simp only [AState.decl, EState.decl, Decl.errorDecl, AState.errorDecl]
    have h := e_codes a name doc annotations codes
    rw [← h]
    rw [show (List.foldl AState.code a codes).e.errors = (List.foldl AState.code a codes).errors
      from rfl]
    rw [show (parseUsingCase name).toText = keyOf name from rfl]
    cases (List.foldl AState.code a codes).errors.find (keyOf name) with
    | none => rfl
    | some x =>
      simp [AState.e, AState.report, errorDups, otherProblems, List.filterMap_append,
        List.filter_append]

theorem e_decls (v : VersionId) (a : AState) (ds : List Decl) :
    (ds.foldl (AState.decl v) a).e = ds.foldl EState.decl a.e := by
  induction ds generalizing a with
  | nil => rfl
  | cons d ds ih => rw [List.foldl_cons, ih, e_decl]; rfl

theorem errorDecl_name (d : Decl) : d.errorDecl.map Prod.fst = d.errorName := by
  cases d <;> rfl

theorem others_decls (e : EState) (ds : List Decl) :
    (ds.foldl EState.decl e).others = e.others ++ ds.flatMap Decl.ownProblems := by
  induction ds generalizing e with
  | nil => simp
  | cons d ds ih =>
    rw [List.foldl_cons, ih, List.flatMap_cons, ← List.append_assoc]
    congr 1
    unfold EState.decl
    dsimp only
    cases d.errorDecl with
    | none => rfl
    | some x =>
      dsimp only
      cases (e.other d.ownProblems).errors.find x.1.toText <;> rfl

theorem edups_decls (e : EState) (used : List Text)
    (hu : ∀ k, (e.errors.find k).isSome = true ↔ k ∈ used) (ds : List Decl) :
    (ds.foldl EState.decl e).dups = e.dups ++ repeated used (ds.filterMap Decl.errorName) := by
  induction ds generalizing e used with
  | nil => simp [repeated]
  | cons d ds ih =>
    rw [List.foldl_cons, List.filterMap_cons, ← errorDecl_name]
    have e1 : (e.other d.ownProblems).errors = e.errors := rfl
    cases hx : d.errorDecl with
    | none =>
      have : e.decl d = e.other d.ownProblems := by simp [EState.decl, hx]
      rw [this, ih _ used (by simpa [e1] using hu)]
      rfl
    | some x =>
      simp only [Option.map_some]
      rw [repeated_cons]
      cases hf : e.errors.find x.1.toText with
      | none =>
        have hn : x.1.toText ∉ used := by rw [← hu, hf]; simp
        have : e.decl d =
            { e.other d.ownProblems with errors := e.errors.insert x.1.toText x.2 } := by
          simp [EState.decl, hx, e1, hf]
        rw [this, ih _ (used ++ [x.1.toText]), if_neg hn]
        · simp [EState.other]
        · intro k
          dsimp only
          rw [GoMap.find_insert]
          by_cases hk : k = x.1.toText
          · simp [hk]
          · rw [if_neg (Ne.symm hk), hu]; simp [hk]
      | some y =>
        have hn : x.1.toText ∈ used := by rw [← hu, hf]; simp
        have : e.decl d =
            { e.other d.ownProblems with dups := e.dups ++ [x.1] } := by
          simp [EState.decl, hx, e1, hf, EState.other]
        rw [this, ih _ (used ++ [x.1.toText]), if_pos hn]
        · simp [EState.other]
        · intro k
          rw [show (e.other d.ownProblems).errors = e.errors from rfl, hu]
          simp only [List.mem_append, List.mem_singleton]
          constructor
          · exact .inl
          · rintro (h | h)
            · exact h
            · subst h; exact hn

theorem efind_decls (e : EState) (ds : List Decl) (k : Text) (x : ErrorConcept)
    (h : (ds.foldl EState.decl e).errors.find k = some x) :
    e.errors.find k = some x ∨ ∃ d ∈ ds, ∃ n, d.errorDecl = some (n, x) ∧ n.toText = k := by
  induction ds generalizing e with
  | nil => exact .inl h
  | cons d ds ih =>
    rw [List.foldl_cons] at h
    rcases ih (e.decl d) h with h | ⟨d', hd, h⟩
    · unfold EState.decl at h
      dsimp only at h
      cases hx : d.errorDecl with
      | none => rw [hx] at h; exact .inl h
      | some y =>
        rw [hx] at h
        dsimp only at h
        rw [show (e.other d.ownProblems).errors = e.errors from rfl] at h
        cases hf : e.errors.find y.1.toText with
        | none =>
          rw [hf] at h
          dsimp only at h
          rw [GoMap.find_insert] at h
          by_cases hk : k = y.1.toText
          · rw [if_pos hk.symm] at h
            cases h
            exact .inr ⟨d, by simp, y.1, hx, hk.symm⟩
          · rw [if_neg (Ne.symm hk)] at h; exact .inl h
        | some z => rw [hf] at h; exact .inl h
    · exact .inr ⟨d', by simp [hd], h⟩

theorem edom_decls (e : EState) (ds : List Decl) (k : Text) :
    ((ds.foldl EState.decl e).errors.find k).isSome = true ↔
      (e.errors.find k).isSome = true ∨ k ∈ declaredErrors ds := by
  induction ds generalizing e with
  | nil => simp [declaredErrors]
  | cons d ds ih =>
    rw [List.foldl_cons, ih]
    unfold declaredErrors
    rw [List.filterMap_cons]
    have hn : d.declaredError = d.errorDecl.map fun x => x.1.toText := by cases d <;> rfl
    rw [hn]
    unfold EState.decl
    dsimp only
    cases hx : d.errorDecl with
    | none => rfl
    | some y =>
      dsimp only
      rw [show (e.other d.ownProblems).errors = e.errors from rfl]
      simp only [Option.map_some, List.mem_cons]
      cases hf : e.errors.find y.1.toText with
      | none =>
        dsimp only
        rw [GoMap.find_insert]
        by_cases hk : k = y.1.toText
        · simp [hk]
        · simp [hk, Ne.symm hk]
      | some z =>
        by_cases hk : k = y.1.toText
        · subst hk; simp [hf]
        · simp [hk]

/-- There are no problems if there are none of each kind. -/
theorem problems_nil (ps : List ReadProblem) :
    ps = [] ↔ typeDups ps = [] ∧ resourceDups ps = [] ∧ errorDups ps = [] ∧
      otherProblems ps = [] := by
  constructor
  · intro h; subst h; exact ⟨rfl, rfl, rfl, rfl⟩
  · rintro ⟨h1, h2, h3, h4⟩
    cases ps with
    | nil => rfl
    | cons p ps =>
      exfalso
      cases p <;> simp_all [typeDups, resourceDups, errorDups, otherProblems]

/-! ## Exact duplicates of types -/

theorem typeDecl_name (v : VersionId) (d : Decl) : (d.typeDecl v).map Prod.fst = d.typeName := by
  cases d <;> rfl

theorem mentions_dups (v : VersionId) (t : TState) (ks : List Text) :
    (ks.foldl (TState.mention v) t).dups = t.dups := by
  induction ks generalizing t with
  | nil => rfl
  | cons k ks ih =>
    rw [List.foldl_cons, ih]
    unfold TState.mention
    cases t.types k <;> rfl

theorem typeRefs_dups (v : VersionId) (t : TState) (es : List TypeExpr) :
    (es.foldl (TState.typeRef v) t).dups = t.dups := by
  induction es generalizing t with
  | nil => rfl
  | cons e es ih =>
    rw [List.foldl_cons, ih]
    unfold TState.typeRef
    cases e.derivedView v with
    | none => exact mentions_dups v t _
    | some x =>
      dsimp only
      unfold TState.derive
      cases (List.foldl (TState.mention v) t e.mentions).types e.key <;>
        exact mentions_dups v t _

theorem declare_dups {v : VersionId} {base : Text → Option TypeView} {h : Hist} {t : TState}
    (i : TInv v base h t) (name : Name) (x : TypeView)
    (hd : name.toText ∉ h.derived.map TypeExpr.key) (used : List Text)
    (hu : ∀ k, k ∈ used ↔ (base k).isSome = true ∨ k ∈ h.declared.map fun d => d.1.toText) :
    (t.declare name x).dups = t.dups ++ if name.toText ∈ used then [name] else [] := by
  have key : ((t.types name.toText).isSome = true ∧ t.undef name.toText = false) ↔
      name.toText ∈ used := by
    rw [hu]
    constructor
    · rintro ⟨h1, h2⟩
      obtain ⟨y, hy⟩ := Option.isSome_iff_exists.mp h1
      rcases i.source _ y hy with h | ⟨d, hd', h⟩ | ⟨e, he, h⟩ | h
      · left; rw [h]; rfl
      · right; exact List.mem_map.mpr ⟨d, hd', h.1⟩
      · exact absurd (List.mem_map.mpr ⟨e, he, h.1⟩) hd
      · exact absurd (by rw [h.1]; rfl) (i.kind _ y hy h2)
    · rintro (h1 | h1)
      · obtain ⟨y, hy⟩ := Option.isSome_iff_exists.mp h1
        have := i.fixed _ y hy
        rw [this.1]
        exact ⟨rfl, this.2⟩
      · refine ⟨(i.dom _).mpr (.inr (.inr (.inr h1))), ?_⟩
        obtain ⟨d, hd', he⟩ := List.mem_map.mp h1
        rw [← he]
        exact i.declared d hd'
  unfold TState.declare
  cases hk : t.types name.toText with
  | none =>
    rw [hk] at key
    simp only [Option.isSome_none, Bool.false_eq_true, false_and, false_iff] at key
    rw [if_neg key]
    simp
  | some y =>
    rw [hk] at key
    simp only [Option.isSome_some, true_and] at key
    dsimp only
    split
    · rename_i hu'
      rw [if_neg (by rw [← key, hu']; simp)]
      simp
    · rename_i hu'
      rw [if_pos (key.mp (by simpa using hu'))]

theorem TInv.dups {v : VersionId} {base : Text → Option TypeView} {h : Hist} {t : TState}
    (i : TInv v base h t) (used : List Text)
    (hu : ∀ k, k ∈ used ↔ (base k).isSome = true ∨ k ∈ h.declared.map fun d => d.1.toText)
    (ds : List Decl)
    (hc : ∀ k, k ∈ h.derived.map TypeExpr.key ∨ k ∈ derivedTypes ds →
      k ∉ (ds.filterMap Decl.typeName).map Name.toText) :
    (ds.foldl (TState.decl v) t).dups =
      t.dups ++ repeated used (ds.filterMap Decl.typeName) := by
  induction ds generalizing h t used with
  | nil => simp [repeated]
  | cons d ds ih =>
    have i1 := i.typeRefs d.typeRefs
    have i2 := i.decl d
    rw [List.foldl_cons, List.filterMap_cons, ← typeDecl_name v]
    rw [List.filterMap_cons, ← typeDecl_name v] at hc
    have hder : ∀ k, (k ∈ (h.derived ++ d.typeRefs.filter TypeExpr.isDerived).map TypeExpr.key ∨
        k ∈ derivedTypes ds) →
        (k ∈ h.derived.map TypeExpr.key ∨ k ∈ derivedTypes (d :: ds)) := by
      intro k hk
      simp only [derivedTypes, refsOf, List.flatMap_cons, List.filter_append, List.map_append,
        List.mem_append] at hk ⊢
      rcases hk with (hk | hk) | hk
      · exact .inl hk
      · exact .inr (.inl hk)
      · exact .inr (.inr hk)
    cases hx : d.typeDecl v with
    | none =>
      have e1 : t.decl v d = d.typeRefs.foldl (TState.typeRef v) t := by simp [TState.decl, hx]
      rw [hx] at hc
      rw [e1]
      rw [ih i1 used hu (fun k hk => hc k (hder k hk)), typeRefs_dups]
      rfl
    | some x =>
      have e1 : t.decl v d = (d.typeRefs.foldl (TState.typeRef v) t).declare x.1 x.2 := by
        simp [TState.decl, hx]
      rw [hx] at hc i2
      simp only [Option.map_some, List.map_cons, List.mem_cons, not_or] at hc
      have hd : x.1.toText ∉ (h.derived ++ d.typeRefs.filter TypeExpr.isDerived).map
          TypeExpr.key := fun hm => (hc _ (hder _ (.inl hm))).1 rfl
      simp only [Option.map_some]
      rw [ih i2 (used ++ [x.1.toText]) ?_ (fun k hk => (hc k (hder k hk)).2), e1,
        declare_dups i1 x.1 x.2 hd used hu, typeRefs_dups, repeated_cons, List.append_assoc]
      intro k
      rw [List.mem_append, hu]
      simp [or_assoc]

end Verif
