import Verif.Lemmas.Reader

/-! Helper lemmas about the reader: the part of the abstract machine that deals with types. -/

namespace Verif

open Reader

/-- The part of the abstract state that deals with types. -/
structure TState where
  types : Text → Option TypeView
  undef : Text → Bool
  dups : List Name

/-- Names reported as already defined. -/
def typeDups (ps : List ReadProblem) : List Name :=
  ps.filterMap fun p => match p with | .typeDefined n => some n | _ => none

def AState.t (a : AState) : TState :=
  { types := a.types, undef := a.undef, dups := typeDups a.problems }

namespace TState

def mention (v : VersionId) (t : TState) (k : Text) : TState :=
  match t.types k with
  | some _ => t
  | none => { t with types := upd t.types k (some (.unknown v)), undef := upd t.undef k true }

def derive (t : TState) (k : Text) (view : TypeView) : TState :=
  match t.types k with
  | some _ => t
  | none => { t with types := upd t.types k (some view) }

def typeRef (v : VersionId) (t : TState) (e : TypeExpr) : TState :=
  match e.derivedView v with
  | none => e.mentions.foldl (mention v) t
  | some view => (e.mentions.foldl (mention v) t).derive e.key view

def declare (t : TState) (name : Name) (view : TypeView) : TState :=
  match t.types name.toText with
  | none => { t with types := upd t.types name.toText (some view) }
  | some _ =>
    if t.undef name.toText then
      { t with
        types := upd t.types name.toText (some view)
        undef := upd t.undef name.toText false }
    else { t with dups := t.dups ++ [name] }

end TState

/-- What a declaration declares: the name and the description of the type. -/
def Decl.typeDecl (v : VersionId) : Decl → Option (Name × TypeView)
  | .enum name doc annotations values =>
    some (parseUsingCase name,
      declaredView v .enum doc annotations (values.map ValueDecl.view) [])
  | .class name doc annotations members =>
    some (parseUsingCase name,
      declaredView v .class doc annotations [] (members.map MemberDecl.view))
  | .struct name doc annotations members =>
    some (parseUsingCase name,
      declaredView v .struct doc annotations [] (members.map MemberDecl.view))
  | .resource _ _ _ _ => none
  | .error _ _ _ _ => none

def TState.decl (v : VersionId) (t : TState) (d : Decl) : TState :=
  let t := d.typeRefs.foldl (TState.typeRef v) t
  match d.typeDecl v with
  | none => t
  | some (name, view) => t.declare name view

theorem t_mention (v : VersionId) (a : AState) (k : Text) : (a.mention v k).t = a.t.mention v k := by
  unfold AState.mention TState.mention
  rw [show a.t.types k = a.types k from rfl]
  cases a.types k <;> rfl

theorem t_derive (a : AState) (k : Text) (view : TypeView) :
    (a.derive k view).t = a.t.derive k view := by
  unfold AState.derive TState.derive
  rw [show a.t.types k = a.types k from rfl]
  cases a.types k <;> rfl

theorem t_typeRef (v : VersionId) (a : AState) (e : TypeExpr) :
    (a.typeRef v e).t = a.t.typeRef v e := by
  cases e with
  | plain n => exact t_mention v a _
  | list n =>
    simp only [AState.typeRef, TState.typeRef, TypeExpr.derivedView, TypeExpr.mentions,
      TypeExpr.names, List.map_cons, List.map_nil, List.foldl_cons, List.foldl_nil]
    rw [t_derive, t_mention]
    rfl
  | map i n =>
    simp only [AState.typeRef, TState.typeRef, TypeExpr.derivedView, TypeExpr.mentions,
      TypeExpr.names, List.map_cons, List.map_nil, List.foldl_cons, List.foldl_nil]
    rw [t_derive, t_mention, t_mention]
    rfl

theorem t_typeRefs (v : VersionId) (a : AState) (es : List TypeExpr) :
    (a.typeRefs v es).t = es.foldl (TState.typeRef v) a.t := by
  unfold AState.typeRefs
  induction es generalizing a with
  | nil => rfl
  | cons e es ih => rw [List.foldl_cons, ih, t_typeRef]; rfl

theorem t_declare (a : AState) (name : Name) (view : TypeView) :
    (a.declare name view).t = a.t.declare name view := by
  unfold AState.declare TState.declare
  rw [show a.t.types name.toText = a.types name.toText from rfl,
    show a.t.undef name.toText = a.undef name.toText from rfl]
  cases a.types name.toText with
  | none => rfl
  | some x =>
    dsimp only
    split
    · rfl
    · simp only [AState.t, AState.report, typeDups, List.filterMap_append]
      rfl

theorem t_report (a : AState) (p : ReadProblem) (h : ∀ n, p ≠ .typeDefined n) :
    (a.report p).t = a.t := by
  simp only [AState.t, AState.report, typeDups, List.filterMap_append, TState.mk.injEq, true_and]
  cases p with
  | typeDefined n => exact absurd rfl (h n)
  | _ => simp

theorem t_rmention (a : AState) (k : Text) : (a.rmention k).t = a.t := by
  unfold AState.rmention
  cases a.resources k <;> rfl

theorem t_rmentions (a : AState) (ks : List Text) : (ks.foldl AState.rmention a).t = a.t := by
  induction ks generalizing a with
  | nil => rfl
  | cons k ks ih => rw [List.foldl_cons, ih, t_rmention]

theorem t_locator (a : AState) (l : LocatorDecl) : (a.locator l).t = a.t := by
  unfold AState.locator
  dsimp only
  split
  · rw [t_report _ _ (by simp), t_rmentions]
  · rw [t_rmentions]

theorem t_members (v : VersionId) (a : AState) (ms : List ResourceMember) :
    (ms.foldl (AState.resourceMember v) a).t =
      (ms.flatMap ResourceMember.typeRefs).foldl (TState.typeRef v) a.t := by
  induction ms generalizing a with
  | nil => rfl
  | cons m ms ih =>
    rw [List.foldl_cons, ih, List.flatMap_cons, List.foldl_append]
    cases m with
    | method m => rw [show a.resourceMember v (.method m) = a.typeRefs v _ from rfl, t_typeRefs]; rfl
    | locator l => rw [show a.resourceMember v (.locator l) = a.locator l from rfl, t_locator]; rfl

theorem t_rdeclare (a : AState) (name : Name) (view : ResourceView) :
    (a.rdeclare name view).t = a.t := by
  unfold AState.rdeclare
  cases a.resources name.toText with
  | none => rfl
  | some x =>
    dsimp only
    split
    · rfl
    · exact t_report _ _ (by simp)

theorem t_code (a : AState) (text : Text) : (a.code text).t = a.t := by
  unfold AState.code
  split
  · rfl
  · exact t_report _ _ (by simp)

theorem t_codes (a : AState) (ts : List Text) : (ts.foldl AState.code a).t = a.t := by
  induction ts generalizing a with
  | nil => rfl
  | cons k ks ih => rw [List.foldl_cons, ih, t_code]

theorem t_decl (v : VersionId) (a : AState) (d : Decl) : (a.decl v d).t = a.t.decl v d := by
  cases d with
  | enum name doc annotations values => exact t_declare _ _ _
  | «class» name doc annotations members =>
    simp only [AState.decl, TState.decl, Decl.typeDecl, Decl.typeRefs]
    rw [t_declare, t_typeRefs]
  | struct name doc annotations members =>
    simp only [AState.decl, TState.decl, Decl.typeDecl, Decl.typeRefs]
    rw [t_declare, t_typeRefs]
  | resource name doc annotations members =>
    simp only [AState.decl, TState.decl, Decl.typeDecl, Decl.typeRefs]
    rw [t_rdeclare, t_members]
  | error name doc annotations codes =>
    simp only [AState.decl, TState.decl, Decl.typeDecl, Decl.typeRefs, AState.errorDecl,
      List.foldl_nil]
    split
    · exact t_codes a codes
    · rw [t_report _ _ (by simp), t_codes]

theorem t_decls (v : VersionId) (a : AState) (ds : List Decl) :
    (ds.foldl (AState.decl v) a).t = ds.foldl (TState.decl v) a.t := by
  induction ds generalizing a with
  | nil => rfl
  | cons d ds ih => rw [List.foldl_cons, ih, t_decl]; rfl

/-! ## Histories -/

/-- What has been processed. -/
structure Hist where
  mentioned : List Text := []
  derived : List TypeExpr := []
  declared : List (Name × TypeView) := []

/-- Invariant of the types: `base` are the types that exist from the start. -/
structure TInv (v : VersionId) (base : Text → Option TypeView) (h : Hist) (t : TState) : Prop where
  dom : ∀ k, (t.types k).isSome = true ↔
    (base k).isSome = true ∨ k ∈ h.mentioned ∨ k ∈ h.derived.map TypeExpr.key ∨
      k ∈ h.declared.map fun d => d.1.toText
  undef : ∀ k, t.undef k = true → t.types k = some (.unknown v)
  kind : ∀ k x, t.types k = some x → t.undef k = false → x.kind ≠ .undefined
  source : ∀ k x, t.types k = some x →
    (base k = some x) ∨ (∃ d ∈ h.declared, d.1.toText = k ∧ d.2 = x) ∨
    (∃ e ∈ h.derived, e.key = k ∧ e.derivedView v = some x) ∨
    (x = .unknown v ∧ k ∈ h.mentioned)
  fixed : ∀ k x, base k = some x → t.types k = some x ∧ t.undef k = false
  known : ∀ k, t.undef k = true → k ∈ h.mentioned
  declared : ∀ d ∈ h.declared, t.undef d.1.toText = false
  nodup : t.dups = [] → (h.declared.map fun d => d.1.toText).Nodup ∧
    ∀ d ∈ h.declared, base d.1.toText = none
  dup : ∀ n ∈ t.dups, base n.toText ≠ none ∨ n.toText ∈ h.derived.map TypeExpr.key ∨
    ∃ before d after, h.declared = before ++ d :: after ∧ d.1.toText = n.toText ∧
      ∃ d' ∈ before, d'.1.toText = n.toText

theorem upd_self {α : Type} (f : Text → α) (k : Text) (v : α) : upd f k v k = v := by simp [upd]

theorem upd_other {α : Type} (f : Text → α) (k k' : Text) (v : α) (h : k' ≠ k) :
    upd f k v k' = f k' := by simp [upd, h]

theorem TInv.mention {v : VersionId} {base : Text → Option TypeView} {h : Hist} {t : TState}
    (i : TInv v base h t) (k : Text) :
    TInv v base { h with mentioned := h.mentioned ++ [k] } (t.mention v k) := by
  unfold TState.mention
  cases hk : t.types k with
  | some x =>
    dsimp only
    refine ⟨?_, i.undef, i.kind, ?_, i.fixed, ?_, i.declared, i.nodup, i.dup⟩
    · intro k'
      try dsimp only at *
      rw [i.dom k']
      simp only [List.mem_append, List.mem_singleton]
      constructor
      · rintro (h | h | h | h)
        · exact .inl h
        · exact .inr (.inl (.inl h))
        · exact .inr (.inr (.inl h))
        · exact .inr (.inr (.inr h))
      · rintro (h | (h | h) | h | h)
        · exact .inl h
        · exact .inr (.inl h)
        · subst h
          exact (i.dom k').mp (by simp [hk])
        · exact .inr (.inr (.inl h))
        · exact .inr (.inr (.inr h))
    · intro k' x' hx
      try dsimp only at *
      rcases i.source k' x' hx with h | h | h | h
      · exact .inl h
      · exact .inr (.inl h)
      · exact .inr (.inr (.inl h))
      · exact .inr (.inr (.inr ⟨h.1, by simp [h.2]⟩))
    · intro k' h'
      try dsimp only at *
      simp [i.known k' h']
  | none =>
    dsimp only
    have hnb : base k = none := by
      cases hb : base k with
      | none => rfl
      | some y => have := (i.fixed k y hb).1; rw [hk] at this; cases this
    refine ⟨?_, ?_, ?_, ?_, ?_, ?_, ?_, i.nodup, i.dup⟩
    · intro k'
      try dsimp only at *
      by_cases e : k' = k
      · subst e; simp [upd_self]
      · rw [upd_other _ _ _ _ e, i.dom k']
        simp [List.mem_append, e]
    · intro k' h'
      try dsimp only at *
      by_cases e : k' = k
      · subst e; rw [upd_self]
      · rw [upd_other _ _ _ _ e] at h' ⊢; exact i.undef k' h'
    · intro k' x hx hu
      try dsimp only at *
      by_cases e : k' = k
      · subst e; rw [upd_self] at hu; cases hu
      · rw [upd_other _ _ _ _ e] at hu hx; exact i.kind k' x hx hu
    · intro k' x hx
      try dsimp only at *
      by_cases e : k' = k
      · subst e
        rw [upd_self] at hx
        cases hx
        exact .inr (.inr (.inr ⟨rfl, by simp⟩))
      · rw [upd_other _ _ _ _ e] at hx
        rcases i.source k' x hx with h | h | h | h
        · exact .inl h
        · exact .inr (.inl h)
        · exact .inr (.inr (.inl h))
        · exact .inr (.inr (.inr ⟨h.1, by simp [h.2]⟩))
    · intro k' x hx
      try dsimp only at *
      by_cases e : k' = k
      · subst e; rw [hnb] at hx; cases hx
      · rw [upd_other _ _ _ _ e, upd_other _ _ _ _ e]; exact i.fixed k' x hx
    · intro k' h'
      try dsimp only at *
      by_cases e : k' = k
      · subst e; simp
      · rw [upd_other _ _ _ _ e] at h'
        simp [i.known k' h']
    · intro d hd
      try dsimp only at *
      by_cases e : d.1.toText = k
      · have : (t.types d.1.toText).isSome = true :=
          (i.dom _).mpr (.inr (.inr (.inr (List.mem_map.mpr ⟨d, hd, rfl⟩))))
        rw [e, hk] at this
        cases this
      · rw [upd_other _ _ _ _ e]; exact i.declared d hd

theorem TInv.mentions {v : VersionId} {base : Text → Option TypeView} {h : Hist} {t : TState}
    (i : TInv v base h t) (ks : List Text) :
    TInv v base { h with mentioned := h.mentioned ++ ks } (ks.foldl (TState.mention v) t) := by
  induction ks generalizing h t with
  | nil => simpa using i
  | cons k ks ih =>
    have := ih (i.mention k)
    simpa [List.append_assoc] using this

theorem derivedView_kind (v : VersionId) (e : TypeExpr) (x : TypeView)
    (h : e.derivedView v = some x) : x.kind ≠ .undefined := by
  cases e <;> simp [TypeExpr.derivedView] at h <;> subst h <;> simp

theorem TInv.derive {v : VersionId} {base : Text → Option TypeView} {h : Hist} {t : TState}
    (i : TInv v base h t) (e : TypeExpr) (x : TypeView) (hx : e.derivedView v = some x) :
    TInv v base { h with derived := h.derived ++ [e] } (t.derive e.key x) := by
  unfold TState.derive
  cases hk : t.types e.key with
  | some y =>
    dsimp only
    refine ⟨?_, i.undef, i.kind, ?_, i.fixed, ?_, i.declared, i.nodup, ?_⟩
    · intro k'
      try dsimp only at *
      rw [i.dom k']
      simp only [List.map_append, List.mem_append, List.map_cons, List.map_nil, List.mem_singleton]
      constructor
      · rintro (h | h | h | h)
        · exact .inl h
        · exact .inr (.inl h)
        · exact .inr (.inr (.inl (.inl h)))
        · exact .inr (.inr (.inr h))
      · rintro (h | h | (h | h) | h)
        · exact .inl h
        · exact .inr (.inl h)
        · exact .inr (.inr (.inl h))
        · subst h
          exact (i.dom e.key).mp (by simp [hk])
        · exact .inr (.inr (.inr h))
    · intro k' x' hx
      try dsimp only at *
      rcases i.source k' x' hx with h | h | ⟨e', he', h⟩ | h
      · exact .inl h
      · exact .inr (.inl h)
      · exact .inr (.inr (.inl ⟨e', by simp [he'], h⟩))
      · exact .inr (.inr (.inr h))
    · intro k' h'
      try dsimp only at *
      exact i.known k' h'
    · intro n hn
      rcases i.dup n hn with h | h | h
      · exact .inl h
      · exact .inr (.inl (by simp only [List.map_append, List.mem_append]; exact .inl h))
      · exact .inr (.inr h)
  | none =>
    dsimp only
    have hnb : base e.key = none := by
      cases hb : base e.key with
      | none => rfl
      | some y => have := (i.fixed _ y hb).1; rw [hk] at this; cases this
    have hun' : t.undef e.key = false := by
      cases hu : t.undef e.key with
      | false => rfl
      | true => have := i.undef _ hu; rw [hk] at this; cases this
    refine ⟨?_, ?_, ?_, ?_, ?_, ?_, i.declared, i.nodup, ?_⟩
    · intro k'
      try dsimp only at *
      by_cases e1 : k' = e.key
      · subst e1; simp [upd_self]
      · rw [upd_other _ _ _ _ e1, i.dom k']
        simp only [List.map_append, List.mem_append, List.map_cons, List.map_nil,
          List.mem_singleton, e1, or_false]
    · intro k' h'
      try dsimp only at *
      by_cases e1 : k' = e.key
      · subst e1; rw [hun'] at h'; cases h'
      · rw [upd_other _ _ _ _ e1]; exact i.undef k' h'
    · intro k' y hy hu
      try dsimp only at *
      by_cases e1 : k' = e.key
      · subst e1; rw [upd_self] at hy; cases hy; exact derivedView_kind v e _ hx
      · rw [upd_other _ _ _ _ e1] at hy; exact i.kind k' y hy hu
    · intro k' y hy
      try dsimp only at *
      by_cases e1 : k' = e.key
      · subst e1
        rw [upd_self] at hy
        cases hy
        exact .inr (.inr (.inl ⟨e, by simp, rfl, hx⟩))
      · rw [upd_other _ _ _ _ e1] at hy
        rcases i.source k' y hy with h | h | ⟨e', he', h⟩ | h
        · exact .inl h
        · exact .inr (.inl h)
        · exact .inr (.inr (.inl ⟨e', by simp [he'], h⟩))
        · exact .inr (.inr (.inr h))
    · intro k' y hy
      try dsimp only at *
      by_cases e1 : k' = e.key
      · subst e1; rw [hnb] at hy; cases hy
      · rw [upd_other _ _ _ _ e1]; exact i.fixed k' y hy
    · intro k' h'
      try dsimp only at *
      exact i.known k' h'
    · intro n hn
      rcases i.dup n hn with h | h | h
      · exact .inl h
      · exact .inr (.inl (by simp only [List.map_append, List.mem_append]; exact .inl h))
      · exact .inr (.inr h)

theorem TInv.typeRef {v : VersionId} {base : Text → Option TypeView} {h : Hist} {t : TState}
    (i : TInv v base h t) (e : TypeExpr) :
    TInv v base
      { h with
        mentioned := h.mentioned ++ e.mentions
        derived := h.derived ++ [e].filter TypeExpr.isDerived } (t.typeRef v e) := by
  unfold TState.typeRef
  have i' := i.mentions e.mentions
  cases hx : e.derivedView v with
  | none =>
    have : e.isDerived = false := by cases e <;> simp_all [TypeExpr.derivedView, TypeExpr.isDerived]
    simpa [this] using i'
  | some x =>
    have : e.isDerived = true := by cases e <;> simp_all [TypeExpr.derivedView, TypeExpr.isDerived]
    simpa [this] using i'.derive e x hx

theorem TInv.typeRefs {v : VersionId} {base : Text → Option TypeView} {h : Hist} {t : TState}
    (i : TInv v base h t) (es : List TypeExpr) :
    TInv v base
      { h with
        mentioned := h.mentioned ++ es.flatMap TypeExpr.mentions
        derived := h.derived ++ es.filter TypeExpr.isDerived } (es.foldl (TState.typeRef v) t) := by
  induction es generalizing h t with
  | nil => simpa using i
  | cons e es ih =>
    have := ih (i.typeRef e)
    rw [List.foldl_cons]
    have hf : (e :: es).filter TypeExpr.isDerived =
        [e].filter TypeExpr.isDerived ++ es.filter TypeExpr.isDerived := by
      rw [← List.filter_append]; rfl
    rw [hf, List.flatMap_cons]
    simpa [List.append_assoc] using this

theorem TInv.declare {v : VersionId} {base : Text → Option TypeView} {h : Hist} {t : TState}
    (i : TInv v base h t) (name : Name) (x : TypeView) (hx : x.kind ≠ .undefined) :
    TInv v base { h with declared := h.declared ++ [(name, x)] } (t.declare name x) := by
  have hnb : t.types name.toText = none ∨ t.undef name.toText = true →
      base name.toText = none := by
    intro hc
    cases hb : base name.toText with
    | none => rfl
    | some y =>
      have := i.fixed _ y hb
      rcases hc with hc | hc
      · rw [hc] at this; cases this.1
      · rw [hc] at this; cases this.2
  have hnd : t.types name.toText = none ∨ t.undef name.toText = true →
      name.toText ∉ h.declared.map fun d => d.1.toText := by
    intro hc hm
    rcases hc with hc | hc
    · have := (i.dom name.toText).mpr (.inr (.inr (.inr hm)))
      rw [hc] at this
      cases this
    · obtain ⟨d, hd, he⟩ := List.mem_map.mp hm
      have := i.declared d hd
      rw [he, hc] at this
      cases this
  have key : t.types name.toText = none ∨ t.undef name.toText = true →
      TInv v base { h with declared := h.declared ++ [(name, x)] }
        { t with
          types := upd t.types name.toText (some x)
          undef := upd t.undef name.toText false } := by
    intro hc
    have hnb := hnb hc
    have hnd := hnd hc
    refine ⟨?_, ?_, ?_, ?_, ?_, ?_, ?_, ?_, ?_⟩
    · intro k'
      try dsimp only at *
      by_cases e1 : k' = name.toText
      · subst e1; simp [upd_self]
      · rw [upd_other _ _ _ _ e1, i.dom k']
        simp only [List.map_append, List.mem_append, List.map_cons, List.map_nil,
          List.mem_singleton, e1, or_false]
    · intro k' h'
      try dsimp only at *
      by_cases e1 : k' = name.toText
      · subst e1; rw [upd_self] at h'; cases h'
      · rw [upd_other _ _ _ _ e1] at h' ⊢; exact i.undef k' h'
    · intro k' y hy hu
      try dsimp only at *
      by_cases e1 : k' = name.toText
      · subst e1; rw [upd_self] at hy; cases hy; exact hx
      · rw [upd_other _ _ _ _ e1] at hy hu; exact i.kind k' y hy hu
    · intro k' y hy
      try dsimp only at *
      by_cases e1 : k' = name.toText
      · subst e1
        rw [upd_self] at hy
        cases hy
        exact .inr (.inl ⟨(name, x), by simp, rfl, rfl⟩)
      · rw [upd_other _ _ _ _ e1] at hy
        rcases i.source k' y hy with h | ⟨d, hd, h⟩ | h | h
        · exact .inl h
        · exact .inr (.inl ⟨d, by simp [hd], h⟩)
        · exact .inr (.inr (.inl h))
        · exact .inr (.inr (.inr h))
    · intro k' y hy
      try dsimp only at *
      by_cases e1 : k' = name.toText
      · subst e1; rw [hnb] at hy; cases hy
      · rw [upd_other _ _ _ _ e1, upd_other _ _ _ _ e1]; exact i.fixed k' y hy
    · intro k' h'
      try dsimp only at *
      by_cases e1 : k' = name.toText
      · subst e1; rw [upd_self] at h'; cases h'
      · rw [upd_other _ _ _ _ e1] at h'; exact i.known k' h'
    · intro d hd
      try dsimp only at *
      by_cases e1 : d.1.toText = name.toText
      · rw [e1, upd_self]
      · rw [upd_other _ _ _ _ e1]
        rcases List.mem_append.mp hd with hd | hd
        · exact i.declared d hd
        · rw [List.mem_singleton] at hd; subst hd; exact absurd rfl e1
    · intro hd
      try dsimp only at *
      obtain ⟨h1, h2⟩ := i.nodup hd
      refine ⟨?_, ?_⟩
      · rw [List.map_append, List.nodup_append]
        refine ⟨h1, by simp, ?_⟩
        intro a ha b hb e
        simp only [List.map_cons, List.map_nil, List.mem_singleton] at hb
        subst hb; subst e
        exact hnd ha
      · intro d hd
        rcases List.mem_append.mp hd with hd | hd
        · exact h2 d hd
        · rw [List.mem_singleton] at hd; subst hd; exact hnb
    · intro n hn
      try dsimp only at *
      rcases i.dup n hn with h | h | ⟨before, d, after, h1, h2⟩
      · exact .inl h
      · exact .inr (.inl h)
      · exact .inr (.inr ⟨before, d, after ++ [(name, x)], by simp [h1], h2⟩)
  unfold TState.declare
  cases hk : t.types name.toText with
  | none =>
    dsimp only
    have hu : t.undef name.toText = false := by
      cases hu : t.undef name.toText with
      | false => rfl
      | true => have := i.undef _ hu; rw [hk] at this; cases this
    have := key (.inl hk)
    have he : upd t.undef name.toText false = t.undef := by
      funext k
      by_cases e : k = name.toText
      · subst e; rw [upd_self, hu]
      · rw [upd_other _ _ _ _ e]
    rw [he] at this
    exact this
  | some y =>
    dsimp only
    split
    · rename_i hu
      exact key (.inr hu)
    · rename_i hu
      have hu : t.undef name.toText = false := by simpa using hu
      have hys := (i.dom name.toText).mp (by simp [hk])
      refine ⟨?_, i.undef, i.kind, ?_, i.fixed, i.known, ?_, ?_, ?_⟩
      · intro k'
        try dsimp only at *
        rw [i.dom k']
        simp only [List.map_append, List.mem_append, List.map_cons, List.map_nil,
          List.mem_singleton]
        constructor
        · rintro (h | h | h | h)
          · exact .inl h
          · exact .inr (.inl h)
          · exact .inr (.inr (.inl h))
          · exact .inr (.inr (.inr (.inl h)))
        · rintro (h | h | h | h | h)
          · exact .inl h
          · exact .inr (.inl h)
          · exact .inr (.inr (.inl h))
          · exact .inr (.inr (.inr h))
          · subst h; exact hys
      · intro k' y' hy'
        try dsimp only at *
        rcases i.source k' y' hy' with h | ⟨d, hd, h⟩ | h | h
        · exact .inl h
        · exact .inr (.inl ⟨d, by simp [hd], h⟩)
        · exact .inr (.inr (.inl h))
        · exact .inr (.inr (.inr h))
      · intro d hd
        try dsimp only at *
        rcases List.mem_append.mp hd with hd | hd
        · exact i.declared d hd
        · rw [List.mem_singleton] at hd; subst hd; exact hu
      · intro hd
        simp at hd
      · intro n hn
        try dsimp only at *
        rcases List.mem_append.mp hn with hn | hn
        · rcases i.dup n hn with h | h | ⟨before, d, after, h1, h2⟩
          · exact .inl h
          · exact .inr (.inl h)
          · exact .inr (.inr ⟨before, d, after ++ [(name, x)], by simp [h1], h2⟩)
        · rw [List.mem_singleton] at hn
          subst hn
          rcases i.source _ y hk with h | ⟨d, hd, h⟩ | ⟨e, he, h⟩ | h
          · left; rw [h]; simp
          · exact .inr (.inr ⟨_, (n, x), [], rfl, rfl, d, hd, h.1⟩)
          · exact .inr (.inl (List.mem_map.mpr ⟨e, he, h.1⟩))
          · exact absurd (by rw [h.1]; rfl) (i.kind _ y hk hu)

theorem typeDecl_kind (v : VersionId) (d : Decl) (n : Name) (x : TypeView)
    (h : d.typeDecl v = some (n, x)) : x.kind ≠ .undefined := by
  cases d <;> simp [Decl.typeDecl] at h <;> obtain ⟨_, h⟩ := h <;> subst h <;> simp [declaredView]

/-- The history of a list of declarations. -/
def histOf (v : VersionId) (ds : List Decl) : Hist :=
  { mentioned := mentionedTypes ds
    derived := (refsOf ds).filter TypeExpr.isDerived
    declared := ds.filterMap (Decl.typeDecl v) }

theorem TInv.decl {v : VersionId} {base : Text → Option TypeView} {h : Hist} {t : TState}
    (i : TInv v base h t) (d : Decl) :
    TInv v base
      { mentioned := h.mentioned ++ d.typeRefs.flatMap TypeExpr.mentions
        derived := h.derived ++ d.typeRefs.filter TypeExpr.isDerived
        declared := h.declared ++ (d.typeDecl v).toList } (t.decl v d) := by
  unfold TState.decl
  have i' := i.typeRefs d.typeRefs
  dsimp only
  cases hx : d.typeDecl v with
  | none => simpa using i'
  | some x => exact i'.declare x.1 x.2 (typeDecl_kind v d x.1 x.2 hx)

theorem TInv.decls {v : VersionId} {base : Text → Option TypeView} {h : Hist} {t : TState}
    (i : TInv v base h t) (ds : List Decl) :
    TInv v base
      { mentioned := h.mentioned ++ (histOf v ds).mentioned
        derived := h.derived ++ (histOf v ds).derived
        declared := h.declared ++ (histOf v ds).declared } (ds.foldl (TState.decl v) t) := by
  induction ds generalizing h t with
  | nil => simpa [histOf, mentionedTypes, refsOf] using i
  | cons d ds ih =>
    have := ih (i.decl d)
    rw [List.foldl_cons]
    have e : (d :: ds).filterMap (Decl.typeDecl v) =
        (d.typeDecl v).toList ++ ds.filterMap (Decl.typeDecl v) := by
      rw [List.filterMap_cons]
      cases d.typeDecl v <;> rfl
    simp only [histOf, mentionedTypes, refsOf, List.flatMap_cons, List.flatMap_append,
      List.filter_append, e, List.append_assoc] at this ⊢
    exact this

end Verif
