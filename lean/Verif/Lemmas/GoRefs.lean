import Verif.Spec.GoRefs
import Verif.Lemmas.ClientPaths

/-! Lemmas about the types written by the Go generators. -/

namespace Verif

namespace GoRef

theorem removeAll_none (sel : Text) : ∀ (s : Text), '.' ∉ s → removeAll (sel ++ t!".") 0 s = s
  | [], _ => rfl
  | c :: cs, h => by
    rw [removeAll, if_neg, removeAll_none sel cs (fun hm => h (List.mem_cons_of_mem _ hm))]
    intro hp
    obtain ⟨r, hr⟩ := List.isPrefixOf_iff_prefix.mp hp
    apply h
    rw [← hr]
    simp

theorem removeAll_skip (old : Text) : ∀ (a s : Text), removeAll old a.length (a ++ s) = removeAll old 0 s
  | [], _ => rfl
  | _ :: a, s => removeAll_skip old a s

theorem not_prefix_of_dot_later (sel pre rest : Text) (hp : pre ≠ []) (h1 : '.' ∉ pre)
    (h2 : '.' ∉ sel) : (sel ++ t!".").isPrefixOf (pre ++ sel ++ t!"." ++ rest) = false := by
  apply Bool.eq_false_iff.mpr
  intro h
  obtain ⟨r, hr⟩ := List.isPrefixOf_iff_prefix.mp h
  have hl : sel.length < (pre ++ sel).length := by
    have := List.length_pos_iff.mpr hp
    simp; omega
  have e1 : (sel ++ t!"." ++ r)[sel.length]? = some '.' := by simp
  have e2 : (pre ++ sel ++ t!"." ++ rest)[sel.length]? = (pre ++ sel)[sel.length]? := by
    rw [List.append_assoc (pre ++ sel), List.getElem?_append_left hl]
  rw [hr, e2] at e1
  have hm := List.mem_of_getElem? e1
  rcases List.mem_append.mp hm with h | h
  · exact h1 h
  · exact h2 h

theorem removeAll_once (sel name : Text) (hn : '.' ∉ name) (hs : '.' ∉ sel) :
    ∀ (pre : Text), '.' ∉ pre →
      removeAll (sel ++ t!".") 0 (pre ++ sel ++ t!"." ++ name) = pre ++ name
  | [], _ => by
    have hp : (sel ++ t!".").isPrefixOf (sel ++ t!"." ++ name) = true :=
      List.isPrefixOf_iff_prefix.mpr ⟨name, rfl⟩
    cases hc : sel ++ t!"." with
    | nil => simp at hc
    | cons c cs =>
      rw [List.nil_append, hc, List.cons_append, removeAll]
      rw [hc] at hp
      rw [List.cons_append] at hp
      rw [if_pos hp]
      show removeAll (c :: cs) cs.length (cs ++ name) = _
      rw [removeAll_skip, ← hc, removeAll_none sel name hn]
      rfl
  | c :: pre, h => by
    have hp := not_prefix_of_dot_later sel (c :: pre) name (by simp) h hs
    have ih := removeAll_once sel name hn hs pre (fun hm => h (List.mem_cons_of_mem _ hm))
    simp only [List.cons_append] at hp ⊢
    rw [removeAll, if_neg (by rw [hp]; decide), ih]

theorem versionPackage_eq {o : Owner} (h : UsableOwner o) :
    Go.versionPackage o.service o.version =
      o.service.lowerJoined [] ++ t!"/" ++ o.version.lowerJoined [] := by
  simp [Go.versionPackage, h.service, h.version]

theorem versionImport_eq {base : Text} {o : Owner} (hb : base ≠ []) (h : UsableOwner o) :
    versionImport base o = home base o := by
  unfold versionImport pathJoin home
  rw [versionPackage_eq h, if_neg hb, if_neg (by simp)]
  simp

theorem pathBase_append (a w : Text) (h : '/' ∉ w) : pathBase (a ++ t!"/" ++ w) = w := by
  unfold pathBase
  have : a ++ t!"/" ++ w = a ++ '/' :: w := by simp
  rw [this, splitOn_append_sep, splitOn_of_not_mem _ _ h]
  simp [List.getLastD_eq_getLast?]

theorem pathBase_home {base : Text} {o : Owner} (h : UsableOwner o) :
    pathBase (home base o) = o.version.lowerJoined [] := pathBase_append _ _ h.slash

theorem versionSelector_eq {o : Owner} (h : UsableOwner o) :
    versionSelector o = o.version.lowerJoined [] := by
  unfold versionSelector
  rw [versionPackage_eq h]
  exact pathBase_append _ _ h.slash

theorem slash_mem_home (base : Text) (o : Owner) : '/' ∈ home base o := by
  unfold home
  simp

theorem nil_ne_home (base : Text) (o : Owner) : ([] : Text) ≠ home base o := by
  intro h
  have := slash_mem_home base o
  rw [← h] at this
  simp at this

theorem time_ne_home (base : Text) (o : Owner) : t!"time" ≠ home base o := by
  intro h
  have := slash_mem_home base o
  rw [← h] at this
  exact absurd this (by decide)

/-- What is written for a reference to a type with its selector. -/
theorem emit_qualified (base : Text) (here o : Owner) (pre nm n : Text) (e : Nat)
    (ho : UsableOwner o) (hp : '.' ∉ pre) (hn : '.' ∉ nm) :
    emit (home base here) ⟨home base o, o.version.lowerJoined [], n,
      pre ++ o.version.lowerJoined [] ++ t!"." ++ nm, e⟩ =
      pre ++ (GoType.declared (home base o) (o.version.lowerJoined []) nm).written (home base here) := by
  unfold emit GoType.written
  dsimp only
  split
  · rw [removeAll_once _ _ hn ho.dot _ hp]
  · simp

/-- What is written for a reference to a type without selector. -/
theorem emit_bare (pkg : Text) (ref : Ref) (h : '.' ∉ ref.text) : emit pkg ref = ref.text := by
  unfold emit
  split
  · exact removeAll_none _ _ h
  · rfl

theorem emit_foreign (pkg : Text) (ref : Ref) (h : ref.imprt ≠ pkg) : emit pkg ref = ref.text := by
  unfold emit
  rw [if_neg h]

theorem package_decl (base : Text) (hb : base ≠ []) (d : Decl) (h : UsableOwner d.owner) :
    package base (.enum d) = { imprt := home base d.owner, selector := d.owner.version.lowerJoined [] } ∧
    package base (.struct d) =
      { imprt := home base d.owner, selector := d.owner.version.lowerJoined [] } := by
  simp only [package, versionImport_eq hb h, pathBase_home h, and_self]

theorem dot_append {a b : Text} (ha : '.' ∉ a) (hb : '.' ∉ b) : '.' ∉ a ++ b := by
  intro h
  rcases List.mem_append.mp h with h | h
  · exact ha h
  · exact hb h

end GoRef

end Verif
