import Verif.Lemmas.ClassRefPlain
import Verif.Spec.Session

/-!
# Lemmas about the service that the nested reader loads
-/

namespace Verif

namespace ClassRef

theorem version_eq (s : Session) (k n : Text) :
    s.version k n = (s.services.find k).bind fun l => l.versions.find n := by
  unfold Session.version
  cases s.services.find k <;> rfl

/-- A service of the model, and the names of its versions. -/
structure Holds (s : Session) (k : Text) (P : Text → Prop) : Prop where
  service : ∃ l, s.services.find k = some l
  named : ∀ n v, s.version k n = some v → v.name.toText = n
  versions : ∀ n, (∃ v, s.version k n = some v) ↔ P n

theorem Holds.congr {s s' : Session} {k : Text} {P : Text → Prop} (h : Holds s k P)
    (he : s'.services = s.services) : Holds s' k P := by
  have hv : ∀ n, s'.version k n = s.version k n := fun n => by rw [version_eq, version_eq, he]
  exact ⟨he ▸ h.service, fun n v hn => h.named n v (hv n ▸ hn), fun n => by rw [hv]; exact h.versions n⟩

theorem Holds.iff {s : Session} {k : Text} {P Q : Text → Prop} (h : Holds s k P)
    (he : ∀ n, P n ↔ Q n) : Holds s k Q :=
  ⟨h.service, h.named, fun n => (h.versions n).trans (he n)⟩

theorem Holds.store {s : Session} {k : Text} {P : Text → Prop} (h : Holds s k P) (v : LoadedVersion) :
    Holds (s.store k v) k (fun n => P n ∨ n = v.name.toText) := by
  obtain ⟨l, hl⟩ := h.service
  have hv : ∀ n, (s.store k v).version k n = if v.name.toText = n then some v else s.version k n := by
    intro n
    rw [version_eq, version_eq]
    unfold Session.store
    rw [hl]
    dsimp only
    rw [GoMap.find_insert, if_pos rfl, Option.bind_some, GoMap.find_insert]
    rfl
  refine ⟨?_, fun n w hw => ?_, fun n => ?_⟩
  · unfold Session.store
    rw [hl]
    dsimp only
    rw [GoMap.find_insert, if_pos rfl]
    exact ⟨_, rfl⟩
  · rw [hv] at hw
    split at hw
    · cases hw; assumption
    · exact h.named n w hw
  · rw [hv]
    split
    · rename_i he
      exact ⟨fun _ => .inr he.symm, fun _ => ⟨_, rfl⟩⟩
    · rename_i he
      rw [h.versions]
      exact ⟨.inl, fun o => o.resolve_right fun e => he e.symm⟩

theorem Holds.findOrCreate {s : Session} {k : Text} {P : Text → Prop} (h : Holds s k P) (name : Name) :
    Holds (s.findOrCreateVersion k name).1 k (fun n => P n ∨ n = name.toText) ∧
      (s.findOrCreateVersion k name).2.name.toText = name.toText := by
  unfold Session.findOrCreateVersion
  split
  · rename_i v hv
    rw [← version_eq] at hv
    refine ⟨h.iff fun n => ⟨.inl, fun o => ?_⟩, h.named _ _ hv⟩
    rcases o with o | rfl
    · exact o
    · exact (h.versions _).mp ⟨v, hv⟩
  · generalize TypeTable.newVersion s.heap s.created = table
    dsimp only
    refine ⟨?_, rfl⟩
    exact Holds.store (s := { s with heap := table.heap, created := s.created + 1 }) (h.congr rfl) _

theorem Holds.loadVersion {s : Session} {k : Text} {P : Text → Prop} (h : Holds s k P)
    (d : SourceVersion) : Holds (Session.loadVersion k s d) k (fun n => P n ∨ Creates d n) := by
  unfold Session.loadVersion
  have skip : ∀ {s' : Session}, s'.services = s.services → (∀ n, ¬ Creates d n) →
      Holds s' k (fun n => P n ∨ Creates d n) := fun he hn =>
    (h.congr he).iff fun n => ⟨.inl, fun o => o.resolve_right (hn n)⟩
  cases hd : d.isDir with
  | false => exact skip rfl fun n c => by have := c.1; rw [hd] at this; cases this
  | true =>
    have hc : ∀ n, d.status = .good ∨ d.status = .unlistable →
        (n = (parseUsingSeparator d.name '_').toText ↔ Creates d n) := fun n hs =>
      ⟨fun e => ⟨hd, hs, e.symm⟩, fun c => c.2.2.symm⟩
    simp only [Bool.not_true, Bool.false_eq_true, if_false]
    obtain ⟨h1, h2⟩ := h.findOrCreate (parseUsingSeparator d.name '_')
    cases hs : d.status with
    | missing => exact skip rfl fun n c => by have := c.2.1; rw [hs] at this; simp at this
    | unknown => exact skip rfl fun n c => by have := c.2.1; rw [hs] at this; simp at this
    | notDirectory => exact skip rfl fun n c => by have := c.2.1; rw [hs] at this; simp at this
    | unlistable =>
      dsimp only
      exact (Holds.congr (s' := (s.findOrCreateVersion k _).1.report .noDirectory) h1 rfl).iff
        fun n => or_congr Iff.rfl (hc n (.inr hs))
    | good =>
      dsimp only
      generalize s.findOrCreateVersion k (parseUsingSeparator d.name '_') = p at h1 h2 ⊢
      obtain ⟨s1, v⟩ := p
      dsimp only at h1 h2 ⊢
      unfold Session.leave
      dsimp only
      generalize List.foldl Session.loadFile (s1.enter v) d.files = r
      have h3 := Holds.store (s := { s1 with
          heap := r.table.heap
          graph := r.graph
          undefinedTypes := r.undefinedTypes
          undefinedResources := r.undefinedResources
          problems := r.problems }) (h1.congr rfl)
        { v with types := r.table.types, resources := r.resources, errors := r.errors }
      refine h3.iff fun n => ?_
      dsimp only
      rw [h2]
      constructor
      · rintro ((o | o) | o)
        · exact .inl o
        · exact .inr ((hc n (.inl hs)).mp o)
        · exact .inr ((hc n (.inl hs)).mp o)
      · rintro (o | o)
        · exact .inl (.inl o)
        · exact .inr ((hc n (.inl hs)).mpr o)

theorem Holds.loadVersions {k : Text} (ds : List SourceVersion) : ∀ {s : Session} {P : Text → Prop},
    Holds s k P →
      Holds (ds.foldl (Session.loadVersion k) s) k (fun n => P n ∨ ∃ d ∈ ds, Creates d n) := by
  induction ds with
  | nil => intro s P h; exact h.iff fun n => by simp
  | cons d ds ih =>
    intro s P h
    refine (ih (h.loadVersion d)).iff fun n => ?_
    simp [or_assoc]

/-- What a model without services has after loading a service. -/
theorem loadService_holds {s : Session} (hs : s.services = []) (d : SourceService)
    (hd : d.isDir = true) :
    (d.status = .good → Holds (Session.loadService s d) (parseUsingSeparator d.name '_').toText
      fun n => ∃ v ∈ d.versions, Creates v n) ∧
    (d.status ≠ .good → ∀ k n, (Session.loadService s d).version k n = none) := by
  have hnone : ∀ k, s.services.find k = none := fun k => by rw [hs]; rfl
  unfold Session.loadService
  rw [hd]
  simp only [Bool.not_true, Bool.false_eq_true, if_false]
  have hcreate : ∀ k n, (s.findOrCreateService (parseUsingSeparator d.name '_')).version k n = none := by
    intro k n
    unfold Session.findOrCreateService
    rw [hnone, version_eq]
    dsimp only
    rw [GoMap.find_insert]
    split
    · rfl
    · rw [hnone]; rfl
  constructor
  · intro hg
    rw [hg]
    dsimp only
    have h0 : Holds (s.findOrCreateService (parseUsingSeparator d.name '_'))
        (parseUsingSeparator d.name '_').toText (fun _ => False) := by
      refine ⟨?_, fun n v hv => ?_, fun n => ⟨fun ⟨v, hv⟩ => ?_, fun f => f.elim⟩⟩
      · unfold Session.findOrCreateService
        rw [hnone]
        dsimp only
        rw [GoMap.find_insert, if_pos rfl]
        exact ⟨_, rfl⟩
      · rw [hcreate] at hv; cases hv
      · rw [hcreate] at hv; cases hv
    exact (Holds.loadVersions d.versions h0).iff fun n => by simp
  · intro hg k n
    cases hst : d.status with
    | good => exact absurd hst hg
    | missing => dsimp only; rw [version_eq]; show (s.services.find k).bind _ = _; rw [hnone]; rfl
    | unknown => dsimp only; rw [version_eq]; show (s.services.find k).bind _ = _; rw [hnone]; rfl
    | notDirectory => dsimp only; rw [version_eq]; show (s.services.find k).bind _ = _; rw [hnone]; rfl
    | unlistable =>
      dsimp only
      have := hcreate k n
      rw [version_eq] at this ⊢
      exact this

end ClassRef

end Verif
