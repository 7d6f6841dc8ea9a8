import Verif.Lemmas.Files

/-!
# Property C79: the files written by the generators of Go code
-/

namespace Verif.Files

/-! ## Which files are written -/

/-- The generation finishes without error exactly if nothing had been reported before, nothing is
reported while the content of the files that the model asks for is generated, and all those files can
be written. -/
theorem c79_success_iff (env : Env) (m : List ServiceView) (hu : Usable m) (st : State Content) :
    (generateGo env m st).2 = true ↔
      st.errors = 0 ∧
      (∀ slot, Wanted m slot → env.reports slot = 0 ∧ env.writable (location slot) = true) ∧
      (∀ s v, HasVersion m s v →
        env.specReports s v = 0 ∧ env.specWritable (specLocation s v) = true) := by
  have hspec : (∀ s v, HasVersion m s v →
      env.specReports s v = 0 ∧ env.specWritable (specLocation s v) = true) ↔
      ∀ j ∈ specJobs env m, Fine env.specWritable j := by
    constructor
    · intro h j hj
      obtain ⟨s, v, hv, rfl⟩ := mem_specJobs.mp hj
      exact h s v hv
    · intro h s v hv
      exact h _ (mem_specJobs.mpr ⟨s, v, hv, rfl⟩)
  have hall : (∀ slot, Wanted m slot → env.reports slot = 0 ∧ env.writable (location slot) = true) ↔
      ∀ j ∈ allJobs env m, Fine env.writable j := by
    constructor
    · intro h j hj
      rcases List.mem_append.mp hj with hj | hj
      · obtain ⟨slot, ⟨hw, -⟩, rfl⟩ := (plain_covers hu env j).mp hj
        exact h slot hw
      · obtain ⟨s, v, hv, s', v', -, rfl⟩ := (mem_embedJobs hu).mp hj
        exact h (.openapi s v) hv
    · intro h slot hw
      by_cases hp : ∃ s v, slot = .openapi s v
      · obtain ⟨s, v, rfl⟩ := hp
        obtain ⟨s', v', -, -, hd⟩ := specDisk_spec (env := env) (s := s) (v := v) hw
        rw [specFile_eq] at hd
        exact h _ (List.mem_append_right _ ((mem_embedJobs hu).mpr ⟨s, v, hw, s', v', hd, rfl⟩))
      · have hp : Plain slot := fun s v e => hp ⟨s, v, e⟩
        exact h _ (List.mem_append_left _ ((plain_covers hu env _).mpr ⟨slot, ⟨hw, hp⟩, rfl⟩))
  rw [hspec, hall]
  constructor
  · intro h
    cases hg : generateGo env m st with
    | mk st' b =>
      rw [hg] at h
      dsimp only at h
      subst h
      obtain ⟨h1, h2, h3⟩ := generate_true hg
      exact ⟨h1, h3, h2⟩
  · rintro ⟨h1, h3, h2⟩
    rw [generate_ok h1 h2 h3]

/-- What a file for a slot may contain: its code or, if it is for a specification, the
specification of a version of the model with the same file. -/
def Holds (m : List ServiceView) (slot : Slot) (content : Option Content) : Prop :=
  match slot with
  | .openapi s v => ∃ s' v', HasVersion m s' v' ∧ specLocation s' v' = specLocation s v ∧
      content = some (.spec s' v')
  | slot => content = some (.code slot)

theorem holds_of_job {env : Env} {m : List ServiceView} (hu : Usable m) {j : Job Content}
    (hj : j ∈ allJobs env m) :
    ∃ slot, Wanted m slot ∧ location slot = j.path ∧ Holds m slot (some j.content) := by
  rcases List.mem_append.mp hj with hj | hj
  · obtain ⟨slot, ⟨hw, hp⟩, rfl⟩ := (plain_covers hu env j).mp hj
    refine ⟨slot, hw, rfl, ?_⟩
    cases slot with
    | openapi s v => exact absurd rfl (hp s v)
    | _ => rfl
  · obtain ⟨s, v, hv, s', v', hd, rfl⟩ := (mem_embedJobs hu).mp hj
    refine ⟨.openapi s v, hv, rfl, ?_⟩
    obtain ⟨s2, v2, h1, h2, h3⟩ := specDisk_spec (env := env) hv
    rw [specFile_eq, hd] at h3
    cases h3
    exact ⟨s', v', h1, h2, rfl⟩

theorem job_of_slot {env : Env} {m : List ServiceView} (hu : Usable m) {slot : Slot}
    (hw : Wanted m slot) : ∃ j ∈ allJobs env m, j.path = location slot := by
  by_cases hp : ∃ s v, slot = .openapi s v
  · obtain ⟨s, v, rfl⟩ := hp
    obtain ⟨s', v', -, -, hd⟩ := specDisk_spec (env := env) (s := s) (v := v) hw
    rw [specFile_eq] at hd
    exact ⟨_, List.mem_append_right _ ((mem_embedJobs hu).mpr ⟨s, v, hw, s', v', hd, rfl⟩), rfl⟩
  · have hp : Plain slot := fun s v e => hp ⟨s, v, e⟩
    exact ⟨_, List.mem_append_left _ ((plain_covers hu env _).mpr ⟨slot, ⟨hw, hp⟩, rfl⟩), rfl⟩

/-- When the generation finishes without error the file of each slot that the model asks for has
what corresponds to a slot with that file, and no other file has been touched. -/
theorem c79_written (env : Env) (m : List ServiceView) (hu : Usable m) (st : State Content)
    (hs : (generateGo env m st).2 = true) :
    (∀ slot, Wanted m slot → ∃ slot', Wanted m slot' ∧ location slot' = location slot ∧
      Holds m slot' ((generateGo env m st).1.disk (location slot))) ∧
    (∀ p, (∀ slot, Wanted m slot → location slot ≠ p) →
      (generateGo env m st).1.disk p = st.disk p) := by
  cases hg : generateGo env m st with
  | mk st' b =>
    rw [hg] at hs
    dsimp only at hs ⊢
    subst hs
    obtain ⟨h1, h2, h3⟩ := generate_true hg
    rw [generate_ok h1 h2 h3] at hg
    cases hg
    dsimp only
    constructor
    · intro slot hw
      obtain ⟨j, hj, hp⟩ := job_of_slot (env := env) hu hw
      rcases overlay_spec (allJobs env m) st.disk (location slot) with ⟨c, hl, hd⟩ | ⟨hn, -⟩
      · obtain ⟨k, hk, hkp, rfl⟩ := lastAt_mem hl
        obtain ⟨slot', hw', hl', hh⟩ := holds_of_job hu hk
        exact ⟨slot', hw', by rw [hl', hkp], by rw [hd]; exact hh⟩
      · exact absurd hp (hn j hj)
    · intro p hp
      rcases overlay_spec (allJobs env m) st.disk p with ⟨c, hl, -⟩ | ⟨-, hd⟩
      · obtain ⟨k, hk, hkp, -⟩ := lastAt_mem hl
        obtain ⟨slot', hw', hl', -⟩ := holds_of_job hu hk
        exact absurd (hl'.trans hkp) (hp slot' hw')
      · exact hd

/-- When the generation fails each file is as it was or has the content of a slot that the model
asks for, and if an error had been reported before then nothing is written. -/
theorem c79_failure (env : Env) (m : List ServiceView) (hu : Usable m) (st : State Content)
    (hs : (generateGo env m st).2 = false) :
    (∀ p, (generateGo env m st).1.disk p = st.disk p ∨
      ∃ slot, Wanted m slot ∧ location slot = p ∧
        Holds m slot ((generateGo env m st).1.disk p)) ∧
    (st.errors > 0 → (generateGo env m st).1.disk = st.disk) := by
  cases hg : generateGo env m st with
  | mk st' b =>
    rw [hg] at hs
    dsimp only at hs ⊢
    subst hs
    obtain ⟨written, rest, h1, h2, h3, -⟩ := generate_false hg
    constructor
    · intro p
      rw [h2]
      rcases overlay_spec written st.disk p with ⟨c, hl, hd⟩ | ⟨-, hd⟩
      · obtain ⟨k, hk, hkp, rfl⟩ := lastAt_mem hl
        obtain ⟨slot', hw', hl', hh⟩ :=
          holds_of_job (env := env) hu (by rw [h1]; exact List.mem_append_left _ hk)
        exact .inr ⟨slot', hw', by rw [hl', hkp], by rw [hd]; exact hh⟩
      · exact .inl hd
    · intro h
      rw [h2, h3 h]
      rfl

/-- A list of files is written in order, up to the first one that can't be written or for which
something has been reported, and the later ones aren't touched. -/
theorem c79_stops {α : Type} (writable : Text → Bool) (jobs : List (Job α)) (st : State α) :
    (∃ before j after, jobs = before ++ j :: after ∧
      (∀ k ∈ before, k.reported = 0 ∧ writable k.path = true) ∧ (before ≠ [] → st.errors = 0) ∧
      (st.errors + j.reported > 0 ∨ writable j.path = false) ∧
      Overlaid before st.disk (runJobs writable jobs st).1.disk ∧
      (runJobs writable jobs st).1.errors = st.errors + j.reported ∧
      (runJobs writable jobs st).2 = false) ∨
    ((∀ k ∈ jobs, k.reported = 0 ∧ writable k.path = true) ∧ (jobs ≠ [] → st.errors = 0) ∧
      Overlaid jobs st.disk (runJobs writable jobs st).1.disk ∧
      (runJobs writable jobs st).1.errors = st.errors ∧ (runJobs writable jobs st).2 = true) := by
  cases hr : runJobs writable jobs st with
  | mk st' b =>
    cases b with
    | false =>
      obtain ⟨before, j, after, h1, h2, h3, h4, h5, h6⟩ := runJobs_false hr
      exact .inl ⟨before, j, after, h1, h3, h2, h4, by rw [h5]; exact overlay_spec _ _, h6, rfl⟩
    | true =>
      obtain ⟨h1, h2⟩ := runJobs_true hr
      refine .inr ⟨h2, h1, ?_⟩
      cases jobs with
      | nil =>
        cases hr
        exact ⟨overlay_spec [] _, rfl, rfl⟩
      | cons j js =>
        have he := h1 (by simp)
        rw [runJobs_ok he h2] at hr
        cases hr
        exact ⟨overlay_spec _ _, he.symm, rfl⟩

/-- The generators run in the order of the stages: if something is reported for a file, or it can't
be written, then no file of a later stage is touched. -/
theorem c79_order (env : Env) (m : List ServiceView) (hu : Usable m) (st : State Content)
    (slot : Slot) (hw : Wanted m slot)
    (hbad : env.reports slot > 0 ∨ env.writable (location slot) = false) (p : Text)
    (hp : ∀ other, Wanted m other → location other = p → stage slot < stage other) :
    (generateGo env m st).2 = false ∧ (generateGo env m st).1.disk p = st.disk p := by
  have hf : (generateGo env m st).2 = false := by
    cases h : (generateGo env m st).2 with
    | false => rfl
    | true =>
      have := ((c79_success_iff env m hu st).mp h).2.1 slot hw
      rcases hbad with hb | hb
      · omega
      · rw [this.2] at hb; cases hb
  refine ⟨hf, ?_⟩
  cases hg : generateGo env m st with
  | mk st' b =>
    rw [hg] at hf
    dsimp only at hf ⊢
    subst hf
    obtain ⟨written, rest, h1, h2, -, h4⟩ := generate_false hg
    have hjob : ∃ j ∈ allJobs env m, jobStage j = stage slot ∧ ¬ Fine env.writable j := by
      have hn : ∀ c, ¬ Fine env.writable
          (⟨location slot, c, env.reports slot⟩ : Job Content) := by
        rintro c ⟨ha, hb⟩
        dsimp only at ha hb
        rcases hbad with h | h
        · omega
        · rw [h] at hb; cases hb
      by_cases hpl : ∃ s v, slot = .openapi s v
      · obtain ⟨s, v, rfl⟩ := hpl
        obtain ⟨s', v', -, -, hd⟩ := specDisk_spec (env := env) (s := s) (v := v) hw
        rw [specFile_eq] at hd
        exact ⟨_, List.mem_append_right _ ((mem_embedJobs hu).mpr ⟨s, v, hw, s', v', hd, rfl⟩), rfl,
          hn _⟩
      · have hpl : Plain slot := fun s v e => hpl ⟨s, v, e⟩
        exact ⟨_, List.mem_append_left _ ((plain_covers hu env _).mpr ⟨slot, ⟨hw, hpl⟩, rfl⟩), rfl,
          hn _⟩
    obtain ⟨f, hfm, hfs, hfn⟩ := hjob
    have hst := allJobs_staged hu env
    rw [h1] at hfm hst
    have hfr : f ∈ rest := by
      rcases List.mem_append.mp hfm with h | h
      · exact absurd (h4 f h) hfn
      · exact h
    rw [Staged, List.pairwise_append] at hst
    rw [h2]
    rcases overlay_spec written st.disk p with ⟨c, hl, -⟩ | ⟨-, hd⟩
    · obtain ⟨k, hk, hkp, rfl⟩ := lastAt_mem hl
      have hle := hst.2.2 k hk f hfr
      obtain ⟨other, ho, hol, hh⟩ :=
        holds_of_job (env := env) hu (by rw [h1]; exact List.mem_append_left _ hk)
      have hlt := hp other ho (hol.trans hkp)
      have : jobStage k = stage other := by
        unfold jobStage
        cases other with
        | openapi s v =>
          obtain ⟨s', v', -, -, e⟩ := hh
          injection e with e
          rw [e]
          rfl
        | _ =>
          have e : some k.content = some _ := hh
          injection e with e
          rw [e]
      omega
    · exact hd

/-! ## Files with the same name -/

theorem same_version {m : List ServiceView} (hn : NoClash m) {s v s' v' : Name}
    (h : HasVersion m s v) (h' : HasVersion m s' v')
    (hd : [joined s, joined v] = [joined s', joined v']) : s = s' ∧ v = v' := by
  injection hd with h1 h2
  injection h2 with h2 _
  have := hn.services s s' (hasService_of h) (hasService_of h') h1
  subst this
  exact ⟨rfl, hn.versions s v v' h h' h2⟩

theorem version_of_wanted_type {ks : List Kind} {m : List ServiceView} {s v t : Name}
    (h : HasTypeOf ks m s v t) : HasVersion m s v := by
  obtain ⟨k, -, h⟩ := h
  exact hasVersion_of_type h

theorem distinct_of_noClash {m : List ServiceView} (hu : Usable m) (hn : NoClash m) {i j : Slot}
    (hi : Wanted m i) (hj : Wanted m j) (h : location i = location j) : i = j := by
  obtain ⟨hd, hf⟩ := location_inj (clean_of_wanted hu hi) (clean_of_wanted hu hj) h
  have he : endingOf i = endingOf j := by rw [← ending_eq, ← ending_eq, hf]
  cases i with
  | commonErrors =>
    cases j <;> first
      | rfl
      | (exfalso; revert he; simp [endingOf]; done)
      | (exfalso; revert hd; simp [dirsOf]; done)
  | helpers =>
    cases j <;> first
      | rfl
      | (exfalso; revert he; simp [endingOf]; done)
      | (exfalso; revert hf; simp [fileOf]; done)
  | jsonHelpers =>
    cases j <;> first
      | rfl
      | (exfalso; revert he; simp [endingOf]; done)
      | (exfalso; revert hf; simp [fileOf]; done)
  | pathTree =>
    cases j <;> first
      | rfl
      | (exfalso; revert he; simp [endingOf]; done)
  | errors s v =>
    cases j <;> first
      | (exfalso; revert he; simp [endingOf]; done)
      | (exfalso; revert hd; simp [dirsOf]; done)
      | (obtain ⟨h1, h2⟩ := same_version hn hi hj hd; rw [h1, h2])
  | metadataReader s v =>
    cases j <;> first
      | (exfalso; revert he; simp [endingOf]; done)
      | (obtain ⟨h1, h2⟩ := same_version hn hi hj hd; rw [h1, h2])
  | openapi s v =>
    cases j <;> first
      | (exfalso; revert he; simp [endingOf]; done)
      | (obtain ⟨h1, h2⟩ := same_version hn hi hj hd; rw [h1, h2])
  | serviceClient s =>
    cases j <;> first
      | (exfalso; revert he; simp [endingOf]; done)
      | (exfalso; revert hd; simp [dirsOf]; done)
      | (injection hd with h1 _; rw [hn.services _ _ hi hj h1])
  | builder s v t =>
    cases j <;> first
      | (exfalso; revert he; simp [endingOf]; done)
      | (obtain ⟨h1, h2⟩ := same_version hn (version_of_wanted_type hi) (version_of_wanted_type hj) hd
         subst h1 h2
         rw [hn.builders _ _ _ _ hi hj (List.append_cancel_right hf)])
  | metadataType s v =>
    cases j with
    | metadataType s' v' => obtain ⟨h1, h2⟩ := same_version hn hi hj hd; rw [h1, h2]
    | type s' v' t =>
      exact absurd (List.append_cancel_right
        (show t!"metadata" ++ t!"_type.go" = snakeCase t ++ t!"_type.go" from hf)).symm
        (hn.metadataType _ _ _ hj)
    | _ => exfalso; revert he; simp [endingOf]; done
  | type s v t =>
    cases j with
    | metadataType s' v' =>
      exact absurd (List.append_cancel_right
        (show snakeCase t ++ t!"_type.go" = t!"metadata" ++ t!"_type.go" from hf))
        (hn.metadataType _ _ _ hi)
    | type s' v' t' =>
      obtain ⟨h1, h2⟩ := same_version hn (version_of_wanted_type hi) (version_of_wanted_type hj) hd
      subst h1 h2
      rw [hn.types _ _ _ _ hi hj (List.append_cancel_right hf)]
    | _ => exfalso; revert he; simp [endingOf]; done
  | metadataClient s v =>
    cases j with
    | metadataClient s' v' => obtain ⟨h1, h2⟩ := same_version hn hi hj hd; rw [h1, h2]
    | client s' v' r =>
      exact absurd (List.append_cancel_right
        (show t!"metadata" ++ t!"_client.go" = snakeCase r ++ t!"_client.go" from hf)).symm
        (hn.metadataResource _ _ _ hj)
    | serviceClient s' => exfalso; revert hd; simp [dirsOf]; done
    | _ => exfalso; revert he; simp [endingOf]; done
  | client s v r =>
    cases j with
    | metadataClient s' v' =>
      exact absurd (List.append_cancel_right
        (show snakeCase r ++ t!"_client.go" = t!"metadata" ++ t!"_client.go" from hf))
        (hn.metadataResource _ _ _ hi)
    | client s' v' r' =>
      obtain ⟨h1, h2⟩ := same_version hn (hasVersion_of_resource hi) (hasVersion_of_resource hj) hd
      subst h1 h2
      rw [hn.resources _ _ _ _ hi hj (List.append_cancel_right hf)]
    | serviceClient s' => exfalso; revert hd; simp [dirsOf]; done
    | _ => exfalso; revert he; simp [endingOf]; done
  | typeJson s v t =>
    cases j with
    | typeJson s' v' t' =>
      obtain ⟨h1, h2⟩ := same_version hn (version_of_wanted_type hi) (version_of_wanted_type hj) hd
      subst h1 h2
      rw [hn.json _ _ _ _ hi hj (List.append_cancel_right hf)]
    | resourceJson s' v' r => exact absurd hf (json_endings _ _)
    | _ => exfalso; revert he; simp [endingOf]; done
  | resourceJson s v r =>
    cases j with
    | resourceJson s' v' r' =>
      obtain ⟨h1, h2⟩ := same_version hn (hasVersion_of_resource hi) (hasVersion_of_resource hj) hd
      subst h1 h2
      rw [hn.resources _ _ _ _ hi hj (List.append_cancel_right hf)]
    | typeJson s' v' t' => exact absurd hf.symm (json_endings _ _)
    | _ => exfalso; revert he; simp [endingOf]; done

/-- No two of the files have the same name exactly if services and versions have different names
once their words are joined, types and resources of a version have different names in snake case,
and no struct, enumerated type or resource is called metadata. -/
theorem c79_distinct_iff (m : List ServiceView) (hu : Usable m) :
    (∀ i j, Wanted m i → Wanted m j → location i = location j → i = j) ↔ NoClash m := by
  constructor
  · intro h
    constructor
    · intro a b ha hb e
      have := h (.serviceClient a) (.serviceClient b) ha hb (by simp [location, e])
      injection this
    · intro s a b ha hb e
      have := h (.errors s a) (.errors s b) ha hb (by simp [location, directory, e])
      injection this
    · intro s v a b ha hb e
      have := h (.type s v a) (.type s v b) ha hb (by simp [location, e])
      injection this
    · intro s v a b ha hb e
      have := h (.builder s v a) (.builder s v b) ha hb (by simp [location, e])
      injection this
    · intro s v a b ha hb e
      have := h (.typeJson s v a) (.typeJson s v b) ha hb (by simp [location, e])
      injection this
    · intro s v a b ha hb e
      have := h (.client s v a) (.client s v b) ha hb (by simp [location, e])
      injection this
    · intro s v t ht e
      have := h (.type s v t) (.metadataType s v) ht (version_of_wanted_type ht)
        (by simp [location, e])
      cases this
    · intro s v r hr e
      have := h (.client s v r) (.metadataClient s v) hr (hasVersion_of_resource hr)
        (by simp [location, e])
      cases this
  · intro hn i j hi hj e
    exact distinct_of_noClash hu hn hi hj e

/-- The words of the names have no underscores and no slashes. -/
def PlainWords (n : Name) : Prop := ∀ w ∈ n, '_' ∉ w.text.map Char.toLower ∧ '/' ∉ w.text.map Char.toLower

theorem filter_snake : ∀ (n : Name), PlainWords n → (snakeCase n).filter (· ≠ '_') = joined n
  | [], _ => rfl
  | [w], h => by
    have := (h w List.mem_cons_self).1
    simp only [snakeCase, joined, List.map_cons, List.map_nil, List.intercalate,
      List.intersperse, List.flatten_cons, List.flatten_nil, List.append_nil]
    exact List.filter_eq_self.mpr fun c hc => by
      have : c ≠ '_' := fun e => this (e ▸ hc)
      simpa using this
  | w :: x :: l, h => by
    have hw := (h w List.mem_cons_self).1
    have ih := filter_snake (x :: l) fun y hy => h y (List.mem_cons_of_mem _ hy)
    have e : snakeCase (w :: x :: l) = w.text.map Char.toLower ++ '_' :: snakeCase (x :: l) := by
      simp [snakeCase, List.intercalate, List.intersperse]
    rw [e, List.filter_append, List.filter_cons, if_neg (by simp), ih]
    have : (w.text.map Char.toLower).filter (· ≠ '_') = w.text.map Char.toLower :=
      List.filter_eq_self.mpr fun c hc => by
        have : c ≠ '_' := fun e => hw (e ▸ hc)
        simpa using this
    rw [this]
    rfl

theorem snake_no_slash : ∀ (n : Name), PlainWords n → '/' ∉ snakeCase n
  | [], _ => by decide
  | [w], h => by
    simpa [snakeCase, List.intercalate, List.intersperse] using (h w List.mem_cons_self).2
  | w :: x :: l, h => by
    have hw := (h w List.mem_cons_self).2
    have ih := snake_no_slash (x :: l) fun y hy => h y (List.mem_cons_of_mem _ hy)
    have e : snakeCase (w :: x :: l) = w.text.map Char.toLower ++ '_' :: snakeCase (x :: l) := by
      simp [snakeCase, List.intercalate, List.intersperse]
    rw [e]
    intro hc
    rcases List.mem_append.mp hc with hc | hc
    · exact hw hc
    · rcases List.mem_cons.mp hc with hc | hc
      · exact absurd hc (by decide)
      · exact ih hc

/-- Two versions share the file of the specification exactly if the names of services and versions
are equal in snake case. -/
theorem c79_spec_file_iff (s v s' v' : Name) (h : PlainWords s) (h' : PlainWords s')
    (hv : PlainWords v) (hv' : PlainWords v') :
    specFile s v = specFile s' v' ↔ snakeCase s = snakeCase s' ∧ snakeCase v = snakeCase v' := by
  rw [specFile_eq, specFile_eq]
  constructor
  · intro e
    have e1 : snakeCase s ++ '/' :: (snakeCase v ++ '/' :: t!"openapi.json") =
        snakeCase s' ++ '/' :: (snakeCase v' ++ '/' :: t!"openapi.json") := by
      simpa [specLocation] using e
    obtain ⟨h1, h2⟩ := append_sep_inj (snake_no_slash s h) (snake_no_slash s' h') e1
    exact ⟨h1, (append_sep_inj (snake_no_slash v hv) (snake_no_slash v' hv') h2).1⟩
  · rintro ⟨h1, h2⟩
    rw [specLocation, specLocation, h1, h2]

/-- Files of a package live in its directory, and those of the base package in the output directory. -/
theorem c79_path (package file : Text) :
    pathOf [] file = file ++ t!".go" ∧
    (package ≠ [] → pathOf package file = package ++ t!"/" ++ file ++ t!".go") :=
  ⟨rfl, fun h => if_neg h⟩

/-- C79: if the specification of a version can't be written then no file is changed, and the errors
reported are those of that version and one more. -/
theorem c79_spec_failure (env : Env) (m : List ServiceView) (st : State Content) (he : st.errors = 0)
    (h : ∃ s v, HasVersion m s v ∧
      (env.specReports s v > 0 ∨ env.specWritable (specLocation s v) = false)) :
    (runEmbed env m st).2 = false ∧ (runEmbed env m st).1.disk = st.disk ∧
      ∃ s v, HasVersion m s v ∧
        (env.specReports s v > 0 ∨ env.specWritable (specLocation s v) = false) ∧
        (runEmbed env m st).1.errors = env.specReports s v + 1 := by
  rw [runEmbed]
  cases hr : runJobs env.specWritable (specJobs env m) { disk := fun _ => none, errors := st.errors } with
  | mk specs b =>
    cases b with
    | true =>
      obtain ⟨s, v, hv, hf⟩ := h
      have hf' := (runJobs_true hr).2 _ (mem_specJobs.mpr ⟨s, v, hv, rfl⟩)
      rcases hf with hf | hf
      · have := hf'.1
        dsimp only at this
        omega
      · have := hf'.2
        dsimp only at this
        rw [hf] at this
        cases this
    | false =>
      obtain ⟨before, j, after, h1, _, _, h4, _, h6⟩ := runJobs_false hr
      obtain ⟨s, v, hv, rfl⟩ := mem_specJobs.mp (by rw [h1]; simp : j ∈ specJobs env m)
      refine ⟨rfl, rfl, s, v, hv, ?_, ?_⟩
      · dsimp only at h4
        rw [he, Nat.zero_add] at h4
        exact h4
      · dsimp only at h6 ⊢
        rw [h6, he, Nat.zero_add]

/-- C79: if the file with the specification of a version doesn't exist then an error is reported, and
the generator stops. -/
theorem c79_missing_spec (env : Env) (specs : Text → Option (Name × Name))
    (before after : List (Name × VersionView)) (s : Name) (v : VersionView) (st : State Content)
    (he : st.errors = 0)
    (hb : ∀ t w, (t, w) ∈ before → specs (specLocation t w.name) ≠ none ∧
      env.reports (.openapi t w.name) = 0 ∧
      env.writable (pathOf (Go.versionPackage t w.name) t!"openapi") = true)
    (hs : specs (specLocation s v.name) = none) :
    (embedSpecs env specs (before ++ (s, v) :: after) st).2 = false ∧
      (embedSpecs env specs (before ++ (s, v) :: after) st).1.errors = 1 := by
  induction before generalizing st with
  | nil =>
    rw [List.nil_append, embedSpecs, specFile_eq, hs]
    exact ⟨rfl, by dsimp only; rw [he]⟩
  | cons x before ih =>
    obtain ⟨t, w⟩ := x
    obtain ⟨h1, h2, h3⟩ := hb t w List.mem_cons_self
    rw [List.cons_append, embedSpecs, specFile_eq]
    cases hx : specs (specLocation t w.name) with
    | none => exact absurd hx h1
    | some spec =>
      dsimp only
      rw [write_ok he ⟨h2, h3⟩]
      exact ih _ rfl fun t' w' hm => hb t' w' (List.mem_cons_of_mem _ hm)

/-- The property holds when no two files have the same name: the file of each slot that the model
asks for has what it should, and in particular the OpenAPI specification embedded for each version is
that of the version. -/
theorem c79_each_file_partial (env : Env) (m : List ServiceView) (hu : Usable m) (hn : NoClash m)
    (hp : ∀ s v, HasVersion m s v → PlainWords s ∧ PlainWords v) (st : State Content)
    (hs : (generateGo env m st).2 = true) (slot : Slot) (hw : Wanted m slot) :
    (generateGo env m st).1.disk (location slot) = some (proper slot) := by
  obtain ⟨slot', hw', hl, hh⟩ := (c79_written env m hu st hs).1 slot hw
  have := distinct_of_noClash hu hn hw' hw hl
  subst this
  cases slot' with
  | openapi s v =>
    obtain ⟨s', v', h1, h2, h3⟩ := hh
    rw [h3]
    have hsv := hp _ _ hw
    have hsv' := hp _ _ h1
    rw [← specFile_eq, ← specFile_eq] at h2
    obtain ⟨e1, e2⟩ := (c79_spec_file_iff _ _ _ _ hsv'.1 hsv.1 hsv'.2 hsv.2).mp h2
    have e1 : joined s' = joined s := by
      rw [← filter_snake _ hsv'.1, ← filter_snake _ hsv.1, e1]
    have e2 : joined v' = joined v := by
      rw [← filter_snake _ hsv'.2, ← filter_snake _ hsv.2, e2]
    obtain ⟨rfl, rfl⟩ := same_version hn h1 hw (by rw [e1, e2])
    rfl
  | _ => exact hh

/-! ## The commands -/

/-- The command that generates Go code finishes with code zero exactly if the options are given, the
model can be read, the generation finishes without error and the formatter accepts the files, and
otherwise it finishes with code one. Nothing is written if an option is missing or the model can't be
read. -/
theorem c79_go_command (env : Env) (read : List Text → Option (List ServiceView))
    (format : (Text → Option Content) → Bool) (o : Options) (disk : Text → Option Content) :
    ((goCommand env read format o disk).2 = 0 ↔
      o.model ≠ [] ∧ o.base ≠ [] ∧ o.output ≠ [] ∧ ∃ m, read o.model = some m ∧
        (generateGo env m ⟨disk, 0⟩).2 = true ∧
        format (generateGo env m ⟨disk, 0⟩).1.disk = true) ∧
    ((goCommand env read format o disk).2 ≠ 0 → (goCommand env read format o disk).2 = 1) ∧
    ((o.model = [] ∨ o.base = [] ∨ o.output = [] ∨ read o.model = none) →
      (goCommand env read format o disk).1 = disk) ∧
    (∀ m, o.model ≠ [] → o.base ≠ [] → o.output ≠ [] → read o.model = some m →
      (goCommand env read format o disk).1 = (generateGo env m ⟨disk, 0⟩).1.disk) := by
  unfold goCommand
  by_cases h : o.model = [] ∨ o.base = [] ∨ o.output = []
  · rw [if_pos h]
    refine ⟨⟨by simp, ?_⟩, fun _ => rfl, fun _ => rfl, ?_⟩
    · rintro ⟨h1, h2, h3, -⟩
      rcases h with h | h | h
      · exact absurd h h1
      · exact absurd h h2
      · exact absurd h h3
    · intro m h1 h2 h3
      rcases h with h | h | h
      · exact absurd h h1
      · exact absurd h h2
      · exact absurd h h3
  · rw [if_neg h]
    have hm : o.model ≠ [] := fun e => h (.inl e)
    have hb : o.base ≠ [] := fun e => h (.inr (.inl e))
    have ho : o.output ≠ [] := fun e => h (.inr (.inr e))
    cases hr : read o.model with
    | none => simp
    | some m =>
      dsimp only
      cases hg : generateGo env m ⟨disk, 0⟩ with
      | mk st b =>
        cases b with
        | false => simp [hg, hm, hb, ho]
        | true =>
          dsimp only
          by_cases hf : format st.disk = true
          · simp [hf, hg, hm, hb, ho]
          · simp [hf, hg, hm, hb, ho]

/-- The command that generates OpenAPI specifications finishes with code zero exactly if the options
are given, the model can be read, nothing is reported and all the files can be written. Then the file
of each version has the specification of the last version with that file. -/
theorem c79_openapi_command (env : Env) (read : List Text → Option (List ServiceView)) (o : Options)
    (disk : Text → Option (Name × Name)) :
    ((openapiCommand env read o disk).2 = 0 ↔
      o.model ≠ [] ∧ o.output ≠ [] ∧ ∃ m, read o.model = some m ∧
        ∀ s v, HasVersion m s v →
          env.specReports s v = 0 ∧ env.specWritable (specLocation s v) = true) ∧
    ((openapiCommand env read o disk).2 ≠ 0 → (openapiCommand env read o disk).2 = 1) ∧
    ((o.model = [] ∨ o.output = [] ∨ read o.model = none) →
      (openapiCommand env read o disk).1 = disk) ∧
    (∀ m s v, (openapiCommand env read o disk).2 = 0 → read o.model = some m → HasVersion m s v →
      ∃ s' v', HasVersion m s' v' ∧ specLocation s' v' = specLocation s v ∧
        (openapiCommand env read o disk).1 (specLocation s v) = some (s', v')) := by
  unfold openapiCommand
  by_cases h : o.model = [] ∨ o.output = []
  · rw [if_pos h]
    refine ⟨⟨by simp, ?_⟩, fun _ => rfl, fun _ => rfl, by simp⟩
    rintro ⟨h1, h2, -⟩
    rcases h with h | h
    · exact absurd h h1
    · exact absurd h h2
  · rw [if_neg h]
    have hm : o.model ≠ [] := fun e => h (.inl e)
    have ho : o.output ≠ [] := fun e => h (.inr e)
    cases hr : read o.model with
    | none => simp
    | some m =>
      dsimp only
      have hspec : (∀ s v, HasVersion m s v →
          env.specReports s v = 0 ∧ env.specWritable (specLocation s v) = true) ↔
          ∀ j ∈ specJobs env m, Fine env.specWritable j := by
        constructor
        · intro h j hj
          obtain ⟨s, v, hv, rfl⟩ := mem_specJobs.mp hj
          exact h s v hv
        · intro h s v hv
          exact h _ (mem_specJobs.mpr ⟨s, v, hv, rfl⟩)
      cases hg : runJobs env.specWritable (specJobs env m) ⟨disk, 0⟩ with
      | mk st b =>
        cases b with
        | false =>
          refine ⟨⟨by simp, ?_⟩, by simp, by simp [hm, ho], by simp⟩
          rintro ⟨-, -, m', e, hf⟩
          cases e
          rw [runJobs_ok rfl (hspec.mp hf)] at hg
          cases hg
        | true =>
          have hf := (runJobs_true hg).2
          refine ⟨⟨fun _ => ⟨hm, ho, m, rfl, hspec.mpr hf⟩, fun _ => rfl⟩, by simp,
            by simp [hm, ho], ?_⟩
          intro m' s v _ e hv
          cases e
          rw [runJobs_ok rfl hf] at hg
          cases hg
          dsimp only
          rcases overlay_spec (specJobs env m) disk (specLocation s v) with ⟨c, h1, h2⟩ | ⟨h1, -⟩
          · obtain ⟨j, hj, h3, rfl⟩ := lastAt_mem h1
            obtain ⟨s', v', h4, rfl⟩ := mem_specJobs.mp hj
            exact ⟨s', v', h4, h3, h2⟩
          · exact absurd rfl (h1 _ (mem_specJobs.mpr ⟨s, v, hv, rfl⟩))

/-- The command that checks models finishes with code zero exactly if the model can be read. -/
theorem c79_check_command (read : List Text → Option (List ServiceView)) (o : Options) :
    (checkCommand read o = 0 ↔ o.model ≠ [] ∧ ∃ m, read o.model = some m) ∧
    (checkCommand read o ≠ 0 → checkCommand read o = 1) := by
  unfold checkCommand
  by_cases h : o.model = []
  · simp [h]
  · rw [if_neg h]
    cases read o.model with
    | none => simp
    | some m => simp [h]

/-! ## Cases where files are lost -/

/-- A world where everything goes well. -/
def goodEnv : Env := ⟨fun _ => 0, fun _ _ => 0, fun _ => true, fun _ => true⟩

/-- A model with two classes whose names differ only in the case of an initialism. -/
def twinModel : List ServiceView :=
  [⟨parseUsingSeparator t!"clusters_mgmt" '_',
    [⟨parseUsingSeparator t!"v1" '_',
      [⟨parseUsingCase t!"ClusterID", .struct⟩, ⟨parseUsingCase t!"ClusterId", .struct⟩],
      [parseUsingCase t!"Root"]⟩]⟩]

/-- A model with a class and a resource called metadata. -/
def metadataModel : List ServiceView :=
  [⟨parseUsingSeparator t!"clusters_mgmt" '_',
    [⟨parseUsingSeparator t!"v1" '_',
      [⟨parseUsingCase t!"Metadata", .struct⟩],
      [parseUsingCase t!"Metadata", parseUsingCase t!"Root"]⟩]⟩]

/-- A model without clashes. -/
def plainModel : List ServiceView :=
  [⟨parseUsingSeparator t!"clusters_mgmt" '_',
    [⟨parseUsingSeparator t!"v1" '_',
      [⟨parseUsingCase t!"Cluster", .struct⟩, ⟨parseUsingCase t!"ClusterList", .listOfStruct⟩,
       ⟨parseUsingCase t!"ClusterState", .enum⟩, ⟨parseUsingCase t!"String", .scalar⟩,
       ⟨parseUsingCase t!"StringList", .listOfScalar⟩],
      [parseUsingCase t!"Cluster", parseUsingCase t!"Root"]⟩,
     ⟨parseUsingSeparator t!"v2" '_', [], [parseUsingCase t!"Root"]⟩]⟩]

/-- No files before the generation. -/
def emptyState : State Content := ⟨fun _ => none, 0⟩

/-- The service and the version of the models. -/
def mgmt : Name := parseUsingSeparator t!"clusters_mgmt" '_'

/-- The version of the models. -/
def v1 : Name := parseUsingSeparator t!"v1" '_'

/-- The property is false: the code of one of two classes whose names differ only in the case of an
initialism is lost, and the generation finishes without error. -/
theorem c79_twins_refuted :
    (generateGo goodEnv twinModel emptyState).2 = true ∧
    parseUsingCase t!"ClusterID" ≠ parseUsingCase t!"ClusterId" ∧
    (generateGo goodEnv twinModel emptyState).1.disk
        (location (.type mgmt v1 (parseUsingCase t!"ClusterID"))) =
      some (.code (.type mgmt v1 (parseUsingCase t!"ClusterId"))) := by
  decide

/-- The property is false: the code of the metadata of the version is lost if there is a class, or a
resource, called metadata. -/
theorem c79_metadata_refuted :
    (generateGo goodEnv metadataModel emptyState).2 = true ∧
    (generateGo goodEnv metadataModel emptyState).1.disk (location (.metadataType mgmt v1)) =
      some (.code (.type mgmt v1 (parseUsingCase t!"Metadata"))) ∧
    (generateGo goodEnv metadataModel emptyState).1.disk (location (.metadataClient mgmt v1)) =
      some (.code (.client mgmt v1 (parseUsingCase t!"Metadata"))) := by
  decide

theorem plain_service {s : Name} (h : HasService plainModel s) : s = mgmt := by
  obtain ⟨x, hx, rfl⟩ := h
  simp only [plainModel, List.mem_cons, List.not_mem_nil, or_false] at hx
  subst hx
  rfl

theorem plain_version {s v : Name} (h : HasVersion plainModel s v) :
    s = mgmt ∧ (v = v1 ∨ v = parseUsingSeparator t!"v2" '_') := by
  refine ⟨plain_service (hasService_of h), ?_⟩
  obtain ⟨x, hx, rfl, w, hw, rfl⟩ := h
  simp only [plainModel, List.mem_cons, List.not_mem_nil, or_false] at hx
  subst hx
  simp only [List.mem_cons, List.not_mem_nil, or_false] at hw
  rcases hw with rfl | rfl
  · exact .inl rfl
  · exact .inr rfl

theorem plain_type {s v t : Name} {k : Kind} (h : HasType plainModel s v t k) :
    (⟨t, k⟩ : TypeView) ∈ [⟨parseUsingCase t!"Cluster", .struct⟩,
       ⟨parseUsingCase t!"ClusterList", .listOfStruct⟩,
       ⟨parseUsingCase t!"ClusterState", .enum⟩, ⟨parseUsingCase t!"String", .scalar⟩,
       ⟨parseUsingCase t!"StringList", .listOfScalar⟩] := by
  obtain ⟨x, hx, rfl, w, hw, rfl, ht⟩ := h
  simp only [plainModel, List.mem_cons, List.not_mem_nil, or_false] at hx
  subst hx
  simp only [List.mem_cons, List.not_mem_nil, or_false] at hw
  rcases hw with rfl | rfl
  · exact ht
  · simp at ht

theorem plain_resource {s v r : Name} (h : HasResource plainModel s v r) :
    r ∈ [parseUsingCase t!"Cluster", parseUsingCase t!"Root"] := by
  obtain ⟨x, hx, rfl, w, hw, rfl, ht⟩ := h
  simp only [plainModel, List.mem_cons, List.not_mem_nil, or_false] at hx
  subst hx
  simp only [List.mem_cons, List.not_mem_nil, or_false] at hw
  rcases hw with rfl | rfl
  · exact ht
  · simp at ht
    subst ht
    simp

theorem plain_usable : Usable plainModel := by
  constructor
  · intro s h
    rw [plain_service h]
    exact ⟨by decide, by decide⟩
  · intro s v h
    rcases (plain_version h).2 with rfl | rfl
    · exact ⟨by decide, by decide⟩
    · exact ⟨by decide, by decide⟩
  · intro s v t k h
    have hall : ∀ x ∈ [(⟨parseUsingCase t!"Cluster", .struct⟩ : TypeView),
       ⟨parseUsingCase t!"ClusterList", .listOfStruct⟩,
       ⟨parseUsingCase t!"ClusterState", .enum⟩, ⟨parseUsingCase t!"String", .scalar⟩,
       ⟨parseUsingCase t!"StringList", .listOfScalar⟩], x.name ≠ [] ∧ '/' ∉ snakeCase x.name := by
      decide
    exact hall _ (plain_type h)
  · intro s v r h
    have hall : ∀ x ∈ [parseUsingCase t!"Cluster", parseUsingCase t!"Root"],
        x ≠ [] ∧ '/' ∉ snakeCase x := by decide
    exact hall _ (plain_resource h)

theorem plain_noClash : NoClash plainModel := by
  have htypes : ∀ x ∈ [(⟨parseUsingCase t!"Cluster", .struct⟩ : TypeView),
       ⟨parseUsingCase t!"ClusterList", .listOfStruct⟩,
       ⟨parseUsingCase t!"ClusterState", .enum⟩, ⟨parseUsingCase t!"String", .scalar⟩,
       ⟨parseUsingCase t!"StringList", .listOfScalar⟩], ∀ y ∈ [
       (⟨parseUsingCase t!"Cluster", .struct⟩ : TypeView),
       ⟨parseUsingCase t!"ClusterList", .listOfStruct⟩,
       ⟨parseUsingCase t!"ClusterState", .enum⟩, ⟨parseUsingCase t!"String", .scalar⟩,
       ⟨parseUsingCase t!"StringList", .listOfScalar⟩],
       snakeCase x.name = snakeCase y.name → x.name = y.name := by decide
  have happly : ∀ (ks : List Kind) s v, ToldApart snakeCase (HasTypeOf ks plainModel s v) := by
    rintro ks s v a b ⟨k, -, ha⟩ ⟨l, -, hb⟩ e
    exact htypes _ (plain_type ha) _ (plain_type hb) e
  constructor
  · intro a b ha hb _
    rw [plain_service ha, plain_service hb]
  · intro s a b ha hb e
    rcases (plain_version ha).2 with rfl | rfl <;> rcases (plain_version hb).2 with rfl | rfl
    · rfl
    · exact absurd e (by decide)
    · exact absurd e (by decide)
    · rfl
  · exact happly _
  · exact happly _
  · exact happly _
  · intro s v a b ha hb e
    have hall : ∀ x ∈ [parseUsingCase t!"Cluster", parseUsingCase t!"Root"],
        ∀ y ∈ [parseUsingCase t!"Cluster", parseUsingCase t!"Root"],
        snakeCase x = snakeCase y → x = y := by decide
    exact hall _ (plain_resource ha) _ (plain_resource hb) e
  · rintro s v t ⟨k, -, h⟩
    have hall : ∀ x ∈ [(⟨parseUsingCase t!"Cluster", .struct⟩ : TypeView),
       ⟨parseUsingCase t!"ClusterList", .listOfStruct⟩,
       ⟨parseUsingCase t!"ClusterState", .enum⟩, ⟨parseUsingCase t!"String", .scalar⟩,
       ⟨parseUsingCase t!"StringList", .listOfScalar⟩], snakeCase x.name ≠ t!"metadata" := by
      decide
    exact hall _ (plain_type h)
  · intro s v r h
    have hall : ∀ x ∈ [parseUsingCase t!"Cluster", parseUsingCase t!"Root"],
        snakeCase x ≠ t!"metadata" := by decide
    exact hall _ (plain_resource h)

/-- The hypotheses of the theorems can be met: the generation for a model with two versions finishes
without error, and each file has what it should. -/
example :
    (generateGo goodEnv plainModel emptyState).2 = true ∧
    (generateGo goodEnv plainModel emptyState).1.disk t!"clustersmgmt/v1/cluster_list_builder.go" =
      some (.code (.builder mgmt v1 (parseUsingCase t!"ClusterList"))) ∧
    (generateGo goodEnv plainModel emptyState).1.disk t!"clustersmgmt/v2/openapi.go" =
      some (.spec mgmt (parseUsingSeparator t!"v2" '_')) ∧
    (generateGo goodEnv plainModel emptyState).1.disk t!"clustersmgmt/v1/string_type.go" = none := by
  decide

/-- If something is reported for one file, nothing after it is written. -/
example :
    (generateGo { goodEnv with reports := fun slot => if slot = .helpers then 1 else 0 } plainModel
      emptyState).2 = false ∧
    (generateGo { goodEnv with reports := fun slot => if slot = .helpers then 1 else 0 } plainModel
      emptyState).1.disk t!"clustersmgmt/v1/errors.go" = some (.code (.errors mgmt v1)) ∧
    (generateGo { goodEnv with reports := fun slot => if slot = .helpers then 1 else 0 } plainModel
      emptyState).1.disk t!"clustersmgmt/v1/cluster_type.go" = none := by
  decide

end Verif.Files
