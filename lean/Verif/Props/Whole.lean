import Verif.Lemmas.WholeTypes
import Verif.Props.Outcome
import Verif.Props.Content
import Verif.Lemmas.WholeNames

/-!
# Property C86: from the files of a model to the generated Go code
-/

namespace Verif.Whole

open Reader Session Outcome
open GoRef (Typ)

/-! ## Reading -/

/-- The checks see the same versions as the generators. -/
theorem checkViews_eq (s : Session) : (api s).checkViews = s.versions.map s.versionView := by
  unfold Api.checkViews api Session.versions
  rw [List.flatMap_map, List.map_flatMap]
  congr 1
  funext l
  rw [List.map_map]
  rfl

theorem accepted_filter {messages : List Message} :
    (messages.filter Message.isError).length = 0 ↔ Accepted messages := by
  rw [List.length_eq_zero_iff, List.filter_eq_nil_iff]
  constructor
  · intro h p hp
    exact absurd rfl (h _ hp)
  · intro h m hm
    cases m with
    | error p => exact absurd hm (h p)
    | warning p => simp [Message.isError]

/-- A model is returned exactly if no problem is found while loading the files and the checks accept it,
and then it is the one that was loaded. -/
theorem read_model_iff (inputs : List SourceModel) (fuel : Nat) (o : ReadOutcome) (s : Session) :
    (Session.read (some 0) inputs fuel = .done o ∧ o.result = .model s) ↔
      s = load inputs ∧ o = { result := .model (load inputs), errors := 0 } ∧
      (load inputs).problems = [] ∧
      ∃ messages, Check.checkModel (load inputs).graph fuel
        ((load inputs).versions.map (load inputs).versionView) = .done messages ∧ Accepted messages := by
  unfold Session.read
  dsimp only
  cases hc : Check.checkModel (load inputs).graph fuel
      ((load inputs).versions.map (load inputs).versionView) with
  | panic => simp [Run.bind]
  | outOfFuel => simp [Run.bind]
  | done messages =>
    simp only [Run.bind]
    split
    · rename_i he
      constructor
      · rintro ⟨h1, h2⟩
        cases h1
        cases h2
      · rintro ⟨-, -, h3, ms, h4, h5⟩
        cases h4
        rw [h3] at he
        have := accepted_filter.mpr h5
        simp only [List.length_nil] at he
        omega
    · rename_i he
      have h0 : (load inputs).problems.length = 0 ∧ (messages.filter Message.isError).length = 0 := by
        omega
      constructor
      · rintro ⟨h1, h2⟩
        cases h1
        cases h2
        refine ⟨rfl, ?_, List.length_eq_zero_iff.mp h0.1, messages, rfl, accepted_filter.mp h0.2⟩
        rw [h0.1, h0.2]
      · rintro ⟨rfl, rfl, -⟩
        refine ⟨?_, rfl⟩
        rw [h0.1, h0.2]

/-- What the generators need from the reader holds for every model that is returned. -/
theorem c86_from_reader (inputs : List SourceModel) (hp : (load inputs).problems = [])
    (hd : Defined (load inputs)) : FromReader (api (load inputs)) :=
  fromReader (load_good inputs) (load_ok inputs) hp hd (load_errors inputs)

/-! ## Generating -/

/-- If the model isn't accepted nothing is written and the command fails. -/
theorem c86_rejected (base : Text) (writable specWritable : Text → Bool) (inputs : List SourceModel)
    (fuel : Nat) (disk : Text → Option Files.Content)
    (hbad : (load inputs).problems ≠ [] ∨ ¬ Checked (api (load inputs)))
    (result : (Text → Option Files.Content) × Bool)
    (h : generate base writable specWritable inputs fuel disk = .done result) :
    result = (disk, false) := by
  unfold generate at h
  cases hr : Session.read (some 0) inputs fuel with
  | panic => rw [hr] at h; cases h
  | outOfFuel => rw [hr] at h; cases h
  | done o =>
    rw [hr] at h
    simp only [Run.bind] at h
    cases ho : o.result with
    | error text =>
      rw [ho] at h
      cases h
      rfl
    | model s =>
      obtain ⟨-, -, h1, ms, h2, h3⟩ := (read_model_iff inputs fuel o s).mp ⟨hr, ho⟩
      rw [← checkViews_eq] at h2
      rcases hbad with hb | hb
      · exact absurd h1 hb
      · exact absurd ⟨fuel, ms, h2, h3⟩ hb

theorem generate_accepted (base : Text) (writable specWritable : Text → Bool) (inputs : List SourceModel)
    (fuel : Nat) (disk : Text → Option Files.Content) (hp : (load inputs).problems = [])
    (messages : List Message)
    (hc : Check.checkModel (api (load inputs)).graph fuel (api (load inputs)).checkViews = .done messages)
    (ha : Accepted messages) :
    generate base writable specWritable inputs fuel disk = .done
      ((Files.generateGo ((api (load inputs)).env base writable specWritable) (api (load inputs)).view
        { disk := disk, errors := 0 }).1.disk,
       (Files.generateGo ((api (load inputs)).env base writable specWritable) (api (load inputs)).view
        { disk := disk, errors := 0 }).2) := by
  rw [checkViews_eq] at hc
  have := (read_model_iff inputs fuel { result := .model (load inputs), errors := 0 } (load inputs)).mpr
    ⟨rfl, rfl, hp, messages, hc, ha⟩
  unfold generate
  rw [this.1]
  rfl

/-- Generating the code works exactly if the model is accepted, its types can be expressed in Go, and
the files can be written. -/
theorem c86_generate_iff (base : Text) (writable specWritable : Text → Bool) (inputs : List SourceModel)
    (disk : Text → Option Files.Content) (hd : Defined (load inputs))
    (hu : Files.Usable (api (load inputs)).view) :
    (∃ fuel disk', generate base writable specWritable inputs fuel disk = .done (disk', true)) ↔
      (load inputs).problems = [] ∧ Checked (api (load inputs)) ∧ Expressible (api (load inputs)) ∧
      (∀ slot, Files.Wanted (api (load inputs)).view slot → writable (Files.location slot) = true) ∧
      (∀ s v, Files.HasVersion (api (load inputs)).view s v →
        specWritable (Files.specLocation s v) = true) := by
  constructor
  · rintro ⟨fuel, disk', h⟩
    by_cases hp : (load inputs).problems = []
    · by_cases hc : Checked (api (load inputs))
      · refine ⟨hp, hc, ?_⟩
        have hr := c86_from_reader inputs hp hd
        unfold generate at h
        cases hread : Session.read (some 0) inputs fuel with
        | panic => rw [hread] at h; cases h
        | outOfFuel => rw [hread] at h; cases h
        | done o =>
          rw [hread] at h
          simp only [Run.bind] at h
          cases ho : o.result with
          | error text => rw [ho] at h; cases h
          | model s =>
            obtain ⟨rfl, rfl, -⟩ := (read_model_iff inputs fuel o s).mp ⟨hread, ho⟩
            rw [ho] at h
            injection h with h
            injection h with h1 h2
            exact ((c85_success_iff base writable specWritable _ hr hc hu _).mp h2).2
      · have := c86_rejected base writable specWritable inputs fuel disk (.inr hc) _ h
        cases this
    · have := c86_rejected base writable specWritable inputs fuel disk (.inl hp) _ h
      cases this
  · rintro ⟨hp, hc, he, hw, hs⟩
    have hr := c86_from_reader inputs hp hd
    obtain ⟨fuel, ms, h1, h2⟩ := hc
    have h3 := (c85_success_iff base writable specWritable _ hr ⟨fuel, ms, h1, h2⟩ hu
      { disk := disk, errors := 0 }).mpr ⟨rfl, he, hw, hs⟩
    have h4 := generate_accepted base writable specWritable inputs fuel disk hp ms h1 h2
    rw [h3] at h4
    exact ⟨fuel, _, h4⟩

/-- When it works the files of the model are written and the others are left as they were. When it
doesn't, the files that were written are files of the model. -/
theorem c86_files (base : Text) (writable specWritable : Text → Bool) (inputs : List SourceModel)
    (fuel : Nat) (disk disk' : Text → Option Files.Content) (ok : Bool)
    (hu : Files.Usable (api (load inputs)).view)
    (h : generate base writable specWritable inputs fuel disk = .done (disk', ok)) :
    (ok = true → ∀ slot, Files.Wanted (api (load inputs)).view slot →
      ∃ slot', Files.Wanted (api (load inputs)).view slot' ∧
        Files.location slot' = Files.location slot ∧
        Files.Holds (api (load inputs)).view slot' (disk' (Files.location slot))) ∧
    ∀ p, disk' p = disk p ∨ ∃ slot, Files.Wanted (api (load inputs)).view slot ∧
      Files.location slot = p ∧ Files.Holds (api (load inputs)).view slot (disk' p) := by
  unfold generate at h
  cases hread : Session.read (some 0) inputs fuel with
  | panic => rw [hread] at h; cases h
  | outOfFuel => rw [hread] at h; cases h
  | done o =>
    rw [hread] at h
    simp only [Run.bind] at h
    cases ho : o.result with
    | error text =>
      rw [ho] at h
      cases h
      exact ⟨fun h => (nomatch h), fun p => .inl rfl⟩
    | model s =>
      obtain ⟨rfl, rfl, -⟩ := (read_model_iff inputs fuel o s).mp ⟨hread, ho⟩
      rw [ho] at h
      injection h with h
      injection h with h1 h2
      subst h1
      cases ok with
      | true =>
        obtain ⟨h3, h4⟩ := Files.c79_written _ _ hu _ h2
        refine ⟨fun _ => h3, fun p => ?_⟩
        by_cases hp : ∃ slot, Files.Wanted (api (load inputs)).view slot ∧ Files.location slot = p
        · obtain ⟨slot, hs, rfl⟩ := hp
          obtain ⟨slot', a, b, c⟩ := h3 slot hs
          exact .inr ⟨slot', a, b, c⟩
        · exact .inl (h4 p fun slot hs e => hp ⟨slot, hs, e⟩)
      | false =>
        refine ⟨fun h => (nomatch h), fun p => (Files.c79_failure _ _ hu _ h2).1 p⟩

/-- The generators don't crash and always finish with a model that is accepted. -/
theorem c86_no_crash (base : Text) (inputs : List SourceModel) (hp : (load inputs).problems = [])
    (hc : Checked (api (load inputs))) (hd : Defined (load inputs)) :
    (∀ s v r, HasResourceInfo (api (load inputs)) s v r →
      ∃ reported, clientReports base (api (load inputs)).typeOf r = .done reported) ∧
    (∀ s v, HasVersionInfo (api (load inputs)) s v →
      (∃ tree, resourceBranch (load inputs).graph ((load inputs).graph.length + 1) v.root = .done tree) ∧
      ∃ results n, ∀ m, n ≤ m → paths (load inputs).graph m v.root = .done results) :=
  c85_no_crash base _ (c86_from_reader inputs hp hd) hc

/-! ## What has to be written in the files -/

theorem mem_versionDecls {dirs : List (Text × Text × List Decl)} {a b : Text} {d : Decl} :
    d ∈ versionDecls dirs a b ↔ ∃ ds, (a, b, ds) ∈ dirs ∧ d ∈ ds := by
  unfold versionDecls
  rw [List.mem_flatMap]
  constructor
  · rintro ⟨x, hx, hd⟩
    obtain ⟨h1, h2⟩ := List.mem_filter.mp hx
    obtain ⟨h3, h4⟩ := of_decide_eq_true h2
    exact ⟨x.2.2, by rw [← h3, ← h4]; exact h1, hd⟩
  · rintro ⟨ds, h1, h2⟩
    exact ⟨_, List.mem_filter.mpr ⟨h1, decide_eq_true ⟨rfl, rfl⟩⟩, h2⟩

/-- What the declarations of a version describe. -/
theorem versionIs (inputs : List SourceModel) (hr : ∀ m ∈ inputs, m.Readable)
    (hg : ∀ before a b ds after, versionDirs inputs = before ++ (a, b, ds) :: after →
      GoodDecls (versionDecls before a b ++ ds)) :
    (∀ a b ds0, (a, b, ds0) ∈ versionDirs inputs → ∃ v,
      VersionIs (load inputs) a b v (versionDecls (versionDirs inputs) a b)) ∧
    ∀ a b v, (load inputs).version a b = some v →
      VersionIs (load inputs) a b v (versionDecls (versionDirs inputs) a b) := by
  obtain ⟨-, h2, h3⟩ := c76_model_partial inputs hr hg
  have h1 : ∀ a b ds0, (a, b, ds0) ∈ versionDirs inputs → ∃ v,
      VersionIs (load inputs) a b v (versionDecls (versionDirs inputs) a b) := by
    intro a b ds0 hm
    obtain ⟨v, hv, ht, hres, -⟩ := h3 a b ds0 hm
    obtain ⟨before, ds, after, he, hds⟩ := last_dir _ a b ds0 hm
    exact ⟨v, load_inv inputs, hv, ht, hres, by rw [hds]; exact hg before a b ds after he⟩
  refine ⟨h1, fun a b v hv => ?_⟩
  obtain ⟨ds, hm⟩ := (h2 a b).mp (by rw [hv]; rfl)
  obtain ⟨v', h⟩ := h1 a b ds hm
  have := h.found
  rw [hv] at this
  cases this
  exact h

theorem info_version {s : Session} (m : ModelGood s) {si : ServiceInfo} {vi : VersionInfo}
    (h : HasVersionInfo (api s) si vi) : ∃ a b v, s.version a b = some v ∧ vi = versionInfo s v := by
  obtain ⟨l, v, h1, h2, -, h4⟩ := hasVersionInfo m h
  exact ⟨_, _, v, by unfold Session.version; rw [h1]; exact h2, h4⟩

theorem type_info {s : Session} (i : ReadInv s) {a b : Text} {v : LoadedVersion}
    (hv : s.version a b = some v) {t : TypeInfo} (ht : t ∈ (versionInfo s v).types) :
    ∃ k id c, TypeAt s v k id c ∧
      t = { typ := typeOf s id, isClass := c.isClass, attributes := c.attributes.map (attributeInfo s) } := by
  obtain ⟨id, hid, rfl⟩ := List.mem_map.mp ht
  have hid := (sortByName_spec _ _).1.mem_iff.mp hid
  obtain ⟨⟨k, id'⟩, he, rfl⟩ := List.mem_map.mp hid
  obtain ⟨c, hc⟩ := typeAt_of_find i hv (GoMap.find_of_mem (version_named i.model hv).2.2.nodup he)
  refine ⟨k, id', c, hc, ?_⟩
  unfold typeInfo
  dsimp only
  rw [hc.cell]

theorem info_type {s : Session} {v : LoadedVersion} {k : Text} {id : TypeId} {c : TypeCell}
    (h : TypeAt s v k id c) :
    { typ := typeOf s id, isClass := c.isClass, attributes := c.attributes.map (attributeInfo s) } ∈
      (versionInfo s v).types := by
  refine List.mem_map.mpr ⟨id, (sortByName_spec _ _).1.mem_iff.mpr
    (List.mem_map.mpr ⟨_, GoMap.find_some_mem h.found, rfl⟩), ?_⟩
  unfold typeInfo
  rw [h.cell]

/-- The errors of the versions are those that have been declared. -/
theorem errors_length (inputs : List SourceModel) (hr : ∀ m ∈ inputs, m.Readable)
    (hg : ∀ before a b ds after, versionDirs inputs = before ++ (a, b, ds) :: after →
      GoodDecls (versionDecls before a b ++ ds)) (a b : Text) (v : LoadedVersion)
    (hv : (load inputs).version a b = some v) :
    v.errors.length = (declaredErrors (versionDecls (versionDirs inputs) a b)).length := by
  obtain ⟨-, h2, h3⟩ := c76_model_partial inputs hr hg
  obtain ⟨ds, hds⟩ := (h2 a b).mp (by rw [hv]; rfl)
  obtain ⟨v', hv', -, -, he⟩ := h3 a b ds hds
  rw [hv] at hv'
  cases hv'
  have hnd := (ownErrors_version (load_errors inputs) hv).1
  have hgood := ((versionIs inputs hr hg).2 a b v hv).good.acceptable.distinctErrors
  have hmem : ∀ k, k ∈ v.errors.keys ↔ k ∈ declaredErrors (versionDecls (versionDirs inputs) a b) := by
    intro k
    constructor
    · intro hk
      obtain ⟨e, hx, rfl⟩ := List.mem_map.mp hk
      exact he.nothingElse _ _ (GoMap.find_of_mem hnd hx)
    · intro hk
      obtain ⟨d, hd, hk⟩ := List.mem_filterMap.mp hk
      cases d with
      | error name doc as codes =>
        obtain ⟨e, h1, -⟩ := he.declared name doc as codes hd
        obtain rfl : keyOf name = k := by simpa [Decl.declaredError] using hk
        exact Decidable.byContradiction fun hn => by rw [GoMap.find_none.mpr hn] at h1; cases h1
      | _ => cases hk
  have hp := ((List.perm_ext_iff_of_nodup hnd hgood).mpr hmem).length_eq
  rw [← hp]
  exact (List.length_map ..).symm

/-- If the declarations of each version are good, the types of the model are defined, and they can be
expressed in Go exactly if each of the declarations meets the conditions of the specification, and no
version declares two errors. -/
theorem c86_expressible_iff_partial (inputs : List SourceModel) (hr : ∀ m ∈ inputs, m.Readable)
    (hg : ∀ before a b ds after, versionDirs inputs = before ++ (a, b, ds) :: after →
      GoodDecls (versionDecls before a b ++ ds)) :
    Defined (load inputs) ∧
    (Expressible (api (load inputs)) ↔
      (∀ a b ds, (a, b, ds) ∈ versionDirs inputs → ∀ d ∈ ds, DeclFine d) ∧
      ∀ a b, (declaredErrors (versionDecls (versionDirs inputs) a b)).length ≤ 1) := by
  obtain ⟨hdir, hver⟩ := versionIs inputs hr hg
  have i := load_inv inputs
  have hlen := errors_length inputs hr hg
  refine ⟨fun a b v hv k x hx => (hver a b v hv).defined hx, ?_, ?_⟩
  · intro h
    refine ⟨?_, ?_⟩
    case refine_2 =>
      intro a b
      by_cases hm : ∃ ds, (a, b, ds) ∈ versionDirs inputs
      · obtain ⟨ds, hm⟩ := hm
        obtain ⟨v, hv⟩ := hdir a b ds hm
        obtain ⟨l, -, -, hinfo⟩ := version_info i.model hv.found
        rw [← hlen a b v hv.found]
        exact h.errors _ _ hinfo
      · have : versionDecls (versionDirs inputs) a b = [] := List.eq_nil_iff_forall_not_mem.mpr fun d hd => by
          obtain ⟨ds, h1, -⟩ := mem_versionDecls.mp hd
          exact hm ⟨ds, h1⟩
        rw [this]
        exact Nat.zero_le _
    intro a b ds hm d hd
    obtain ⟨v, hv⟩ := hdir a b ds hm
    have hd' : d ∈ versionDecls (versionDirs inputs) a b := mem_versionDecls.mpr ⟨ds, hm, hd⟩
    obtain ⟨l, -, -, hinfo⟩ := version_info i.model hv.found
    cases d with
    | enum => trivial
    | error => trivial
    | «class» name doc as ms =>
      obtain ⟨x, hx, -, sorted, hs, he⟩ := hv.types.declared _ hd' _ _ rfl
      obtain ⟨id, c, hc, rfl⟩ := typeAt_of_view i hv.found hx
      have hk : c.kind = .class := congrArg TypeView.kind he
      obtain ⟨h1, h2⟩ := hv.structFine hc hd' rfl hs (congrArg TypeView.attributes he)
      have hst := (isStruct_iff i hc.cell).mpr (.inr hk)
      have hfit := h.fits _ _ hinfo _ (info_type hc) hst
      have hat := h.attributes _ _ hinfo _ (info_type hc) hst
      refine ⟨?_, h2.mp fun y hy => hat _ (List.mem_map.mpr ⟨y, hy, rfl⟩)⟩
      have hcl : c.isClass = true := by unfold TypeCell.isClass; rw [hk]; rfl
      unfold Fits at hfit
      dsimp only at hfit
      rw [List.length_map, h1, if_pos hcl] at hfit
      omega
    | struct name doc as ms =>
      obtain ⟨x, hx, -, sorted, hs, he⟩ := hv.types.declared _ hd' _ _ rfl
      obtain ⟨id, c, hc, rfl⟩ := typeAt_of_view i hv.found hx
      have hk : c.kind = .struct := congrArg TypeView.kind he
      obtain ⟨h1, h2⟩ := hv.structFine hc hd' rfl hs (congrArg TypeView.attributes he)
      have hst := (isStruct_iff i hc.cell).mpr (.inl hk)
      have hfit := h.fits _ _ hinfo _ (info_type hc) hst
      have hat := h.attributes _ _ hinfo _ (info_type hc) hst
      refine ⟨?_, h2.mp fun y hy => hat _ (List.mem_map.mpr ⟨y, hy, rfl⟩)⟩
      unfold Fits at hfit
      dsimp only at hfit
      rw [List.length_map, h1] at hfit
      omega
    | resource name doc as ms =>
      obtain ⟨x, hx, hdes⟩ := hv.resources.declared _ hd' _ rfl
      unfold Session.resourceView at hx
      obtain ⟨id, hf, hx⟩ := Option.bind_eq_some_iff.mp hx
      obtain ⟨res, hres, rfl⟩ := Option.map_eq_some_iff.mp hx
      refine (hv.resource hf hres hd' hdes).mp ?_
      intro m hm p hp
      refine h.parameters _ _ res ⟨hinfo, id, ?_, hres⟩ m hm p hp
      exact (sortByName_spec _ _).1.mem_iff.mpr (List.mem_map.mpr ⟨_, GoMap.find_some_mem hf, rfl⟩)
  · rintro ⟨hall, herr⟩
    have hfine : ∀ a b d, d ∈ versionDecls (versionDirs inputs) a b → DeclFine d := by
      intro a b d hd
      obtain ⟨ds, hm, hd⟩ := mem_versionDecls.mp hd
      exact hall a b ds hm d hd
    have hstruct : ∀ si vi, HasVersionInfo (api (load inputs)) si vi → ∀ t ∈ vi.types,
        t.typ.isStruct = true → Fits t ∧ ∀ x ∈ t.attributes, AttrOk x := by
      intro si vi hinfo t ht hst
      obtain ⟨a, b, v, hv, rfl⟩ := info_version i.model hinfo
      obtain ⟨k, id, c, hc, rfl⟩ := type_info i hv ht
      have hk := (isStruct_iff i hc.cell).mp hst
      obtain ⟨name, doc, as, ms, sorted, hs, hat, hd⟩ := (hver a b v hv).struct hc hk
      unfold Fits
      dsimp only
      rw [List.length_map]
      rcases hd with ⟨hkind, hd⟩ | ⟨hkind, hd⟩
      · obtain ⟨h1, h2⟩ := (hver a b v hv).structFine hc hd rfl hs hat
        obtain ⟨h3, h4⟩ := hfine a b _ hd
        refine ⟨?_, fun x hx => ?_⟩
        · rw [h1]
          split <;> omega
        · obtain ⟨y, hy, rfl⟩ := List.mem_map.mp hx
          exact h2.mpr h4 y hy
      · obtain ⟨h1, h2⟩ := (hver a b v hv).structFine hc hd rfl hs hat
        obtain ⟨h3, h4⟩ := hfine a b _ hd
        refine ⟨?_, fun x hx => ?_⟩
        · have hcl : ¬ c.isClass = true := by unfold TypeCell.isClass; rw [hkind]; decide
          rw [h1, if_neg hcl]
          omega
        · obtain ⟨y, hy, rfl⟩ := List.mem_map.mp hx
          exact h2.mpr h4 y hy
    refine ⟨fun si vi hi t ht hs => (hstruct si vi hi t ht hs).1,
      fun si vi hi t ht hs => (hstruct si vi hi t ht hs).2, ?_, ?_⟩
    case refine_2 =>
      intro si vi hinfo
      obtain ⟨a, b, v, hv, rfl⟩ := info_version i.model hinfo
      show v.errors.length ≤ 1
      rw [hlen a b v hv]
      exact herr a b
    rintro si vi res ⟨hinfo, id, hid, hres⟩
    obtain ⟨a, b, v, hv, rfl⟩ := info_version i.model hinfo
    have hid := (sortByName_spec _ _).1.mem_iff.mp hid
    obtain ⟨⟨k, id'⟩, he, rfl⟩ := List.mem_map.mp hid
    have hf := GoMap.find_of_mem (i.ok.version hv).nodup he
    have hview : (load inputs).resourceView v k =
        some (View.ofResource (load inputs).heap (load inputs).graph res) := by
      unfold Session.resourceView
      rw [hf, Option.bind_some]
      have : (load inputs).graph[id']? = some res := hres
      rw [this]
      rfl
    have h := hver a b v hv
    have hdecl := h.resources.nothingElse k _ hview
    unfold declaredResources at hdecl
    obtain ⟨d, hd, hk⟩ := List.mem_filterMap.mp hdecl
    obtain ⟨x, hx, hdes⟩ := h.resources.declared d hd k hk
    rw [hview] at hx
    cases hx
    cases d with
    | resource name doc as ms => exact (h.resource hf hres hd hdes).mpr (hfine a b _ hd)
    | enum => exact hdes.elim
    | «class» => exact hdes.elim
    | struct => exact hdes.elim
    | error => exact hdes.elim

theorem declared_version {inputs : List SourceModel} {a b k : Text}
    (h : k ∈ declaredTypes (versionDecls (versionDirs inputs) a b)) :
    ∃ ds, (a, b, ds) ∈ versionDirs inputs ∧ k ∈ declaredTypes ds := by
  unfold declaredTypes at h
  obtain ⟨d, hd, he⟩ := List.mem_filterMap.mp h
  obtain ⟨ds, hm, hd⟩ := mem_versionDecls.mp hd
  exact ⟨ds, hm, List.mem_filterMap.mpr ⟨d, hd, he⟩⟩

/-- The names of the model can be used in the names of files if those of the sources can. -/
theorem c86_usable_partial (inputs : List SourceModel) (hr : ∀ m ∈ inputs, m.Readable)
    (hg : ∀ before a b ds after, versionDirs inputs = before ++ (a, b, ds) :: after →
      GoodDecls (versionDecls before a b ++ ds)) (hn : NamesFine inputs) :
    Files.Usable (api (load inputs)).view := by
  obtain ⟨-, hver⟩ := versionIs inputs hr hg
  obtain ⟨-, h2, -⟩ := c76_model_partial inputs hr hg
  have i := load_inv inputs
  have hd := (c86_expressible_iff_partial inputs hr hg).1
  have hkeys := load_keys inputs hn.services
  have hversion : ∀ si ∈ (api (load inputs)).services, ∀ vi ∈ si.versions, ∃ a b v ds,
      (load inputs).version a b = some v ∧ vi = versionInfo (load inputs) v ∧
        (a, b, ds) ∈ versionDirs inputs := by
    intro si hs vi hv
    obtain ⟨a, b, v, hv', rfl⟩ := info_version i.model ⟨hs, hv⟩
    obtain ⟨ds, hm⟩ := (h2 a b).mp (by rw [hv']; rfl)
    exact ⟨a, b, v, ds, hv', rfl, hm⟩
  refine ⟨?_, ?_, ?_, ?_⟩
  · rintro n ⟨sv, hs, rfl⟩
    obtain ⟨si, hs', rfl⟩ := List.mem_map.mp hs
    obtain ⟨l, hl, rfl⟩ := List.mem_map.mp hs'
    have hl' := (sortByName_spec _ _).1.mem_iff.mp hl
    obtain ⟨e, he, rfl⟩ := List.mem_map.mp hl'
    have hf := GoMap.find_of_mem i.model.nodup he
    have hk := (i.model.named _ _ hf).1
    exact usableName (by
      show DirNameFine e.2.name.toText
      rw [hk]
      exact hkeys _ _ hf)
  · rintro n m ⟨sv, hs, rfl, vv, hvm, rfl⟩
    obtain ⟨si, hs', rfl⟩ := List.mem_map.mp hs
    obtain ⟨vi, hv', rfl⟩ := List.mem_map.mp hvm
    obtain ⟨a, b, v, ds, hv, rfl, hm⟩ := hversion si hs' vi hv'
    apply usableName
    show DirNameFine v.name.toText
    rw [(version_named i.model hv).1]
    exact hn.versions a b ds hm
  · rintro n m t kind ⟨sv, hs, rfl, vv, hvm, rfl, ht⟩
    obtain ⟨si, hs', rfl⟩ := List.mem_map.mp hs
    obtain ⟨vi, hv', rfl⟩ := List.mem_map.mp hvm
    obtain ⟨a, b, v, ds, hv, rfl, hm⟩ := hversion si hs' vi hv'
    obtain ⟨ti, hti, he⟩ := List.mem_map.mp ht
    obtain ⟨k, id, c, hc, rfl⟩ := type_info i hv hti
    have hname : t = c.name := by
      have : Outcome.typeName (typeOf (load inputs) id) = t := congrArg Files.TypeView.name he
      rw [← this]
      refine typeName_typeOf i.ok.heap hc.cell fun hu => ?_
      exact hd a b v hv k _ hc.view hu
    obtain ⟨h3, h4⟩ := (hver a b v hv).keys (fun k hk => by
      obtain ⟨ds, hm, hk⟩ := declared_version hk
      exact hn.types a b ds hm k hk) hc.view
    rw [hname]
    rw [← hc.key] at h3 h4
    exact ⟨name_ne h3, snake_slash h4⟩
  · rintro n m r ⟨sv, hs, rfl, vv, hvm, rfl, ht⟩
    obtain ⟨si, hs', rfl⟩ := List.mem_map.mp hs
    obtain ⟨vi, hv', rfl⟩ := List.mem_map.mp hvm
    obtain ⟨a, b, v, ds, hv, rfl, hm⟩ := hversion si hs' vi hv'
    obtain ⟨res, hres, rfl⟩ := List.mem_map.mp ht
    obtain ⟨id, hid, hgr⟩ := List.mem_filterMap.mp hres
    have hid := (sortByName_spec _ _).1.mem_iff.mp hid
    obtain ⟨⟨k, id'⟩, he, rfl⟩ := List.mem_map.mp hid
    have hf := GoMap.find_of_mem (i.ok.version hv).nodup he
    obtain ⟨res', hres', hk⟩ := c76_resource_names_partial inputs hr hg a b v hv k id' hf
    have e : res' = res := Option.some.inj (hres'.symm.trans hgr)
    subst e
    have hview : (load inputs).resourceView v k =
        some (View.ofResource (load inputs).heap (load inputs).graph res') := by
      unfold Session.resourceView
      rw [hf, Option.bind_some, hres']
      rfl
    have hdecl := (hver a b v hv).resources.nothingElse k _ hview
    unfold declaredResources at hdecl
    obtain ⟨d, hd, hkd⟩ := List.mem_filterMap.mp hdecl
    obtain ⟨ds', hm', hd⟩ := mem_versionDecls.mp hd
    obtain ⟨h3, h4⟩ := hn.resources a b ds' hm' k (List.mem_filterMap.mpr ⟨d, hd, hkd⟩)
    rw [← hk] at h3 h4
    exact ⟨name_ne h3, snake_slash h4⟩

/-- From the files to the generated code: with good declarations and names, generating the code works
exactly if the checks accept the model, each of the declarations meets the conditions of the
specification, no version declares two errors, and the files can be written. -/
theorem c86_sources_partial (base : Text) (writable specWritable : Text → Bool)
    (inputs : List SourceModel) (disk : Text → Option Files.Content) (hr : ∀ m ∈ inputs, m.Readable)
    (hg : ∀ before a b ds after, versionDirs inputs = before ++ (a, b, ds) :: after →
      GoodDecls (versionDecls before a b ++ ds))
    (hn : NamesFine inputs) :
    (∃ fuel disk', generate base writable specWritable inputs fuel disk = .done (disk', true)) ↔
      Checked (api (load inputs)) ∧
      (∀ a b ds, (a, b, ds) ∈ versionDirs inputs → ∀ d ∈ ds, DeclFine d) ∧
      (∀ a b, (declaredErrors (versionDecls (versionDirs inputs) a b)).length ≤ 1) ∧
      (∀ slot, Files.Wanted (api (load inputs)).view slot → writable (Files.location slot) = true) ∧
      (∀ s v, Files.HasVersion (api (load inputs)).view s v →
        specWritable (Files.specLocation s v) = true) := by
  obtain ⟨hd, he⟩ := c86_expressible_iff_partial inputs hr hg
  rw [c86_generate_iff base writable specWritable inputs disk hd
    (c86_usable_partial inputs hr hg hn), he]
  have hp := (c76_model_partial inputs hr hg).1
  exact ⟨fun ⟨_, h1, ⟨h2, h3⟩, h4⟩ => ⟨h1, h2, h3, h4⟩, fun ⟨h1, h2, h3, h4⟩ => ⟨hp, h1, ⟨h2, h3⟩, h4⟩⟩

/-! ## Examples -/

/-- A model that the reader returns has been accepted by the checks. -/
theorem checked_of_read {inputs : List SourceModel} {fuel : Nat} {s : Session}
    (h : Session.read (some 0) inputs fuel = .done { result := .model s, errors := 0 }) :
    Checked (api (load inputs)) := by
  obtain ⟨-, -, -, ms, h1, h2⟩ := (read_model_iff inputs fuel _ s).mp ⟨h, rfl⟩
  rw [← checkViews_eq] at h1
  exact ⟨fuel, ms, h1, h2⟩

theorem exampleMore_names : NamesFine [exampleInput, exampleMore] := by
  constructor
  · intro m hm
    rcases List.mem_cons.mp hm with rfl | hm
    · unfold DirNameFine; decide
    · cases List.mem_singleton.mp hm
      unfold DirNameFine; decide
  · intro a b ds h
    have : ∀ x ∈ versionDirs [exampleInput, exampleMore], DirNameFine x.2.1 := by
      unfold DirNameFine; decide
    exact this _ h
  · intro a b ds h
    have : ∀ x ∈ versionDirs [exampleInput, exampleMore], ∀ k ∈ declaredTypes x.2.2, '/' ∉ k := by
      decide
    exact this _ h
  · intro a b ds h
    have : ∀ x ∈ versionDirs [exampleInput, exampleMore], ∀ k ∈ declaredResources x.2.2,
      k ≠ [] ∧ '/' ∉ k := by decide
    exact this _ h

theorem exampleMore_checked : Checked (api (load [exampleInput, exampleMore])) := by
  have : ∃ s, Session.read (some 0) [exampleInput, exampleMore] 20 =
      .done { result := .model s, errors := 0 } := ⟨_, rfl⟩
  obtain ⟨s, h⟩ := this
  exact checked_of_read h

theorem exampleMore_fine : ∀ a b ds, (a, b, ds) ∈ versionDirs [exampleInput, exampleMore] →
    ∀ d ∈ ds, DeclFine d := by
  intro a b ds h d hd
  have hd' : d ∈ (versionDirs [exampleInput, exampleMore]).flatMap fun x => x.2.2 :=
    List.mem_flatMap.mpr ⟨_, h, hd⟩
  have e : (versionDirs [exampleInput, exampleMore]).flatMap (fun x => x.2.2) =
      [ .class t!"Cluster" [] []
          [ { name := t!"Groups", ref := .list t!"Group", link := true },
            { name := t!"State", ref := .plain t!"State" } ],
        .enum t!"State" [] [] [{ name := t!"Ready" }],
        .resource t!"Root" [] []
          [ .locator { name := t!"Clusters", members := [.target t!"Clusters"] } ],
        .struct t!"Group" [] [] [],
        .resource t!"Clusters" [] []
          [ .method
              { name := t!"Purge"
                parameters :=
                  [ { name := t!"Fast", ref := .plain t!"Boolean", directions := [.input] } ] } ],
        .resource t!"Root" [] [] [],
        .class t!"Thing" [] [] [{ name := t!"x", ref := .list t!"Thing" }],
        .struct t!"Addon" [] [] [{ name := t!"Cluster", ref := .plain t!"Cluster" }],
        .resource t!"Addons" [] []
          [ .locator { name := t!"Clusters", members := [.target t!"Clusters"] } ],
        .error t!"Broken" [] [] [t!"7"] ] := rfl
  rw [e] at hd'
  simp only [List.mem_cons, List.not_mem_nil, or_false] at hd'
  rcases hd' with rfl | rfl | rfl | rfl | rfl | rfl | rfl | rfl | rfl | rfl
  · refine ⟨by decide, ?_⟩
    intro m hm
    simp only [List.mem_cons, List.not_mem_nil, or_false] at hm
    rcases hm with rfl | rfl
    · exact .inl ⟨rfl, _, rfl⟩
    · exact .inr trivial
  · trivial
  · intro m hm
    simp at hm
  · exact ⟨by decide, fun m hm => (nomatch hm)⟩
  · intro m hm p hp
    simp only [List.mem_cons, List.not_mem_nil, or_false, ResourceMember.method.injEq] at hm
    subst hm
    simp only [List.mem_cons, List.not_mem_nil, or_false] at hp
    subst hp
    refine ⟨fun h => ?_, fun _ => trivial⟩
    have : ¬ SameName t!"Fast" t!"Items" := by unfold SameName; decide
    exact absurd h.2 this
  · intro m hm
    simp at hm
  · refine ⟨by decide, ?_⟩
    intro m hm
    simp only [List.mem_cons, List.not_mem_nil, or_false] at hm
    subst hm
    exact .inr (by unfold OneLevel; decide)
  · refine ⟨by decide, ?_⟩
    intro m hm
    simp only [List.mem_cons, List.not_mem_nil, or_false] at hm
    subst hm
    exact .inr trivial
  · intro m hm
    simp at hm
  · trivial

theorem versionDecls_all {dirs : List (Text × Text × List Decl)}
    (h : (declaredErrors (dirs.flatMap fun x => x.2.2)).length ≤ 1) (a b : Text) :
    (declaredErrors (versionDecls dirs a b)).length ≤ 1 := by
  refine Nat.le_trans (List.Sublist.length_le ?_) h
  unfold declaredErrors versionDecls
  refine List.Sublist.filterMap _ ?_
  clear h
  induction dirs with
  | nil => simp
  | cons x xs ih =>
    rw [List.filter_cons]
    split
    · rw [List.flatMap_cons, List.flatMap_cons]
      exact (List.Sublist.refl _).append ih
    · rw [List.flatMap_cons]
      exact ih.trans (List.sublist_append_right ..)

theorem exampleMore_errors (a b : Text) :
    (declaredErrors (versionDecls (versionDirs [exampleInput, exampleMore]) a b)).length ≤ 1 :=
  versionDecls_all (by decide) a b

/-- Code is generated for two directories that contribute to the same version. -/
example (base : Text) (disk : Text → Option Files.Content) :
    ∃ fuel disk', generate base (fun _ => true) (fun _ => true) [exampleInput, exampleMore] fuel disk =
      .done (disk', true) :=
  (c86_sources_partial base _ _ _ disk exampleMore_readable exampleMore_good exampleMore_names).mpr
    ⟨exampleMore_checked, exampleMore_fine, exampleMore_errors, fun _ _ => rfl, fun _ _ _ => rfl⟩

/-- A model with a declaration of a structure. -/
def structInput (members : List MemberDecl) : SourceModel :=
  { services :=
      [ { name := t!"clusters_mgmt"
          versions :=
            [ { name := t!"v1"
                files := [ { decls := [.resource t!"Root" [] [] [], .struct t!"Cluster" [] [] members] } ] } ] } ] }

theorem structInput_readable (members : List MemberDecl) : ∀ m ∈ [structInput members], m.Readable := by
  intro m hm
  cases List.mem_singleton.mp hm
  refine ⟨rfl, ?_⟩
  intro s hs _
  cases List.mem_singleton.mp hs
  refine ⟨rfl, ?_⟩
  intro v hv _
  cases List.mem_singleton.mp hv
  refine ⟨rfl, ?_⟩
  intro f hf _
  cases List.mem_singleton.mp hf
  exact ⟨rfl, rfl⟩

/-- **C86, negation of the stronger claim.** There are files that are read without errors, and with which
the command that generates Go code always fails: with an attribute whose type is a list of a predefined
list. -/
theorem c86_read_not_generated_refuted :
    ∃ inputs, (∃ s, Session.read (some 0) inputs 20 = .done { result := .model s, errors := 0 }) ∧
      ∀ base writable specWritable fuel disk disk',
        generate base writable specWritable inputs fuel disk ≠ .done (disk', true) := by
  refine ⟨[structInput [{ name := t!"Names", ref := .list t!"StringList" }]], ⟨_, rfl⟩, ?_⟩
  intro base w sw fuel disk disk' h
  have hg : ∀ before a b ds after,
      versionDirs [structInput [{ name := t!"Names", ref := .list t!"StringList" }]] =
        before ++ (a, b, ds) :: after → GoodDecls (versionDecls before a b ++ ds) :=
    goodDirs_of_check _ (by decide)
  have hn : NamesFine [structInput [{ name := t!"Names", ref := .list t!"StringList" }]] := by
    constructor
    · intro m hm
      cases List.mem_singleton.mp hm
      unfold DirNameFine; decide
    · intro a b ds h
      cases List.mem_singleton.mp h
      unfold DirNameFine; decide
    · intro a b ds h
      cases List.mem_singleton.mp h
      decide
    · intro a b ds h
      cases List.mem_singleton.mp h
      decide
  obtain ⟨-, h2, -⟩ := (c86_sources_partial base w sw _ disk (structInput_readable _) hg hn).mp
    ⟨fuel, disk', h⟩
  obtain ⟨-, h3⟩ := h2 t!"clusters_mgmt" t!"v1" _ List.mem_cons_self
    (.struct t!"Cluster" [] [] [{ name := t!"Names", ref := .list t!"StringList" }])
    (List.mem_cons_of_mem _ List.mem_cons_self)
  rcases h3 _ List.mem_cons_self with h | h
  · cases h.1
  · exact h (by decide)

/-- A model with two errors. -/
def errorsInput : SourceModel :=
  { services :=
      [ { name := t!"clusters_mgmt"
          versions :=
            [ { name := t!"v1"
                files := [ { decls := [.resource t!"Root" [] [] [], .error t!"Broken" [] [] [t!"7"],
                  .error t!"Missing" [] [] [t!"8"]] } ] } ] } ] }

/-- **C86, negation of the stronger claim.** The same happens if a version declares two errors. -/
theorem c86_two_errors_refuted :
    ∃ inputs, (∃ s, Session.read (some 0) inputs 20 = .done { result := .model s, errors := 0 }) ∧
      (∀ a b ds, (a, b, ds) ∈ versionDirs inputs → ∀ d ∈ ds, DeclFine d) ∧
      ∀ base writable specWritable fuel disk disk',
        generate base writable specWritable inputs fuel disk ≠ .done (disk', true) := by
  refine ⟨[errorsInput], ⟨_, rfl⟩, ?_, ?_⟩
  · intro a b ds h d hd
    cases List.mem_singleton.mp h
    change d ∈ [Decl.resource t!"Root" [] [] [], .error t!"Broken" [] [] [t!"7"],
      .error t!"Missing" [] [] [t!"8"]] at hd
    simp only [List.mem_cons, List.not_mem_nil, or_false] at hd
    rcases hd with rfl | rfl | rfl
    · intro m hm
      cases hm
    · trivial
    · trivial
  intro base w sw fuel disk disk' h
  have hr : ∀ m ∈ [errorsInput], m.Readable := by
    intro m hm
    cases List.mem_singleton.mp hm
    refine ⟨rfl, ?_⟩
    intro s hs _
    cases List.mem_singleton.mp hs
    refine ⟨rfl, ?_⟩
    intro v hv _
    cases List.mem_singleton.mp hv
    refine ⟨rfl, ?_⟩
    intro f hf _
    cases List.mem_singleton.mp hf
    exact ⟨rfl, rfl⟩
  have hn : NamesFine [errorsInput] := by
    constructor
    · intro m hm
      cases List.mem_singleton.mp hm
      unfold DirNameFine; decide
    · intro a b ds h
      cases List.mem_singleton.mp h
      unfold DirNameFine; decide
    · intro a b ds h
      cases List.mem_singleton.mp h
      decide
    · intro a b ds h
      cases List.mem_singleton.mp h
      decide
  obtain ⟨-, -, h3, -⟩ := (c86_sources_partial base w sw _ disk hr (goodDirs_of_check _ (by decide)) hn).mp
    ⟨fuel, disk', h⟩
  exact absurd (h3 t!"clusters_mgmt" t!"v1") (by decide)

end Verif.Whole
