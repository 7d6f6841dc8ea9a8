import Verif.Lemmas.FieldTexts
import Verif.Props.Whole

/-!
# C88: the Go types of what is declared in the files
-/

namespace Verif.Whole

open Reader Session Outcome
open GoRef (Typ Owner Basic home UsableOwner)

variable {ds : List Decl}

/-! ## The specification determines the texts -/

/-- C88: the declarations determine the Go types of attributes and parameters. -/
theorem c88_unique (g : GoodDecls ds) (flag : Bool) (r : TypeExpr) (t t' : Text) :
    (FieldText ds flag r t → FieldText ds flag r t' → t = t') ∧
    (BuilderText ds flag r t → BuilderText ds flag r t' → t = t') ∧
    (ParameterText ds flag r t → ParameterText ds flag r t' → t = t') ∧
    (AccessText ds flag r t → AccessText ds flag r t' → t = t') := by
  refine ⟨fun h h' => ?_, fun h h' => ?_, fun h h' => ?_, fun h h' => ?_⟩
  · cases h with
    | links h =>
      cases h' with
      | links h' => rw [objectName_once g h h']
      | plain h1 _ => exact absurd ⟨rfl, trivial⟩ h1
    | plain h1 h =>
      cases h' with
      | links h' => exact absurd ⟨rfl, trivial⟩ h1
      | plain _ h' => exact plainText_once g h h'
  · have hso := @scalarText_not_object ds g
    have hoo := @objectName_once ds g
    have hss := @scalarText_once ds g
    have hop := @objectName_not_list ds g
    have hsp := @scalarText_not_list ds g
    have hpl := @predefinedText_list
    have hpp := @predefinedText_once
    cases h <;> cases h' <;> grind
  · have heo := @enumName_not_object ds g
    have hee := @enumName_once ds g
    have hoo := @objectName_once ds g
    have heb := @enumName_builtin ds g
    have hob := @objectName_builtin ds g
    have hbb := @basicText_once
    have hbk := @basicText_builtin
    have hpl := @predefinedText_list
    have hpb := @predefined_builtin
    have hpp := @predefinedText_once
    have hvv := @valueText_once ds g
    have hib := interface_builtin
    cases h <;> cases h' <;> grind
  · cases h with
    | items h => cases h' with | items h' => rw [objectName_once g h h']
    | plain h => cases h' with | plain h' => exact plainText_once g h h'


/-- C88: the attributes and the parameters that have a Go type. -/
theorem c88_exists_iff (g : GoodDecls ds) (flag : Bool) (r : TypeExpr) (hr : r ∈ refsOf ds) :
    ((∃ t, FieldText ds flag r t) ↔ FieldFine ds flag r) ∧
    ((∃ t, AccessText ds flag r t) ↔ ParameterTyped ds flag r) := by
  have hp := plainText_iff g hr
  constructor
  · constructor
    · rintro ⟨t, h⟩
      cases h with
      | links h => exact ⟨objectName_not_list g h, fun _ _ => ⟨_, _, rfl, h⟩⟩
      | plain h1 h2 => exact ⟨hp.mp ⟨_, h2⟩, fun h3 h4 => absurd ⟨h3, h4⟩ h1⟩
    · rintro ⟨h1, h2⟩
      by_cases h : flag = true ∧ IsListRef r
      · obtain ⟨n, gn, rfl, hn⟩ := h2 h.1 h.2
        obtain ⟨rfl, -⟩ := h
        exact ⟨_, .links hn⟩
      · obtain ⟨t, ht⟩ := hp.mpr h1
        exact ⟨t, .plain h ht⟩
  · constructor
    · rintro ⟨t, h⟩
      cases h with
      | items h => exact ⟨objectName_not_list g h, fun _ => ⟨_, _, rfl, h⟩⟩
      | plain h => exact ⟨hp.mp ⟨_, h⟩, fun h => (nomatch h)⟩
    · rintro ⟨h1, h2⟩
      cases flag with
      | true =>
        obtain ⟨n, gn, rfl, hn⟩ := h2 rfl
        exact ⟨_, .items hn⟩
      | false =>
        obtain ⟨t, ht⟩ := hp.mpr h1
        exact ⟨t, .plain ht⟩

/-! ## The generated code has those types -/

/-- What is known about the version of a directory. -/
theorem spelledVersion (inputs : List SourceModel) (hr : ∀ m ∈ inputs, m.Readable)
    (hg : ∀ before a b ds after, versionDirs inputs = before ++ (a, b, ds) :: after →
      GoodDecls (versionDecls before a b ++ ds)) {a b : Text} {ds0 : List Decl}
    (hm : (a, b, ds0) ∈ versionDirs inputs)
    (hs : SpelledAlike (versionDecls (versionDirs inputs) a b)) :
    ∃ l v, (load inputs).services.find a = some l ∧ l.versions.find b = some v ∧ l.name.toText = a ∧
      v.name.toText = b ∧
      Spelled (load inputs) a b v (versionDecls (versionDirs inputs) a b)
        { service := l.name, version := v.name } := by
  obtain ⟨v, hv⟩ := (versionIs inputs hr hg).1 a b ds0 hm
  have hf := hv.found
  unfold Session.version at hf
  obtain ⟨l, hl, hlv⟩ := Option.bind_eq_some_iff.mp hf
  have hw : ∀ a b ds, (a, b, ds) ∈ versionDirs inputs → WellNamed ds := by
    intro a b ds hm e he
    obtain ⟨before, after, hs⟩ := List.append_of_mem hm
    refine (hg before a b ds after hs).named e ?_
    unfold refsOf
    rw [List.flatMap_append]
    exact List.mem_append_right _ he
  refine ⟨l, v, hl, hlv, (hv.inv.model.named a l hl).1, (version_named hv.inv.model hv.found).1, hv, ?_, hs,
    ownerOf_version hv.inv.model hl hlv⟩
  intro k id c hc
  exact load_names inputs hw hv.found hc.found hc.cell

/-- The attributes of a type. -/
theorem Spelled.fields {s : Session} {a b base : Text} {v : LoadedVersion} {o : Owner}
    (h : Spelled s a b v ds o) (hb : base ≠ []) (ho : UsableOwner o) (hd : NoDots ds) {d : Decl} (hmem : d ∈ ds)
    {ms : List MemberDecl} (hrefs : d.typeRefs = ms.map (·.ref)) {k : Text} {id : TypeId} {c : TypeCell}
    (hc : TypeAt s v k id c) {sorted : List AttributeView}
    (hs : IsSortOf AttributeView.name sorted (ms.map MemberDecl.view))
    (hat : c.attributes.map (View.ofAttribute s.heap) = sorted) :
    ∃ ms' : List MemberDecl, ms'.Perm ms ∧
      All2 (fun x m => FieldFine ds m.link m.ref → GeneratedField s base o ds x m) c.attributes ms' := by
  obtain ⟨ms', hp, he⟩ := perm_map hs.1
  refine ⟨ms', hp, all2_of_map (hat.trans he) ?_⟩
  intro x hx m hm hv hfine
  have hown := (h.inv.locals.cells id c hc.cell).attributes x hx |>.1
  rw [hc.owner] at hown
  obtain ⟨ct, hct⟩ := typeAt_of_owned h.inv h.found hown
  have hkey : View.typeKey s.heap x.typ = m.ref.key := congrArg AttributeView.typ hv
  rw [hkey] at hct
  have hlink : x.link = m.link := congrArg AttributeView.link hv
  have hlo : x.linkOwner = none := congrArg AttributeView.linkOwner hv
  have href : m.ref ∈ refsOf ds := memberRef_mem hmem (by
    rw [hrefs]
    exact List.mem_map.mpr ⟨m, hp.mem_iff.mp hm, rfl⟩)
  have hden := h.denotes href hfine.1 hct
  have hinfo : attributeInfo s x = ⟨typeOf s x.typ, m.link, none⟩ := by
    unfold attributeInfo
    rw [hlink, hlo]
    rfl
  obtain ⟨⟨t, ht, htext, htime, hno⟩, ⟨tb, htb, hbtext⟩⟩ :=
    hden.field (base := base) h.good (h.ref href hct).2.2 hfine.2
  have hu := hden.usable hd hb ho
  have hen := hden.enumsHere (base := base) hd
  have hf := (GoRef.c78_field_iff base o ⟨typeOf s x.typ, m.link, none⟩ t hu
    (fun o' h => (nomatch h)) ht).mpr ⟨hen, fun _ _ _ h => (nomatch h)⟩
  have hi := GoRef.c78_import base o ⟨typeOf s x.typ, m.link, none⟩ t hu ht
  obtain ⟨h1, h2, h3, h4, h5⟩ := GoRef.c78_builder_partial base o ⟨typeOf s x.typ, m.link, none⟩ t tb hu hen
    (fun d hm => by rw [(hden.mentions hd hm).1]) ht htb
  refine ⟨congrArg AttributeView.name hv, ?_, ?_, ?_, ?_, ?_, ?_, ?_, ?_, ?_⟩ <;> rw [hinfo]
  · rw [hf]; exact htext
  · rw [(GoRef.c78_getter base (home base o) ⟨typeOf s x.typ, m.link, none⟩).1, hf]; exact htext
  · intro hn; rw [hi]; exact htime hn
  · intro hn; rw [hi]; exact hno hn
  · rw [h1]; exact hbtext
  · rw [h2]; exact hbtext
  · rw [h3]; exact hbtext
  · rw [h4]; exact hbtext
  · intro x hx; rw [h5 x hx]; exact htext

/-- C88: the Go types of the declared types belong to the package of the version and have the names that
are declared. -/
theorem c88_types_partial (inputs : List SourceModel) (hr : ∀ m ∈ inputs, m.Readable)
    (hg : ∀ before a b ds after, versionDirs inputs = before ++ (a, b, ds) :: after →
      GoodDecls (versionDecls before a b ++ ds)) {a b : Text} {ds0 : List Decl}
    (hm : (a, b, ds0) ∈ versionDirs inputs)
    (hs : SpelledAlike (versionDecls (versionDirs inputs) a b)) :
    ∃ l v, (load inputs).services.find a = some l ∧ l.versions.find b = some v ∧ l.name.toText = a ∧
      v.name.toText = b ∧
      (∀ name doc as vs, Decl.enum name doc as vs ∈ versionDecls (versionDirs inputs) a b →
        ∃ id, v.types.find (keyOf name) = some id ∧ typeOf (load inputs) id =
          .enum ⟨{ service := l.name, version := v.name }, parseUsingCase name, as⟩) ∧
      (∀ name doc as ms, Decl.class name doc as ms ∈ versionDecls (versionDirs inputs) a b →
        ∃ id, v.types.find (keyOf name) = some id ∧ typeOf (load inputs) id =
          .struct ⟨{ service := l.name, version := v.name }, parseUsingCase name, as⟩) ∧
      (∀ name doc as ms, Decl.struct name doc as ms ∈ versionDecls (versionDirs inputs) a b →
        ∃ id, v.types.find (keyOf name) = some id ∧ typeOf (load inputs) id =
          .struct ⟨{ service := l.name, version := v.name }, parseUsingCase name, as⟩) := by
  obtain ⟨l, v, hl, hv, hln, hvn, h⟩ := spelledVersion inputs hr hg hm hs
  have key : ∀ d name kind, d ∈ versionDecls (versionDirs inputs) a b →
      d.typeName = some (parseUsingCase name) → d.declaredType = some (keyOf name, kind) →
      ∃ id, v.types.find (keyOf name) = some id ∧
        Value (versionDecls (versionDirs inputs) a b) { service := l.name, version := v.name } name
          (typeOf (load inputs) id) := by
    intro d name kind hd hn hdk
    obtain ⟨x, hx, -⟩ := h.types.declared d hd _ kind hdk
    obtain ⟨id, c, hc, -⟩ := typeAt_of_view h.inv h.found hx
    have hdecl : keyOf name ∈ declaredTypes (versionDecls (versionDirs inputs) a b) :=
      List.mem_filterMap.mpr ⟨d, hd, by rw [hdk]; rfl⟩
    exact ⟨id, hc.found, h.value (.inr hdecl)
      (fun hp => h.good.acceptable.notBuiltin _ hdecl (predefined_builtin hp)) hc⟩
  refine ⟨l, v, hl, hv, hln, hvn, ?_, ?_, ?_⟩
  all_goals
    intro name doc as ms hd
    obtain ⟨id, hid, hval⟩ := key _ name _ hd rfl rfl
    refine ⟨id, hid, ?_⟩
    generalize typeOf (load inputs) id = t at hval
    cases hval with
    | basic x hk =>
      have := declared_not_date h.good hd rfl
      refine absurd ?_ this
      rw [show (parseUsingCase name).toText = keyOf name from rfl, hk]
      cases x <;> decide
    | enum h1 h2 =>
      have := declared_once h.good hd h1 rfl rfl h2
      cases this
      try rfl
    | «class» h1 h2 =>
      have := declared_once h.good hd h1 rfl rfl h2
      cases this
      try rfl
    | struct h1 h2 =>
      have := declared_once h.good hd h1 rfl rfl h2
      cases this
      try rfl

/-- C88: each declared class or struct has exactly the declared attributes, and each of them has in the
generated type and in its builder the Go type that the declarations determine. -/
theorem c88_fields_partial (inputs : List SourceModel) (base : Text) (hr : ∀ m ∈ inputs, m.Readable)
    (hg : ∀ before a b ds after, versionDirs inputs = before ++ (a, b, ds) :: after →
      GoodDecls (versionDecls before a b ++ ds)) (hn : NamesFine inputs) (hb : base ≠ [])
    {a b : Text} {ds0 : List Decl} (hm : (a, b, ds0) ∈ versionDirs inputs) (hdot : '.' ∉ b)
    (hs : SpelledAlike (versionDecls (versionDirs inputs) a b))
    (hd : NoDots (versionDecls (versionDirs inputs) a b)) :
    ∃ l v, (load inputs).services.find a = some l ∧ l.versions.find b = some v ∧
      ∀ name as ms,
        (∃ doc, Decl.class name doc as ms ∈ versionDecls (versionDirs inputs) a b) ∨
        (∃ doc, Decl.struct name doc as ms ∈ versionDecls (versionDirs inputs) a b) →
        ∃ id c ms', v.types.find (keyOf name) = some id ∧ (load inputs).heap[id]? = some c ∧
          ms'.Perm ms ∧
          All2 (fun x m => FieldFine (versionDecls (versionDirs inputs) a b) m.link m.ref →
            GeneratedField (load inputs) base { service := l.name, version := v.name }
              (versionDecls (versionDirs inputs) a b) x m) c.attributes ms' := by
  obtain ⟨l, v, hl, hv, hln, hvn, h⟩ := spelledVersion inputs hr hg hm hs
  have ho : UsableOwner { service := l.name, version := v.name } := by
    refine usableOwner ?_ ?_ ?_
    · rw [hln]; exact load_keys inputs hn.services a l hl
    · rw [hvn]; exact hn.versions a b ds0 hm
    · rw [hvn]; exact hdot
  refine ⟨l, v, hl, hv, ?_⟩
  rintro name as ms (⟨doc, hdecl⟩ | ⟨doc, hdecl⟩)
  all_goals
    obtain ⟨x, hx, -, sorted, hsort, he⟩ := h.types.declared _ hdecl _ _ rfl
    obtain ⟨id, c, hc, rfl⟩ := typeAt_of_view h.inv h.found hx
    obtain ⟨ms', h1, h2⟩ := h.fields hb ho hd hdecl rfl hc hsort (congrArg TypeView.attributes he)
    exact ⟨id, c, ms', hc.found, hc.cell, h1, h2⟩

/-- C88: each declared resource has exactly the declared methods, each of them with exactly the declared
parameters, and each parameter has in requests and responses the Go type that the declarations determine. -/
theorem c88_parameters_partial (inputs : List SourceModel) (base : Text) (hr : ∀ m ∈ inputs, m.Readable)
    (hg : ∀ before a b ds after, versionDirs inputs = before ++ (a, b, ds) :: after →
      GoodDecls (versionDecls before a b ++ ds)) (hn : NamesFine inputs) (hb : base ≠ [])
    {a b : Text} {ds0 : List Decl} (hm : (a, b, ds0) ∈ versionDirs inputs) (hdot : '.' ∉ b)
    (hs : SpelledAlike (versionDecls (versionDirs inputs) a b))
    (hd : NoDots (versionDecls (versionDirs inputs) a b)) :
    ∃ l v, (load inputs).services.find a = some l ∧ l.versions.find b = some v ∧
      ∀ name doc as ms, Decl.resource name doc as ms ∈ versionDecls (versionDirs inputs) a b →
        ∃ id res mds, v.resources.find (keyOf name) = some id ∧ (load inputs).graph[id]? = some res ∧
          mds.Perm (methodDecls ms) ∧
          All2 (fun m md => m.name = parseUsingCase md.name ∧ ∃ ps : List ParameterDecl,
            ps.Perm md.parameters ∧
            All2 (fun x p => ∃ items, (items = true ↔ IsItemsDecl md p) ∧
              (ParameterTyped (versionDecls (versionDirs inputs) a b) items p.ref →
                GeneratedParameter (load inputs) base { service := l.name, version := v.name }
                  (versionDecls (versionDirs inputs) a b) items m x p)) m.parameters ps)
            res.methods mds := by
  obtain ⟨l, v, hl, hv, hln, hvn, h⟩ := spelledVersion inputs hr hg hm hs
  have ho : UsableOwner { service := l.name, version := v.name } := by
    refine usableOwner ?_ ?_ ?_
    · rw [hln]; exact load_keys inputs hn.services a l hl
    · rw [hvn]; exact hn.versions a b ds0 hm
    · rw [hvn]; exact hdot
  refine ⟨l, v, hl, hv, ?_⟩
  intro name doc as ms hdecl
  obtain ⟨x, hx, hdes⟩ := h.resources.declared _ hdecl _ rfl
  unfold Session.resourceView at hx
  obtain ⟨id, hf, hx⟩ := Option.bind_eq_some_iff.mp hx
  obtain ⟨res, hres, rfl⟩ := Option.map_eq_some_iff.mp hx
  obtain ⟨-, -, -, ⟨methods, hall, hsort⟩, -⟩ := hdes
  have hown := h.inv.locals.resources a b v h.found _ id res hf hres
  obtain ⟨mds, hp, hall'⟩ := all2_perm hsort.1 hall
  refine ⟨id, res, mds, hf, hres, hp, all2_map (f := View.ofMethod (load inputs).heap) hall' ?_⟩
  rintro md hmd m hmm ⟨hname, -, -, hps⟩
  obtain ⟨ps, hpp, he⟩ := perm_map hps.1
  refine ⟨hname, ps, hpp, all2_of_map (f := View.ofParameter (load inputs).heap) he ?_⟩
  intro x hx p hpmem hv
  have hmd' : ResourceMember.method md ∈ ms := mem_methodDecls.mp (hp.mem_iff.mp hmd)
  have href : p.ref ∈ refsOf (versionDecls (versionDirs inputs) a b) := memberRef_mem hdecl
    (List.mem_flatMap.mpr ⟨_, hmd', List.mem_map.mpr ⟨p, hpp.mem_iff.mp hpmem, rfl⟩⟩)
  obtain ⟨ct, hct⟩ := typeAt_of_owned h.inv h.found (hown m hmm x hx)
  have hkey : View.typeKey (load inputs).heap x.typ.id = p.ref.key := congrArg ParameterView.typ hv
  rw [hkey] at hct
  have hpn : x.name = parseUsingCase p.name := congrArg ParameterView.name hv
  have hname : m.name = parseUsingCase md.name := hname
  refine ⟨x.isItems m, ?_, ?_⟩
  · rw [isItems_iff]
    unfold IsItemsOf IsItemsDecl SameName
    rw [hname, hpn]
    rfl
  · intro hfine
    have hden := h.denotes href hfine.1 hct
    obtain ⟨⟨t, ht, htext⟩, ⟨ta, hta, hatext⟩⟩ := hden.parameter (base := base) h.good hfine.2
    obtain ⟨h1, h2, h3, h4⟩ := GoRef.c78_parameter_partial base _ ⟨typeOf (load inputs) x.typ.id, x.isItems m⟩
      t ta (hden.usable hd hb ho) (hden.enumsHere hd) ht hta
    have hinfo : paramOf (typeOf (load inputs)) m x = ⟨typeOf (load inputs) x.typ.id, x.isItems m⟩ := rfl
    refine ⟨hpn, ?_, ?_, ?_, ?_⟩ <;> rw [hinfo]
    · rw [h1]; exact htext
    · rw [h2]; exact htext
    · rw [h3]; exact hatext
    · rw [h4]; exact hatext

/-! ## Examples -/

/-- The declarations of the first version of the example. -/
def firstDecls : List Decl :=
    [ .class t!"Cluster" [] []
        [ { name := t!"Groups", ref := .list t!"Group", link := true },
          { name := t!"State", ref := .plain t!"State" } ],
      .enum t!"State" [] [] [{ name := t!"Ready" }],
      .resource t!"Root" [] []
        [ .locator { name := t!"Clusters", members := [.target t!"Clusters"] } ],
      .struct t!"Group" [] [] [],
      .resource t!"Clusters" [] []
        [ .method
            { name := t!"Purge"
              parameters :=
                [ { name := t!"Fast", ref := .plain t!"Boolean", directions := [.input] } ] } ],
      .struct t!"Addon" [] [] [{ name := t!"Cluster", ref := .plain t!"Cluster" }],
      .resource t!"Addons" [] []
        [ .locator { name := t!"Clusters", members := [.target t!"Clusters"] } ],
      .error t!"Broken" [] [] [t!"7"] ]

theorem firstDecls_eq :
    versionDecls (versionDirs [exampleInput, exampleMore]) t!"clusters_mgmt" t!"v1" = firstDecls := rfl

theorem exampleMore_spelled :
    SpelledAlike (versionDecls (versionDirs [exampleInput, exampleMore]) t!"clusters_mgmt" t!"v1") ∧
    NoDots (versionDecls (versionDirs [exampleInput, exampleMore]) t!"clusters_mgmt" t!"v1") := by
  constructor
  · intro e he n hn d hd name hname hk
    have key : ∀ e ∈ refsOf firstDecls, ∀ n ∈ e.names, ∀ d ∈ firstDecls,
        d.typeName.all (fun name => decide (name.toText = keyOf n → parseUsingCase n = name)) = true := by
      decide
    have := key e he n hn d hd
    rw [hname] at this
    exact of_decide_eq_true this hk
  · intro d hd name hname
    have key : ∀ d ∈ firstDecls,
        d.typeName.all (fun name => decide ('.' ∉ Go.nameOf d.typeAnnotations name)) = true := by decide
    have := key d hd
    rw [hname] at this
    exact of_decide_eq_true this

/-- In the example the attributes of the class have the types `*GroupList` and `State`, and those of its
builder the types `*GroupListBuilder` and `State`. -/
example : ∃ l v id c, (load [exampleInput, exampleMore]).services.find t!"clusters_mgmt" = some l ∧
    l.versions.find t!"v1" = some v ∧ v.types.find t!"cluster" = some id ∧
    (load [exampleInput, exampleMore]).heap[id]? = some c ∧ c.attributes.length = 2 ∧
    ∀ x ∈ c.attributes, ∃ field builder,
      (field, builder) ∈ [(t!"*GroupList", t!"*GroupListBuilder"), (t!"State", t!"State")] ∧
      GoRef.emit (home t!"example.com/api" ⟨l.name, v.name⟩)
        (GoRef.fieldType t!"example.com/api" (attributeInfo (load [exampleInput, exampleMore]) x)) = field ∧
      GoRef.emit (home t!"example.com/api" ⟨l.name, v.name⟩)
        (GoRef.builderFieldType t!"example.com/api" (attributeInfo (load [exampleInput, exampleMore]) x)) =
          builder := by
  obtain ⟨l, v, hl, hv, h⟩ := c88_fields_partial [exampleInput, exampleMore] t!"example.com/api"
    exampleMore_readable exampleMore_good exampleMore_names (by decide) (a := t!"clusters_mgmt") (b := t!"v1")
    (List.mem_cons_self ..) (by decide) exampleMore_spelled.1 exampleMore_spelled.2
  have hgood : GoodDecls (versionDecls (versionDirs [exampleInput, exampleMore]) t!"clusters_mgmt" t!"v1") := by
    obtain ⟨before, ds, after, he, hds⟩ := last_dir (versionDirs [exampleInput, exampleMore])
      t!"clusters_mgmt" t!"v1" _ (List.mem_cons_self ..)
    rw [hds]
    exact exampleMore_good before _ _ ds after he
  rw [firstDecls_eq] at h hgood
  obtain ⟨id, c, ms, hid, hc, hp, hall⟩ := h t!"Cluster" [] _ (.inl ⟨[], List.mem_cons_self⟩)
  have hlen := all2_length hall
  refine ⟨l, v, id, c, hl, hv, hid, hc, by rw [hlen, hp.length_eq]; rfl, ?_⟩
  intro x hx
  obtain ⟨m, hm, hgen⟩ := (all2_mem hall).1 x hx
  have hm := hp.mem_iff.mp hm
  simp only [List.mem_cons, List.not_mem_nil, or_false] at hm
  rcases hm with rfl | rfl
  · have hobj : ObjectName firstDecls t!"Group" t!"Group" :=
      .struct (name := t!"Group") (doc := []) (as := []) (ms := []) (by simp [firstDecls]) rfl
    have hg := hgen ⟨by unfold OneLevel; decide, fun _ _ => ⟨_, _, rfl, hobj⟩⟩
    exact ⟨_, _, List.mem_cons_self,
      (c88_unique hgood true (.list t!"Group") _ _).1 hg.field (.links hobj),
      (c88_unique hgood true (.list t!"Group") _ _).2.1 hg.builder (.links hobj)⟩
  · have henum : EnumName firstDecls t!"State" t!"State" :=
      .enum (name := t!"State") (doc := []) (as := []) (vs := [{ name := t!"Ready" }])
        (by simp [firstDecls]) rfl
    have hg := hgen ⟨trivial, fun h => (nomatch h)⟩
    exact ⟨_, _, List.mem_cons_of_mem _ List.mem_cons_self,
      (c88_unique hgood false (.plain t!"State") _ _).1 hg.field
        (.plain (fun h => (nomatch h.1)) (.plain (.scalar (.enum henum)))),
      (c88_unique hgood false (.plain t!"State") _ _).2.1 hg.builder (.scalar (.enum henum))⟩

/-- A model that uses the name of a struct written in another way. -/
def spellingInput : SourceModel :=
  { services :=
      [ { name := t!"clusters_mgmt"
          versions :=
            [ { name := t!"v1"
                files :=
                  [ { decls :=
                        [ .resource t!"Root" [] [] [],
                          .struct t!"Cluster" [] [] [{ name := t!"Bar", ref := .plain t!"FOO_BAR" }],
                          .struct t!"FooBar" [] [] [] ] } ] } ] } ] }

/-- **C88, negation of the stronger claim.** The Go name of a declared type depends on how its name was
written where it was first used: if `FOO_BAR` is used before `FooBar` is declared they are the same type,
but the generated Go type is `Foo_bar`. -/
theorem c88_spelling_refuted :
    ∃ inputs a b, (∃ s, Session.read (some 0) inputs 20 = .done { result := .model s, errors := 0 }) ∧
      (∀ before a b ds after, versionDirs inputs = before ++ (a, b, ds) :: after →
        GoodDecls (versionDecls before a b ++ ds)) ∧
      Decl.struct t!"FooBar" [] [] [] ∈ versionDecls (versionDirs inputs) a b ∧
      goName t!"FooBar" [] = t!"FooBar" ∧
      ∃ v id, (load inputs).version a b = some v ∧ v.types.find (keyOf t!"FooBar") = some id ∧
        (typeOf (load inputs) id).decl = t!"Foo_bar" := by
  refine ⟨[spellingInput], t!"clusters_mgmt", t!"v1", ⟨_, rfl⟩, goodDirs_of_check _ (by decide), ?_, by decide,
    _, _, rfl, rfl, ?_⟩
  · exact List.mem_cons_of_mem _ (List.mem_cons_of_mem _ List.mem_cons_self)
  · decide

end Verif.Whole
