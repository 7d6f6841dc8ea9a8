import Verif.Spec.Declarations
import Verif.Lemmas.Declarations

/-!
# C83: the package of a version declares each name once and declares the names that it uses

`declared v` are all the constants, variables, types and functions that the generators of Go code put
in the package of the version `v`. A Go package that declares the same name twice, or uses a name that
isn't declared, doesn't compile.
-/

namespace Verif.Decls

/-! ## What is declared -/

/-- C83: the package declares exactly the identifiers of the table, as many times as they are in it. -/
theorem c83_declared (v : VersionView) (n : Text) :
    (declared v).count n = ((table v).flatMap Row.identifiers).count n :=
  (declared_perm v).count_eq n

/-! A version like those of the real models. -/

def clusterVersion : VersionView where
  types :=
    [⟨.builtin ⟨parseUsingCase t!"String", []⟩, []⟩,
     ⟨.enum ⟨parseUsingCase t!"ClusterState", []⟩
       [{ name := parseUsingCase t!"Ready" }, { name := parseUsingCase t!"Error" }], []⟩,
     ⟨.struct ⟨parseUsingCase t!"Cluster", []⟩ true,
       [{ label := ⟨parseUsingCase t!"State", []⟩,
          typ := .enum ⟨parseUsingCase t!"ClusterState", []⟩
            [{ name := parseUsingCase t!"Ready" }, { name := parseUsingCase t!"Error" }] },
        { label := ⟨parseUsingCase t!"Groups", []⟩, link := true,
          typ := .list ⟨parseUsingCase t!"GroupList", []⟩
            (.struct ⟨parseUsingCase t!"Group", []⟩ true) }]⟩,
     ⟨.struct ⟨parseUsingCase t!"Group", []⟩ true, []⟩,
     ⟨.struct ⟨parseUsingCase t!"Version", []⟩ false, []⟩,
     ⟨.list ⟨parseUsingCase t!"GroupList", []⟩ (.struct ⟨parseUsingCase t!"Group", []⟩ true), []⟩,
     ⟨.list ⟨parseUsingCase t!"StringList", []⟩ (.builtin ⟨parseUsingCase t!"String", []⟩), []⟩]
  resources :=
    [{ name := parseUsingCase t!"Root",
       locators := [{ name := parseUsingCase t!"Clusters", owner := 0, target := some 1 }] },
     { name := parseUsingCase t!"Clusters",
       methods := [{ name := parseUsingCase t!"List" }, { name := parseUsingCase t!"Add" }] },
     { name := parseUsingCase t!"Cluster",
       methods := [{ name := parseUsingCase t!"Get" }, { name := parseUsingCase t!"Delete" }] }]
  errors := [parseUsingCase t!"NotFound"]
  target := fun l => if l.target = some 1 then
    some { name := parseUsingCase t!"Clusters",
           methods := [{ name := parseUsingCase t!"List" }, { name := parseUsingCase t!"Add" }] }
    else none

set_option maxRecDepth 8000 in
example : (declared clusterVersion).length = 85 := by decide
set_option maxRecDepth 8000 in
example : ∀ n ∈ [t!"Cluster", t!"ClusterKind", t!"GroupListBuilder", t!"ClusterState",
    t!"ClusterStateReady", t!"WriteGroupList", t!"UnmarshalStringList", t!"writeClusterGetRequest",
    t!"ClusterPollRequest", t!"Client", t!"NewClustersClient", t!"NotFoundError"],
    (declared clusterVersion).count n = 1 := by decide

/-! ## When each name is declared once -/

/-- C83, the part that holds: if the names of the version don't look like derived names then each name
is declared once exactly when the things of the same kind have different names. -/
theorem c83_once_iff_partial (v : VersionView) (h : Tidy v) : (declared v).Nodup ↔ Distinct v :=
  declared_nodup h

set_option maxRecDepth 8000 in
example : Tidy clusterVersion := by decide
set_option maxRecDepth 8000 in
example : (declared clusterVersion).Nodup := by decide

/-! A version with only some classes, and another with only some resources. -/

/-- The classes of the names. -/
def classesOnly (ns : List Text) : VersionView where
  types := ns.map fun n => ⟨.struct ⟨parseUsingCase n, []⟩ true, []⟩

/-- The resources of the names, with the methods of the names. -/
def resourcesOnly (rs : List (Text × List Text)) : VersionView where
  resources := rs.map fun r =>
    { name := parseUsingCase r.1, methods := r.2.map fun m => { name := parseUsingCase m } }

/-- C83 is false: a class `Metadata` clashes with the metadata of the package. -/
theorem c83_metadata_refuted : ¬ (declared (classesOnly [t!"Metadata"])).Nodup := by decide

/-- C83 is false: classes with different names can have the same list, builder, kind or constructor. -/
theorem c83_derived_refuted :
    ∀ n ∈ [t!"FooList", t!"FooKind", t!"FooLinkKind", t!"FooNilKind", t!"FooListKind", t!"FooBuilder",
      t!"NewFoo", t!"ReadFoo", t!"WriteFoo", t!"MarshalFoo", t!"UnmarshalFoo"],
      (declared (classesOnly [n])).Nodup ∧ ¬ (declared (classesOnly [t!"Foo", n])).Nodup := by
  decide

/-- C83 is false: the constants of an enumerated type can have the name of another type. -/
theorem c83_constant_refuted : ¬ (declared { types :=
    [⟨.enum ⟨parseUsingCase t!"Foo", []⟩ [{ name := parseUsingCase t!"Bar" }], []⟩,
     ⟨.struct ⟨parseUsingCase t!"FooBar", []⟩ false, []⟩] }).Nodup := by decide

/-- C83 is false: resources and types aren't in different packages. -/
theorem c83_client_refuted : ¬ (declared {
    types := [⟨.struct ⟨parseUsingCase t!"FooClient", []⟩ false, []⟩],
    resources := [{ name := parseUsingCase t!"Foo" }] }).Nodup := by decide

/-- C83 is false: the messages of a method can be those of a method of another resource, those of a
method of the root, or those of polling. -/
theorem c83_message_refuted :
    ¬ (declared (resourcesOnly [(t!"Foo", [t!"BarGet"]), (t!"FooBar", [t!"Get"])])).Nodup ∧
    ¬ (declared (resourcesOnly [(t!"Root", [t!"FooAdd"]), (t!"Foo", [t!"Add"])])).Nodup ∧
    ¬ (declared (resourcesOnly [(t!"Foo", [t!"Get", t!"Poll"])])).Nodup := by decide

/-- Those versions are small, and the same version with other names is fine. -/
theorem c83_message_fine :
    (declared (resourcesOnly [(t!"Foo", [t!"Get"]), (t!"FooBar", [t!"Get"])])).Nodup ∧
    (declared (resourcesOnly [(t!"Root", [t!"Add"]), (t!"Foo", [t!"Add"])])).Nodup ∧
    (declared (resourcesOnly [(t!"Foo", [t!"Get", t!"Wait"])])).Nodup := by decide

/-- C83 is false: the annotation can give the name of a class to another. -/
theorem c83_annotation_refuted : ¬ (declared { types :=
    [⟨.struct ⟨parseUsingCase t!"Foo", []⟩ true, []⟩,
     ⟨.struct ⟨parseUsingCase t!"Bar", [{ name := t!"go", parameters := [(t!"name", .str t!"Foo")] }]⟩ true, []⟩] }).Nodup := by decide

/-! ## What is used is declared -/

/-- C83: the names that the code of an attribute uses. A struct is written and read with its own
functions, those of the package of the owner if it is a link. -/
theorem c83_struct_uses (link : Bool) (o : Option Text) (l l' : Label) (c : Bool) :
    attributeUses ⟨l', .struct l c, link, o⟩ =
      [(o, t!"Write" ++ upperCamel l.name), (o, t!"Read" ++ upperCamel l.name)] := by
  simp [attributeUses, writeUses, readUses, writeTypeFunc, readTypeFunc, TypeShape.label,
    public_write, public_read]

/-- C83: a list too, but only if it is a link the functions of the package of the owner are used. The
code that reads a link also uses the type and the kind of the list. -/
theorem c83_list_uses (o : Option Text) (l l' : Label) (e : TypeShape) :
    attributeUses ⟨l', .list l e, false, o⟩ =
      [(none, t!"Write" ++ upperCamel l.name), (none, t!"Read" ++ upperCamel l.name)] ∧
    attributeUses ⟨l', .list l e, true, o⟩ =
      [(o, t!"Write" ++ upperCamel l.name),
       (o, Go.nameOf e.label.annotations e.label.name ++ t!"List"),
       (o, Go.nameOf e.label.annotations e.label.name ++ t!"ListLinkKind"),
       (o, t!"Read" ++ upperCamel l.name)] := by
  simp [attributeUses, writeUses, readUses, writeTypeFunc, readTypeFunc, TypeShape.label,
    public_write, public_read, goName]

/-- C83: a map uses the names that its elements would use if they weren't links. -/
theorem c83_map_uses (link : Bool) (o : Option Text) (l l' : Label) (e : TypeShape) :
    attributeUses ⟨l', .map l e, link, o⟩ = attributeUses ⟨l', e, false, o⟩ := rfl

/-- C83: scalars don't use names, except the enumerated types, that are converted to when read. -/
theorem c83_scalar_uses (link : Bool) (o : Option Text) (l l' : Label) (vs : List EnumValue) :
    attributeUses ⟨l', .builtin l, link, o⟩ = [] ∧
    attributeUses ⟨l', .enum l vs, link, o⟩ = [(none, Go.nameOf l.annotations l.name)] := ⟨rfl, rfl⟩

/-- C83, the part that holds: if the version has the type of the attribute, and its lists are of
scalars or structs, then the names used without a package are declared. -/
theorem c83_uses_declared_partial (v : VersionView) (a : AttributeView) (h : Complete v a.link a.typ) :
    ∀ n, (none, n) ∈ attributeUses a → n ∈ declared v := by
  obtain ⟨l', ty, link, o⟩ := a
  simp only at h
  have hcoded : ∀ l ∈ coded v, ∀ n, n = t!"Write" ++ upperCamel l.name ∨
      n = t!"Read" ++ upperCamel l.name → n ∈ declared v := by
    intro l hl n hn
    have h1 := mem_declared (v := v) (r := ⟨t!"Write", (coded v).map fun l => upperCamel l.name, []⟩)
      (by simp only [table]; simp) (List.mem_map.mpr ⟨l, hl, rfl⟩)
    have h2 := mem_declared (v := v) (r := ⟨t!"Read", (coded v).map fun l => upperCamel l.name, []⟩)
      (by simp only [table]; simp) (List.mem_map.mpr ⟨l, hl, rfl⟩)
    rcases hn with rfl | rfl
    · simpa using h1
    · simpa using h2
  induction h generalizing l' with
  | builtin => intro n hn; cases hn
  | @enum link l vs ht =>
    intro n hn
    rw [(c83_scalar_uses link o l l' vs).2] at hn
    simp only [List.mem_singleton, Prod.mk.injEq, true_and] at hn
    obtain ⟨t, ht, hs⟩ := ht
    have := mem_declared (v := v) (r := (table v).head (by simp [table])) (n := n)
      (List.head_mem _) (by
        simp only [table, List.head_cons, List.mem_append, List.mem_map]
        exact .inl (.inl (.inr ⟨(l, vs), List.mem_filterMap.mpr ⟨t, ht, by rw [hs]⟩, hn.symm⟩)))
    simpa [table] using this
  | @struct link l c ht =>
    intro n hn
    rw [c83_struct_uses] at hn
    obtain ⟨t, ht, hs⟩ := ht
    refine hcoded l (List.mem_filterMap.mpr ⟨t, ht, by rw [hs]⟩) n ?_
    simpa [Prod.ext_iff, or_and_left, and_or_left] using
      (show n = t!"Write" ++ upperCamel l.name ∨ n = t!"Read" ++ upperCamel l.name by
        simp only [List.mem_cons, Prod.mk.injEq, List.not_mem_nil, or_false] at hn
        rcases hn with h | h
        · exact .inl h.2
        · exact .inr h.2)
  | @scalars l e ht he =>
    intro n hn
    rw [(c83_list_uses o l l' e).1] at hn
    obtain ⟨t, ht, hs⟩ := ht
    refine hcoded l (List.mem_filterMap.mpr ⟨t, ht, ?_⟩) n ?_
    · rw [hs]
      rcases he with ⟨b, rfl⟩ | ⟨b, vs, rfl⟩ <;> rfl
    · simp only [List.mem_cons, Prod.mk.injEq, List.not_mem_nil, or_false, true_and] at hn
      exact hn
  | @list link l b c ht he =>
    intro n hn
    obtain ⟨t, ht, hs⟩ := ht
    obtain ⟨te, hte, hse⟩ := he
    have hc := hcoded l (List.mem_filterMap.mpr ⟨t, ht, by rw [hs]⟩) n
    have hst : b ∈ structs v := List.mem_filterMap.mpr ⟨te, hte, by rw [hse]⟩
    cases link with
    | false =>
      rw [(c83_list_uses o l l' _).1] at hn
      simp only [List.mem_cons, Prod.mk.injEq, List.not_mem_nil, or_false, true_and] at hn
      exact hc hn
    | true =>
      rw [(c83_list_uses o l l' _).2] at hn
      simp only [List.mem_cons, Prod.mk.injEq, List.not_mem_nil, or_false] at hn
      rcases hn with h | h | h | h
      · exact hc (.inl h.2)
      · have := mem_declared (v := v)
          (r := ⟨[], (structs v).map fun l => Go.nameOf l.annotations l.name, t!"List"⟩)
          (by simp only [table]; simp) (List.mem_map.mpr ⟨b, hst, rfl⟩)
        rw [h.2]; simpa [TypeShape.label] using this
      · have := mem_declared (v := v)
          (r := ⟨[], (structs v).map fun l => Go.nameOf l.annotations l.name, t!"ListLinkKind"⟩)
          (by simp only [table]; simp) (List.mem_map.mpr ⟨b, hst, rfl⟩)
        rw [h.2]; simpa [TypeShape.label] using this
      · exact hc (.inr h.2)
  | @map link l e _ ih =>
    intro n hn
    rw [c83_map_uses] at hn
    exact ih l' n hn

/-- The attributes of the class `Cluster` meet the hypotheses. -/
example : Complete clusterVersion true
    (.list ⟨parseUsingCase t!"GroupList", []⟩ (.struct ⟨parseUsingCase t!"Group", []⟩ true)) :=
  .list ⟨clusterVersion.types[5], List.getElem_mem _, rfl⟩
    ⟨clusterVersion.types[3], List.getElem_mem _, rfl⟩

/-- C83 is false: a list of lists, or of maps, is written and read with functions that nobody
declares. -/
theorem c83_list_of_lists_refuted :
    let inner : TypeShape := .list ⟨parseUsingCase t!"StringList", []⟩
      (.builtin ⟨parseUsingCase t!"String", []⟩)
    let outer : TypeShape := .list ⟨parseUsingCase t!"StringListList", []⟩ inner
    let v : VersionView := { types := [⟨.builtin ⟨parseUsingCase t!"String", []⟩, []⟩, ⟨inner, []⟩,
      ⟨outer, []⟩, ⟨.struct ⟨parseUsingCase t!"Foo", []⟩ false,
        [{ label := ⟨parseUsingCase t!"Rows", []⟩, typ := outer }]⟩] }
    (none, t!"ReadStringListList") ∈ attributeUses ⟨⟨parseUsingCase t!"Rows", []⟩, outer, false, none⟩ ∧
    t!"ReadStringListList" ∉ declared v := by decide

/-- C83: the names of the package that the client of a resource uses. -/
theorem c83_client_uses (v : VersionView) (r : Resource) (n : Text) : n ∈ clientUses v r ↔
    (r.name.toText = t!"root" ∧ n = t!"MetadataRequest") ∨
    (∃ l ∈ r.locators, ∃ target, v.target l = some target ∧
      (n = clientBase target ++ t!"Client" ∨ n = t!"New" ++ clientBase target ++ t!"Client")) ∨
    ∃ m ∈ r.methods,
      n = clientBase r ++ Go.nameOf m.annotations m.name ++ t!"Request" ∨
      n = clientBase r ++ Go.nameOf m.annotations m.name ++ t!"Response" ∨
      (Binding.requestBodyParameters m ≠ [] ∧ n = t!"write" ++ functionBase r m ++ t!"Request") ∨
      (Binding.responseParameters m ≠ [] ∧ n = t!"read" ++ functionBase r m ++ t!"Response") := by
  unfold clientUses
  simp only [List.mem_append, List.mem_flatMap, or_assoc]
  refine or_congr ?_ (or_congr ?_ ?_)
  · by_cases h : r.name.toText = t!"root"
    · rw [if_pos ((isRoot_iff r).mpr h)]; simp [h]
    · rw [if_neg (fun h' => h ((isRoot_iff r).mp h'))]; simp [h]
  · refine exists_congr fun l => and_congr_right fun _ => ?_
    cases v.target l with
    | none => simp
    | some target => simp [client_eq]
  · refine exists_congr fun m => and_congr_right fun _ => ?_
    rw [message_eq, message_eq, writeRequest_eq, readResponse_eq]
    simp only [List.mem_cons, List.not_mem_nil, or_false, or_assoc]
    refine or_congr Iff.rfl (or_congr Iff.rfl (or_congr ?_ ?_))
    · by_cases h : Binding.requestBodyParameters m = [] <;> simp [h]
    · by_cases h : Binding.responseParameters m = [] <;> simp [h]

/-- C83: if the locators lead to resources of the version then the names that the client of a resource
uses are declared. -/
theorem c83_client_declared (v : VersionView)
    (ht : ∀ r ∈ v.resources, ∀ l ∈ r.locators, ∀ target, v.target l = some target →
      target ∈ v.resources) (r : Resource) (hr : r ∈ v.resources) :
    ∀ n ∈ clientUses v r, n ∈ declared v := by
  intro n hn
  rw [c83_client_uses] at hn
  have hclient : ∀ r ∈ v.resources, clientBase r ++ t!"Client" ∈ declared v ∧
      t!"New" ++ clientBase r ++ t!"Client" ∈ declared v := fun r hr =>
    ⟨mem_declared (v := v) (r := ⟨[], v.resources.map clientBase, t!"Client"⟩)
      (by simp only [table]; simp) (List.mem_map.mpr ⟨r, hr, rfl⟩),
     mem_declared (v := v) (r := ⟨t!"New", v.resources.map clientBase, t!"Client"⟩)
      (by simp only [table]; simp) (List.mem_map.mpr ⟨r, hr, rfl⟩)⟩
  rcases hn with ⟨_, rfl⟩ | ⟨l, hl, target, hlt, h⟩ | ⟨m, hm, h⟩
  · exact mem_declared (v := v)
      (r := ⟨[], t!"Metadata" :: (methodMessages v ++ pollMessages v), t!"Request"⟩)
      (by simp only [table]; simp) (List.mem_cons_self ..)
  · rcases h with rfl | rfl
    · exact (hclient target (ht r hr l hl target hlt)).1
    · exact (hclient target (ht r hr l hl target hlt)).2
  · have hmsg : clientBase r ++ Go.nameOf m.annotations m.name ∈ methodMessages v :=
      List.mem_flatMap.mpr ⟨r, hr, List.mem_map.mpr ⟨m, hm, rfl⟩⟩
    have hfun : functionBase r m ∈ methodFunctions v :=
      List.mem_flatMap.mpr ⟨r, hr, List.mem_map.mpr ⟨m, hm, rfl⟩⟩
    rcases h with rfl | rfl | ⟨_, rfl⟩ | ⟨_, rfl⟩
    · exact mem_declared (v := v)
        (r := ⟨[], t!"Metadata" :: (methodMessages v ++ pollMessages v), t!"Request"⟩)
        (by simp only [table]; simp) (List.mem_cons_of_mem _ (List.mem_append_left _ hmsg))
    · exact mem_declared (v := v)
        (r := ⟨[], t!"Metadata" :: (methodMessages v ++ pollMessages v), t!"Response"⟩)
        (by simp only [table]; simp) (List.mem_cons_of_mem _ (List.mem_append_left _ hmsg))
    · exact mem_declared (v := v) (r := ⟨t!"write", methodFunctions v, t!"Request"⟩)
        (by simp only [table]; simp) hfun
    · exact mem_declared (v := v) (r := ⟨t!"read", methodFunctions v, t!"Response"⟩)
        (by simp only [table]; simp) hfun

example : ∀ r ∈ clusterVersion.resources, ∀ l ∈ r.locators, ∀ target,
    clusterVersion.target l = some target → target ∈ clusterVersion.resources := by
  have : ∀ r ∈ clusterVersion.resources, ∀ l ∈ r.locators,
      ∀ target ∈ clusterVersion.target l, target ∈ clusterVersion.resources := by decide
  exact this
example : clientUses clusterVersion (clusterVersion.resources.head (by decide)) =
    [t!"MetadataRequest", t!"ClustersClient", t!"NewClustersClient"] := by decide

end Verif.Decls
