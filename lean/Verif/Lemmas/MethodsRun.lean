import Verif.Lemmas.MethodsWrite
import Verif.Props.JsonRun

/-!
# Lemmas about the requests and responses of the model
-/

namespace Verif.MethodsRun

open GoJson (Val Schema Shape DateParser Written Received writeVal writeParameters writeRequest readResponse marshalBody
  unmarshalBody readCases pageCases bodyCase)
open GoProgram
open TypesRun (Legal value)
open BuildersRun (Program Code resolve isObject Holds)
open JsonCode (Entity Functions formOf functionsOf)
open JsonRun (Library ListCode Fits Sends Whole Wrote world apply_eq)
open MethodsCode (Context fieldOf kindOf bodyOf itemsOf lastThat messageOf requestOf equals_eq lastWhere_eq body_eq
  action_kind)
open GoBuilder (typed)

variable {P : Program} {zero : Text → Text → Value Val} {Dt : DateParser} {limit : Nat} {S : Schema}
  {U : TypeId → Code} {J : TypeId → Entity} {L : TypeId → ListCode}

theorem request_eq (S : Schema) (m : Method) (fields : Parameter → Val) :
    writeRequest S m fields = match kindOf m with
      | .add | .update => match bodyOf m with
        | none => .doesNotCompile
        | some p => marshalBody S p.typ.id (fields p)
      | .delete | .get | .list => .nothing
      | .post => match lastThat m (·.isIn) with
        | none => .nothing
        | some p => marshalBody S p.typ.id (fields p)
      | .search => match lastThat m (·.name == Nom.body) with
        | none => .nothing
        | some p => marshalBody S p.typ.id (fields p)
      | .action => match m.parameters.filter (·.isIn) with
        | [] => .nothing
        | ps => match writeParameters S fields 0 ps with
          | none => .panic
          | some ts => .body (.objectStart :: (ts ++ [.objectEnd])) := by
  have hb : ∀ n : Name, m.named n = true ↔ m.name = n := by
    intro n
    rw [Method.named, equals_eq, beq_iff_eq]
  rw [writeRequest, body_eq, lastWhere_eq, lastWhere_eq]
  simp only [equals_eq]
  simp only [Method.isAdd, Method.isDelete, Method.isAsyncDelete, Method.isGet, Method.isList,
    Method.isPost, Method.isSearch, Method.isUpdate, Method.isAsyncUpdate, Bool.or_eq_true, hb]
  have hact : kindOf m = .action → GoJson.writeActionRequest S m fields = match m.parameters.filter (·.isIn) with
        | [] => .nothing
        | ps => match writeParameters S fields 0 ps with
          | none => .panic
          | some ts => .body (.objectStart :: (ts ++ [.objectEnd])) := by
    intro hk
    have : Binding.requestBodyParameters m = m.parameters.filter (·.isIn) := by
      rw [Binding.requestBodyParameters, if_pos ((action_kind m).mpr hk)]
    rw [GoJson.writeActionRequest, this]
    cases m.parameters.filter (·.isIn) <;> rfl
  unfold kindOf at hact ⊢
  by_cases h1 : m.name = Nom.add
  · simp only [if_pos h1]
    cases bodyOf m <;> rfl
  by_cases h2 : m.name = Nom.delete ∨ m.name = Nom.asyncDelete
  · simp only [if_neg h1, if_pos h2]
  by_cases h3 : m.name = Nom.get
  · simp only [if_neg h1, if_neg h2, if_pos h3]
  by_cases h4 : m.name = Nom.list
  · simp only [if_neg h1, if_neg h2, if_neg h3, if_pos h4]
  by_cases h5 : m.name = Nom.post
  · simp only [if_neg h1, if_neg h2, if_neg h3, if_neg h4, if_pos h5]
    cases hp : lastThat m (·.isIn) <;> rw [lastThat] at hp <;> rw [hp]
  by_cases h6 : m.name = Nom.search
  · simp only [if_neg h1, if_neg h2, if_neg h3, if_neg h4, if_neg h5, if_pos h6]
    cases hp : lastThat m (·.name == Nom.body) <;> rw [lastThat] at hp <;> rw [hp]
  by_cases h7 : m.name = Nom.update ∨ m.name = Nom.asyncUpdate
  · simp only [if_neg h1, if_neg h2, if_neg h3, if_neg h4, if_neg h5, if_neg h6, if_pos h7]
    cases bodyOf m <;> rfl
  · simp only [if_neg h1, if_neg h2, if_neg h3, if_neg h4, if_neg h5, if_neg h6, if_neg h7] at hact ⊢
    exact hact trivial

/-- The parameters of a response that is a page, and the parameter of the items. -/
def pageResponse (Dt : DateParser) (S : Schema) (fuel : Nat) (m : Method) (known : List Name) (fields : Parameter → Val)
    (source : List Tok) : Received :=
  match itemsOf m with
  | none => .doesNotCompile
  | some p => match S p.typ.id with
    | .list _ e => readCases Dt S fuel ((MethodsCode.pageFields m known).map bodyCase ++
        [{ tag := t!"items", param := p, wrap := !(S e).isScalar }]) fields source
    | _ => .doesNotCompile

theorem page_eq (Dt : DateParser) (S : Schema) (fuel : Nat) (m : Method) (known : List Name) (fields : Parameter → Val)
    (source : List Tok) : (match pageCases S m known with
      | none => .doesNotCompile
      | some cases => readCases Dt S fuel cases fields source) = pageResponse Dt S fuel m known fields source := by
  rw [pageCases, pageResponse, MethodsCode.lastNamed_eq, MethodsCode.lastNamed_eq, MethodsCode.lastNamed_eq,
    MethodsCode.lastNamed_eq, MethodsCode.others_eq, MethodsCode.pageFields, List.filter_filter]
  change _ = match lastThat m _ with
    | none => _
    | some p => _
  cases lastThat m (·.name == Nom.items) with
  | none => rfl
  | some p =>
    dsimp only
    cases S p.typ.id <;> try rfl
    dsimp only
    congr 1
    simp only [List.map_append, Bool.and_comm]

theorem response_eq (Dt : DateParser) (S : Schema) (fuel : Nat) (m : Method) (fields : Parameter → Val)
    (source : List Tok) : readResponse Dt S fuel m fields source = match kindOf m with
      | .add | .get | .update => match bodyOf m with
        | none => .doesNotCompile
        | some p => unmarshalBody Dt S fuel p fields source
      | .delete => .fields fields
      | .list => pageResponse Dt S fuel m [Nom.page, Nom.size, Nom.total, Nom.items] fields source
      | .search => pageResponse Dt S fuel m [Nom.page, Nom.size, Nom.total, Nom.body, Nom.items] fields source
      | .post => match lastThat m (·.isOut) with
        | none => .fields fields
        | some p => unmarshalBody Dt S fuel p fields source
      | .action => match m.parameters.filter (·.isOut) with
        | [] => .fields fields
        | ps => readCases Dt S fuel (ps.map bodyCase) fields source := by
  have hb : ∀ n : Name, m.named n = true ↔ m.name = n := by
    intro n
    rw [Method.named, equals_eq, beq_iff_eq]
  rw [readResponse, body_eq, lastWhere_eq]
  simp only [Method.isAdd, Method.isDelete, Method.isAsyncDelete, Method.isGet, Method.isList,
    Method.isPost, Method.isSearch, Method.isUpdate, Method.isAsyncUpdate, Bool.or_eq_true, hb]
  unfold kindOf
  by_cases h1 : m.name = Nom.add
  · simp only [if_pos h1]
    cases bodyOf m <;> rfl
  by_cases h2 : m.name = Nom.delete ∨ m.name = Nom.asyncDelete
  · simp only [if_neg h1, if_pos h2]
  by_cases h3 : m.name = Nom.get
  · simp only [if_neg h1, if_neg h2, if_pos h3]
    cases bodyOf m <;> rfl
  by_cases h4 : m.name = Nom.list
  · simp only [if_neg h1, if_neg h2, if_neg h3, if_pos h4]
    rw [← page_eq]
    cases pageCases S m [Nom.page, Nom.size, Nom.total, Nom.items] <;> rfl
  by_cases h5 : m.name = Nom.post
  · simp only [if_neg h1, if_neg h2, if_neg h3, if_neg h4, if_pos h5]
    cases hp : lastThat m (·.isOut) <;> rw [lastThat] at hp <;> rw [hp]
  by_cases h6 : m.name = Nom.search
  · simp only [if_neg h1, if_neg h2, if_neg h3, if_neg h4, if_neg h5, if_pos h6]
    rw [← page_eq]
    cases pageCases S m [Nom.page, Nom.size, Nom.total, Nom.body, Nom.items] <;> rfl
  by_cases h7 : m.name = Nom.update ∨ m.name = Nom.asyncUpdate
  · simp only [if_neg h1, if_neg h2, if_neg h3, if_neg h4, if_neg h5, if_neg h6, if_pos h7]
    cases bodyOf m <;> rfl
  · simp only [if_neg h1, if_neg h2, if_neg h3, if_neg h4, if_neg h5, if_neg h6, if_neg h7]
    rw [Binding.responseParameters]
    cases m.parameters.filter (·.isOut) <;> rfl

/-! ## Requests -/

theorem object_struct {ty : TypeId} (h : isObject (S ty) = true) : ∃ c n as, S ty = .struct c n as := by
  cases hS : S ty with
  | struct c n as => exact ⟨c, n, as, rfl⟩
  | _ => rw [hS] at h; cases h

theorem submits_whole (hw : Whole P zero S U J L) {x : Context} {msg : MethodsCode.Message} {p : Parameter} {pkg : Text}
    {fuel a : Nat} {D : Value Val → Prop} {fs : List (Text × Value Val)} {w y : Value Val} {s : State Val Library}
    {v : Val} (hm : msg.request = .whole (Go.privateName p.name) (functionsOf (x.typeOf p.typ.id)).marshal)
    (hc : Calls S U J L pkg p.typ.id (functionsOf (x.typeOf p.typ.id))) (hs : s.structs[a]? = some fs)
    (hy : fs.lookup (Go.privateName p.name) = some y) (hg : Given S U D s p.typ.id v y) (hf : sizeOf v ≤ fuel) :
    Submits s ((requestFunc msg).call (world P zero Dt limit (fuel + 1) pkg) .nil [.pointer a, w] s)
      (marshalBody S p.typ.id v) := by
  have hsends : Sends s ((requestFunc msg).call (world P zero Dt limit (fuel + 1) pkg) .nil [.pointer a, w] s)
      (writeVal S p.typ.id false v) := by
    refine call_whole hm hs hy fun vars => ?_
    have hne : ¬ S p.typ.id = .interface ∧ ¬ (S p.typ.id).isScalar = true := by
      rcases hc with ⟨h, -⟩ | ⟨n, e, h, -⟩
      · obtain ⟨c, n, as, hS⟩ := object_struct h
        rw [hS]
        simp [GoJson.Shape.isScalar]
      · rw [h]
        simp [GoJson.Shape.isScalar]
    have hh : typed S p.typ.id false v = true ∧ Holds S U D { s with vars := vars } p.typ.id v y := by
      rcases hg with ⟨rfl, rfl⟩ | ⟨-, h1, h2⟩
      · rcases hc with ⟨h, -⟩ | ⟨n, e, h, -⟩
        · obtain ⟨c, n, as, hS⟩ := object_struct h
          exact ⟨by simp [typed, hS], by simp [Holds, value]⟩
        · exact ⟨by simp [typed, h], by simp [Holds, value]⟩
      · rw [if_neg hne.1, if_neg hne.2] at h2
        exact ⟨h1, Holds.move (s := s) (t := { s with vars := vars })
          ⟨fun _ h _ => h, fun _ _ _ h => h, fun _ _ _ h => h, fun _ _ _ h => h⟩ _ _ _ h2⟩
    rcases hc with ⟨h, h1, -⟩ | ⟨n, e, h, h1, -⟩
    · obtain ⟨c, n, as, hS⟩ := object_struct h
      rw [apply_resolve h1 ((hw.objects _ _ _ _ hS).simple _ (by simp))]
      exact JsonRun.c96_marshal hw hS hh.1 hh.2 w hf
    · rw [apply_resolve h1 ((hw.lists _ _ _ h).simple _ (by simp))]
      exact JsonRun.c96_marshal_list hw h hh.1 hh.2 w hf
  rw [marshalBody]
  split
  · rw [GoJson.marshal]
    cases hv : writeVal S p.typ.id false v with
    | none =>
      rw [hv] at hsends
      exact hsends
    | some ts =>
      rw [hv] at hsends
      exact hsends
  · trivial

theorem write_member_of {m : Method} (hk : kindOf m = .action) : ∀ p ∈ written m, p ∈ members m := by
  intro p hp
  simp only [written, members, hk, List.mem_filter, Bool.or_eq_true] at hp ⊢
  exact ⟨hp.1, .inl hp.2⟩

theorem submits_request (hw : Whole P zero S U J L) {x : Context} {r : Resource} {m : Method} {pkg : Text}
    (hl : Linked P S U J L x r m pkg) {s : State Val Library} {D : Value Val → Prop} {fields : Parameter → Val}
    {request : Value Val} (hr : RequestAt S U D s m fields request) (w : Value Val) {fuel : Nat}
    (hf : ∀ p ∈ written m, sizeOf (fields p) ≤ fuel) :
    Submits s (JsonRun.call P zero Dt limit (fuel + 2) pkg (messageOf x r m).write [request, w] s)
      (writeRequest S m fields) := by
  obtain ⟨a, fs, rfl, hs, hfs⟩ := hr
  have hmem : (messageOf x r m).writeFunc ∈ P pkg := hl.declared { comment := [], decl := (messageOf x r m).writeFunc }
    (by simp [MethodsCode.Message.items])
  have hcall := apply_eq (zero := zero) (Dt := Dt) (limit := limit) (fuel + 1) [.pointer a, w] s
    (BuildersRun.resolve_simple _ _ hl.write) hl.legal (f := requestFunc (messageOf x r m)) hmem rfl
  rw [JsonRun.call]
  change Submits s ((world P zero Dt limit (fuel + 1 + 1) pkg).apply (requestFunc (messageOf x r m)).name _ _) _
  rw [hcall, request_eq]
  have hreq : (messageOf x r m).request = requestOf x m := rfl
  have hwhole : ∀ p, p ∈ written m → p ∈ wholes m →
      (messageOf x r m).request = .whole (Go.privateName p.name) (functionsOf (x.typeOf p.typ.id)).marshal →
      Submits s ((requestFunc (messageOf x r m)).call (world P zero Dt limit (fuel + 1) pkg) .nil [.pointer a, w] s)
        (marshalBody S p.typ.id (fields p)) := by
    intro p h1 h2 h3
    obtain ⟨y, hy, hg⟩ := hfs p h1
    exact submits_whole hw h3 (hl.functions p h2) hs hy hg (hf p h1)
  cases hk : kindOf m with
  | add =>
    cases hb : bodyOf m with
    | none => trivial
    | some p =>
      refine hwhole p (by simp [written, hk, hb]) (by simp [wholes, hk, hb]) ?_
      rw [hreq, requestOf, hk, hb]
      rfl
  | update =>
    cases hb : bodyOf m with
    | none => trivial
    | some p =>
      refine hwhole p (by simp [written, hk, hb]) (by simp [wholes, hk, hb]) ?_
      rw [hreq, requestOf, hk, hb]
      rfl
  | delete => exact call_nothing (by rw [hreq, requestOf, hk])
  | get => exact call_nothing (by rw [hreq, requestOf, hk])
  | list => exact call_nothing (by rw [hreq, requestOf, hk])
  | post =>
    cases hb : lastThat m (·.isIn) with
    | none => exact call_nothing (by rw [hreq, requestOf, hk, hb]; rfl)
    | some p =>
      refine hwhole p (by simp [written, hk, hb]) (by simp [wholes, hk, hb]) ?_
      rw [hreq, requestOf, hk, hb]
      rfl
  | search =>
    cases hb : lastThat m (·.name == Nom.body) with
    | none => exact call_nothing (by rw [hreq, requestOf, hk, hb]; rfl)
    | some p =>
      refine hwhole p (by simp [written, hk, hb]) (by simp [wholes, hk, hb]) ?_
      rw [hreq, requestOf, hk, hb]
      rfl
  | action =>
    dsimp only
    have hp : written m = m.parameters.filter (·.isIn) := by simp only [written, hk]
    cases hb : m.parameters.filter (·.isIn) with
    | nil => exact call_nothing (by rw [hreq, requestOf, hk]; dsimp only; rw [hb]; rfl)
    | cons p ps =>
      have hsend := call_fields (Dt := Dt) (limit := limit) (x := x) (pkg := pkg) (fuel := fuel + 1) (w := w)
        (D := D) (fields := fields) (ps := p :: ps) (msg := messageOf x r m) (s := s) (a := a) (fs := fs) hw
        (by rw [hreq, requestOf, hk]; dsimp only; rw [hb]; rfl) hs (by
          intro q hq
          rw [← hb, ← hp] at hq
          have hmm := write_member_of hk q hq
          exact ⟨hfs q hq, ⟨hl.scalar q hmm, hl.anything q hmm, hl.forms q hmm⟩, Nat.le_succ_of_le (hf q hq)⟩)
      dsimp only
      cases ho : writeParameters S fields 0 (p :: ps) with
      | none =>
        rw [ho] at hsend
        exact hsend
      | some ts =>
        rw [ho] at hsend
        exact hsend

end Verif.MethodsRun
