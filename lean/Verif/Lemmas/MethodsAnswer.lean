import Verif.Lemmas.MethodsRead

/-!
# Lemmas about running the function that reads the response of a method
-/

namespace Verif.MethodsRun

open GoJson (Val Schema Shape DateParser Received readResponse unmarshalBody readCases setField Case bodyCase)
open GoProgram hiding given
open TypesCode (dot)
open BuildersRun (Program Code resolve isObject)
open JsonCode (Entity Functions formOf functionsOf)
open JsonRun (Library ListCode Whole Flat Settles Receives world apply_eq)
open MethodsCode (Context fieldOf kindOf bodyOf itemsOf lastThat messageOf responseOf pageList pageFields pageOf)

variable {P : Program} {zero : Text → Text → Value Val} {Dt : DateParser} {limit : Nat} {S : Schema}
  {U : TypeId → Code} {J : TypeId → Entity} {L : TypeId → ListCode}

theorem not_scalar {pkg : Text} {ty : TypeId} {fs : Functions} (h : Calls S U J L pkg ty fs) :
    (S ty).isScalar = false := by
  rcases h with ⟨h, -⟩ | ⟨n, e, h, -⟩
  · obtain ⟨c, n, as, hS⟩ := object_struct h
    rw [hS]
    rfl
  · rw [h]
    rfl

theorem answers_whole (hw : Whole P zero S U J L) (hflat : Flat S) {x : Context} {msg : MethodsCode.Message}
    {p : Parameter} {m : Method} {pkg : Text} {fuel a : Nat} {rd : Value Val} {s : State Val Library}
    {fields : Parameter → Val} {r : List Tok}
    (hm : msg.response = .whole (Go.privateName p.name) (functionsOf (x.typeOf p.typ.id)).unmarshal)
    (hc : Calls S U J L pkg p.typ.id (functionsOf (x.typeOf p.typ.id))) (hp : p ∈ obtained m)
    (hd : ∀ p ∈ obtained m, ∀ q ∈ obtained m, Go.privateName p.name = Go.privateName q.name → p = q)
    (hR : ResponseAt S U s m fields a) (hsrc : s.user.source = some r) (hf : r.length < fuel)
    (hlim : r.length < limit) :
    ∃ o, Settles (fun n => unmarshalBody Dt S n p fields r) o ∧
      Answers S U s m a ((responseFunc msg).call (world P zero Dt limit (fuel + 1) pkg) .nil [.pointer a, rd] s) o := by
  have hread : ∃ o, Settles (fun n => GoJson.unmarshal Dt S n p.typ.id r) o ∧
      ∀ vars, Receives S U { s with vars := vars } p.typ.id ((world P zero Dt limit (fuel + 1) pkg).apply
        (functionsOf (x.typeOf p.typ.id)).unmarshal [rd] { s with vars := vars }) o := by
    rcases hc with ⟨h, -, h1⟩ | ⟨n, e, h, -, h1⟩
    · obtain ⟨c, n, as, hS⟩ := object_struct h
      obtain ⟨o, ho, -⟩ := JsonRun.c97_unmarshal (Dt := Dt) hw hflat hS hsrc rd hf hlim
      refine ⟨o, ho, fun vars => ?_⟩
      obtain ⟨o', ho', hr⟩ := JsonRun.c97_unmarshal (Dt := Dt) (s := { s with vars := vars }) hw hflat hS hsrc rd hf hlim
      cases ho.unique ho'
      rw [apply_resolve h1 ((hw.objects _ _ _ _ hS).simple _ (by simp))]
      exact hr
    · obtain ⟨o, ho, -⟩ := JsonRun.c97_unmarshal_list (Dt := Dt) hw hflat h hsrc rd hf hlim
      refine ⟨o, ho, fun vars => ?_⟩
      obtain ⟨o', ho', hr⟩ := JsonRun.c97_unmarshal_list (Dt := Dt) (s := { s with vars := vars }) hw hflat h hsrc rd hf
        hlim
      cases ho.unique ho'
      rw [apply_resolve h1 ((hw.lists _ _ _ h).simple _ (by simp))]
      exact hr
  obtain ⟨o, ho, hr⟩ := hread
  have hans := call_whole_read hm hp (not_scalar hc) hd hR hr
  by_cases hh : GoJson.hasMarshal S p.typ.id = true
  · refine ⟨_, (ho.map fun o => match o with
        | some v => Received.fields (setField fields p v)
        | none => .error).congr fun n => ?_, by cases o <;> exact hans⟩
    rw [unmarshalBody, if_pos hh]
    cases GoJson.unmarshal Dt S n p.typ.id r <;> rfl
  · refine ⟨.doesNotCompile, (Settles.const _).congr fun n => ?_, trivial⟩
    rw [unmarshalBody, if_neg hh]

/-- A case of the code. -/
def caseOf (x : Context) (p : Parameter) : Case × List Stmt :=
  (bodyCase p, (fieldOf x p).form.read t!"value" ++
    [.assign (dot t!"response" (fieldOf x p).field)
      (if (fieldOf x p).scalar then .ref t!"value" else .var t!"value")])

theorem caseOf_read (x : Context) (ps : List Parameter) :
    (ps.map (fieldOf x)).map MethodsCode.Field.read = (ps.map (caseOf x)).map fun c => .case c.1.tag c.2 := by
  rw [List.map_map, List.map_map]
  rfl

theorem answers_page (hw : Whole P zero S U J L) (hflat : Flat S) {x : Context} {r : Resource} {m : Method} {pkg : Text}
    (hl : Linked P S U J L x r m pkg) {known : List Name} {k a : Nat} {rd : Value Val} {s : State Val Library}
    {fields : Parameter → Val} {ts : List Tok}
    (hmem : members m = pageFields m known ++ (itemsOf m).toList)
    (hobt : obtained m = pageFields m known ++ (itemsOf m).toList)
    (hresp : ∀ p, itemsOf m = some p → (messageOf x r m).response = pageOf x m known p)
    (hR : ResponseAt S U s m fields a) (hsrc : s.user.source = some ts) (hk : ts.length ≤ k)
    (hlim : ts.length < limit) :
    ∃ o, Settles (fun n => pageResponse Dt S n m known fields ts) o ∧
      Answers S U s m a
        ((responseFunc (messageOf x r m)).call (world P zero Dt limit k pkg) .nil [.pointer a, rd] s) o := by
  unfold pageResponse
  cases hi : itemsOf m with
  | none => exact ⟨.doesNotCompile, Settles.const _, trivial⟩
  | some p =>
    rw [hi] at hmem hobt
    dsimp only
    have hname : Go.privateName p.name = t!"items" := by
      have := List.find?_some hi
      rw [eq_of_beq this]
      decide +kernel
    by_cases hS : ∃ n e, S p.typ.id = .list n e
    · obtain ⟨n, e, hS⟩ := hS
      have hlist := hl.items p n e hi hS
      have hpm : p ∈ members m := by rw [hmem]; simp
      have hpo : p ∈ obtained m := by rw [hobt]; simp
      obtain ⟨o, h1, h2⟩ := call_cases (P := P) (zero := zero) (Dt := Dt) (limit := limit) (S := S) (U := U)
        (msg := messageOf x r m) (k := k) (a := a) (pkg := pkg) (m := m) (rd := rd) (s := s) (fields := fields) (r := ts)
        (cs := (pageFields m known).map (caseOf x) ++
          [({ tag := t!"items", param := p, wrap := !(S e).isScalar },
            (formOf x false none (x.typeOf p.typ.id)).read t!"items" ++ [putItems (pageList x (x.typeOf p.typ.id))])])
        (by
          rw [hresp p hi, pageOf, MethodsCode.Response.body, caseOf_read, List.map_append]
          rfl) hsrc hR hlim (by
          intro z s0 c hc
          rcases List.mem_append.mp hc with hc | hc
          · obtain ⟨q, hq, rfl⟩ := List.mem_map.mp hc
            have hqm : q ∈ members m := by rw [hmem]; simp [hq]
            have hqo : q ∈ obtained m := by rw [hobt]; simp [hq]
            exact case_field hw hflat hqo ⟨hl.scalar q hqm, hl.anything q hqm, hl.forms q hqm⟩ hl.distinct
              (Nat.le_of_lt hlim) hk
          · cases List.mem_singleton.mp hc
            exact case_items hw hflat hpo hname hS (hl.forms p hpm) hlist hl.distinct (Nat.le_of_lt hlim) hk)
      refine ⟨o, h1.congr fun f => ?_, h2⟩
      rw [hS]
      dsimp only
      congr 1
      rw [List.map_append, List.map_map]
      rfl
    · refine ⟨.doesNotCompile, (Settles.const _).congr fun f => ?_, trivial⟩
      cases hp : S p.typ.id with
      | list n e => exact absurd ⟨n, e, hp⟩ hS
      | _ => rfl

theorem call_response {x : Context} {r : Resource} {m : Method} {pkg : Text} (hl : Linked P S U J L x r m pkg)
    (k : Nat) (args : List (Value Val)) (s : State Val Library) :
    JsonRun.call P zero Dt limit (k + 1) pkg (messageOf x r m).read args s =
      (responseFunc (messageOf x r m)).call (world P zero Dt limit k pkg) .nil args s := by
  have hmem : (messageOf x r m).readFunc ∈ P pkg := hl.declared { comment := [], decl := (messageOf x r m).readFunc }
    (by simp [MethodsCode.Message.items])
  exact apply_eq (zero := zero) (Dt := Dt) (limit := limit) k args s
    (BuildersRun.resolve_simple _ _ hl.read) hl.legal (f := responseFunc (messageOf x r m)) hmem rfl

theorem answers_response (hw : Whole P zero S U J L) (hflat : Flat S) {x : Context} {r : Resource} {m : Method}
    {pkg : Text} (hl : Linked P S U J L x r m pkg) {s : State Val Library} {fields : Parameter → Val} {a : Nat}
    (hR : ResponseAt S U s m fields a) {ts : List Tok} (hsrc : s.user.source = some ts) (rd : Value Val) {fuel : Nat}
    (hf : ts.length < fuel) (hlim : ts.length < limit) :
    ∃ o, Settles (fun n => readResponse Dt S n m fields ts) o ∧
      Answers S U s m a
        (JsonRun.call P zero Dt limit (fuel + 2) pkg (messageOf x r m).read [.pointer a, rd] s) o := by
  rw [call_response hl]
  simp only [response_eq]
  have hresp : (messageOf x r m).response = responseOf x m := rfl
  have hwhole : ∀ p, p ∈ obtained m → p ∈ wholes m →
      (messageOf x r m).response = .whole (Go.privateName p.name) (functionsOf (x.typeOf p.typ.id)).unmarshal →
      ∃ o, Settles (fun n => unmarshalBody Dt S n p fields ts) o ∧
        Answers S U s m a
          ((responseFunc (messageOf x r m)).call (world P zero Dt limit (fuel + 1) pkg) .nil [.pointer a, rd] s) o :=
    fun p h1 h2 h3 => answers_whole hw hflat h3 (hl.functions p h2) h1 hl.distinct hR hsrc hf hlim
  have hnone : (messageOf x r m).response = .nothing → ∃ o, Settles (fun _ : Nat => Received.fields fields) o ∧
      Answers S U s m a
        ((responseFunc (messageOf x r m)).call (world P zero Dt limit (fuel + 1) pkg) .nil [.pointer a, rd] s) o :=
    fun h => ⟨_, Settles.const _, call_nothing_read h hR⟩
  cases hk : kindOf m with
  | add =>
    cases hb : bodyOf m with
    | none => exact ⟨.doesNotCompile, Settles.const _, trivial⟩
    | some p =>
      refine hwhole p (by simp [obtained, hk, hb]) (by simp [wholes, hk, hb]) ?_
      rw [hresp, responseOf, hk, hb]
      rfl
  | get =>
    cases hb : bodyOf m with
    | none => exact ⟨.doesNotCompile, Settles.const _, trivial⟩
    | some p =>
      refine hwhole p (by simp [obtained, hk, hb]) (by simp [wholes, hk, hb]) ?_
      rw [hresp, responseOf, hk, hb]
      rfl
  | update =>
    cases hb : bodyOf m with
    | none => exact ⟨.doesNotCompile, Settles.const _, trivial⟩
    | some p =>
      refine hwhole p (by simp [obtained, hk, hb]) (by simp [wholes, hk, hb]) ?_
      rw [hresp, responseOf, hk, hb]
      rfl
  | delete => exact hnone (by rw [hresp, responseOf, hk])
  | post =>
    cases hb : lastThat m (·.isOut) with
    | none => exact hnone (by rw [hresp, responseOf, hk, hb]; rfl)
    | some p =>
      refine hwhole p (by simp [obtained, hk, hb]) (by simp [wholes, hk, hb]) ?_
      rw [hresp, responseOf, hk, hb]
      rfl
  | list =>
    exact answers_page hw hflat hl (by simp only [members, hk]) (by simp only [obtained, hk])
      (fun p hp => by rw [hresp, responseOf, hk]; dsimp only; rw [hp]) hR hsrc (by omega) hlim
  | search =>
    exact answers_page hw hflat hl (by simp only [members, hk]) (by simp only [obtained, hk])
      (fun p hp => by rw [hresp, responseOf, hk]; dsimp only; rw [hp]) hR hsrc (by omega) hlim
  | action =>
    have ho : obtained m = m.parameters.filter (·.isOut) := by simp only [obtained, hk]
    cases hb : m.parameters.filter (·.isOut) with
    | nil => exact hnone (by rw [hresp, responseOf, hk]; dsimp only; rw [hb]; rfl)
    | cons p ps =>
      obtain ⟨o, h1, h2⟩ := call_cases (P := P) (zero := zero) (Dt := Dt) (limit := limit) (S := S) (U := U)
        (msg := messageOf x r m) (k := fuel + 1) (a := a) (pkg := pkg) (m := m) (rd := rd) (s := s) (fields := fields)
        (r := ts) (cs := (p :: ps).map (caseOf x))
        (by
          rw [hresp, responseOf, hk]
          dsimp only
          rw [hb, MethodsCode.responseFields, MethodsCode.Response.body, caseOf_read]
          · rintro ⟨⟩) hsrc hR hlim (by
          intro z s0 c hc
          obtain ⟨q, hq, rfl⟩ := List.mem_map.mp hc
          rw [← hb] at hq
          have hqo : q ∈ obtained m := by rw [ho]; exact hq
          have hqm : q ∈ members m := by
            simp only [members, hk, List.mem_filter, Bool.or_eq_true] at hq ⊢
            exact ⟨hq.1, .inr hq.2⟩
          exact case_field hw hflat hqo ⟨hl.scalar q hqm, hl.anything q hqm, hl.forms q hqm⟩ hl.distinct
            (Nat.le_of_lt hlim) (by omega))
      refine ⟨o, h1.congr fun f => ?_, h2⟩
      dsimp only
      rw [List.map_map]
      rfl

theorem no_source_whole (hw : Whole P zero S U J L) {x : Context} {msg : MethodsCode.Message}
    {p : Parameter} {m : Method} {pkg : Text} {k a : Nat} {rd : Value Val} {s : State Val Library}
    {fields : Parameter → Val}
    (hm : msg.response = .whole (Go.privateName p.name) (functionsOf (x.typeOf p.typ.id)).unmarshal)
    (hc : Calls S U J L pkg p.typ.id (functionsOf (x.typeOf p.typ.id))) (hp : p ∈ obtained m)
    (hd : ∀ p ∈ obtained m, ∀ q ∈ obtained m, Go.privateName p.name = Go.privateName q.name → p = q)
    (hR : ResponseAt S U s m fields a) (hsrc : s.user.source = none) :
    Answers S U s m a ((responseFunc msg).call (world P zero Dt limit (k + 1) pkg) .nil [.pointer a, rd] s) .error := by
  refine call_whole_read (o := none) hm hp (not_scalar hc) hd hR fun vars => ?_
  have := JsonRun.c97_source (Dt := Dt) (limit := limit) (s := { s with vars := vars }) hw hsrc rd k
  rcases hc with ⟨h, -, h1⟩ | ⟨n, e, h, -, h1⟩
  · obtain ⟨c, n, as, hS⟩ := object_struct h
    rw [apply_resolve h1 ((hw.objects _ _ _ _ hS).simple _ (by simp))]
    exact this.1 _ _ _ _ hS
  · rw [apply_resolve h1 ((hw.lists _ _ _ h).simple _ (by simp))]
    exact this.2 _ _ _ h

theorem no_source_response (hw : Whole P zero S U J L) {x : Context} {r : Resource} {m : Method}
    {pkg : Text} (hl : Linked P S U J L x r m pkg) {s : State Val Library} {fields : Parameter → Val} {a : Nat}
    (hR : ResponseAt S U s m fields a) (hsrc : s.user.source = none) (rd : Value Val) (fuel : Nat)
    (hc : MethodsCode.Complete m) (ho : obtained m ≠ []) :
    Answers S U s m a
      (JsonRun.call P zero Dt limit (fuel + 2) pkg (messageOf x r m).read [.pointer a, rd] s) .error := by
  rw [call_response hl]
  have hresp : (messageOf x r m).response = responseOf x m := rfl
  have hwhole : ∀ p, p ∈ obtained m → p ∈ wholes m →
      (messageOf x r m).response = .whole (Go.privateName p.name) (functionsOf (x.typeOf p.typ.id)).unmarshal →
      Answers S U s m a
        ((responseFunc (messageOf x r m)).call (world P zero Dt limit (fuel + 1) pkg) .nil [.pointer a, rd] s) .error :=
    fun p h1 h2 h3 => no_source_whole hw h3 (hl.functions p h2) h1 hl.distinct hR hsrc
  rw [MethodsCode.Complete] at hc
  cases hk : kindOf m with
  | add =>
    rw [hk] at hc
    obtain ⟨p, hb⟩ := Option.ne_none_iff_exists'.mp hc
    refine hwhole p (by simp [obtained, hk, hb]) (by simp [wholes, hk, hb]) ?_
    rw [hresp, responseOf, hk, hb]
    rfl
  | get =>
    rw [hk] at hc
    obtain ⟨p, hb⟩ := Option.ne_none_iff_exists'.mp hc
    refine hwhole p (by simp [obtained, hk, hb]) (by simp [wholes, hk, hb]) ?_
    rw [hresp, responseOf, hk, hb]
    rfl
  | update =>
    rw [hk] at hc
    obtain ⟨p, hb⟩ := Option.ne_none_iff_exists'.mp hc
    refine hwhole p (by simp [obtained, hk, hb]) (by simp [wholes, hk, hb]) ?_
    rw [hresp, responseOf, hk, hb]
    rfl
  | delete => exact absurd (by simp only [obtained, hk]) ho
  | post =>
    cases hb : lastThat m (·.isOut) with
    | none => exact absurd (by simp [obtained, hk, hb]) ho
    | some p =>
      refine hwhole p (by simp [obtained, hk, hb]) (by simp [wholes, hk, hb]) ?_
      rw [hresp, responseOf, hk, hb]
      rfl
  | list =>
    rw [hk] at hc
    obtain ⟨p, hb⟩ := Option.ne_none_iff_exists'.mp hc
    refine call_no_source (cases := ?c1) ?_ hsrc
    rotate_left
    rw [hresp, responseOf, hk]
    dsimp only
    rw [hb]
    rfl
  | search =>
    rw [hk] at hc
    obtain ⟨p, hb⟩ := Option.ne_none_iff_exists'.mp hc
    refine call_no_source (cases := ?c2) ?_ hsrc
    rotate_left
    rw [hresp, responseOf, hk]
    dsimp only
    rw [hb]
    rfl
  | action =>
    cases hb : m.parameters.filter (·.isOut) with
    | nil => exact absurd (by simp only [obtained, hk]; exact hb) ho
    | cons p ps =>
      refine call_no_source (cases := ?c3) ?_ hsrc
      rotate_left
      rw [hresp, responseOf, hk]
      dsimp only
      rw [hb]
      rfl

end Verif.MethodsRun
