import Verif.Lemmas.JsonReadWhole
import Verif.Props.JsonRun

/-!
# C97: running the generated code that reads JSON

The state of a Go program when one of the generated functions that read the values of a type is called, and what is in
the memory when it returns. The documents are lists of tokens.
-/

namespace Verif.JsonRun

open GoJson (Val Schema Shape AttrShape DateParser readVal writeVal unmarshal Normal Proper)
open GoProgram hiding given
open TypesRun (Legal value)
open BuildersRun (Program Code resolve isObject Holds Valid)
open JsonCode (Form Entity Listing Functions Member)
open GoBuilder (typed)

variable {P : Program} {zero : Text → Text → Value Val} {Dt : DateParser} {limit : Nat} {S : Schema}
  {U : TypeId → Code} {J : TypeId → Entity} {L : TypeId → ListCode}

/-! ## Reading from an iterator -/

/-- The function that reads an object from an iterator returns what the model says, in new positions of the memory,
and puts an error in the iterator when it says so. It never panics. -/
theorem c97_read (hw : Whole P zero S U J L) (hflat : Flat S) {ty : TypeId} {c : Bool} {n : Text} {as : List AttrShape}
    (hS : S ty = .struct c n as) {s : State Val Library} (hb : s.user.failed = false) (iterator : Value Val) {fuel : Nat}
    (hf : s.user.input.length < fuel) (hl : s.user.input.length < limit) :
    ∃ o, Settles (fun f => readVal Dt S f ty false s.user.input) o ∧
      Obtains S U s ty (call P zero Dt limit fuel (U ty).pkg (J ty).functions.read [iterator] s) o := by
  obtain ⟨k, rfl⟩ : ∃ k, fuel = k + 1 := ⟨fuel - 1, by omega⟩
  obtain ⟨o, h1, h2⟩ := read_object (h := iterator) (Dt := Dt) (limit := limit) (k := k)
    (N := s.user.input.length) hw (fun M hM => form_reads hw hflat M (by omega)) (by omega) hl (Nat.le_refl _) hS false
    (BuildersRun.resolve_simple _ _ ((hw.objects ty _ _ _ hS).simple _ (by simp)))
  simp only [Says, hb] at h1
  exact ⟨o, h1.1, h2.1⟩

/-- The function that reads a list from an iterator returns what the model says, in new positions of the memory,
and puts an error in the iterator when it says so. It never panics. -/
theorem c97_read_list (hw : Whole P zero S U J L) (hflat : Flat S) {ty e : TypeId} {n : Text} (hS : S ty = .list n e)
    {s : State Val Library} (hb : s.user.failed = false) (iterator : Value Val) {fuel : Nat}
    (hf : s.user.input.length < fuel) (hl : s.user.input.length < limit) :
    ∃ o, Settles (fun f => readVal Dt S f ty false s.user.input) o ∧
      Obtains S U s ty (call P zero Dt limit fuel (L ty).pkg (L ty).listing.functions.read [iterator] s) o := by
  obtain ⟨k, rfl⟩ : ∃ k, fuel = k + 1 := ⟨fuel - 1, by omega⟩
  obtain ⟨o, h1, h2⟩ := read_list (h := iterator) (Dt := Dt) (limit := limit) (k := k)
    (N := s.user.input.length) hw (fun M hM => form_reads hw hflat M (by omega)) hflat (by omega) hl (Nat.le_refl _) hS
    (BuildersRun.resolve_simple _ _ ((hw.lists ty _ _ hS).simple _ (by simp)))
  simp only [Says, hb] at h1
  exact ⟨o, h1.1, h2.1⟩

/-- If the iterator already has an error then it still has it. -/
theorem c97_read_error (hw : Whole P zero S U J L) (hflat : Flat S) {ty : TypeId} {c : Bool} {n : Text}
    {as : List AttrShape} (hS : S ty = .struct c n as) {s : State Val Library} (hb : s.user.failed = true)
    (iterator : Value Val) {fuel : Nat} (hf : s.user.input.length < fuel) (hl : s.user.input.length < limit) :
    Obtains S U s ty (call P zero Dt limit fuel (U ty).pkg (J ty).functions.read [iterator] s) none := by
  obtain ⟨k, rfl⟩ : ∃ k, fuel = k + 1 := ⟨fuel - 1, by omega⟩
  obtain ⟨o, h1, h2⟩ := read_object (h := iterator) (Dt := Dt) (limit := limit) (k := k)
    (N := s.user.input.length) hw (fun M hM => form_reads hw hflat M (by omega)) (by omega) hl (Nat.le_refl _) hS false
    (BuildersRun.resolve_simple _ _ ((hw.objects ty _ _ _ hS).simple _ (by simp)))
  simp only [Says, hb, if_true] at h1
  rw [h1] at h2
  exact h2.1

/-! ## Reading from a source -/

/-- The function that reads an object from a source returns what the model says, in new positions of the memory, and
no error, or an error when the model says so. -/
theorem c97_unmarshal (hw : Whole P zero S U J L) (hflat : Flat S) {ty : TypeId} {c : Bool} {n : Text}
    {as : List AttrShape} (hS : S ty = .struct c n as) {s : State Val Library} {r : List Tok}
    (hsrc : s.user.source = some r) (source : Value Val) {fuel : Nat} (hf : r.length < fuel) (hl : r.length < limit) :
    ∃ o, Settles (fun f => unmarshal Dt S f ty r) o ∧
      Receives S U s ty (call P zero Dt limit (fuel + 1) (U ty).pkg (J ty).functions.unmarshal [source] s) o := by
  have hj := hw.objects ty _ _ _ hS
  have hl' := hw.base.linked ty _ _ _ hS
  have hmem : JsonCode.unmarshalFunc (J ty).functions t!"object" (t!"*" ++ (J ty).object) ∈ P (U ty).pkg :=
    hj.declared _ (List.getElem_mem (n := 2) (by simp [Entity.items]))
  have hread : ∀ s' : State Val Library, s'.user = { s.user with input := r, failed := false } →
      ∃ o, Settles (fun f => readVal Dt S f ty false r) o ∧
        Obtains S U s' ty ((world P zero Dt limit fuel (U ty).pkg).apply (J ty).functions.read [.other .nil] s') o := by
    intro s' hu
    have := c97_read (Dt := Dt) (limit := limit) (fuel := fuel) (s := s') hw hflat hS (by rw [hu]) (.other .nil)
      (by rw [hu]; exact hf) (by rw [hu]; exact hl)
    rw [show s'.user.input = r by rw [hu]] at this
    exact this
  obtain ⟨o, ho, -⟩ := hread { s with user := { s.user with input := r, failed := false } } rfl
  refine ⟨o.map Prod.fst, ho.map _, ?_⟩
  rw [call, apply_eq fuel [source] s (BuildersRun.resolve_simple _ _ (hj.simple _ (by simp))) hl'.legal hmem rfl]
  refine call_unmarshal (fs := (J ty).functions) (x := t!"object") (by simp) rfl hsrc fun s' _ _ _ hu => ?_
  obtain ⟨o', ho', h⟩ := hread s' hu
  rw [ho.unique ho']
  exact h

/-- The function that reads a list from a source returns what the model says, in new positions of the memory, and
no error, or an error when the model says so. -/
theorem c97_unmarshal_list (hw : Whole P zero S U J L) (hflat : Flat S) {ty e : TypeId} {n : Text}
    (hS : S ty = .list n e) {s : State Val Library} {r : List Tok}
    (hsrc : s.user.source = some r) (source : Value Val) {fuel : Nat} (hf : r.length < fuel) (hl : r.length < limit) :
    ∃ o, Settles (fun f => unmarshal Dt S f ty r) o ∧
      Receives S U s ty (call P zero Dt limit (fuel + 1) (L ty).pkg (L ty).listing.functions.unmarshal [source] s) o := by
  have hj := hw.lists ty _ _ hS
  have hmem : JsonCode.unmarshalFunc (L ty).listing.functions t!"items" (L ty).listing.typ ∈ P (L ty).pkg :=
    hj.declared _ (List.getElem_mem (n := 2) (by simp [Listing.items]))
  have hread : ∀ s' : State Val Library, s'.user = { s.user with input := r, failed := false } →
      ∃ o, Settles (fun f => readVal Dt S f ty false r) o ∧
        Obtains S U s' ty
          ((world P zero Dt limit fuel (L ty).pkg).apply (L ty).listing.functions.read [.other .nil] s') o := by
    intro s' hu
    have := c97_read_list (Dt := Dt) (limit := limit) (fuel := fuel) (s := s') hw hflat hS (by rw [hu]) (.other .nil)
      (by rw [hu]; exact hf) (by rw [hu]; exact hl)
    rw [show s'.user.input = r by rw [hu]] at this
    exact this
  obtain ⟨o, ho, -⟩ := hread { s with user := { s.user with input := r, failed := false } } rfl
  refine ⟨o.map Prod.fst, ho.map _, ?_⟩
  rw [call, apply_eq fuel [source] s (BuildersRun.resolve_simple _ _ (hj.simple _ (by simp))) hj.legal hmem rfl]
  refine call_unmarshal (fs := (L ty).listing.functions) (x := t!"items") (by simp) rfl hsrc fun s' _ _ _ hu => ?_
  obtain ⟨o', ho', h⟩ := hread s' hu
  rw [ho.unique ho']
  exact h

/-- If no iterator can be created for the source then the functions return an error. -/
theorem c97_source (hw : Whole P zero S U J L) {s : State Val Library} (hsrc : s.user.source = none)
    (source : Value Val) (fuel : Nat) :
    (∀ ty c n as, S ty = .struct c n as → Receives S U s ty
      (call P zero Dt limit (fuel + 1) (U ty).pkg (J ty).functions.unmarshal [source] s) none) ∧
    ∀ ty n e, S ty = .list n e → Receives S U s ty
      (call P zero Dt limit (fuel + 1) (L ty).pkg (L ty).listing.functions.unmarshal [source] s) none := by
  refine ⟨fun ty c n as hS => ?_, fun ty n e hS => ?_⟩
  · have hj := hw.objects ty _ _ _ hS
    have hl' := hw.base.linked ty _ _ _ hS
    have hmem : JsonCode.unmarshalFunc (J ty).functions t!"object" (t!"*" ++ (J ty).object) ∈ P (U ty).pkg :=
      hj.declared _ (List.getElem_mem (n := 2) (by simp [Entity.items]))
    rw [call, apply_eq fuel [source] s (BuildersRun.resolve_simple _ _ (hj.simple _ (by simp))) hl'.legal hmem rfl]
    exact call_unmarshal_none (fs := (J ty).functions) (x := t!"object") (by simp) rfl hsrc
  · have hj := hw.lists ty _ _ hS
    have hmem : JsonCode.unmarshalFunc (L ty).listing.functions t!"items" (L ty).listing.typ ∈ P (L ty).pkg :=
      hj.declared _ (List.getElem_mem (n := 2) (by simp [Listing.items]))
    rw [call, apply_eq fuel [source] s (BuildersRun.resolve_simple _ _ (hj.simple _ (by simp))) hj.legal hmem rfl]
    exact call_unmarshal_none (fs := (L ty).listing.functions) (x := t!"items") (by simp) rfl hsrc

/-! ## Writing and reading -/

/-- What a program writes can be read by any other run of the program, and the result is the same value. -/
theorem c97_round_trip (hw : Whole P zero S U J L) (hflat : Flat S) (hp : Proper S) {ty : TypeId} {c : Bool} {n : Text}
    {as : List AttrShape} (hS : S ty = .struct c n as) {v : Val} (ht : typed S ty false v = true)
    (hn : Normal Dt S ty false v) {s : State Val Library} {x : Value Val} {D : Value Val → Prop}
    (hh : Holds S U D s ty v x) (writer : Value Val) {fuel : Nat} (hf : sizeOf v ≤ fuel) (hb : s.user.broken = false) :
    ∃ t ts, call P zero Dt limit (fuel + 1) (U ty).pkg (J ty).functions.marshal [x, writer] s = .ok ([.nil], t) ∧
      t.user.sent = s.user.sent ++ ts ∧
      ∀ (s' : State Val Library) (source : Value Val) (fuel' : Nat), s'.user.source = some ts → ts.length < fuel' →
        ts.length < limit →
        ∃ t' y, call P zero Dt limit (fuel' + 1) (U ty).pkg (J ty).functions.unmarshal [source] s' =
            .ok ([y, .nil], t') ∧ Grows s' t' ∧ Holds S U (fun l => ¬ Valid s' l) t' ty v y := by
  obtain ⟨ts, h1, h2⟩ := c38_marshal Dt S hp ty v hn
  have h1' : writeVal S ty false v = some ts := h1
  have h3 := c96_marshal (Dt := Dt) (limit := limit) hw hS ht hh writer hf
  rw [h1'] at h3
  obtain ⟨A, h3⟩ := h3
  refine ⟨_, ts, by rw [h3, hb]; rfl, by simp, fun s' source fuel' hsrc hlt hll => ?_⟩
  obtain ⟨o, ho, hr⟩ := c97_unmarshal (Dt := Dt) hw hflat hS hsrc source hlt hll
  have : Settles (fun f => unmarshal Dt S f ty ts) (some v) := ⟨2 * ts.length, h2⟩
  rw [ho.unique this] at hr
  obtain ⟨t', y, h4, -, h5, -, -, h6⟩ := hr
  exact ⟨t', y, h4, h5, h6⟩

/-! ## A program -/

open BuildersRun (exampleTypes exampleCode exampleZeros)

theorem example_flat : Flat exampleTypes := by
  intro ty e f he
  have : e = 5 ∨ e = 6 := by
    match e, he with
    | 5, _ => exact .inl rfl
    | 6, _ => exact .inr rfl
    | 0, h => nomatch h
    | 1, h => nomatch h
    | 2, h => nomatch h
    | 3, h => nomatch h
    | 4, h => nomatch h
    | _ + 7, h => nomatch h
  have hd : ∀ ty ≤ 6, (∀ e', exampleTypes ty = .map e' → e' ≠ 5 ∧ e' ≠ 6) ∧
      ∀ n e', exampleTypes ty = .list n e' → e' ≠ 5 ∧ e' ≠ 6 := by
    intro ty hty
    match ty, hty with
    | 0, _ => exact ⟨(fun _ h => nomatch h), (fun _ _ h => nomatch h)⟩
    | 1, _ => exact ⟨(fun _ h => nomatch h), (fun _ _ h => nomatch h)⟩
    | 2, _ => exact ⟨(fun _ h => nomatch h), (fun _ _ h => nomatch h)⟩
    | 3, _ => exact ⟨(fun _ h => nomatch h), fun _ _ h => by cases h; decide⟩
    | 4, _ => exact ⟨(fun _ h => nomatch h), fun _ _ h => by cases h; decide⟩
    | 5, _ => exact ⟨fun _ h => by cases h; decide, fun _ _ h => nomatch h⟩
    | 6, _ => exact ⟨fun _ h => by cases h; decide, fun _ _ h => nomatch h⟩
  by_cases hty : ty ≤ 6
  · rcases this with rfl | rfl
    · exact ⟨fun h => ((hd ty hty).1 _ h).1 rfl, fun n h => ((hd ty hty).2 n _ h).1 rfl⟩
    · exact ⟨fun h => ((hd ty hty).1 _ h).2 rfl, fun n h => ((hd ty hty).2 n _ h).2 rfl⟩
  · match ty, hty with
    | _ + 7, _ => exact ⟨(fun h => nomatch h), (fun _ h => nomatch h)⟩
    | 0, h => exact absurd (by decide) h
    | 1, h => exact absurd (by decide) h
    | 2, h => exact absurd (by decide) h
    | 3, h => exact absurd (by decide) h
    | 4, h => exact absurd (by decide) h
    | 5, h => exact absurd (by decide) h
    | 6, h => exact absurd (by decide) h

/-- The hypotheses can be met: the document of the previous example is read, and the result is the cluster. -/
example : ∃ t y, call exampleProgram exampleZeros (fun _ => none) 100 101 t!"v1" t!"UnmarshalCluster" [.other .nil]
      { exampleState with user := { source := some exampleDocument } } = .ok ([y, .nil], t) ∧
    Grows exampleState t ∧
    Holds exampleTypes exampleCode (fun l => ¬ Valid exampleState l) t 0
      (.obj 0b101011010 t!"123" [] [.str t!"my", .obj 1 [] [] [.bool true], .nil,
        .linkList false [] (.list [.obj 9 [] [] [.str t!"x", .nil, .nil, .nil, .nil, .nil, .nil]]), .nil,
        .map [(t!"a", .str t!"1"), (t!"b", .str t!"2")], .nil]) y := by
  obtain ⟨o, ho, hr⟩ := c97_unmarshal (Dt := fun _ => none) (limit := 100) (fuel := 100) example_whole example_flat
    (ty := 0) rfl (s := { exampleState with user := { source := some exampleDocument } }) rfl (.other .nil)
    (by decide) (by decide)
  have : Settles (fun f => unmarshal (fun _ => none) exampleTypes f 0 exampleDocument) (some (
      .obj 0b101011010 t!"123" [] [.str t!"my", .obj 1 [] [] [.bool true], .nil,
        .linkList false [] (.list [.obj 9 [] [] [.str t!"x", .nil, .nil, .nil, .nil, .nil, .nil]]), .nil,
        .map [(t!"a", .str t!"1"), (t!"b", .str t!"2")], .nil])) := by
    refine ⟨20, fun f hf => ?_⟩
    obtain ⟨g, rfl⟩ := Nat.exists_eq_add_of_le' hf
    rfl
  rw [ho.unique this] at hr
  obtain ⟨t, y, h1, -, h2, -, -, h3⟩ := hr
  exact ⟨t, y, h1, ⟨h2.structs, h2.arrays, h2.maps⟩, h3⟩

/-- A document where the name isn't a text: the function returns an error. -/
example : ∃ t y, call exampleProgram exampleZeros (fun _ => none) 100 101 t!"v1" t!"UnmarshalCluster" [.other .nil]
      { exampleState with user := { source := some [.objectStart, .str t!"name", .colon, .bool true, .objectEnd] } } =
        .ok ([y, .error []], t) ∧ Grows exampleState t := by
  obtain ⟨o, ho, hr⟩ := c97_unmarshal (Dt := fun _ => none) (limit := 100) (fuel := 100) example_whole example_flat
    (ty := 0) rfl
    (s := { exampleState with user := { source := some [.objectStart, .str t!"name", .colon, .bool true, .objectEnd] } })
    rfl (.other .nil) (by decide) (by decide)
  have : Settles (fun f => unmarshal (fun _ => none) exampleTypes f 0
      [.objectStart, .str t!"name", .colon, .bool true, .objectEnd]) none := by
    refine ⟨5, fun f hf => ?_⟩
    obtain ⟨g, rfl⟩ := Nat.exists_eq_add_of_le' hf
    rfl
  rw [ho.unique this] at hr
  obtain ⟨t, y, h1, -, h2, -, -⟩ := hr
  exact ⟨t, y, h1, ⟨h2.structs, h2.arrays, h2.maps⟩⟩

theorem example_proper : Proper exampleTypes := by
  intro ty c n as h
  match ty, h with
  | 0, h =>
    cases h
    exact ⟨by decide, by decide, by decide, by decide, by decide⟩
  | 2, h =>
    cases h
    exact ⟨by decide, by decide, by decide, by decide, by decide⟩
  | 1, h => nomatch h
  | 3, h => nomatch h
  | 4, h => nomatch h
  | 5, h => nomatch h
  | 6, h => nomatch h
  | _ + 7, h => nomatch h

/-- The value that is read in the example can be written and read again: it meets the other hypotheses of the theorem
about writing and reading. -/
example : typed exampleTypes 0 false (.obj 0b101011010 t!"123" [] [.str t!"my", .obj 1 [] [] [.bool true], .nil,
      .linkList false [] (.list [.obj 9 [] [] [.str t!"x", .nil, .nil, .nil, .nil, .nil, .nil]]), .nil,
      .map [(t!"a", .str t!"1"), (t!"b", .str t!"2")], .nil]) = true ∧
    Normal (fun _ => none) exampleTypes 0 false
      (.obj 0b101011010 t!"123" [] [.str t!"my", .obj 1 [] [] [.bool true], .nil,
        .linkList false [] (.list [.obj 9 [] [] [.str t!"x", .nil, .nil, .nil, .nil, .nil, .nil]]), .nil,
        .map [(t!"a", .str t!"1"), (t!"b", .str t!"2")], .nil]) := by
  have hbits : ∀ (m : Nat) (p : Nat → Prop), m < 2 ^ 9 → (∀ b < 9, m.testBit b = true → p b) →
      ∀ b, m.testBit b = true → p b := by
    intro m p hm h b hb
    by_cases hlt : b < 9
    · exact h b hlt hb
    · rw [Nat.testBit_lt_two_pow (Nat.lt_of_lt_of_le hm (Nat.pow_le_pow_right (by decide) (by omega)))] at hb
      cases hb
  refine ⟨by decide +kernel, ?_⟩
  rw [Normal]
  refine ⟨_, _, _, rfl, .inl (by decide), .inr rfl, hbits _ _ (by decide) (by decide), ?_⟩
  refine ⟨?_, ?_, ?_, ?_, ?_, ?_, ?_, trivial⟩
  · exact .inl rfl
  · change Normal _ _ 2 false (.obj 1 [] [] [.bool true])
    rw [Normal]
    refine ⟨_, _, _, rfl, .inr rfl, .inr rfl, hbits _ _ (by decide) (by decide), ?_, trivial⟩
    exact rfl
  · exact rfl
  · change Normal _ _ 4 true (.linkList false [] (.list [.obj 9 [] [] [.str t!"x", .nil, .nil, .nil, .nil, .nil, .nil]]))
    rw [Normal]
    refine ⟨_, _, rfl, rfl, rfl, rfl, ?_⟩
    rw [Normal]
    refine ⟨_, _, rfl, rfl, ?_, trivial⟩
    rw [Normal]
    refine ⟨_, _, _, rfl, .inr rfl, .inr rfl, hbits _ _ (by decide) (by decide), ?_⟩
    exact ⟨.inl rfl, rfl, rfl, rfl, rfl, rfl, rfl, trivial⟩
  · exact rfl
  · change Normal _ _ 5 false (.map [(t!"a", .str t!"1"), (t!"b", .str t!"2")])
    rw [Normal]
    refine ⟨_, rfl, by decide, ?_⟩
    exact ⟨by decide, .inl rfl, by decide, .inl rfl, trivial⟩
  · exact rfl

end Verif.JsonRun
