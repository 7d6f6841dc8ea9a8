import Verif.Lemmas.OpenApiBuffer

/-!
# The OpenAPI buffer (C53)

C53: for every properly nested sequence of calls, of any length and depth, the buffer writes exactly
the document that the calls describe: with one comma between consecutive members or items and none
elsewhere. What calls describe is `Describes`, in the specification.
-/

namespace Verif

open OpenApi

/-- C53. The calls don't panic, the tokens are the ones of the document, and the buffer is back at
the level where it started. -/
theorem c53_buffer (calls : List Call) (doc : Json) (h : Describes calls doc) (errors : Nat) :
    ∃ b, ({ errors := errors } : Buffer).run calls = some b ∧ b.out = doc.tokens ∧
      b.stack.length = 1 := by
  have hstart : Agree ({ errors := errors } : Buffer) [.array none []] := by
    refine ⟨trivial, rfl, ?_, rfl⟩
    intro l f h1 h2
    simp only [List.head?_cons, Option.some.injEq] at h1 h2
    subst h1 h2
    simp [Frame.size]
  obtain ⟨b, hb, ha⟩ := run_agree calls hstart h
  refine ⟨b, hb, ?_, ha.length⟩
  rw [ha.out]
  simp [frameTokens, itemTokens, Json.itemsTail]

/-- C53 for the calls made inside an object that already has members: whatever was written before, the
new members are added after it, separated by commas. -/
theorem c53_members (calls : List Call) (before ms : List (Text × Json)) (errors : Nat)
    (h : outline [.object none before, .array none []] calls
      = some [.object none (before ++ ms), .array none []]) :
    ∃ b, ({ errors := errors } : Buffer).run
        ([.startObject none] ++ before.map (fun m => .field m.1 m.2) ++ calls ++ [.endObject])
      = some b ∧ b.out = (Json.obj (before ++ ms)).tokens := by
  have hd : Describes ([.startObject none] ++ before.map (fun m => .field m.1 m.2) ++ calls ++
      [.endObject]) (.obj (before ++ ms)) := by
    have hf : ∀ (xs ys : List (Text × Json)),
        outline [.object none ys, .array none []] (xs.map fun m => .field m.1 m.2)
          = some [.object none (ys ++ xs), .array none []] := by
      intro xs
      induction xs with
      | nil => intro ys; simp [outline]
      | cons x xs ih =>
        intro ys
        simp only [List.map_cons, outline, outlineStep, place, ih]
        simp
    unfold Describes
    rw [outline_append, outline_append, outline_append]
    simp only [outline, outlineStep, accepts, Option.isNone_none, if_true, Option.bind_some, hf,
      List.nil_append, h, place]
  obtain ⟨b, hb, ho, _⟩ := c53_buffer _ _ hd errors
  exact ⟨b, hb, ho⟩

/-- Nothing is written to the file if any error was reported, before or during the calls; otherwise
what is written is the document. -/
theorem c53_write (calls : List Call) (doc : Json) (h : Describes calls doc) (errors : Nat) :
    ∃ b, ({ errors := errors } : Buffer).run calls = some b ∧
      (b.write = some doc.tokens ∨ b.write = none) ∧
      (b.write = none ↔ 0 < errors ∨ ∃ before after, calls = before ++ .report :: after) := by
  obtain ⟨b, hb, ho, _⟩ := c53_buffer calls doc h errors
  have he := run_errors calls hb
  have hr : 0 < reports calls ↔ ∃ before after, calls = before ++ .report :: after := by
    unfold reports
    rw [List.length_pos_iff_exists_mem]
    constructor
    · rintro ⟨c, hc⟩
      rw [List.mem_filter] at hc
      cases c <;> simp at hc
      exact List.append_of_mem hc
    · rintro ⟨before, after, rfl⟩
      exact ⟨.report, by simp⟩
  refine ⟨b, hb, ?_, ?_⟩
  · unfold Buffer.write
    by_cases hz : b.errors > 0
    · exact Or.inr (if_pos hz)
    · exact Or.inl (by rw [if_neg hz, ho])
  · unfold Buffer.write
    simp only at he
    rw [← hr]
    by_cases hz : b.errors > 0
    · simp only [hz, if_true, true_iff]; omega
    · simp only [hz, if_false, reduceCtorEq, false_iff]; omega

/-- Ending more objects or arrays than those that were started makes the buffer panic. -/
theorem c53_unbalanced (b : Buffer) (h : b.stack.length = 1) :
    b.exec .endObject = none ∧ b.exec .endArray = none := by
  match hs : b.stack, h with
  | [l], _ => simp [Buffer.exec, Buffer.endObject, Buffer.endArray, hs]

/-! A case that meets the hypotheses, with objects inside arrays inside objects. -/

example : Describes
    [ .startObject none, .field t!"a" (.bool true), .startArray (some t!"b"), .item (.str t!"x"),
      .startObject none, .endObject, .endArray, .startObject (some t!"c"),
      .field t!"d" .null, .endObject, .endObject ]
    (.obj [(t!"a", .bool true), (t!"b", .arr [.str t!"x", .obj []]),
      (t!"c", .obj [(t!"d", .null)])]) := rfl

end Verif
