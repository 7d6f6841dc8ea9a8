import Verif.Lemmas.Digits
import Verif.Lemmas.Names
import Verif.Lemmas.Char
import Verif.Model.GoBuffer

/-!
# Properties C30 to C34 and C64: presence bits and texts of the generated Go code
-/

namespace Verif

/-! ## C30 and C31 -/

theorem maskLoop_range' (attr : Nat) : ∀ (n start index : Nat), start ≤ attr → attr < start + n →
    Bitmap.maskLoop attr index (List.range' start n) = index + (attr - start)
  | 0, start, index, h1, h2 => by omega
  | n + 1, start, index, h1, h2 => by
    rw [List.range'_succ]
    unfold Bitmap.maskLoop
    by_cases h : start = attr
    · simp [h]
    · rw [if_neg h, maskLoop_range' attr n (start + 1) (index + 1) (by omega) (by omega)]
      omega

/-- The position of the bit: three are reserved in classes. -/
def reservedBits (t : TypeCell) : Nat := if t.kind = .class then 3 else 0

theorem bitIndex_eq (t : TypeCell) (i : Nat) (h : i < t.attributes.length) :
    Bitmap.bitIndex t i = reservedBits t + i := by
  unfold Bitmap.bitIndex
  rw [List.range_eq_range', maskLoop_range' i _ 0 _ (by omega) (by omega)]
  unfold reservedBits TypeCell.isClass
  cases t.kind <;> simp

theorem width_some (t : TypeCell) (w : Nat) :
    Bitmap.width t = some w ↔
      (t.kind = .class ∨ t.kind = .struct) ∧ reservedBits t + t.attributes.length ≤ 64 ∧
      w = (if reservedBits t + t.attributes.length ≤ 32 then 32 else 64) := by
  unfold Bitmap.width Bitmap.size reservedBits TypeCell.isClass Kind.isStruct
  cases hk : t.kind <;> simp
  all_goals
    constructor
    · rintro ⟨h1, h2⟩
      refine ⟨by omega, ?_⟩
      first | done | (rw [← h2]; first | done | simp [Nat.add_comm])
    · rintro ⟨h1, h2⟩
      refine ⟨by omega, ?_⟩
      first | done | (rw [h2]; first | done | simp [Nat.add_comm])

/-- A type is reported exactly if its attributes don't fit in 64 bits (or it isn't a struct or
class); otherwise the bitmap has 32 bits if they are enough and 64 if not. -/
theorem c31_bitmap_type_iff (t : TypeCell) (w : Nat) :
    Bitmap.width t = some w ↔
      (t.kind = .class ∨ t.kind = .struct) ∧ reservedBits t + t.attributes.length ≤ 64 ∧
      w = (if reservedBits t + t.attributes.length ≤ 32 then 32 else 64) := width_some t w

/-- In every type that isn't reported the mask of an attribute has exactly one bit, the one of its
position after the reserved ones. -/
theorem c30_single_bit (t : TypeCell) (w : Nat) (hw : Bitmap.width t = some w)
    (i : Nat) (hi : i < t.attributes.length) :
    (Bitmap.mask t i).toNat = 2 ^ (reservedBits t + i) ∧
    ∀ k, (Bitmap.mask t i).getLsbD k = true ↔ k = reservedBits t + i := by
  have h := ((width_some t w).mp hw).2.1
  have e : Bitmap.mask t i = BitVec.twoPow 64 (reservedBits t + i) := by
    unfold Bitmap.mask
    rw [bitIndex_eq t i hi, BitVec.twoPow_eq]
  constructor
  · rw [e, BitVec.toNat_twoPow_of_lt (by omega)]
  · intro k
    rw [e, BitVec.getLsbD_twoPow]
    simp
    omega

/-- Masks of different attributes share no bit, and in classes none is shared with the masks 1, 2
and 4 of the link flag, identifier and link address. -/
theorem c30_distinct_bits (t : TypeCell) (w : Nat) (hw : Bitmap.width t = some w)
    (i : Nat) (hi : i < t.attributes.length) :
    Bitmap.mask t i ≠ 0#64 ∧
    (∀ j, j < t.attributes.length → j ≠ i → Bitmap.mask t i &&& Bitmap.mask t j = 0#64) ∧
    (t.kind = .class → Bitmap.mask t i &&& 7#64 = 0#64) := by
  have hs := c30_single_bit t w hw i hi
  have h := ((width_some t w).mp hw).2.1
  refine ⟨?_, ?_, ?_⟩
  · intro h0
    have := hs.1
    rw [h0] at this
    have : 0 < 2 ^ (reservedBits t + i) := Nat.two_pow_pos _
    simp_all
  · intro j hj hne
    have hj' := c30_single_bit t w hw j hj
    apply BitVec.eq_of_getLsbD_eq
    intro k _
    rw [BitVec.getLsbD_and]
    by_cases h1 : (Bitmap.mask t i).getLsbD k = true
    · by_cases h2 : (Bitmap.mask t j).getLsbD k = true
      · have := (hs.2 k).mp h1
        have := (hj'.2 k).mp h2
        omega
      · simp [h2]
    · simp [h1]
  · intro hc
    apply BitVec.eq_of_getLsbD_eq
    intro k _
    rw [BitVec.getLsbD_and]
    by_cases h1 : (Bitmap.mask t i).getLsbD k = true
    · have hk := (hs.2 k).mp h1
      have hr : reservedBits t = 3 := by simp [reservedBits, hc]
      have : (7#64).getLsbD k = false := by
        have h7 : (7#64).toNat < 2 ^ k := by
          have : 2 ^ 3 ≤ 2 ^ k := Nat.pow_le_pow_right (by decide) (by omega)
          simp
          omega
        exact Nat.testBit_lt_two_pow h7
      simp [this]
    · simp [h1]

/-- The literal written for the mask, when it isn't the one of bit 63, is that power of two and fits
in the bitmap. -/
theorem c31_mask_fits_partial (t : TypeCell) (w : Nat) (hw : Bitmap.width t = some w)
    (i : Nat) (hi : i < t.attributes.length) (h63 : reservedBits t + i ≠ 63) :
    integerLiteral (Bitmap.maskText t i) = some ((2 ^ (reservedBits t + i) : Nat) : Int) ∧
    2 ^ (reservedBits t + i) < 2 ^ w := by
  have hs := c30_single_bit t w hw i hi
  have h := (width_some t w).mp hw
  constructor
  · unfold Bitmap.maskText
    rw [integerLiteral_intText]
    congr 1
    rw [BitVec.toInt_eq_toNat_of_lt, hs.1]
    rw [hs.1]
    have : 2 ^ (reservedBits t + i + 1) ≤ 2 ^ 63 := Nat.pow_le_pow_right (by decide) (by omega)
    rw [Nat.pow_succ] at this
    omega
  · apply Nat.pow_lt_pow_right (by decide)
    rw [h.2.2]
    split <;> omega

/-- The property is false: the attribute that uses bit 63 gets a negative literal, in every type
that has one. -/
theorem c31_bit63_refuted (t : TypeCell) (w : Nat) (hw : Bitmap.width t = some w)
    (i : Nat) (hi : i < t.attributes.length) (h63 : reservedBits t + i = 63) :
    ∃ v : Int, integerLiteral (Bitmap.maskText t i) = some v ∧ v < 0 := by
  refine ⟨(Bitmap.mask t i).toInt, ?_, ?_⟩
  · unfold Bitmap.maskText
    rw [integerLiteral_intText]
  · have hs := (c30_single_bit t w hw i hi).1
    rw [BitVec.toInt_eq_toNat_cond, hs, h63]
    decide

/-- A struct with the given number of attributes. -/
def exStruct (kind : Kind) (n : Nat) : TypeCell :=
  { name := [], kind := kind, attributes := List.replicate n { name := [], typ := 0 } }

example : Bitmap.width (exStruct .struct 64) = some 64 ∧ 63 < (exStruct .struct 64).attributes.length ∧
    reservedBits (exStruct .struct 64) + 63 = 63 ∧ Bitmap.width (exStruct .class 61) = some 64 ∧
    Bitmap.width (exStruct .class 62) = none ∧ Bitmap.width (exStruct .class 29) = some 32 ∧
    Bitmap.maskText (exStruct .class 5) 1 = t!"16" := by decide

/-! ## C32 -/

/-- The lines of a comment are the lines of the documentation, each one preceded by the comment
mark. -/
theorem c32_line_comment (doc : Text) :
    splitOn '\n' (GoBuffer.lineComment doc) = (splitOn '\n' doc).map fun line => t!"// " ++ line := by
  unfold GoBuffer.lineComment
  apply splitOn_joinText
  · simpa using splitOn_ne_nil '\n' doc
  · intro t ht
    obtain ⟨line, hl, rfl⟩ := List.mem_map.mp ht
    have := splitOn_no_sep '\n' doc line hl
    simp [this]

/-- So every line, whatever the documentation, starts with the mark. -/
theorem c32_no_code (doc : Text) (line : Text) (h : line ∈ splitOn '\n' (GoBuffer.lineComment doc)) :
    ∃ rest, line = '/' :: '/' :: ' ' :: rest := by
  rw [c32_line_comment] at h
  obtain ⟨l, _, rfl⟩ := List.mem_map.mp h
  exact ⟨l, rfl⟩

example : GoBuffer.lineComment t!"One\n} func x() {" = t!"// One\n// } func x() {" := by decide

/-! ## C33 -/

/-- A line with nothing but white space. -/
def BlankLine (l : Text) : Prop := ∀ c ∈ l, isSpaceChar c = true

instance (l : Text) : Decidable (BlankLine l) := inferInstanceAs (Decidable (∀ c ∈ l, _))

theorem dropWhile_nil_iff (p : Char → Bool) : ∀ l : Text, l.dropWhile p = [] ↔ ∀ c ∈ l, p c = true
  | [] => by simp
  | c :: cs => by
    rw [List.dropWhile_cons]
    split
    · rename_i h
      rw [dropWhile_nil_iff p cs]
      simp [h]
    · rename_i h
      simp [h]

theorem trimSpace_nil_iff (l : Text) : trimSpace l = [] ↔ BlankLine l := by
  unfold trimSpace BlankLine
  rw [List.reverse_eq_nil_iff, dropWhile_nil_iff]
  constructor
  · intro h
    rw [← dropWhile_nil_iff]
    cases hd : l.dropWhile isSpaceChar with
    | nil => rfl
    | cons c cs =>
      exfalso
      have hc := h c (by simp [hd])
      have := List.head?_dropWhile_not isSpaceChar l
      rw [hd] at this
      simp [hc] at this
  · intro h c hc
    have := (dropWhile_nil_iff isSpaceChar l).mpr h
    rw [this] at hc
    simp at hc

theorem blankStep_fst (depth : Int) (curr next : Text) :
    (GoBuffer.blankStep depth curr next).1 = [curr] ∨
    (BlankLine curr ∧ (GoBuffer.blankStep depth curr next).1 = []) := by
  by_cases h : trimSpace curr = []
  · by_cases h2 : decide (depth > 0) && hasPrefix (trimSpace next) t!"//"
    · left
      unfold GoBuffer.blankStep
      simpa [h, hasSuffix] using h2
    · right
      refine ⟨(trimSpace_nil_iff curr).mp h, ?_⟩
      unfold GoBuffer.blankStep
      simpa [h, hasSuffix] using h2
  · left
    unfold GoBuffer.blankStep
    simp [h]

theorem blankLoop_sublist (depth : Int) (next : Text) (lines : List Text) :
    (GoBuffer.blankLoop depth next lines).Sublist ((next :: lines).dropLast) := by
  induction lines generalizing depth next with
  | nil => simp [GoBuffer.blankLoop]
  | cons line lines ih =>
    rw [List.dropLast_cons_of_ne_nil (by simp)]
    show ((GoBuffer.blankStep depth next line).1 ++
      GoBuffer.blankLoop (GoBuffer.blankStep depth next line).2 line lines).Sublist _
    rcases blankStep_fst depth next line with h | ⟨_, h⟩
    · rw [h]
      exact List.Sublist.cons_cons _ (ih _ _)
    · rw [h]
      exact List.Sublist.cons _ (ih _ _)

theorem blankLoop_nonblank (depth : Int) (next : Text) (lines : List Text) :
    (GoBuffer.blankLoop depth next lines).filter (fun l => decide (¬ BlankLine l)) =
      ((next :: lines).dropLast).filter (fun l => decide (¬ BlankLine l)) := by
  induction lines generalizing depth next with
  | nil => simp [GoBuffer.blankLoop]
  | cons line lines ih =>
    rw [List.dropLast_cons_of_ne_nil (by simp)]
    show ((GoBuffer.blankStep depth next line).1 ++
      GoBuffer.blankLoop (GoBuffer.blankStep depth next line).2 line lines).filter _ = _
    rw [List.filter_append, ih]
    rcases blankStep_fst depth next line with h | ⟨hb, h⟩
    · rw [h]
      simp only [List.filter_cons, List.filter_nil]
      split <;> rfl
    · rw [h]
      simp [hb]

theorem remove_eq (lines : List Text) :
    GoBuffer.removeExtraBlankLines lines =
      match lines with
      | [] => []
      | line :: rest => GoBuffer.blankLoop 0 line rest := by
  cases lines with
  | nil => rfl
  | cons line rest =>
    unfold GoBuffer.removeExtraBlankLines
    show (GoBuffer.blankStep 0 [] line).1 ++ GoBuffer.blankLoop (GoBuffer.blankStep 0 [] line).2 line
      rest = _
    have : GoBuffer.blankStep 0 [] line = ([], 0) := by
      unfold GoBuffer.blankStep
      simp [trimSpace, hasSuffix]
    rw [this]
    rfl

/-- Nothing is added nor reordered, and except for the last line only blank lines are removed. -/
theorem c33_only_blank_lines_partial (lines : List Text) :
    (GoBuffer.removeExtraBlankLines lines).Sublist lines.dropLast ∧
    (GoBuffer.removeExtraBlankLines lines).filter (fun l => decide (¬ BlankLine l)) =
      lines.dropLast.filter (fun l => decide (¬ BlankLine l)) := by
  rw [remove_eq]
  cases lines with
  | nil => simp
  | cons line rest => exact ⟨blankLoop_sublist _ _ _, blankLoop_nonblank _ _ _⟩

/-- The property is false: the last line is removed, whatever it contains. -/
theorem c33_last_line_refuted (lines : List Text) (last : Text) (h : ¬ BlankLine last) :
    (GoBuffer.removeExtraBlankLines (lines ++ [last])).filter (fun l => decide (¬ BlankLine l)) ≠
      (lines ++ [last]).filter (fun l => decide (¬ BlankLine l)) := by
  rw [(c33_only_blank_lines_partial _).2]
  rw [List.dropLast_concat]
  intro he
  have := congrArg List.length he
  simp [h] at this

/-- When the last line is blank, as it is in everything that the generators emit, only blank lines
are removed. -/
theorem c33_only_blank_lines (lines : List Text) (last : Text) (h : BlankLine last) :
    (GoBuffer.removeExtraBlankLines (lines ++ [last])).filter (fun l => decide (¬ BlankLine l)) =
      (lines ++ [last]).filter (fun l => decide (¬ BlankLine l)) := by
  rw [(c33_only_blank_lines_partial _).2, List.dropLast_concat]
  simp [h]

/-- A blank line is kept exactly before a comment inside of a block. The number of open blocks is
the number of previous lines that end with an opening brace minus the number of lines that are a
closing brace. -/
def openBlocks (lines : List Text) : Int :=
  ((lines.filter fun l => hasSuffix (trimSpace l) t!" {").length : Int) -
    (lines.filter fun l => trimSpace l = t!"}").length

theorem blankStep_snd (depth : Int) (curr next : Text) :
    (GoBuffer.blankStep depth curr next).2 = depth + openBlocks [curr] := by
  unfold GoBuffer.blankStep openBlocks
  dsimp only
  by_cases h1 : hasSuffix (trimSpace curr) t!" {" = true <;> by_cases h2 : trimSpace curr = t!"}"
  · rw [h2] at h1
    exact absurd h1 (by decide)
  · simp [h1, h2]
  · have e1 : ([curr].filter fun l => hasSuffix (trimSpace l) t!" {") = [] := by
      simp only [List.filter_cons, List.filter_nil, if_neg h1]
    have e2 : ([curr].filter fun l => decide (trimSpace l = t!"}")) = [curr] := by
      simp only [List.filter_cons, List.filter_nil, h2, decide_true, if_true]
    rw [e1, e2, if_neg h1, if_pos h2]
    simp
    omega
  · simp [h1, h2]

theorem openBlocks_append (a b : List Text) : openBlocks (a ++ b) = openBlocks a + openBlocks b := by
  unfold openBlocks
  simp only [List.filter_append, List.length_append]
  omega

theorem blankLoop_append (depth : Int) (next : Text) (before : List Text) (line : Text)
    (after : List Text) :
    GoBuffer.blankLoop depth next (before ++ line :: after) =
      GoBuffer.blankLoop depth next (before ++ [line]) ++
        GoBuffer.blankLoop (depth + openBlocks (next :: before)) line after := by
  induction before generalizing depth next with
  | nil =>
    show (GoBuffer.blankStep depth next line).1 ++ GoBuffer.blankLoop
        (GoBuffer.blankStep depth next line).2 line after =
      ((GoBuffer.blankStep depth next line).1 ++ []) ++ _
    rw [blankStep_snd]
    simp
  | cons b bs ih =>
    show (GoBuffer.blankStep depth next b).1 ++ GoBuffer.blankLoop
        (GoBuffer.blankStep depth next b).2 b (bs ++ line :: after) =
      ((GoBuffer.blankStep depth next b).1 ++ GoBuffer.blankLoop
        (GoBuffer.blankStep depth next b).2 b (bs ++ [line])) ++ _
    rw [ih, blankStep_snd, List.append_assoc]
    have : openBlocks (next :: b :: bs) = openBlocks [next] + openBlocks (b :: bs) :=
      openBlocks_append [next] (b :: bs)
    rw [this, Int.add_assoc]

/-- What happens with each blank line: it stays exactly if the next line is a comment and there are
open blocks. The lines before and after it don't matter otherwise. -/
theorem c33_blank_line (before after : List Text) (blank next : Text) (hb : BlankLine blank) :
    GoBuffer.removeExtraBlankLines (before ++ blank :: next :: after) =
      GoBuffer.removeExtraBlankLines (before ++ [blank]) ++
      (if openBlocks before > 0 ∧ hasPrefix (trimSpace next) t!"//" = true then [blank] else []) ++
      GoBuffer.blankLoop (openBlocks before) next after := by
  have h0 : openBlocks ([] :: before) = openBlocks before := by
    have := openBlocks_append [[]] before
    rw [List.singleton_append] at this
    rw [this]
    simp [openBlocks, trimSpace, hasSuffix]
  have ht : trimSpace blank = [] := (trimSpace_nil_iff blank).mpr hb
  have hob : openBlocks [blank] = 0 := by simp [openBlocks, ht, hasSuffix]
  unfold GoBuffer.removeExtraBlankLines
  rw [blankLoop_append, h0, List.append_assoc]
  congr 1
  show (GoBuffer.blankStep (0 + openBlocks before) blank next).1 ++ GoBuffer.blankLoop
    (GoBuffer.blankStep (0 + openBlocks before) blank next).2 next after = _
  rw [blankStep_snd, hob, Int.zero_add, Int.add_zero]
  congr 1
  unfold GoBuffer.blankStep
  simp [ht, hasSuffix]

example : GoBuffer.removeExtraBlankLines
    [t!"", t!"type A struct {", t!"", t!"// x", t!"x int", t!"  ", t!"}", t!"", t!""] =
    [t!"type A struct {", t!"", t!"// x", t!"x int", t!"}"] := by decide

/-! ## C34 -/

/-- The value of one item of a list of bytes: line breaks, the mark `0x` and hexadecimal digits. -/
def byteLiteral (chunk : Text) : Option Nat :=
  match chunk.dropWhile (· = '\n') with
  | '0' :: 'x' :: digits => numeral 16 digits
  | _ => none

/-- The bytes of an initializer: items that end with commas, and perhaps a line break at the end. -/
def evalBytes (t : Text) : Option (List Nat) :=
  let chunks := splitOn ',' t
  if (chunks.getLast?.getD []).all (· = '\n') then chunks.dropLast.mapM byteLiteral else none

theorem toDigits16_chars (n : Nat) (c : Char) (h : c ∈ Nat.toDigits 16 n) : c ≠ ',' ∧ c ≠ '\n' := by
  have key : ∀ k, k < 16 → k.digitChar ≠ ',' ∧ k.digitChar ≠ '\n' := by decide
  induction n using Nat.strongRecOn with
  | ind n ih =>
    rw [Nat.toDigits_eq_if (by decide)] at h
    split at h
    · simp at h
      subst h
      exact key n ‹_›
    · rcases List.mem_append.mp h with h | h
      · exact ih _ (Nat.div_lt_self (by omega) (by decide)) h
      · simp at h
        subst h
        exact key _ (Nat.mod_lt _ (by decide))

/-- The item of a byte with the line breaks that precede it. -/
theorem byteLoop_split (i : Nat) (b : UInt8) (bs : List UInt8) :
    ∃ chunk, byteLiteral chunk = some b.toNat ∧
      splitOn ',' (GoBuffer.byteLoop i (b :: bs)) = chunk :: splitOn ',' (GoBuffer.byteLoop (i + 1) bs) := by
  refine ⟨(if i > 0 && i % 16 == 0 then t!"\n" else []) ++ (t!"0x" ++ Nat.toDigits 16 b.toNat), ?_, ?_⟩
  · unfold byteLiteral
    split
    · rename_i digits h
      have : digits = Nat.toDigits 16 b.toNat := by
        revert h
        split <;> simp <;> exact fun h => h.symm
      rw [this, numeral_toDigits 16 (by decide) (by decide)]
    · rename_i h
      exfalso
      revert h
      split <;> simp
  · have : GoBuffer.byteLoop i (b :: bs) =
        ((if i > 0 && i % 16 == 0 then t!"\n" else []) ++ (t!"0x" ++ Nat.toDigits 16 b.toNat)) ++
          ',' :: GoBuffer.byteLoop (i + 1) bs := by
      simp [GoBuffer.byteLoop, GoBuffer.byteItem]
    rw [this, splitOn_append_of_not_mem]
    intro hm
    rcases List.mem_append.mp hm with hm | hm
    · revert hm; split <;> simp
    · rcases List.mem_append.mp hm with hm | hm
      · simp at hm
      · exact (toDigits16_chars _ _ hm).1 rfl

theorem evalBytes_loop (i : Nat) (bs : List UInt8) :
    evalBytes (GoBuffer.byteLoop i bs) = some (bs.map UInt8.toNat) := by
  induction bs generalizing i with
  | nil =>
    unfold GoBuffer.byteLoop
    split <;> rfl
  | cons b bs ih =>
    obtain ⟨chunk, hc, hs⟩ := byteLoop_split i b bs
    have hne := splitOn_ne_nil ',' (GoBuffer.byteLoop (i + 1) bs)
    have ih := ih (i + 1)
    unfold evalBytes at ih ⊢
    dsimp only at ih ⊢
    rw [hs, List.dropLast_cons_of_ne_nil hne]
    have hl : (chunk :: splitOn ',' (GoBuffer.byteLoop (i + 1) bs)).getLast? =
        (splitOn ',' (GoBuffer.byteLoop (i + 1) bs)).getLast? := by
      rw [List.getLast?_cons]
      cases h : (splitOn ',' (GoBuffer.byteLoop (i + 1) bs)).getLast? with
      | none => exact absurd (List.getLast?_eq_none_iff.mp h) hne
      | some x => rfl
    rw [hl]
    split at ih
    · rename_i h
      rw [if_pos h]
      simp [List.mapM_cons, hc, ih]
    · cases ih

/-- The literal evaluates to the original bytes. -/
theorem c34_bytes (data : List UInt8) :
    evalBytes (GoBuffer.byteArray data) = some (data.map UInt8.toNat) := evalBytes_loop 0 data

/-- Number of bytes already in the current line before the one of the given index. -/
def inLine (i : Nat) : Nat := if i = 0 then 0 else (i - 1) % 16 + 1

theorem byteItem_no_break (b : UInt8) : '\n' ∉ GoBuffer.byteItem b := by
  unfold GoBuffer.byteItem
  simp only [List.mem_append, not_or]
  exact ⟨⟨by decide, fun h => (toDigits16_chars _ _ h).2 rfl⟩, by decide⟩

theorem byteItem_commas (b : UInt8) : (GoBuffer.byteItem b).count ',' = 1 := by
  unfold GoBuffer.byteItem
  rw [List.count_append, List.count_append]
  have : (Nat.toDigits 16 b.toNat).count ',' = 0 := by
    rw [List.count_eq_zero]
    exact fun h => (toDigits16_chars _ _ h).1 rfl
  rw [this]
  decide

theorem splitOn_cons_ne (sep c : Char) (cs : Text) (h : ¬ c = sep) :
    ∃ w ws, splitOn sep cs = w :: ws ∧ splitOn sep (c :: cs) = (c :: w) :: ws := by
  cases hs : splitOn sep cs with
  | nil => exact absurd hs (splitOn_ne_nil sep cs)
  | cons w ws => exact ⟨w, ws, rfl, by simp [splitOn, h, hs]⟩

theorem splitOn_prefix (sep : Char) : ∀ (a rest : Text), sep ∉ a →
    ∃ w ws, splitOn sep rest = w :: ws ∧ splitOn sep (a ++ rest) = (a ++ w) :: ws
  | [], rest, _ => by
    cases hs : splitOn sep rest with
    | nil => exact absurd hs (splitOn_ne_nil sep rest)
    | cons w ws => exact ⟨w, ws, rfl, by simpa using hs⟩
  | c :: cs, rest, h => by
    simp at h
    have hc : ¬ c = sep := fun e => h.1 e.symm
    obtain ⟨w, ws, h1, h2⟩ := splitOn_prefix sep cs rest h.2
    refine ⟨w, ws, h1, ?_⟩
    simp only [List.cons_append]
    obtain ⟨w', ws', h3, h4⟩ := splitOn_cons_ne sep c (cs ++ rest) hc
    rw [h2] at h3
    injection h3 with e1 e2
    rw [h4, ← e1, ← e2]

theorem lines_loop (i : Nat) (bs : List UInt8) :
    ∃ w ws, splitOn '\n' (GoBuffer.byteLoop i bs) = w :: ws ∧ inLine i + w.count ',' ≤ 16 ∧
      ∀ l ∈ ws, l.count ',' ≤ 16 := by
  have hin : inLine i ≤ 16 := by unfold inLine; split <;> omega
  induction bs generalizing i with
  | nil =>
    unfold GoBuffer.byteLoop
    split
    · exact ⟨[], [[]], rfl, by simpa using hin, by simp⟩
    · exact ⟨[], [], rfl, by simpa using hin, by simp⟩
  | cons b bs ih =>
    have hin' : inLine (i + 1) ≤ 16 := by unfold inLine; split <;> omega
    obtain ⟨w, ws, h1, h2, h3⟩ := ih (i + 1) hin'
    obtain ⟨w', ws', h4, h5⟩ := splitOn_prefix '\n' (GoBuffer.byteItem b)
      (GoBuffer.byteLoop (i + 1) bs) (byteItem_no_break b)
    rw [h1] at h4
    injection h4 with e1 e2
    subst e1
    subst e2
    have hcount : (GoBuffer.byteItem b ++ w).count ',' = 1 + w.count ',' := by
      rw [List.count_append, byteItem_commas]
    have e : GoBuffer.byteLoop i (b :: bs) = (if i > 0 && i % 16 == 0 then t!"\n" else []) ++
        (GoBuffer.byteItem b ++ GoBuffer.byteLoop (i + 1) bs) := by
      simp [GoBuffer.byteLoop]
    rw [e]
    split
    · rename_i h
      refine ⟨[], (GoBuffer.byteItem b ++ w) :: ws, ?_, by simpa using hin, ?_⟩
      · simp only [List.cons_append, List.nil_append, splitOn, if_true]
        rw [h5]
      · intro l hl
        rcases List.mem_cons.mp hl with rfl | hl
        · rw [hcount]
          have : 1 ≤ inLine (i + 1) := by unfold inLine; split <;> omega
          omega
        · exact h3 l hl
    · rename_i h
      refine ⟨GoBuffer.byteItem b ++ w, ws, by simpa using h5, ?_, h3⟩
      rw [hcount]
      have : inLine (i + 1) = inLine i + 1 := by
        unfold inLine
        simp at h
        split <;> split <;> omega
      omega

/-- The lines have at most sixteen bytes. -/
theorem c34_lines (data : List UInt8) (line : Text)
    (h : line ∈ splitOn '\n' (GoBuffer.byteArray data)) : line.count ',' ≤ 16 := by
  obtain ⟨w, ws, h1, h2, h3⟩ := lines_loop 0 data
  unfold GoBuffer.byteArray at h
  rw [h1] at h
  rcases List.mem_cons.mp h with rfl | h
  · omega
  · exact h3 line h

example : GoBuffer.byteArray [0, 10, 255] = t!"0x0,0xa,0xff,\n" ∧
    evalBytes t!"0x0,0xa,0xff,\n" = some [0, 10, 255] := by decide

/-! ## C64 -/

theorem lastDash_none (t : Text) : GoBuffer.lastDash t = none ↔ '-' ∉ t := by
  induction t with
  | nil => simp [GoBuffer.lastDash]
  | cons c cs ih =>
    unfold GoBuffer.lastDash
    cases h : GoBuffer.lastDash cs with
    | none =>
      have := ih.mp h
      have e : ('-' = c) ↔ c = '-' := eq_comm
      simp only [List.mem_cons, this, or_false, e]
      split <;> simp_all
    | some i =>
      have : '-' ∈ cs := Classical.byContradiction fun hn => by
        have := ih.mpr hn; rw [h] at this; cases this
      simp [this]

theorem lastDash_some (t : Text) (i : Nat) (h : GoBuffer.lastDash t = some i) :
    ∃ before after, t = before ++ '-' :: after ∧ before.length = i ∧ '-' ∉ after := by
  induction t generalizing i with
  | nil => cases h
  | cons c cs ih =>
    unfold GoBuffer.lastDash at h
    cases hd : GoBuffer.lastDash cs with
    | none =>
      rw [hd] at h
      simp only at h
      split at h
      · rename_i hc
        injection h with h
        exact ⟨[], cs, by simp [hc], by simpa using h, (lastDash_none cs).mp hd⟩
      · cases h
    | some j =>
      rw [hd] at h
      injection h with h
      obtain ⟨b, a, h1, h2, h3⟩ := ih j hd
      exact ⟨c :: b, a, by simp [h1], by simp [h2, h], h3⟩

/-- The name of the package is the part of the directory after the last dash, once the `-go` suffix
has been removed; it has no dashes unless the first character is the last dash. -/
theorem c64_package_name (base last : Text) (hb : base ≠ []) (hl : '-' ∉ last)
    (hg : last ≠ t!"go") :
    GoBuffer.cleanPkg last = last ∧
    GoBuffer.cleanPkg (base ++ '-' :: last) = last ∧
    GoBuffer.cleanPkg (base ++ '-' :: last ++ t!"-go") = last := by
  have main : (match GoBuffer.lastDash (base ++ '-' :: last) with
      | some index => if index > 0 then (base ++ '-' :: last).drop (index + 1)
        else base ++ '-' :: last
      | none => base ++ '-' :: last) = last := by
    cases h : GoBuffer.lastDash (base ++ '-' :: last) with
    | none => exact absurd ((lastDash_none _).mp h) (by simp)
    | some i =>
      obtain ⟨b, a, h1, h2, h3⟩ := lastDash_some _ _ h
      have hr := congrArg List.reverse h1
      simp at hr
      have hcut : ∀ (x y u v : Text), '-' ∉ x → '-' ∉ u → x ++ '-' :: y = u ++ '-' :: v → x = u ∧ y = v := by
        intro x
        induction x with
        | nil =>
          intro y u v _ hu e
          cases u with
          | nil => simpa using e
          | cons c cs => simp at e; simp [← e.1] at hu
        | cons c cs ih =>
          intro y u v hx hu e
          cases u with
          | nil => simp at e; simp [e.1] at hx
          | cons d ds =>
            simp at e hx hu
            have := ih y ds v hx.2 hu.2 e.2
            exact ⟨by rw [e.1, this.1], this.2⟩
      obtain ⟨e1, e2⟩ := hcut _ _ _ _ (by simpa using hl) (by simpa using h3) hr
      have e2 : base = b := by simpa using e2
      have hi : i > 0 := by
        rw [← h2, ← e2]
        exact List.length_pos_iff.mpr hb
      simp only [hi, if_true]
      rw [← h2, ← e2]
      simp
  have hsuf : ∀ t : Text, hasSuffix t t!"-go" = true → ∃ b, t = b ++ t!"-go" := by
    intro t ht
    have := List.isSuffixOf_iff_suffix.mp ht
    obtain ⟨b, hb⟩ := this
    exact ⟨b, hb.symm⟩
  refine ⟨?_, ?_, ?_⟩
  · unfold GoBuffer.cleanPkg
    have : ¬ hasSuffix last t!"-go" = true := by
      intro h
      obtain ⟨b, rfl⟩ := hsuf _ h
      simp at hl
    simp only [this, Bool.false_eq_true, if_false]
    rw [(lastDash_none last).mpr hl]
  · unfold GoBuffer.cleanPkg
    have : ¬ hasSuffix (base ++ '-' :: last) t!"-go" = true := by
      intro h
      obtain ⟨b, hb'⟩ := hsuf _ h
      have hr := congrArg List.reverse hb'
      simp at hr
      apply hg
      have e : last.reverse ++ '-' :: base.reverse = t!"og" ++ '-' :: b.reverse := by simpa using hr
      have : last.reverse = t!"og" := by
        have hl' : '-' ∉ last.reverse := by simpa using hl
        revert e hl'
        generalize last.reverse = x
        intro e hl'
        match x with
        | [] => simp at e
        | [c] => simp at e
        | [c, d] => simp at e; simp [e.1, e.2.1]
        | c :: d :: f :: r => simp at e; simp [e.2.2.1] at hl'
      have := congrArg List.reverse this
      simpa using this
    simp only [this, Bool.false_eq_true, if_false]
    exact main
  · unfold GoBuffer.cleanPkg
    have : hasSuffix (base ++ '-' :: last ++ t!"-go") t!"-go" = true :=
      List.isSuffixOf_iff_suffix.mpr ⟨_, rfl⟩
    simp only [this, if_true]
    have e : (base ++ '-' :: last ++ t!"-go").take ((base ++ '-' :: last ++ t!"-go").length - 3) =
        base ++ '-' :: last := by
      apply List.take_left'
      simp
      omega
    rw [e]
    exact main

/-- The property is false: a leading dash stays, so the package clause isn't valid Go. -/
theorem c64_leading_dash_refuted : '-' ∈ GoBuffer.cleanPkg t!"-sdk" := by decide

example : GoBuffer.cleanPkg t!"ocm-sdk-go" = t!"sdk" ∧ GoBuffer.cleanPkg t!"v1" = t!"v1" := by decide

end Verif
