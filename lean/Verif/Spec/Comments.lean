import Verif.Model.Text

/-!
# Specification of documentation comments

Nothing here uses the model of the code.
-/

namespace Verif

/-- The comments `block` are those of the lines right before the given line: they are consecutive,
and the line before them has no comment. The function `comment` gives the comment of each line. -/
structure IsBlock (comment : Nat → Option Text) (line : Nat) (block : List Text) : Prop where
  fits : block.length ≤ line
  lines : ∀ i, i < block.length → comment (line - block.length + i) = block[i]?
  stops : block.length < line → comment (line - block.length - 1) = none

/-- The line belongs to a block of comments that is right before another line. -/
def Covers (line : Nat) (block : List Text) (i : Nat) : Prop := line - block.length ≤ i ∧ i < line

/-- The white space characters of Unicode. -/
def spaceCodes : List Nat :=
  [9, 10, 11, 12, 13, 32, 0x85, 0xA0, 0x1680, 0x2000, 0x2001, 0x2002, 0x2003, 0x2004, 0x2005, 0x2006,
    0x2007, 0x2008, 0x2009, 0x200A, 0x2028, 0x2029, 0x202F, 0x205F, 0x3000]

/-- A text that only has white space. -/
def Blank (t : Text) : Prop := ∀ c ∈ t, c.toNat ∈ spaceCodes

/-- A text that doesn't start with white space. -/
def StartsWithWord (t : Text) : Prop := ∃ c rest, t = c :: rest ∧ c.toNat ∉ spaceCodes

/-- A comment with the given indentation and text; comments without anything after the mark have no
text. -/
def CommentOf (indent comment text : Text) : Prop :=
  comment = t!"//" ++ (indent ++ text) ∨ (comment = t!"//" ∧ text = [])

/-- The texts of a list of comments. -/
inductive CommentsOf (indent : Text) : List Text → List Text → Prop
  | nil : CommentsOf indent [] []
  | cons (c t : Text) (cs ts : List Text) : CommentOf indent c t → CommentsOf indent cs ts →
      CommentsOf indent (c :: cs) (t :: ts)

/-- The documentation of a block of comments: their texts without the marks and without the
indentation of the first one, separated by line breaks. -/
def Documents (block : List Text) (doc : Text) : Prop :=
  (block = [] ∧ doc = []) ∨
  ∃ indent first rest texts, Blank indent ∧ StartsWithWord first ∧
    block = (t!"//" ++ (indent ++ first)) :: rest ∧ CommentsOf indent rest texts ∧
    doc = joinText t!"\n" (first :: texts)

end Verif
