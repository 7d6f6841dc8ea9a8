import Verif.Model.Binding

/-!
# Buffer of the Go generators and presence bitmaps

Model of the text functions of `pkg/generators/golang/buffer.go` and of the calculation of presence
bits in `pkg/generators/golang/types_calculator.go`.
-/

namespace Verif

/-- White space for `strings.TrimSpace` (Go standard library): the ASCII characters, next line and
no break space. -/
def isSpaceChar (c : Char) : Bool :=
  c == ' ' || c == '\t' || c == '\n' || c == '\x0b' || c == '\x0c' || c == '\r' ||
    c == '\x85' || c == '\xa0'

/-- `strings.TrimSpace` (Go standard library), for the characters of `isSpaceChar`. -/
def trimSpace (t : Text) : Text := ((t.dropWhile isSpaceChar).reverse.dropWhile isSpaceChar).reverse

/-- `strings.HasPrefix` (Go standard library). -/
def hasPrefix (t p : Text) : Bool := p.isPrefixOf t

/-- `strings.HasSuffix` (Go standard library). -/
def hasSuffix (t p : Text) : Bool := p.isSuffixOf t

namespace GoBuffer

/-- `lineComment`, pkg/generators/golang/buffer.go:430-436. -/
def lineComment (value : Text) : Text :=
  joinText t!"\n" ((splitOn '\n' value).map fun line => t!"// " ++ line)

/-- The text of one byte, the format `%#2x,` of pkg/generators/golang/buffer.go:449. -/
def byteItem (b : UInt8) : Text := t!"0x" ++ Nat.toDigits 16 b.toNat ++ t!","

/-- The loop of `byteArray`, pkg/generators/golang/buffer.go:444-454: `i` is the index of the first
of the remaining bytes. -/
def byteLoop (i : Nat) : List UInt8 → Text
  | [] => if i > 0 && i % 16 != 0 then t!"\n" else []
  | b :: bs => (if i > 0 && i % 16 == 0 then t!"\n" else []) ++ byteItem b ++ byteLoop (i + 1) bs

/-- `byteArray`, pkg/generators/golang/buffer.go:440-456. -/
def byteArray (data : List UInt8) : Text := byteLoop 0 data

/-- One iteration of the loop of `removeExtraBlankLines`, pkg/generators/golang/buffer.go:388-405:
returns the lines printed and the new depth. -/
def blankStep (depth : Int) (curr next : Text) : List Text × Int :=
  let currTrim := trimSpace curr
  let nextTrim := trimSpace next
  let depth := if hasSuffix currTrim t!" {" then depth + 1 else depth
  let out :=
    if currTrim = [] then
      if depth > 0 && hasPrefix nextTrim t!"//" then [curr] else []
    else [curr]
  let depth := if currTrim = t!"}" then depth - 1 else depth
  (out, depth)

/-- The loop of `removeExtraBlankLines`, pkg/generators/golang/buffer.go:387-406, over the lines
that the scanner returns. The variable `curr` gets the line that was `next`. -/
def blankLoop (depth : Int) (next : Text) : List Text → List Text
  | [] => []
  | line :: lines =>
    let (out, depth) := blankStep depth next line
    out ++ blankLoop depth line lines

/-- `removeExtraBlankLines`, pkg/generators/golang/buffer.go:381-413, from lines to lines. The
scanner rejects lines of more than 64 KiB, which isn't modelled. -/
def removeExtraBlankLines (lines : List Text) : List Text := blankLoop 0 [] lines

/-- `strings.LastIndex(name, "-")` (Go standard library). -/
def lastDash : Text → Option Nat
  | [] => none
  | c :: cs =>
    match lastDash cs with
    | some i => some (i + 1)
    | none => if c = '-' then some 0 else none

/-- `cleanPkg`, pkg/generators/golang/buffer.go:461-470. -/
def cleanPkg (name : Text) : Text :=
  let name := if hasSuffix name t!"-go" then name.take (name.length - 3) else name
  match lastDash name with
  | some index => if index > 0 then name.drop (index + 1) else name
  | none => name

end GoBuffer

namespace Bitmap

/-- The loop of `BitMask`, pkg/generators/golang/types_calculator.go:479-484. Pointers to attributes
are their positions in the list of attributes of the type. -/
def maskLoop (attr : Nat) (index : Nat) : List Nat → Nat
  | [] => index
  | current :: rest => if current = attr then index else maskLoop attr (index + 1) rest

/-- The index calculated by `BitMask`, pkg/generators/golang/types_calculator.go:474-484. -/
def bitIndex (t : TypeCell) (attr : Nat) : Nat :=
  maskLoop attr (if t.isClass then 3 else 0) (List.range t.attributes.length)

/-- The expression `1 << index`, pkg/generators/golang/types_calculator.go:487, with the semantics
of the `int` type of 64 bits. -/
def mask (t : TypeCell) (attr : Nat) : BitVec 64 := 1#64 <<< bitIndex t attr

/-- The text that `BitMask` returns, pkg/generators/golang/types_calculator.go:488. -/
def maskText (t : TypeCell) (attr : Nat) : Text := intText (mask t attr).toInt

/-- `bitmapSize`, pkg/generators/golang/types_calculator.go:532-546. -/
def size (t : TypeCell) : Nat :=
  let count := t.attributes.length
  let count := if t.isClass then count + 3 else count
  if count ≤ 32 then 32 else 64

/-- `BitmapType`, pkg/generators/golang/types_calculator.go:493-528: `none` if it reports an error,
otherwise the number of bits of the unsigned integer type. -/
def width (t : TypeCell) : Option Nat :=
  if !t.kind.isStruct then none
  else
    let max : Int := if t.isClass then 64 - 3 else 64
    if (t.attributes.length : Int) > max then none else some (size t)

end Bitmap

end Verif
