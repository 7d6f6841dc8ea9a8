import Verif.Model.Json
import Verif.Model.UrlValues

/-!
# Dates

The generated code sends dates as text: `Format(time.RFC3339)` in JSON documents
(pkg/generators/golang/json_generator.go:1456), `UTC().Format(time.RFC3339)` in query parameters
(pkg/generators/golang/helpers_generator.go:158-159) and the JSON marshaller of dates, that is
`Format(time.RFC3339Nano)`, in the timestamps of errors
(pkg/generators/golang/errors_generator.go:625-626). It reads them with `time.Parse(time.RFC3339, …)`
(pkg/generators/golang/json_generator.go:421 and 1343, pkg/generators/golang/errors_generator.go:560).
The models of JSON, of query parameters and of errors have these functions as parameters. Here they
are modelled, following the `time` package of the Go standard library (its files `time.go`,
`format.go` and `format_rfc3339.go`), so that those parameters can be given their actual values.
-/

namespace Verif.GoTime

open Verif.GoJson (Instant)

/-- A day of the calendar. -/
structure Day where
  year : Int
  month : Nat
  day : Nat
deriving DecidableEq, Repr

/-- What the methods of a Go `time.Time` tell: the date and the time of the day in its location, and
the offset of the location, in seconds to the east of UTC. The name of the location and the reading
of the monotonic clock aren't modelled: they aren't part of any text that is sent. -/
structure Moment where
  date : Day
  hour : Nat
  minute : Nat
  second : Nat
  nanos : Nat := 0
  offset : Int := 0
deriving DecidableEq, Repr

/-- `isLeap`, time.go. -/
def isLeap (year : Int) : Bool := year % 4 == 0 && (year % 100 != 0 || year % 400 == 0)

/-- `daysBefore`, time.go: the number of days of the year before each month, counting from zero. -/
def daysBefore : Nat → Nat
  | 0 => 0 | 1 => 31 | 2 => 59 | 3 => 90 | 4 => 120 | 5 => 151 | 6 => 181
  | 7 => 212 | 8 => 243 | 9 => 273 | 10 => 304 | 11 => 334 | _ => 365

/-- `daysIn`, time.go. -/
def daysIn (month : Nat) (year : Int) : Nat :=
  if month == 2 && isLeap year then 29 else daysBefore month - daysBefore (month - 1)

/-- The number of days since the first of January of the year one, `daysSinceEpoch` and the
beginning of `Date`, time.go. The Go function counts from another year of the same position in the
cycle of four hundred years, and the integers of the model don't overflow. -/
def dayNumber (d : Day) : Int :=
  let y := d.year - 1
  146097 * (y / 400) + 36524 * (y % 400 / 100) + 1461 * (y % 100 / 4) + 365 * (y % 4)
    + daysBefore (d.month - 1) + (if isLeap d.year && decide (3 ≤ d.month) then 1 else 0)
    + d.day - 1

/-- The month and the day of the month of a day of the year, counting from zero: the end of
`absDate`, time.go. -/
def monthDay (leap : Bool) (day : Nat) : Nat × Nat :=
  if leap && day == 31 + 29 - 1 then (2, 29)
  else
    let day := if leap && decide (31 + 29 - 1 < day) then day - 1 else day
    let month := day / 31
    let next := daysBefore (month + 1)
    if next ≤ day then (month + 2, day - next + 1) else (month + 1, day - daysBefore month + 1)

/-- The day of a number of days since the first of January of the year one, `absDate`, time.go. -/
def dayOf (number : Int) : Day :=
  let y0 := number / 146097
  let d0 := (number % 146097).toNat
  let n1 := d0 / 36524
  let n1 := n1 - n1 / 4
  let d1 := d0 - 36524 * n1
  let n2 := d1 / 1461
  let d2 := d1 - 1461 * n2
  let n3 := d2 / 365
  let n3 := n3 - n3 / 4
  let d3 := d2 - 365 * n3
  let year := 400 * y0 + 100 * n1 + 4 * n2 + n3 + 1
  let md := monthDay (isLeap year) d3
  { year := year, month := md.1, day := md.2 }

/-- The number of seconds since the first instant of the year one in UTC: `Unix`, time.go, but for
the constant. -/
def Moment.seconds (m : Moment) : Int :=
  86400 * dayNumber m.date + 3600 * m.hour + 60 * m.minute + m.second - m.offset

/-- `UTC`, time.go: the same instant in the location without offset. -/
def Moment.utc (m : Moment) : Moment :=
  let time := (m.seconds % 86400).toNat
  { date := dayOf (m.seconds / 86400), hour := time / 3600, minute := time % 3600 / 60,
    second := time % 60, nanos := m.nanos, offset := 0 }

/-! ## Writing -/

/-- The conversion of a digit to text, `utod` in `appendInt`, format.go. -/
def utod (n : Nat) : Char := n.digitChar

/-- `appendInt` for numbers that aren't negative, format.go: it has special cases for two and four
digits. -/
def appendNat (width : Nat) (n : Nat) : Text :=
  if width == 2 && decide (n < 100) then [utod (n / 10), utod (n % 10)]
  else if width == 4 && decide (n < 10000) then
    [utod (n / 1000), utod (n / 100 % 10), utod (n / 10 % 10), utod (n % 10)]
  else
    let digits := Nat.toDigits 10 n
    List.replicate (width - digits.length) '0' ++ digits

/-- `appendInt`, format.go. -/
def appendInt (width : Nat) (n : Int) : Text :=
  if n < 0 then '-' :: appendNat width n.natAbs else appendNat width n.natAbs

/-- The case of `stdISO8601ColonTZ` in `appendFormat`, format.go, that `appendFormatRFC3339`
follows too: the offset in minutes, with the division of Go, that discards the seconds. -/
def zoneText (offset : Int) : Text :=
  if offset = 0 then t!"Z"
  else
    let zone := offset.tdiv 60
    (if zone < 0 then '-' else '+') ::
      (appendNat 2 (zone.natAbs / 60) ++ ':' :: appendNat 2 (zone.natAbs % 60))

/-- The date and the time of the day, `appendFormatRFC3339`, format_rfc3339.go. -/
def clockText (m : Moment) : Text :=
  appendInt 4 m.date.year ++ '-' :: (appendNat 2 m.date.month ++ '-' :: (appendNat 2 m.date.day ++
    'T' :: (appendNat 2 m.hour ++ ':' :: (appendNat 2 m.minute ++ ':' :: appendNat 2 m.second))))

/-- `Format(time.RFC3339)`. -/
def format (m : Moment) : Text := clockText m ++ zoneText m.offset

/-- The digits of the nanoseconds, nine of them. -/
def nineDigits (n : Nat) : Text :=
  [utod (n / 100000000 % 10), utod (n / 10000000 % 10), utod (n / 1000000 % 10),
    utod (n / 100000 % 10), utod (n / 10000 % 10), utod (n / 1000 % 10), utod (n / 100 % 10),
    utod (n / 10 % 10), utod (n % 10)]

/-- Removes the zeros at the end, as `appendNano` does for `stdFracSecond9`, format.go. -/
def trimZeros : Text → Text
  | [] => []
  | c :: cs =>
    match trimZeros cs with
    | [] => if c == '0' then [] else [c]
    | t => c :: t

/-- `appendNano` for `stdFracSecond9`, format.go: nothing at all if there is no fraction. -/
def fractionText (nanos : Nat) : Text :=
  match trimZeros (nineDigits nanos) with
  | [] => []
  | t => '.' :: t

/-- `Format(time.RFC3339Nano)`. -/
def formatNano (m : Moment) : Text := clockText m ++ (fractionText m.nanos ++ zoneText m.offset)

/-! ## Reading -/

/-- The value of a digit. -/
def digitOf (c : Char) : Option Nat :=
  if '0' ≤ c ∧ c ≤ '9' then some (c.toNat - '0'.toNat) else none

/-- The value of a sequence of digits, the loop of `parseUint` in `parseRFC3339`, format_rfc3339.go,
and of `atoi`, format.go. -/
def digitsOf : Nat → Text → Option Nat
  | value, [] => some value
  | value, c :: cs =>
    match digitOf c with
    | none => none
    | some d => digitsOf (value * 10 + d) cs

/-- `parseUint(s, min, max)`, format_rfc3339.go. -/
def parseUint (s : Text) (low high : Nat) : Option Nat :=
  match digitsOf 0 s with
  | none => none
  | some n => if low ≤ n ∧ n ≤ high then some n else none

/-- The fraction of second, if there is one, and the rest of the text: the first nine digits count,
`parseRFC3339` in format_rfc3339.go and `parseNanoseconds` in format.go. -/
def parseFraction : Text → Nat × Text
  | '.' :: c :: rest =>
    if (digitOf c).isSome then
      let digits := (c :: rest).takeWhile fun c => (digitOf c).isSome
      let nine := digits.take 9
      (((digitsOf 0 nine).getD 0) * 10 ^ (9 - nine.length), (c :: rest).drop digits.length)
    else (0, '.' :: c :: rest)
  | s => (0, s)

/-- The location, `parseRFC3339`, format_rfc3339.go. -/
def parseZone : Text → Option Int
  | ['Z'] => some 0
  | [sign, h1, h2, ':', m1, m2] =>
    if sign = '-' ∨ sign = '+' then
      match parseUint [h1, h2] 0 23, parseUint [m1, m2] 0 59 with
      | some h, some m =>
        let offset : Int := (h * 60 + m) * 60
        some (if sign = '-' then -offset else offset)
      | _, _ => none
    else none
  | _ => none

/-- `time.Parse(time.RFC3339, s)`, that uses `parseRFC3339`, format_rfc3339.go. When this fails the
Go function tries the general parser, that rejects the text too, or accepts what it calls lenient
forms: hours of one digit and fractions with a comma. These forms, that nothing generated writes, are
rejected by the model. -/
def parse (s : Text) : Option Moment :=
  match s with
  | y1 :: y2 :: y3 :: y4 :: s1 :: m1 :: m2 :: s2 :: d1 :: d2 :: s3 :: h1 :: h2 :: s4 :: i1 :: i2 ::
      s5 :: c1 :: c2 :: rest =>
    match parseUint [y1, y2, y3, y4] 0 9999, parseUint [m1, m2] 1 12 with
    | some year, some month =>
      match parseUint [d1, d2] 1 (daysIn month year), parseUint [h1, h2] 0 23,
          parseUint [i1, i2] 0 59, parseUint [c1, c2] 0 59 with
      | some day, some hour, some minute, some second =>
        if s1 = '-' ∧ s2 = '-' ∧ s3 = 'T' ∧ s4 = ':' ∧ s5 = ':' then
          let f := parseFraction rest
          match parseZone f.2 with
          | some offset =>
            some { date := ⟨year, month, day⟩, hour := hour, minute := minute, second := second,
                   nanos := f.1, offset := offset }
          | none => none
        else none
      | _, _, _, _ => none
    | _, _ => none
  | _ => none

/-! ## The parameters of the other models -/

/-- The representation of a `time.Time` in the model of JSON. -/
def Moment.instant (m : Moment) : Instant := { text := format m, nanos := m.nanos }

/-- `time.Parse(time.RFC3339, text)` for the model of JSON, of query parameters and of errors. -/
def dateParser : GoJson.DateParser := fun text => (parse text).map Moment.instant

/-- `UTC().Format(time.RFC3339)` for the model of query parameters,
pkg/generators/golang/helpers_generator.go:159. Instants whose text can't be parsed are those of
years that don't have four digits; their text is left as it is. -/
def queryText (i : Instant) : Text :=
  match parse i.text with
  | some m => format m.utc
  | none => i.text

/-- What `MarshalJSON` writes, for the model of errors,
pkg/generators/golang/errors_generator.go:626. -/
def timestampText (i : Instant) : Text :=
  match parse i.text with
  | some m => formatNano { m with nanos := i.nanos }
  | none => i.text

end Verif.GoTime
