import Verif.Model.Dates
import Verif.Spec.Digits

/-! Specification of the calendar and of the texts of dates. -/

namespace Verif.GoTime

/-- Number of days of each month of the Gregorian calendar. -/
def monthLength (year : Int) (month : Nat) : Nat :=
  if month ∈ [4, 6, 9, 11] then 30
  else if month = 2 then (if 4 ∣ year ∧ (¬ 100 ∣ year ∨ 400 ∣ year) then 29 else 28)
  else 31

/-- The day exists. -/
def Day.Exists (d : Day) : Prop :=
  1 ≤ d.month ∧ d.month ≤ 12 ∧ 1 ≤ d.day ∧ d.day ≤ monthLength d.year d.month

/-- The day that follows. -/
def Day.next (d : Day) : Day :=
  if d.day < monthLength d.year d.month then { d with day := d.day + 1 }
  else if d.month < 12 then { d with month := d.month + 1, day := 1 }
  else { year := d.year + 1, month := 1, day := 1 }

/-- The moment exists. -/
def Moment.Exists (m : Moment) : Prop :=
  m.date.Exists ∧ m.hour < 24 ∧ m.minute < 60 ∧ m.second < 60 ∧ m.nanos < 1000000000

/-- Two moments are the same point in time, perhaps in different locations. -/
def SameInstant (a b : Moment) : Prop := a.seconds = b.seconds ∧ a.nanos = b.nanos

/-- The moment can be written with the format of dates: the year has at most four digits and isn't
negative, and the offset is a number of minutes of less than a day. -/
def Moment.Writable (m : Moment) : Prop :=
  0 ≤ m.date.year ∧ m.date.year ≤ 9999 ∧ 60 ∣ m.offset ∧ -86400 < m.offset ∧ m.offset < 86400

/-- The text is a number written with a number of digits. -/
def Written (width : Nat) (s : Text) (n : Nat) : Prop := s.length = width ∧ numeral 10 s = some n

/-- The text is a fraction of a second, with the number of nanoseconds that it is worth: nothing, or
a point and digits. -/
def FractionOf (s : Text) (nanos : Nat) : Prop :=
  (s = [] ∧ nanos = 0) ∨
  ∃ digits, s = '.' :: digits ∧ ∃ k v, Written k (digits.take 9) v ∧
    (∀ c ∈ digits, c.isDigit) ∧ 1 ≤ k ∧ nanos = v * 10 ^ (9 - k)

/-- The text is an offset. -/
def OffsetOf (s : Text) (offset : Int) : Prop :=
  (s = t!"Z" ∧ offset = 0) ∨
  ∃ sign hs ms h m, s = sign :: (hs ++ ':' :: ms) ∧ Written 2 hs h ∧ Written 2 ms m ∧
    h < 24 ∧ m < 60 ∧
    ((sign = '+' ∧ offset = 3600 * h + 60 * m) ∨ (sign = '-' ∧ offset = -(3600 * h + 60 * m)))

/-- The grammar of RFC 3339: the text says the moment. -/
def Says (s : Text) (m : Moment) : Prop :=
  ∃ y mo d h mi sec f z year,
    s = y ++ '-' :: (mo ++ '-' :: (d ++ 'T' :: (h ++ ':' :: (mi ++ ':' :: (sec ++ (f ++ z)))))) ∧
    Written 4 y year ∧ m.date.year = (year : Int) ∧ Written 2 mo m.date.month ∧
    Written 2 d m.date.day ∧ Written 2 h m.hour ∧ Written 2 mi m.minute ∧ Written 2 sec m.second ∧
    FractionOf f m.nanos ∧ OffsetOf z m.offset ∧ m.Exists

end Verif.GoTime
