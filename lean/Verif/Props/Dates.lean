import Verif.Lemmas.Dates
import Verif.Props.Json
import Verif.Props.Errors
import Verif.Props.UrlValues

/-! C82: what happens to the dates that are sent. -/

namespace Verif.GoTime

open Verif.GoJson

/-! ## The calendar -/

/-- C82: the numbers of the days follow the Gregorian calendar: the first of January of the year one
has number zero, and the day that follows has the number that follows. -/
theorem c82_calendar :
    dayNumber ⟨1, 1, 1⟩ = 0 ∧ ∀ d : Day, d.Exists → d.next.Exists ∧ dayNumber d.next = dayNumber d + 1 :=
  ⟨by decide, fun d h => ⟨next_exists d h, dayNumber_next d h⟩⟩

/-- C82: each number is the number of exactly one day that exists. -/
theorem c82_days (n : Int) (d : Day) : dayOf n = d ↔ d.Exists ∧ dayNumber d = n := by
  constructor
  · rintro rfl
    exact dayOf_spec n
  · rintro ⟨h, rfl⟩
    exact dayOf_dayNumber d h

example : (⟨2024, 2, 28⟩ : Day).next = ⟨2024, 2, 29⟩ ∧ (⟨1900, 2, 28⟩ : Day).next = ⟨1900, 3, 1⟩ ∧
    dayOf 738944 = ⟨2024, 2, 29⟩ := by decide

/-- C82: the conversion to UTC gives the only moment without offset that is the same point in
time. -/
theorem c82_utc (m u : Moment) (h : m.nanos < 1000000000) :
    m.utc = u ↔ u.Exists ∧ u.offset = 0 ∧ SameInstant u m := by
  constructor
  · rintro rfl
    exact ⟨utc_exists m h, rfl, utc_seconds m, rfl⟩
  · rintro ⟨h1, h2, h3⟩
    refine same_fields _ _ (utc_exists m h) h1 h2.symm ⟨?_, ?_⟩
    · rw [utc_seconds, h3.1]
    · rw [h3.2]; rfl

/-- A moment of the examples: half past eleven of the night of the 29th of February of 2024 in
Mumbai. -/
def mumbai : Moment := { date := ⟨2024, 2, 29⟩, hour := 23, minute := 30, second := 5, offset := 19800 }

example : mumbai.Exists ∧ mumbai.Writable :=
  ⟨⟨⟨by decide, by decide, by decide, by decide⟩, by decide, by decide, by decide, by decide⟩,
    by decide, by decide, ⟨330, rfl⟩, by decide, by decide⟩

example : mumbai.utc = { date := ⟨2024, 2, 29⟩, hour := 18, minute := 0, second := 5 } ∧
    format mumbai = t!"2024-02-29T23:30:05+05:30" ∧
    format mumbai.utc = t!"2024-02-29T18:00:05Z" ∧
    formatNano { mumbai with nanos := 120000000 } = t!"2024-02-29T23:30:05.12+05:30" := by decide

/-! ## Texts -/

/-- C82: the texts that are accepted are those of the grammar, and the moment that is read is the one
that the text says. -/
theorem c82_read_iff (s : Text) (m : Moment) : parse s = some m ↔ Says s m := parse_iff s m

/-- C82: a date that is written in a document is read back up to the second, with its offset. -/
theorem c82_read_back (m : Moment) (hx : m.Exists) (hw : m.Writable) :
    parse (format m) = some { m with nanos := 0 } :=
  (parse_iff _ _).2 (says_format m hx hw)

/-- C82: a date survives being written in a document exactly if its year has at most four digits,
its offset is a number of minutes, and it has no fraction of second. -/
theorem c82_round_trip_iff (m : Moment) (hx : m.Exists) :
    (∃ m', parse (format m) = some m' ∧ SameInstant m' m) ↔ m.Writable ∧ m.nanos = 0 := by
  constructor
  · rintro ⟨m', hp, hs, hn⟩
    have h := (parse_iff _ _).1 hp
    obtain ⟨h0, h1⟩ := says_year m _ m' h
    obtain ⟨e1, e2, e3, e4, f, z, hr, hf, ho⟩ := says_clock_inv m hx h0 h1 _ m' h
    have hoff : m'.offset = m.offset := by
      unfold Moment.seconds at hs
      rw [e1, e2, e3, e4] at hs
      omega
    rw [hoff] at ho
    obtain ⟨b1, b2, b3⟩ := offset_bounds ho
    refine ⟨⟨h0, h1, b1, b2, b3⟩, ?_⟩
    rcases hf with ⟨_, h⟩ | ⟨ds, rfl, _⟩
    · rw [← hn, h]
    · obtain ⟨c, cs, hc, hd⟩ := zoneText_head m.offset
      rw [hc] at hr
      exact absurd (List.cons.inj hr).1 hd
  · rintro ⟨hw, hn⟩
    exact ⟨_, c82_read_back m hx hw, rfl, hn.symm⟩

/-- C82: the timestamp of an error survives exactly if its year has at most four digits and its
offset is a number of minutes. -/
theorem c82_timestamp_iff (m : Moment) (hx : m.Exists) :
    (∃ m', parse (formatNano m) = some m' ∧ SameInstant m' m) ↔ m.Writable := by
  constructor
  · rintro ⟨m', hp, hs, hn⟩
    have h := (parse_iff _ _).1 hp
    obtain ⟨h0, h1⟩ := says_year m _ m' h
    obtain ⟨e1, e2, e3, e4, f, z, hr, hf, ho⟩ := says_clock_inv m hx h0 h1 _ m' h
    have hoff : m'.offset = m.offset := by
      unfold Moment.seconds at hs
      rw [e1, e2, e3, e4] at hs
      omega
    rw [hoff] at ho
    exact ⟨h0, h1, offset_bounds ho⟩
  · intro hw
    exact ⟨m, (parse_iff _ _).2 (says_formatNano m hx hw), rfl, rfl⟩

/-- C82: a date sent in a query parameter is received as the same point in time, without offset,
exactly if its year in UTC has at most four digits and it has no fraction of second; whatever its
offset. -/
theorem c82_query_iff (m : Moment) (hx : m.Exists) :
    (∃ m', parse (format m.utc) = some m' ∧ SameInstant m' m) ↔
      (0 ≤ m.utc.date.year ∧ m.utc.date.year ≤ 9999) ∧ m.nanos = 0 := by
  have h := c82_round_trip_iff m.utc (utc_exists m hx.2.2.2.2)
  have hsame : ∀ m', SameInstant m' m.utc ↔ SameInstant m' m := by
    intro m'
    simp only [SameInstant, utc_seconds]
    rfl
  simp only [hsame] at h
  rw [h]
  constructor
  · rintro ⟨⟨h1, h2, _⟩, h3⟩
    exact ⟨⟨h1, h2⟩, h3⟩
  · rintro ⟨⟨h1, h2⟩, h3⟩
    exact ⟨⟨h1, h2, ⟨0, rfl⟩, by show (-86400 : Int) < 0; decide, by show (0 : Int) < 86400; decide⟩, h3⟩

/-- C82: different points in time, up to the second, have different texts. -/
theorem c82_distinct (a b : Moment) (ha : a.Exists) (hb : b.Exists) (wa : a.Writable)
    (wb : b.Writable) (h : format a = format b) : a.seconds = b.seconds := by
  have h1 := c82_read_back a ha wa
  rw [h, c82_read_back b hb wb] at h1
  have h2 := congrArg Moment.seconds (Option.some.inj h1)
  exact h2.symm

/-- The fraction of a second is lost in documents and query parameters. -/
theorem c82_fraction_refuted :
    ({ mumbai with nanos := 500000000 } : Moment).Exists ∧
    parse (format { mumbai with nanos := 500000000 }) = some mumbai ∧
    parse (format ({ mumbai with nanos := 500000000 } : Moment).utc) = some mumbai.utc := by
  refine ⟨⟨⟨by decide, by decide, by decide, by decide⟩, by decide, by decide, by decide, by decide⟩,
    by decide, by decide⟩

/-- The years after 9999 and those before zero are written, but what is written can't be read. -/
theorem c82_year_refuted :
    format { date := ⟨10000, 1, 1⟩, hour := 0, minute := 0, second := 0 } =
      t!"10000-01-01T00:00:00Z" ∧
    parse t!"10000-01-01T00:00:00Z" = none ∧
    format { date := ⟨-1, 12, 31⟩, hour := 0, minute := 0, second := 0 } =
      t!"-0001-12-31T00:00:00Z" ∧
    parse t!"-0001-12-31T00:00:00Z" = none := by decide

/-- A date in a location whose offset has seconds, like that of Amsterdam before 1937, is read from
documents as a different point in time. -/
theorem c82_offset_refuted :
    ∃ m m' : Moment, m.Exists ∧ m.offset = 1172 ∧ parse (format m) = some m' ∧
      m'.seconds = m.seconds + 32 := by
  refine ⟨{ date := ⟨1930, 1, 1⟩, hour := 12, minute := 0, second := 0, offset := 1172 },
    { date := ⟨1930, 1, 1⟩, hour := 12, minute := 0, second := 0, offset := 1140 },
    ⟨⟨by decide, by decide, by decide, by decide⟩, by decide, by decide, by decide, by decide⟩, rfl,
    by decide, by decide⟩

/-! ## The other models -/

/-- C82: the dates that survive in documents satisfy the condition of the round trip of JSON. -/
theorem c82_document (m : Moment) (hx : m.Exists) (hw : m.Writable) (hn : m.nanos = 0) (S : Schema)
    (ty : TypeId) (link : Bool) (hs : S ty = .date) : Normal dateParser S ty link (.date m.instant) := by
  refine ⟨hs, ?_⟩
  show (parse (format m)).map Moment.instant = some m.instant
  rw [c82_read_back m hx hw, ← hn]
  rfl

/-- C82: what the generated reader gives for what the generated writer wrote for a date is the date
without the fraction. -/
theorem c82_document_seconds (m : Moment) (hx : m.Exists) (hw : m.Writable) (S : Schema) (ty : TypeId)
    (hs : S ty = .date) :
    ∃ ts, marshal S ty (.date m.instant) = some ts ∧ ∀ fuel, 1 ≤ fuel →
      unmarshal dateParser S fuel ty ts = some (.date ({ m with nanos := 0 } : Moment).instant) := by
  refine ⟨[.str (format m)], by simp [marshal, writeVal, hs, Moment.instant], ?_⟩
  intro fuel hf
  match fuel with
  | fuel + 1 =>
    simp [unmarshal, readVal, hs, dateParser, c82_read_back m hx hw, readString]

/-- C82: what a server receives for a date given to a client is the same point in time. -/
theorem c82_parameter (m : Moment) (hx : m.Exists) (hw : m.Writable)
    (hy : 0 ≤ m.utc.date.year ∧ m.utc.date.year ≤ 9999) :
    dateParser (queryText m.instant) = some ({ m.utc with nanos := 0 } : Moment).instant ∧
      ({ m.utc with nanos := 0 } : Moment).seconds = m.seconds := by
  have h1 : parse m.instant.text = some { m with nanos := 0 } := c82_read_back m hx hw
  have h2 : queryText m.instant = format m.utc := by
    unfold queryText
    rw [h1]
    rfl
  have hw' : m.utc.Writable :=
    ⟨hy.1, hy.2, ⟨0, rfl⟩, by show (-86400 : Int) < 0; decide, by show (0 : Int) < 86400; decide⟩
  refine ⟨?_, ?_⟩
  · rw [h2, dateParser, c82_read_back _ (utc_exists m hx.2.2.2.2) hw']
    rfl
  · show m.utc.seconds = m.seconds
    exact utc_seconds m

/-- C82: the dates in UTC without fraction satisfy the condition of the round trip of query
parameters. -/
theorem c82_sendable (m : Moment) (hx : m.Exists) (hw : m.Writable) (hn : m.nanos = 0)
    (ho : m.offset = 0) (float : Text → Text) (parseFloat : Text → Option Text) :
    GoHelpers.Sendable { date := queryText, float := float } { float := parseFloat, date := dateParser }
      .date (.date m.instant) := by
  refine .date ?_
  have hu : m.utc = m := (c82_utc m m hx.2.2.2.2).2 ⟨hx, ho, rfl, rfl⟩
  obtain ⟨h1, _⟩ := c82_parameter m hx hw (by rw [hu]; exact ⟨hw.1, hw.2.1⟩)
  show dateParser (queryText m.instant) = some m.instant
  rw [h1, hu, ← hn]

/-- C82: the timestamps of errors satisfy the condition of the round trip of errors, with their
fractions. -/
theorem c82_error (m : Moment) (hx : m.Exists) (hw : m.Writable) :
    dateParser (timestampText m.instant) = some m.instant := by
  have h1 : parse m.instant.text = some { m with nanos := 0 } := c82_read_back m hx hw
  have h2 : timestampText m.instant = formatNano m := by
    unfold timestampText
    rw [h1]
    rfl
  rw [h2, dateParser, (parse_iff _ _).2 (says_formatNano m hx hw)]
  rfl

/-- C82: an error whose timestamp can be written is read back with the same attributes, with the
actual functions for dates. -/
theorem c82_error_round_trip (e : GoError.ErrorObject) (m : Moment) (hx : m.Exists) (hw : m.Writable)
    (hstatus : ∀ v, GoError.getStatus (some e) = (v, true) → -2 ^ 63 ≤ v ∧ v < 2 ^ 63)
    (ht : GoError.getTimestamp (some e) = (some m.instant, true)) :
    ∃ source, GoError.writeError timestampText (some e) = some source ∧
      ∀ fuel, 2 * source.length ≤ fuel →
        ∃ e', GoError.unmarshalError dateParser fuel source = some e' ∧ GoError.SameError e' e := by
  refine GoError.c51_round_trip dateParser timestampText e hstatus ?_
  intro v hv
  rw [ht] at hv
  exact ⟨m.instant, (Prod.mk.inj hv).1.symm, c82_error m hx hw⟩

/-- The zero value of dates is the first instant of the year one, and it is read back. -/
theorem c82_zero :
    zero .date =
      .date ({ date := dayOf 0, hour := 0, minute := 0, second := 0 } : Moment).instant ∧
    dateParser t!"0001-01-01T00:00:00Z" = some { text := t!"0001-01-01T00:00:00Z" } :=
  ⟨rfl, by decide⟩

end Verif.GoTime
