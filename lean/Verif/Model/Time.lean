import Verif.Model.Bcd

/-!
Model of encoding/tpdu/timestamp.go and of the parts of package time it uses (`time.Time`, `time.Date` with
`time.UTC`/`time.FixedZone`, `Year`, `Month`, `Day`, `Hour`, `Minute`, `Second`, `Zone`).  Package time is not
part of /repo; it is modelled from its documentation (proleptic Gregorian calendar, `Date` normalises
out-of-range fields).  `Props.C17` contains an independent characterisation of the calendar functions.
-/

namespace Verif.Model

/-- `time.Time` with a fixed-offset location: seconds since the Unix epoch, nanoseconds, and offset in
seconds east of UTC.  (Location names and monotonic clock readings are not modelled.)  The default is the Go
zero time, 0001-01-01 00:00:00 UTC. -/
structure GoTime where
  sec : Int := -62135596800
  nsec : Nat := 0
  off : Int := 0
  deriving DecidableEq, Repr, Inhabited

namespace GoTime

/-- Days from 1970-01-01 to the given day of the proleptic Gregorian calendar; months run from March. -/
def daysFromCivil (y m d : Int) : Int :=
  let y := if m ≤ 2 then y - 1 else y
  let mp := if m ≤ 2 then m + 9 else m - 3
  365 * y + y / 4 - y / 100 + y / 400 + (153 * mp + 2) / 5 + d - 1 - 719468

/-- Year (starting in March), given the day number relative to 0000-03-01. -/
def marchYear (z : Int) : Int :=
  let era := z / 146097
  let doe := z % 146097
  let yoe := (doe - doe / 1460 + doe / 36524 - doe / 146096) / 365
  era * 400 + yoe

/-- The calendar date (year, month, day) of a day number relative to 1970-01-01. -/
def civilFromDays (n : Int) : Int × Int × Int :=
  let z := n + 719468
  let y := marchYear z
  let doy := z - (365 * y + y / 4 - y / 100 + y / 400)
  let mp := (5 * doy + 2) / 153
  let d := doy - (153 * mp + 2) / 5 + 1
  let m := if mp < 10 then mp + 3 else mp - 9
  (if m ≤ 2 then y + 1 else y, m, d)

/-- Local day number and second of day. -/
def localDay (t : GoTime) : Int := (t.sec + t.off) / 86400
@[inherit_doc localDay] def secOfDay (t : GoTime) : Int := (t.sec + t.off) % 86400

/-- `Time.Year`. -/
def Year (t : GoTime) : Int := (civilFromDays t.localDay).1
/-- `Time.Month`. -/
def Month (t : GoTime) : Int := (civilFromDays t.localDay).2.1
/-- `Time.Day`. -/
def Day (t : GoTime) : Int := (civilFromDays t.localDay).2.2
/-- `Time.Hour`. -/
def Hour (t : GoTime) : Int := t.secOfDay / 3600
/-- `Time.Minute`. -/
def Minute (t : GoTime) : Int := t.secOfDay % 3600 / 60
/-- `Time.Second`. -/
def Second (t : GoTime) : Int := t.secOfDay % 60

/-- `time.Date(year, month, day, hour, min, sec, 0, loc)` for a location of fixed offset `off`. -/
def date (year month day hour min sec : Int) (off : Int) : GoTime :=
  let m := month - 1
  let year := year + m / 12
  let m := m % 12
  { sec := (daysFromCivil year (m + 1) 1 + (day - 1)) * 86400 + hour * 3600 + min * 60 + sec - off
    nsec := 0
    off := off }

end GoTime

namespace Timestamp

/-- `Timestamp.MarshalBinary`, timestamp.go:24-42 (loop over the six fields unrolled). -/
def MarshalBinary (t : GoTime) : M Bytes := do
  let y := t.Year.tmod 100
  let b0 ← Bcd.Encode y
  let b1 ← Bcd.Encode t.Month
  let b2 ← Bcd.Encode t.Day
  let b3 ← Bcd.Encode t.Hour
  let b4 ← Bcd.Encode t.Minute
  let b5 ← Bcd.Encode t.Second
  let b6 ← Bcd.EncodeSigned (t.off.tdiv (15 * 60))
  return [b0, b1, b2, b3, b4, b5, b6]

/-- `Timestamp.UnmarshalBinary`, timestamp.go:45-75 (loop unrolled).  `time.UTC` and a fixed zone of offset
0 are the same location in the model. -/
def UnmarshalBinary (src : Bytes) : M GoTime :=
  if src.length < 7 then fail .underflow
  else do
    let i0 ← Bcd.Decode (← idx src 0)
    let i1 ← Bcd.Decode (← idx src 1)
    let i2 ← Bcd.Decode (← idx src 2)
    let i3 ← Bcd.Decode (← idx src 3)
    let i4 ← Bcd.Decode (← idx src 4)
    let i5 ← Bcd.Decode (← idx src 5)
    let tz ← Bcd.DecodeSigned (← idx src 6)
    let year := if i0 < 70 then i0 + 2000 else i0 + 1900
    return GoTime.date year i1 i2 i3 i4 i5 (tz * 15 * 60)

end Timestamp
end Verif.Model
