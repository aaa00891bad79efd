/-
The part of Go's standard library `time` used by the code.
Not code of /repo: this is the documented behaviour of package `time`
(proleptic Gregorian calendar, `Add`, `AddDate`, `Year/Month/Day`, `Date`, `Before/After/Equal`).
Locations are modelled as fixed UTC offsets (no DST rules); every time value the library itself
creates is in UTC, so this only restricts the locations of times supplied by a caller.
-/
set_option autoImplicit false

namespace Verif.Go

/-- Nanoseconds per second (`time.Second`). -/
abbrev nsPerSec : Int := 1000000000
/-- Nanoseconds per 24 hours (`time.Hour * 24`). -/
abbrev nsPerDay : Int := 86400000000000

/-- `time.Time`: an instant (nanoseconds since 0001-01-01T00:00:00Z, Go's internal epoch, so that the
zero value is Go's zero `Time`) together with the UTC offset in seconds of its `Location`. -/
structure Time where
  nanos : Int
  offset : Int
deriving DecidableEq, Repr, Inhabited

namespace Time

/-- Whole local days since 0001-01-01 (the `abs / secondsPerDay` of Go's `absDate`). -/
def day (t : Time) : Int := (t.nanos + t.offset * nsPerSec) / nsPerDay

/-- `Time.Add`. -/
def add (t : Time) (d : Int) : Time := { t with nanos := t.nanos + d }

/-- `Time.Before`. -/
def before (t u : Time) : Bool := decide (t.nanos < u.nanos)
/-- `Time.After`. -/
def after (t u : Time) : Bool := decide (t.nanos > u.nanos)
/-- `Time.Equal`: same instant. -/
def equal (t u : Time) : Bool := decide (t.nanos = u.nanos)
/-- `Time.UTC`: same instant, UTC location. -/
def utc (t : Time) : Time := { t with offset := 0 }

end Time

/-- Go `time.isLeap`. -/
def isLeap (y : Int) : Bool := y % 4 == 0 && (y % 100 != 0 || y % 400 == 0)

/-- Go `time.absDate`, year part: (year, day of the year counted from 0), from the number of
days since 0001-01-01. Go counts from a year congruent to 1 modulo 400 in the far past with unsigned
arithmetic, which is floor division here. -/
def yearYday (d : Int) : Int × Int :=
  let n400 := d / 146097
  let d := d - 146097 * n400
  let n := d / 36524
  let n100 := n - n / 4
  let d := d - 36524 * n100
  let n4 := d / 1461
  let d := d - 1461 * n4
  let n := d / 365
  let n1 := n - n / 4
  let d := d - 365 * n1
  (400 * n400 + 100 * n100 + 4 * n4 + n1 + 1, d)

/-- Go `time.daysBefore[m]`: days of a common year before month `m+1`. -/
def daysBefore (m : Int) : Int :=
  if m ≤ 0 then 0 else if m = 1 then 31 else if m = 2 then 59 else if m = 3 then 90
  else if m = 4 then 120 else if m = 5 then 151 else if m = 6 then 181 else if m = 7 then 212
  else if m = 8 then 243 else if m = 9 then 273 else if m = 10 then 304 else if m = 11 then 334
  else 365

/-- Go `time.absDate`, month/day part: (month 1..12, day of month 1..31) from year and day of year. -/
def monthDay (year yday : Int) : Int × Int :=
  if isLeap year && yday == 59 then (2, 29)
  else
    let day := if isLeap year && decide (yday > 59) then yday - 1 else yday
    let month := day / 31
    let stop := daysBefore (month + 1)
    if day ≥ stop then (month + 2, day - stop + 1)
    else (month + 1, day - daysBefore month + 1)

namespace Time
/-- `Time.Year`. -/
def year (t : Time) : Int := (yearYday t.day).1
/-- `Time.Month`. -/
def month (t : Time) : Int := (monthDay (yearYday t.day).1 (yearYday t.day).2).1
/-- `Time.Day` (day of the month). -/
def dayOfMonth (t : Time) : Int := (monthDay (yearYday t.day).1 (yearYday t.day).2).2
/-- Nanoseconds since local midnight (`Hour`, `Minute`, `Second`, `Nanosecond` together). -/
def sinceMidnight (t : Time) : Int := (t.nanos + t.offset * nsPerSec) % nsPerDay
end Time

/-- Go `time.daysSinceEpoch` (counted from 0001-01-01): days before January 1 of year `y`. -/
def daysSinceEpoch (y : Int) : Int :=
  let y := y - 1
  let n400 := y / 400
  let y := y - 400 * n400
  let n100 := y / 100
  let y := y - 100 * n100
  let n4 := y / 4
  let y := y - 4 * n4
  146097 * n400 + 36524 * n100 + 1461 * n4 + 365 * y

/-- Go `time.Date(year, month, day, …, loc)` with the clock given as nanoseconds since midnight.
`month` must be in 1..12 (the code never passes another one); `day` may overflow the month, as in Go. -/
def date (year month day clock offset : Int) : Time :=
  let d := daysSinceEpoch year + daysBefore (month - 1)
  let d := if isLeap year && decide (month ≥ 3) then d + 1 else d
  let d := d + (day - 1)
  { nanos := d * nsPerDay + clock - offset * nsPerSec, offset := offset }

namespace Time
/-- `Time.AddDate(0, 0, days)`: Go re-assembles the date from year, month, day+days and the clock. -/
def addDays (t : Time) (days : Int) : Time :=
  date t.year t.month (t.dayOfMonth + days) t.sinceMidnight t.offset
end Time

end Verif.Go
