import Verif.Model.Json
/-
Model of the text that the `ical` command writes: suriya/suriya.go:117-172 and the encoder of the package
github.com/soh335/ical. The source of that package is not in the repository; the model follows its sample output
suriya/testdata/mahanikaya-from-2013-01-01-to-2017-12-31.ical and is compared with it in Tests/Conformance.
Simplification: only the branch of the encoder for all-day events in UTC, the only ones that occur (`c36_fields`).
-/
set_option autoImplicit false

namespace Verif.Model
open Verif.Go

/-- What calendar_event.go:19-20 reads from outside for one component: the random UID and the clock. -/
structure Stamp where
  uid : String
  now : Time
deriving DecidableEq, Repr

/-- Go `Format("20060102")` for years from 0. -/
def icsDate (t : Time) : List Char := appendInt t.year 4 ++ appendInt t.month 2 ++ appendInt t.dayOfMonth 2

/-- Go `UTC().Format("20060102T150405Z")` for years from 0. -/
def icsDateTime (t : Time) : List Char :=
  let u : Time := ⟨t.nanos, 0⟩
  let sec := u.sinceMidnight / nsPerSec
  icsDate u ++ 'T' :: appendInt (sec / 3600) 2 ++ appendInt (sec / 60 % 60) 2 ++ appendInt (sec % 60) 2 ++ ['Z']

/-- suriya/suriya.go:117-136: the properties of the calendar, without the empty ones. -/
def icsHeader : List (String × String) :=
  let calendar := "mahanikaya"
  let calendarTxt := "Mahānikāya"
  let calendarName := "Uposatha Moondays (" ++ calendarTxt ++ ")"
  [("VERSION", "2.0"), ("PRODID", "Uposatha Moondays " ++ calendarTxt ++ " EN"),
   ("URL", "http://splendidmoons.github.io/ical/" ++ calendar ++ ".ical"), ("NAME", calendarName),
   ("X-WR-CALNAME", calendarName), ("DESCRIPTION", calendarName), ("X-WR-CALDESC", calendarName),
   ("REFRESH-INTERVAL;VALUE=DURATION", "PT12H"), ("X-PUBLISHED-TTL", "PT12H"), ("COLOR", "244:196:48"),
   ("CALSCALE", "GREGORIAN"), ("METHOD", "PUBLISH")]

/-- `VEvent.EncodeIcal` for an all-day event in UTC: the lines as name and value. -/
def vEventLines (v : VEvent) (s : Stamp) : List (String × String) :=
  [("BEGIN", "VEVENT"), ("DTSTAMP", String.ofList (icsDateTime s.now)), ("UID", s.uid), ("SUMMARY", v.SUMMARY),
   ("DTSTART;VALUE=DATE", String.ofList (icsDate v.DTSTART)), ("DTEND;VALUE=DATE", String.ofList (icsDate v.DTEND)),
   ("END", "VEVENT")]

/-- `VCalendar.Encode`: the lines as name and value; `stamps i` belongs to the component number `i`. -/
def vCalendarLines (components : List VEvent) (stamps : Nat → Stamp) : List (String × String) :=
  ("BEGIN", "VCALENDAR") :: icsHeader ++ (components.mapIdx fun i v => vEventLines v (stamps i)).flatten ++
    [("END", "VCALENDAR")]

/-- One line of the text. -/
def icsLine (l : String × String) : List Char := l.1.toList ++ ':' :: l.2.toList

/-- `VCalendar.Encode`: the text. -/
def icsText (components : List VEvent) (stamps : Nat → Stamp) : List Char :=
  (vCalendarLines components stamps).flatMap fun l => icsLine l ++ ['\r', '\n']

/-- suriya/suriya.go:89-190 `actionIcal`: the text written; `none` is an exit or a panic. -/
def icalText (cfg : Config) (files : Int → AstroFile) (stamps : Nat → Stamp) (nowFrom nowTo : Int)
    (fromFlag toFlag : String) : Option (List Char) := do
  let components ← actionIcal cfg files nowFrom nowTo fromFlag toFlag
  some (icsText components stamps)

end Verif.Model
