import Verif.Model.Names
/-
Model of the command line program suriya/suriya.go and of `icalEvent` in calendar_event.go.
File output and exit codes are in Model/CliRun, the parsing of the command line in Model/Main, the texts written in Model/Json and
Model/Ical.
-/
set_option autoImplicit false

namespace Verif.Model
open Verif.Go

/-! ### ical -/

/-- ical.VEvent as filled by calendar_event.go:17-28, without the random `UID` and the clock reading `DTSTAMP`. -/
structure VEvent where
  DTSTART : Time
  DTEND : Time
  SUMMARY : String
  AllDay : Bool
  TZID : String
deriving DecidableEq, Repr

/-- `Location().String()`: "UTC" for UTC. Other fixed offsets have the empty name of `time.Parse`'s fabricated
locations; named zones of a caller are not represented. -/
def locationName (t : Time) : String := if t.offset = 0 then "UTC" else ""

/-- calendar_event.go:17-28 `icalEvent`. -/
def icalEvent (d : CalendarEvent) : VEvent :=
  { DTSTART := d.getDate, DTEND := d.getDate.add (24 * 3600 * nsPerSec), SUMMARY := d.string, AllDay := true,
    TZID := locationName d.getDate }

/-- suriya/suriya.go:140-165, body of the loop: the components appended for one day. -/
def icalOfDay (day : CalDay) : List VEvent :=
  (match day.UposathaMoon with | m :: _ => [icalEvent (.uposatha m)] | [] => []) ++
  (match day.HalfMoon with | m :: _ => [icalEvent (.half m)] | [] => []) ++
  (day.MajorEvents.map fun d => icalEvent (.major d)) ++
  (day.Events.map fun d => icalEvent (.event d))

/-- suriya/suriya.go:138-165: the components of the calendar. -/
def icalComponents (cal_days : List CalDay) : List VEvent :=
  cal_days.foldl (fun components day => components ++ icalOfDay day) []

/-! ### caldays -/

/-- `m[k] = append(m[k], v)` on a map of slices, as an association list with unique keys. -/
def mapAppend {κ ν : Type} [DecidableEq κ] (m : List (κ × List ν)) (k : κ) (v : ν) : List (κ × List ν) :=
  match m with
  | [] => [(k, [v])]
  | (k', vs) :: rest => if k' = k then (k', vs ++ [v]) :: rest else (k', vs) :: mapAppend rest k v

/-- suriya/suriya.go:51-60: the days grouped by year. -/
def daysByYear (cal_days : List CalDay) : List (String × List CalDay) :=
  cal_days.foldl (fun m day => mapAppend m (toString day.Date.year) day) []

/-! ### dates -/

/-- Go `isDigit(s, 0)` and its value. -/
def digit? (c : Char) : Option Int :=
  if '0'.toNat ≤ c.toNat ∧ c.toNat ≤ '9'.toNat then some ((c.toNat : Int) - 48) else none

/-- Go `time.getnum(s, fixed = true)`: two digits. -/
def getnum2 : List Char → Option (Int × List Char)
  | a :: b :: rest =>
    match digit? a, digit? b with
    | some x, some y => some (x * 10 + y, rest)
    | _, _ => none
  | _ => none

/-- Go `time.Parse`, `stdLongYear`: four digits. -/
def getYear : List Char → Option (Int × List Char)
  | a :: b :: c :: d :: rest =>
    match digit? a, digit? b, digit? c, digit? d with
    | some w, some x, some y, some z => some (w * 1000 + x * 100 + y * 10 + z, rest)
    | _, _, _, _ => none
  | _ => none

/-- Go `time.skip(value, "-")`. -/
def skipDash : List Char → Option (List Char)
  | c :: rest => if c = '-' then some rest else none
  | [] => none

/-- Go `time.daysIn`. -/
def daysIn (month year : Int) : Int :=
  if month = 2 && isLeap year then 29 else daysBefore month - daysBefore (month - 1)

/-- Go `time.Parse("2006-01-02", value)` on the characters of `value`; `none` is the error return. -/
def parseDateChars (value : List Char) : Option Time :=
  match getYear value with
  | none => none
  | some (year, value) =>
    match skipDash value with
    | none => none
    | some value =>
      match getnum2 value with
      | none => none
      | some (month, value) =>
        if month ≤ 0 ∨ 12 < month then none
        else
          match skipDash value with
          | none => none
          | some value =>
            match getnum2 value with
            | none => none
            | some (day, value) =>
              if value ≠ [] then none
              else if day < 1 ∨ day > daysIn month year then none
              else some (date year month day 0 0)

/-- Go `time.Parse("2006-01-02", value)`. -/
def parseDate (value : String) : Option Time := parseDateChars value.toList

/-- One branch of suriya/suriya.go:20-46: the flag if it is not empty, else the default; `none` is `os.Exit(1)`. -/
def cliDate (flag : String) (dflt : Time) : Option Time :=
  if 0 < flag.length then parseDate flag else some dflt

/-- suriya/suriya.go:20-46 `cliInit`; `none` is `os.Exit(1)`. The clock is read once per missing flag (lines 32 and 42):
`nowFrom` and `nowTo` are the values of `time.Now().Year()` there. -/
def cliInit (nowFrom nowTo : Int) (fromFlag toFlag : String) : Option (Time × Time) :=
  match cliDate fromFlag (date nowFrom 1 1 0 0) with
  | none => none
  | some fromDate =>
    match cliDate toFlag (date nowTo 12 31 0 0) with
    | none => none
    | some toDate => some (fromDate, toDate)

/-- suriya/suriya.go:48-60 `actionCalDays` up to the grouping: `none` is an exit or a panic. -/
def actionCalDays (cfg : Config) (files : Int → AstroFile) (nowFrom nowTo : Int) (fromFlag toFlag : String) :
    Option (List (String × List CalDay)) :=
  match cliInit nowFrom nowTo fromFlag toFlag with
  | none => none
  | some (fromDate, toDate) => (getCalDays cfg files fromDate toDate).map daysByYear

/-- suriya/suriya.go:89-165 `actionIcal` up to the encoding: `none` is an exit or a panic. -/
def actionIcal (cfg : Config) (files : Int → AstroFile) (nowFrom nowTo : Int) (fromFlag toFlag : String) :
    Option (List VEvent) :=
  match cliInit nowFrom nowTo fromFlag toFlag with
  | none => none
  | some (fromDate, toDate) => (getCalDays cfg files fromDate toDate).map icalComponents

end Verif.Model
