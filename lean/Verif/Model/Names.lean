import Verif.Model.CalDay
/-
Model of the name tables of helpers.go:111-173 and of the `String` methods of the event types.
-/
set_option autoImplicit false

namespace Verif.Model
open Verif.Go

/-- A Go map literal read with `m[key]`: the value, or the zero value for an absent key. -/
def mapGet {κ ν : Type} [DecidableEq κ] (m : List (κ × ν)) (zero : ν) (k : κ) : ν :=
  ((m.find? fun p => decide (p.1 = k)).map Prod.snd).getD zero

/-- helpers.go:111-126 `monthToInt`. -/
def monthTable : List (String × Int) :=
  [("null", 0), ("magasira", 1), ("phussa", 2), ("magha", 3), ("phagguna", 4), ("citta", 5), ("vesakha", 6),
   ("jettha", 7), ("asalha", 8), ("2nd asalha", 13), ("savana", 9), ("bhaddapada", 10), ("assayuja", 11),
   ("kattika", 12)]

/-- helpers.go:128-130 `MonthToInt`. -/
def monthToInt (month : String) : Int := mapGet monthTable 0 month

/-- helpers.go:132-137 `seasonToInt`. -/
def seasonTable : List (String × Int) := [("null", 0), ("hemanta", 1), ("gimhana", 2), ("vassana", 3)]

/-- helpers.go:139-141 `SeasonToInt`. -/
def seasonToInt (season : String) : Int := mapGet seasonTable 0 season

/-- helpers.go:143-148 `seasonName`. -/
def seasonNameTable : List (Int × String) := [(0, ""), (1, "Hemanta"), (2, "Gimha"), (3, "Vassāna")]

/-- helpers.go:150-152 `SeasonName`. -/
def seasonName (number : Int) : String := mapGet seasonNameTable "" number

/-- helpers.go:154-159 `calendarToInt`. -/
def calendarTable : List (String × Int) := [("mahanikaya", 0), ("dhammayut", 1), ("srilanka", 2), ("myanmar", 3)]

/-- helpers.go:161-163 `CalendarToInt`. -/
def calendarToInt (calendar : String) : Int := mapGet calendarTable 0 calendar

/-- helpers.go:165-169 `statusToInt`. -/
def statusTable : List (String × Int) := [("draft", 0), ("predicted", 1), ("confirmed", 2)]

/-- helpers.go:171-173 `StatusToInt`. -/
def statusToInt (status : String) : Int := mapGet statusTable 0 status

/-- The separators of Go's `strings.Title` among ASCII characters: everything but letters, digits and `_`. Characters
outside ASCII are treated as letters without an upper-case form (the library's phases are ASCII words). -/
def isSeparator (c : Char) : Bool := !(c.isAlphanum || c == '_' || decide (128 ≤ c.toNat))

/-- `strings.Title` on characters, given the character before. -/
def titleFrom (prev : Char) : List Char → List Char
  | [] => []
  | c :: cs => (if isSeparator prev then c.toUpper else c) :: titleFrom c cs

/-- `strings.Title` (standard library), for ASCII strings. -/
def title (s : String) : String := String.ofList (titleFrom ' ' s.toList)

/-- uposatha_moon.go:175-180 `UposathaMoon.String`. -/
def UposathaMoon.string (m : UposathaMoon) : String :=
  if m.Phase.length ≠ 0 then
    title m.Phase ++ " Moon - " ++ toString m.U_Days ++ " day " ++ seasonName m.LunarSeason ++ " " ++
      toString m.S_Number ++ "/" ++ toString m.S_Total
  else ""

/-- half_moon.go:15-20 `HalfMoon.String`. -/
def HalfMoon.string (m : HalfMoon) : String := if m.Phase.length ≠ 0 then title m.Phase ++ " Moon" else ""

/-- astro_moon.go:34-39 `AstroMoon.String`. -/
def AstroMoon.string (m : AstroMoon) : String := if m.Phase.length ≠ 0 then title m.Phase ++ " Moon" else ""

/-- The `String` method of the interface; event.go:30-32 and major_event.go:30-32 return the summary. -/
def CalendarEvent.string : CalendarEvent → String
  | uposatha m => m.string
  | half m => m.string
  | astro m => m.string
  | major e => e.Summary
  | event e => e.Summary

/-- cal_day.go:81-85 `CalDay.String`. -/
def CalDay.string (c : CalDay) : String :=
  ", ".intercalate [c.getUposathaMoon.string, c.getAstroMoon.string, c.getHalfMoon.string]

end Verif.Model
