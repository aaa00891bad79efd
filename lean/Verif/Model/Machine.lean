import Verif.Model.CalDay
import Verif.Model.YearMachine
import Verif.Model.Horakhun
import Verif.Model.SuriyaDay
/-
The calendar on machine numbers: the functions of Model/Year, Model/Kattika, Model/Uposatha, Model/SuriyaDay (integer part)
and Model/CalDay with a wrap after every operation on `int` (32 or 64 bits) and `time.Duration` (64 bits), with float64 rounding in `Init`,
and with 64-bit seconds in `Time.Add`. Functions without arithmetic are those of the other files. The functions of
package `time` other than `Add` remain those of Go/Time.lean.
-/
set_option autoImplicit false

namespace Verif.Model
open Verif.Go

/-- Go `Time.Add`: the seconds since 0001-01-01Z wrap at 64 bits, the nanoseconds are kept apart. -/
def addMachine (t : Time) (d : Int) : Time :=
  { t with nanos := wrap64 ((t.nanos + d) / nsPerSec) * nsPerSec + (t.nanos + d) % nsPerSec }

namespace SuriyaYear

/-- suriya_year.go:23-28. -/
def isAdhikamasaM (s : IntSize) (su : SuriyaYear) : Bool :=
  let su_next := initMachine s (wrapInt s (su.Year + 1))
  !su_next.wouldBeAdhikamasa && su.wouldBeAdhikamasa

/-- suriya_year.go:129-133. -/
def hasCarriedAdhikavaraM (s : IntSize) (su : SuriyaYear) : Bool :=
  let last_year := initMachine s (wrapInt s (su.Year - 1))
  last_year.isAdhikamasaM s && last_year.wouldBeAdhikavara

/-- suriya_year.go:43-50. -/
def isAdhikavaraRuleM (s : IntSize) (su : SuriyaYear) : Bool :=
  if su.isAdhikamasaM s then false
  else if su.hasCarriedAdhikavaraM s then true
  else su.wouldBeAdhikavara

/-- suriya_year.go:36-51. -/
def isAdhikavaraM (s : IntSize) (cfg : Config) (su : SuriyaYear) : Bool :=
  if cfg.useExceptions then
    match cfg.exceptions su.Year with
    | some b => b
    | none => su.isAdhikavaraRuleM s
  else su.isAdhikavaraRuleM s

/-- suriya_year.go:147-158 / 163-174. -/
def deltaLoopM (s : IntSize) (test : SuriyaYear → Bool) (limit suYear : Int) : (fuel : Nat) → (year : Int) → Option Int
  | 0, _ => none
  | fuel + 1, year =>
    let check := initMachine s year
    if test check then some (wrapInt s (suYear - check.Year))
    else if wrapInt s (suYear - check.Year) > limit then some (-1)
    else deltaLoopM s test limit suYear fuel (wrapInt s (year - 1))

/-- suriya_year.go:146-159. -/
def deltaAdhikamasaM (s : IntSize) (su : SuriyaYear) : Option Int :=
  deltaLoopM s (isAdhikamasaM s) 6 su.Year 100 (wrapInt s (su.Year - 1))

/-- suriya_year.go:162-175. -/
def deltaAdhikavaraM (s : IntSize) (cfg : Config) (su : SuriyaYear) : Option Int :=
  deltaLoopM s (isAdhikavaraM s cfg) 12 su.Year 100 (wrapInt s (su.Year - 1))

/-- suriya_year.go:178-189. -/
def yearLengthM (s : IntSize) (cfg : Config) (su : SuriyaYear) : Int :=
  let days : Int := 6 * (30 + 29)
  if su.isAdhikamasaM s then wrapInt s (days + 30)
  else if su.isAdhikavaraM s cfg then wrapInt s (days + 1)
  else days

end SuriyaYear

/-- helpers.go:91-106. -/
def kattikaLoopM (s : IntSize) (cfg : Config) (target direction : Int) : (fuel : Nat) → (y : Int) → (kattika_date : Time) → Option Time
  | 0, y, kattika_date => if y = target then some kattika_date else none
  | fuel + 1, y, kattika_date =>
    if y = target then some kattika_date
    else
      let su_year := if direction = 1 then SuriyaYear.initMachine s (wrapInt s (y + 1)) else SuriyaYear.initMachine s y
      let n : Int := 6 * 29 + 6 * 30
      let n := if su_year.isAdhikamasaM s then wrapInt s (n + 30)
               else if su_year.isAdhikavaraM s cfg then wrapInt s (n + 1)
               else n
      kattikaLoopM s cfg target direction fuel (wrapInt s (y + direction))
        (addMachine kattika_date (daysDuration (wrapInt s (n * direction))))

/-- helpers.go:82-88. -/
def kattikaDirectionM (s : IntSize) (solar_year : Int) : Int :=
  if kattikaEpoch.year < wrapInt s (solar_year - 1) then 1
  else if kattikaEpoch.year > wrapInt s (solar_year - 1) then -1
  else 0

/-- helpers.go:75-109 `CalculatePreviousKattika`; `none` means the model's fuel ran out. -/
def calculatePreviousKattikaM? (s : IntSize) (cfg : Config) (solar_year : Int) : Option Time :=
  kattikaLoopM s cfg (wrapInt s (solar_year - 1)) (kattikaDirectionM s solar_year)
    (wrapInt s (solar_year - 1) - kattikaEpoch.year).natAbs kattikaEpoch.year kattikaEpoch

/-- helpers.go:75-109. -/
def calculatePreviousKattikaM (s : IntSize) (cfg : Config) (solar_year : Int) : Time :=
  (calculatePreviousKattikaM? s cfg solar_year).getD default

/-- suriya_year.go:192-206. -/
def SuriyaYear.asalhaPujaM (s : IntSize) (cfg : Config) (su : SuriyaYear) : Time :=
  let days : Int := 4 * (29 + 30)
  let days := if su.isAdhikamasaM s then wrapInt s (days + 30)
              else if su.isAdhikavaraM s cfg then wrapInt s (days + 1)
              else days
  addMachine (calculatePreviousKattikaM s cfg su.Year) (daysDuration days)

/-- suriya_day.go:31-66, integer part. -/
def SuriyaDay.initM (s : IntSize) (ce_year lunar_year_day : Int) : SuriyaDay :=
  let suYear := SuriyaYear.initMachine s ce_year
  let cs := wrapInt s (ce_year - CSdiff)
  let elapsedDays := wrapInt s (lunar_year_day - suYear.Tithi)
  let horakhun := wrapInt s (suYear.Horakhun + elapsedDays)
  let kammacubala := wrapInt s (wrapInt s (KammacubalaDaily -
    (wrapInt s (wrapInt s (cs * EraDays) + EraHorakhun)).tmod EraYears) + wrapInt s (elapsedDays * KammacubalaDaily))
  let uccabala := (wrapInt s (horakhun + EraUccabala)).tmod 3232
  let ai := wrapInt s (wrapInt s (horakhun * CycleDaily) + EraAvoman)
  let avoman := ai.tmod CycleSolar
  let bi := wrapInt s (wrapInt s (intFloor s (fl (toFloat ai / CycleSolar)) + EraMasaken) + horakhun)
  { Year := ce_year, BE_Year := wrapInt s (ce_year + BEdiff), CS_Year := cs, Day := lunar_year_day
    Horakhun := horakhun, Kammacubala := kammacubala, Uccabala := uccabala, Avoman := avoman
    Masaken := intFloor s (toFloat (bi.tdiv MonthLength)), Tithi := bi.tmod MonthLength }

/-- uposatha_moon.go:99-107. -/
def nextMonthM (s : IntSize) (is_adhikamasa_year : Bool) (month : Int) : Int :=
  if month = 13 then 9
  else if month = 8 ∧ is_adhikamasa_year = true then 13
  else if month = 12 then 1
  else wrapInt s (month + 1)

/-- uposatha_moon.go:50-93. -/
def nextFullM (s : IntSize) (lu : UposathaMoon) (is_adhikamasa_year : Bool) : UposathaMoon :=
  { nextFull lu is_adhikamasa_year with S_Number := wrapInt s (lu.S_Number + 1) }

/-- uposatha_moon.go:95-158. -/
def nextNewM (s : IntSize) (lu : UposathaMoon) (is_adhikamasa_year is_adhikavara_year : Bool) : UposathaMoon :=
  let lunarMonth := nextMonthM s is_adhikamasa_year lu.LunarMonth
  let hasAdhikavara := is_adhikavara_year && decide (lunarMonth = 8)
  let mDays : Int := if hasAdhikavara then 30 else if lunarMonth.tmod 2 = 1 then 30 else 29
  let uDays : Int := if mDays = 29 then 14 else 15
  let sTotal : Int :=
    if is_adhikamasa_year = true ∧ ((lunarMonth ≥ 5 ∧ lunarMonth ≤ 8) ∨ lunarMonth = 13) then 10 else 8
  let last := decide (lu.S_Number < lu.S_Total)
  { Phase := "new"
    LunarMonth := lunarMonth
    HasAdhikavara := hasAdhikavara
    M_Days := mDays
    U_Days := uDays
    S_Total := sTotal
    S_Number := if last then wrapInt s (lu.S_Number + 1) else 1
    LunarSeason := if last then lu.LunarSeason
                   else if lu.LunarMonth = 12 then 1 else wrapInt s (lu.LunarSeason + 1)
    LunarYear := if last then lu.LunarYear
                 else if lu.LunarMonth = 12 then wrapInt s (lu.LunarYear + 1) else lu.LunarYear }

/-- uposatha_moon.go:28-163 `NextUposatha`. -/
def UposathaMoon.nextUposathaM (s : IntSize) (cfg : Config) (lu : UposathaMoon) : UposathaMoon :=
  let su_year := SuriyaYear.initMachine s lu.Date.year
  let is_adhikamasa_year := su_year.isAdhikamasaM s
  let is_adhikavara_year := su_year.isAdhikavaraM s cfg
  let nu := if lu.Phase = "new" then nextFullM s lu is_adhikamasa_year
            else nextNewM s lu is_adhikamasa_year is_adhikavara_year
  { nu with Date := addMachine lu.Date (daysDuration nu.U_Days) }

/-- cal_day.go:189-200. -/
def kattikaSeedM (s : IntSize) (cfg : Config) (solar_year : Int) : UposathaMoon :=
  let d := calculatePreviousKattikaM s cfg solar_year
  { Date := d, Calendar := 0, Phase := "full", S_Number := 8, S_Total := 8, U_Days := 15,
    M_Days := 29, LunarMonth := 12, LunarSeason := 3, LunarYear := wrapInt s (d.year + BEdiff) }

/-- cal_day.go:202-299. -/
def generateLoopM (s : IntSize) (cfg : Config) (solar_year : Int) :
    (fuel : Nat) → (last_uposatha : UposathaMoon) → (events : List CalendarEvent) → Option (List CalendarEvent)
  | 0, last_uposatha, events => if last_uposatha.Date.year ≤ solar_year then none else some events
  | fuel + 1, last_uposatha, events =>
    if last_uposatha.Date.year ≤ solar_year then
      let uposatha := last_uposatha.nextUposathaM s cfg
      generateLoopM s cfg solar_year fuel uposatha
        (events ++ iterationEvents solar_year { uposatha with Status := 2 })
    else some events

/-- cal_day.go:181-302 `GenerateSolarYear`; the fuel is an artefact of the model. -/
def generateSolarYearM? (s : IntSize) (cfg : Config) (solar_year : Int) : Option (List CalendarEvent) :=
  generateLoopM s cfg solar_year (generateFuel cfg solar_year) (kattikaSeedM s cfg solar_year) []

/-- cal_day.go:181-302. -/
def generateSolarYearM (s : IntSize) (cfg : Config) (solar_year : Int) : List CalendarEvent :=
  (generateSolarYearM? s cfg solar_year).getD []

/-- astro_moon.go:48-103. -/
def astroLoopM (s : IntSize) (files : Int → AstroFile) (fromDate toDate : Time) :
    (n : Nat) → (year : Int) → (moons : List AstroMoon) → Option (List AstroMoon)
  | 0, _, moons => some moons
  | n + 1, year, moons =>
    match files year with
    | .missing => some moons
    | .undecodable => none
    | .resp success errorCode response =>
      if success ≠ true then astroLoopM s files fromDate toDate n (wrapInt s (year + 1)) moons
      else if errorCode.length ≠ 0 then astroLoopM s files fromDate toDate n (wrapInt s (year + 1)) moons
      else
        match astroMoonsOf fromDate toDate response with
        | none => none
        | some ms => astroLoopM s files fromDate toDate n (wrapInt s (year + 1)) (moons ++ ms)

/-- cal_day.go:167-175. -/
def eventYearsM (s : IntSize) (cfg : Config) (fromDate toDate : Time) :
    (n : Nat) → (year : Int) → (cal_days : List CalDay) → List CalDay
  | 0, _, cal_days => cal_days
  | n + 1, year, cal_days =>
    let cal_days := (generateSolarYearM s cfg year).foldl (fun cal_days d =>
      if d.getDate.before fromDate || d.getDate.after toDate then cal_days
      else mergeIntoCalDays cal_days d) cal_days
    eventYearsM s cfg fromDate toDate n (wrapInt s (year + 1)) cal_days

/-- cal_day.go:160-179 `GetCalDays`; `none` is a panic. -/
def getCalDaysM (s : IntSize) (cfg : Config) (files : Int → AstroFile) (fromDate toDate : Time) : Option (List CalDay) :=
  match astroLoopM s files fromDate toDate (yearCount fromDate toDate) fromDate.year [] with
  | none => none
  | some moons =>
    let cal_days := moons.foldl (fun cal_days d => mergeIntoCalDays cal_days (.astro d)) []
    let cal_days := eventYearsM s cfg fromDate toDate (yearCount fromDate toDate) fromDate.year cal_days
    some (cal_days.mergeSort (fun a b => !calDayLess b a))

end Verif.Model
