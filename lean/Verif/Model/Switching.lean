import Verif.Model.CalDay
/-
Model of the functions that read the package variables `UseExceptions` and `AdhikavaraExceptions` (suriya.go:27-36)
while other code of the program assigns to them. The only function that reads them is `Is_Adhikavara`
(suriya_year.go:36-51); the others are repeated here with the reads in the order in which the code makes them.

`Reads` gives the settings found by each read, counted from the beginning of the program. It may be any function: every
way in which the assignments of other goroutines fall between the reads is such a function. A function of the model takes
the number of reads made before it and returns its result with the number of reads made after it.

Left out: changes inside the table by another goroutine, which the Go runtime may stop with a fatal error
(`concurrent map read and map write`). An assignment of another table to `AdhikavaraExceptions` is covered.
-/
set_option autoImplicit false

namespace Verif.Model.Switching
open Verif.Go Verif.Model

/-- The settings found by the successive reads. -/
abbrev Reads := Nat → Config

/-- suriya_year.go:36-51 `Is_Adhikavara`: line 37 reads the switch, line 38 the table, line 39 the table again. A key that
is absent in the second lookup gives `false`. -/
def isAdhikavara (reads : Reads) (k : Nat) (su : SuriyaYear) : Bool × Nat :=
  if (reads k).useExceptions then
    if ((reads (k + 1)).exceptions su.Year).isSome then (((reads (k + 2)).exceptions su.Year).getD false, k + 3)
    else (su.isAdhikavaraRule, k + 2)
  else (su.isAdhikavaraRule, k + 1)

/-- suriya_year.go:178-189 `YearLength`. -/
def yearLength (reads : Reads) (k : Nat) (su : SuriyaYear) : Int × Nat :=
  let days : Int := 6 * (30 + 29)
  if su.isAdhikamasa then (days + 30, k)
  else
    let b := isAdhikavara reads k su
    (if b.1 then days + 1 else days, b.2)

/-- helpers.go:91-106, the loop of `CalculatePreviousKattika`; compare `Model.kattikaLoop`. -/
def kattikaLoop (reads : Reads) (target direction : Int) :
    (fuel : Nat) → (k : Nat) → (y : Int) → (kattika_date : Time) → Option (Time × Nat)
  | 0, k, y, kattika_date => if y = target then some (kattika_date, k) else none
  | fuel + 1, k, y, kattika_date =>
    if y = target then some (kattika_date, k)
    else
      let su_year := if direction = 1 then SuriyaYear.init (y + 1) else SuriyaYear.init y
      let n := yearLength reads k su_year
      kattikaLoop reads target direction fuel n.2 (y + direction) (kattika_date.add (n.1 * direction * nsPerDay))

/-- helpers.go:75-109 `CalculatePreviousKattika`. The default value is never used (`c71_kattika`). -/
def calculatePreviousKattika (reads : Reads) (k : Nat) (solar_year : Int) : Time × Nat :=
  (kattikaLoop reads (solar_year - 1) (kattikaDirection solar_year)
    (solar_year - 1 - kattikaEpoch.year).natAbs k kattikaEpoch.year kattikaEpoch).getD (default, k)

/-- suriya_year.go:192-206 `AsalhaPuja`: its own condition first, then the Kattika. -/
def asalhaPuja (reads : Reads) (k : Nat) (su : SuriyaYear) : Time × Nat :=
  let days : Int := 4 * (29 + 30)
  let r : Int × Nat :=
    if su.isAdhikamasa then (days + 30, k)
    else
      let b := isAdhikavara reads k su
      (if b.1 then days + 1 else days, b.2)
  let prev_kattika := calculatePreviousKattika reads r.2 su.Year
  (prev_kattika.1.add (r.1 * nsPerDay), prev_kattika.2)

/-- uposatha_moon.go:28-163 `NextUposatha`; line 34 reads the settings whatever the phase. -/
def nextUposatha (reads : Reads) (k : Nat) (lu : UposathaMoon) : UposathaMoon × Nat :=
  let su_year := SuriyaYear.init lu.Date.year
  let is_adhikamasa_year := su_year.isAdhikamasa
  let is_adhikavara_year := isAdhikavara reads k su_year
  let nu := if lu.Phase = "new" then nextFull lu is_adhikamasa_year
            else nextNew lu is_adhikamasa_year is_adhikavara_year.1
  ({ nu with Date := lu.Date.add (nu.U_Days * nsPerDay) }, is_adhikavara_year.2)

/-- cal_day.go:189-200: the Kattika seed. -/
def kattikaSeed (reads : Reads) (k : Nat) (solar_year : Int) : UposathaMoon × Nat :=
  let d := calculatePreviousKattika reads k solar_year
  ({ Date := d.1, Calendar := 0, Phase := "full", S_Number := 8, S_Total := 8, U_Days := 15,
     M_Days := 29, LunarMonth := 12, LunarSeason := 3, LunarYear := d.1.year + BEdiff }, d.2)

/-- cal_day.go:202-299, the loop of `GenerateSolarYear`. -/
def generateLoop (reads : Reads) (solar_year : Int) :
    (fuel : Nat) → (k : Nat) → (last_uposatha : UposathaMoon) → (events : List CalendarEvent) →
    Option (List CalendarEvent × Nat)
  | 0, k, last_uposatha, events => if last_uposatha.Date.year ≤ solar_year then none else some (events, k)
  | fuel + 1, k, last_uposatha, events =>
    if last_uposatha.Date.year ≤ solar_year then
      let uposatha := nextUposatha reads k last_uposatha
      generateLoop reads solar_year fuel uposatha.2 uposatha.1
        (events ++ iterationEvents solar_year { uposatha.1 with Status := 2 })
    else some (events, k)

/-- cal_day.go:181-302 `GenerateSolarYear`. `none` means that the fuel ran out, which `c71_terminates` excludes. -/
def generateSolarYear? (reads : Reads) (k : Nat) (solar_year : Int) : Option (List CalendarEvent × Nat) :=
  let seed := kattikaSeed reads k solar_year
  generateLoop reads solar_year ((daysSinceEpoch (solar_year + 1) - seed.1.Date.day).toNat + 1) seed.2 seed.1 []

/-- cal_day.go:181-302 `GenerateSolarYear`. -/
def generateSolarYear (reads : Reads) (k : Nat) (solar_year : Int) : List CalendarEvent × Nat :=
  (generateSolarYear? reads k solar_year).getD ([], k)

/-- cal_day.go:167-175, the loop over the years. -/
def eventYears (reads : Reads) (fromDate toDate : Time) :
    (n : Nat) → (k : Nat) → (year : Int) → (cal_days : List CalDay) → List CalDay × Nat
  | 0, k, _, cal_days => (cal_days, k)
  | n + 1, k, year, cal_days =>
    let events := generateSolarYear reads k year
    let cal_days := events.1.foldl (fun cal_days d =>
      if d.getDate.before fromDate || d.getDate.after toDate then cal_days
      else mergeIntoCalDays cal_days d) cal_days
    eventYears reads fromDate toDate n events.2 (year + 1) cal_days

/-- cal_day.go:160-179 `GetCalDays`; compare `Model.getCalDays`. -/
def getCalDays (reads : Reads) (k : Nat) (files : Int → AstroFile) (fromDate toDate : Time) : Option (List CalDay × Nat) :=
  match getAstroMoons files fromDate toDate with
  | none => none
  | some moons =>
    let cal_days := moons.foldl (fun cal_days d => mergeIntoCalDays cal_days (.astro d)) []
    let r := eventYears reads fromDate toDate (yearCount fromDate toDate) k fromDate.year cal_days
    some (r.1.mergeSort (fun a b => !calDayLess b a), r.2)

end Verif.Model.Switching
