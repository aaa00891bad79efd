import Verif.Model.Uposatha
/-
Model of cal_day.go, half_moon.go, major_event.go, event.go, calendar_event.go (interface part),
astro_moon.go, aeris_moon.go.
-/
set_option autoImplicit false

namespace Verif.Model
open Verif.Go

/-- half_moon.go:10-13. -/
structure HalfMoon where
  Date : Time := ⟨0, 0⟩
  Phase : String := ""
deriving DecidableEq, Repr

/-- astro_moon.go:19-22. -/
structure AstroMoon where
  Phase : String := ""
  Date : Time := ⟨0, 0⟩
deriving DecidableEq, Repr

/-- event.go:13-18. -/
structure Event where
  Date : Time := ⟨0, 0⟩
  Calendar : Int := 0
  Summary : String := ""
  Description : String := ""
deriving DecidableEq, Repr

/-- major_event.go:18 `type MajorEvent Event`. -/
abbrev MajorEvent := Event

/-- calendar_event.go:9-13, the interface, as the sum of its five implementations in the package. -/
inductive CalendarEvent where
  | uposatha (m : UposathaMoon)
  | half (m : HalfMoon)
  | astro (m : AstroMoon)
  | major (e : MajorEvent)
  | event (e : Event)
deriving DecidableEq, Repr

/-- The `GetDate` methods: uposatha_moon.go:171-173, half_moon.go:28-30, astro_moon.go:30-32,
major_event.go:26-28, event.go:26-28. -/
def CalendarEvent.getDate : CalendarEvent → Time
  | uposatha m => m.Date
  | half m => m.Date
  | astro m => m.Date
  | major e => e.Date
  | event e => e.Date

/-- cal_day.go:13-20. Slices are lists. -/
structure CalDay where
  Date : Time := ⟨0, 0⟩
  UposathaMoon : List UposathaMoon := []
  HalfMoon : List HalfMoon := []
  AstroMoon : List AstroMoon := []
  MajorEvents : List MajorEvent := []
  Events : List Event := []
deriving DecidableEq, Repr

/-- The common body of the three setters: replace element 0 of a non-empty slice, else append. -/
def setSingle {α : Type} (s : List α) (m : α) : List α :=
  match s with
  | [] => [m]
  | _ :: rest => m :: rest

namespace CalDay

/-- cal_day.go:27-35 `GetUposathaMoon`. -/
def getUposathaMoon (c : CalDay) : Verif.Model.UposathaMoon :=
  match c.UposathaMoon with
  | m :: _ => m
  | [] => {}
/-- cal_day.go:37-43 `SetUposathaMoon`. -/
def setUposathaMoon (c : CalDay) (m : Verif.Model.UposathaMoon) : CalDay :=
  { c with UposathaMoon := setSingle c.UposathaMoon m }
/-- cal_day.go:45-53 `GetAstroMoon`. -/
def getAstroMoon (c : CalDay) : Verif.Model.AstroMoon :=
  match c.AstroMoon with
  | m :: _ => m
  | [] => {}
/-- cal_day.go:55-61 `SetAstroMoon`. -/
def setAstroMoon (c : CalDay) (m : Verif.Model.AstroMoon) : CalDay :=
  { c with AstroMoon := setSingle c.AstroMoon m }
/-- cal_day.go:63-71 `GetHalfMoon`. -/
def getHalfMoon (c : CalDay) : Verif.Model.HalfMoon :=
  match c.HalfMoon with
  | m :: _ => m
  | [] => {}
/-- cal_day.go:73-79 `SetHalfMoon`. -/
def setHalfMoon (c : CalDay) (m : Verif.Model.HalfMoon) : CalDay :=
  { c with HalfMoon := setSingle c.HalfMoon m }

end CalDay

/-- The `AddToDay` methods: uposatha_moon.go:165-169, half_moon.go:22-26, astro_moon.go:24-28,
major_event.go:20-24, event.go:20-24. The pointer argument becomes the returned value. -/
def CalendarEvent.addToDay (e : CalendarEvent) (day : CalDay) : CalDay :=
  match e with
  | uposatha m => { day with Date := m.Date }.setUposathaMoon m
  | half m => { day with Date := m.Date }.setHalfMoon m
  | astro m => { day with Date := m.Date }.setAstroMoon m
  | major e => { day with Date := e.Date, MajorEvents := day.MajorEvents ++ [e] }
  | event e => { day with Date := e.Date, Events := day.Events ++ [e] }

/-- cal_day.go:100 / 102: `time.Date(d.Year(), d.Month(), d.Day(), 0, 0, 0, 0, d.Location())`. -/
def midnight (t : Time) : Time := date t.year t.month t.dayOfMonth 0 t.offset

/-- cal_day.go:99-108 `findCalDay`: the index of the first matching day (the code returns a pointer to
that element), `none` for the error return. -/
def findCalDay (cal_days : List CalDay) (d : Time) : Option Nat :=
  cal_days.findIdx? fun day => (midnight day.Date).equal (midnight d)

/-- cal_day.go:148-158 `mergeIntoCalDays`. -/
def mergeIntoCalDays (cal_days : List CalDay) (event : CalendarEvent) : List CalDay :=
  match findCalDay cal_days event.getDate with
  | none => cal_days ++ [event.addToDay {}]
  | some k => cal_days.modify k event.addToDay

/-- cal_day.go:119-130, 216-223: the half-moon phase; `""` stands for the untouched zero string. -/
def halfPhase (phase : String) : String :=
  if phase = "new" then "waxing" else if phase = "full" then "waning" else ""

/-- cal_day.go:110-146 `AddHalfMoonDays`, loop body: the day added for one calendar day. -/
def halfMoonDay (day : CalDay) : Option CalDay :=
  if day.UposathaMoon.length ≠ 0 then
    let eighth_day : CalDay := { Date := day.Date.addDays 8 }
    let phase := halfPhase day.getUposathaMoon.Phase
    if phase = "" then none
    else some ((CalendarEvent.half { Date := eighth_day.Date, Phase := phase }).addToDay eighth_day)
  else none

/-- cal_day.go:110-146 `AddHalfMoonDays`. -/
def addHalfMoonDays (cal_days : List CalDay) : List CalDay :=
  cal_days ++ cal_days.filterMap halfMoonDay

/-- cal_day.go:189-200: the Kattika seed of `GenerateSolarYear`. -/
def kattikaSeed (cfg : Config) (solar_year : Int) : UposathaMoon :=
  let d := calculatePreviousKattika cfg solar_year
  { Date := d, Calendar := 0, Phase := "full", S_Number := 8, S_Total := 8, U_Days := 15,
    M_Days := 29, LunarMonth := 12, LunarSeason := 3, LunarYear := d.year + BEdiff }

/-- A major event with equal summary and description (cal_day.go:242-296). -/
def mkMajor (d : Time) (calendar : Int) (name : String) : CalendarEvent :=
  .major { Date := d, Calendar := calendar, Summary := name, Description := name }

/-- cal_day.go:237-298: the major events of one uposatha. -/
def majorEventsOf (u : UposathaMoon) : List CalendarEvent :=
  (if u.Event = "magha" then [mkMajor u.Date u.Calendar "Māgha Pūjā"] else []) ++
  (if u.Event = "vesakha" then [mkMajor u.Date u.Calendar "Vesākha Pūjā"] else []) ++
  (if u.Event = "asalha" then [mkMajor u.Date u.Calendar "Āsāḷha Pūjā",
      mkMajor (u.Date.addDays 1) u.Calendar "First day of Vassa"] else []) ++
  (if u.Event = "pavarana" then [mkMajor u.Date u.Calendar "Pavāraṇā Day",
      mkMajor u.Date u.Calendar "Last day of Vassa"] else [])

/-- cal_day.go:207-298: the events appended in one iteration, given the uposatha with `Status = 2`. -/
def iterationEvents (solar_year : Int) (u : UposathaMoon) : List CalendarEvent :=
  let halfmoon : HalfMoon := { Date := u.Date.addDays 8, Phase := halfPhase u.Phase }
  (if u.Date.year = solar_year then [.uposatha u] else []) ++
  (if halfmoon.Date.year = solar_year then [.half halfmoon] else []) ++
  (if u.Date.year = solar_year then majorEventsOf u else [])

/-- cal_day.go:202-299, the loop. `none` means the model's fuel ran out (proved impossible for the fuel
used in `generateSolarYear`). -/
def generateLoop (cfg : Config) (solar_year : Int) :
    (fuel : Nat) → (last_uposatha : UposathaMoon) → (events : List CalendarEvent) → Option (List CalendarEvent)
  | 0, last_uposatha, events => if last_uposatha.Date.year ≤ solar_year then none else some events
  | fuel + 1, last_uposatha, events =>
    if last_uposatha.Date.year ≤ solar_year then
      let uposatha := last_uposatha.nextUposatha cfg
      generateLoop cfg solar_year fuel uposatha
        (events ++ iterationEvents solar_year { uposatha with Status := 2 })
    else some events

/-- Fuel for `generateLoop`: the number of days from the seed to the end of the solar year. -/
def generateFuel (cfg : Config) (solar_year : Int) : Nat :=
  (daysSinceEpoch (solar_year + 1) - (kattikaSeed cfg solar_year).Date.day).toNat + 1

/-- cal_day.go:181-302 `GenerateSolarYear`, raw loop result. -/
def generateSolarYear? (cfg : Config) (solar_year : Int) : Option (List CalendarEvent) :=
  generateLoop cfg solar_year (generateFuel cfg solar_year) (kattikaSeed cfg solar_year) []

/-- cal_day.go:181-302 `GenerateSolarYear`. The default value is never used (`generate_terminates`). -/
def generateSolarYear (cfg : Config) (solar_year : Int) : List CalendarEvent :=
  (generateSolarYear? cfg solar_year).getD []

/-! ### Astronomical moons -/

/-- aeris_moon.go:9-14 (fields used). -/
structure AerisMoon where
  DateTimeISO : Time
  Code : Int
deriving DecidableEq, Repr

/-- The outcome of `FSByte` and `json.Unmarshal` for the file of one year (astro_moon.go:52-68):
absent, present but not decodable, or a decoded `AerisResp` (aeris_moon.go:21-25). -/
inductive AstroFile where
  | missing
  | undecodable
  | resp (success : Bool) (errorCode : String) (response : List AerisMoon)
deriving DecidableEq, Repr

/-- aeris_moon.go:7 `phaseCodes[code]`; `none` is the index-out-of-range panic. -/
def phaseCode (code : Int) : Option String :=
  if code = 0 then some "new" else if code = 1 then some "waxing"
  else if code = 2 then some "full" else if code = 3 then some "waning" else none

/-- astro_moon.go:84-102: the moons of one successful response; `none` is a panic. -/
def astroMoonsOf (fromDate toDate : Time) : List AerisMoon → Option (List AstroMoon)
  | [] => some []
  | aemoon :: rest =>
    let d := aemoon.DateTimeISO.utc
    if d.before fromDate || d.after toDate then astroMoonsOf fromDate toDate rest
    else
      match phaseCode aemoon.Code with
      | none => none
      | some p =>
        match astroMoonsOf fromDate toDate rest with
        | none => none
        | some ms => some ({ Phase := p, Date := d } :: ms)

/-- astro_moon.go:48-103, the loop over the years; `n` is the number of remaining iterations of
`for year := …; year <= toDate.Year(); year++`. `none` is a panic. -/
def astroLoop (files : Int → AstroFile) (fromDate toDate : Time) :
    (n : Nat) → (year : Int) → (moons : List AstroMoon) → Option (List AstroMoon)
  | 0, _, moons => some moons
  | n + 1, year, moons =>
    match files year with
    | .missing => some moons
    | .undecodable => none
    | .resp success errorCode response =>
      if success ≠ true then astroLoop files fromDate toDate n (year + 1) moons
      else if errorCode.length ≠ 0 then astroLoop files fromDate toDate n (year + 1) moons
      else
        match astroMoonsOf fromDate toDate response with
        | none => none
        | some ms => astroLoop files fromDate toDate n (year + 1) (moons ++ ms)

/-- Number of iterations of `for year := fromDate.Year(); year <= toDate.Year(); year++`. -/
def yearCount (fromDate toDate : Time) : Nat := (toDate.year - fromDate.year + 1).toNat

/-- astro_moon.go:45-106 `GetAstroMoons`; `none` is a panic. -/
def getAstroMoons (files : Int → AstroFile) (fromDate toDate : Time) : Option (List AstroMoon) :=
  astroLoop files fromDate toDate (yearCount fromDate toDate) fromDate.year []

/-- cal_day.go:167-175, the loop over the years. -/
def eventYears (cfg : Config) (fromDate toDate : Time) :
    (n : Nat) → (year : Int) → (cal_days : List CalDay) → List CalDay
  | 0, _, cal_days => cal_days
  | n + 1, year, cal_days =>
    let cal_days := (generateSolarYear cfg year).foldl (fun cal_days d =>
      if d.getDate.before fromDate || d.getDate.after toDate then cal_days
      else mergeIntoCalDays cal_days d) cal_days
    eventYears cfg fromDate toDate n (year + 1) cal_days

/-- cal_day.go:160-175: the days before sorting; `none` is a panic in `GetAstroMoons`. -/
def unsortedCalDays (cfg : Config) (files : Int → AstroFile) (fromDate toDate : Time) : Option (List CalDay) :=
  match getAstroMoons files fromDate toDate with
  | none => none
  | some moons =>
    let cal_days := moons.foldl (fun cal_days d => mergeIntoCalDays cal_days (.astro d)) []
    some (eventYears cfg fromDate toDate (yearCount fromDate toDate) fromDate.year cal_days)

/-- cal_day.go:95-97 `CalDaySlice.Less`. -/
def calDayLess (a b : CalDay) : Bool := b.Date.after a.Date

/-- cal_day.go:160-179 `GetCalDays`. `sort.Sort` is modelled by a merge sort; C26 shows that every
sorted permutation is the same list, so the choice of algorithm is not observable. -/
def getCalDays (cfg : Config) (files : Int → AstroFile) (fromDate toDate : Time) : Option (List CalDay) :=
  (unsortedCalDays cfg files fromDate toDate).map fun ds => ds.mergeSort (fun a b => !calDayLess b a)

end Verif.Model
