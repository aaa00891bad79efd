import Verif.Model.Year
/-
Model of suriya_day.go: the integer fields of `(*SuriyaDay).Init` (lines 32-66).
The float fields (MeanSun … Raek, lines 68-196) are not part of this structure. The field `Date` is never written.
-/
set_option autoImplicit false

namespace Verif.Model

/-- suriya_day.go:8-25, the integer fields. -/
structure SuriyaDay where
  Year : Int
  BE_Year : Int
  CS_Year : Int
  Day : Int
  Horakhun : Int
  Kammacubala : Int
  Uccabala : Int
  Avoman : Int
  Masaken : Int
  Tithi : Int
deriving DecidableEq, Repr

/-- suriya_day.go:31-66 `(*SuriyaDay).Init`, integer part; ints unbounded, `/` and `%` truncated,
`math.Floor(float64(ai)/CycleSolar)` is floor division. -/
def SuriyaDay.init (ce_year lunar_year_day : Int) : SuriyaDay :=
  let suYear := SuriyaYear.init ce_year
  let cs := ce_year - CSdiff
  let elapsedDays := lunar_year_day - suYear.Tithi
  let horakhun := suYear.Horakhun + elapsedDays
  let kammacubala := KammacubalaDaily - (cs * EraDays + EraHorakhun).tmod EraYears + elapsedDays * KammacubalaDaily
  let uccabala := (horakhun + EraUccabala).tmod 3232
  let ai := horakhun * CycleDaily + EraAvoman
  let avoman := ai.tmod CycleSolar
  let bi := ai.fdiv CycleSolar + EraMasaken + horakhun
  { Year := ce_year, BE_Year := ce_year + BEdiff, CS_Year := cs, Day := lunar_year_day
    Horakhun := horakhun, Kammacubala := kammacubala, Uccabala := uccabala, Avoman := avoman
    Masaken := bi.tdiv MonthLength, Tithi := bi.tmod MonthLength }

end Verif.Model
