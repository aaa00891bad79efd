import Verif.Model.Year
import Verif.Go.Num
/-
The machine-level version of suriya_year.go `Init` and of the cycle positions: every int operation wraps at
the size of an `int` and every float operation rounds to float64.
-/
set_option autoImplicit false

namespace Verif.Model
open Verif.Go

/-- `float64(n)` for an int. -/
def toFloat (n : Int) : ℚ := fl (n : ℚ)
/-- `int(math.Floor(x))` for a float in the int range. -/
def intFloor (s : IntSize) (x : ℚ) : Int := wrapInt s ⌊x⌋

/-- suriya_year.go:58-90 `(*SuriyaYear).Init` on machine numbers. -/
def SuriyaYear.initMachine (s : IntSize) (ce_year : Int) : SuriyaYear :=
  let year := ce_year
  let be := wrapInt s (year + BEdiff)
  let cs := wrapInt s (year - CSdiff)
  let a := wrapInt s (wrapInt s (cs * EraDays) + EraHorakhun)
  let horakhun := intFloor s (toFloat (wrapInt s (a.tdiv KammacubalaDaily + 1)))
  let kammacubala := wrapInt s (KammacubalaDaily - a.tmod KammacubalaDaily)
  let uccabala := (wrapInt s (horakhun + EraUccabala)).tmod 3232
  let a := wrapInt s (wrapInt s (horakhun * CycleDaily) + EraAvoman)
  let avoman := a.tmod CycleSolar
  let b := intFloor s (fl (toFloat a / CycleSolar))
  let masaken := intFloor s (toFloat ((wrapInt s (wrapInt s (b + EraMasaken) + horakhun)).tdiv MonthLength))
  let tithi := (wrapInt s (b + horakhun)).tmod MonthLength
  { Year := year, BE_Year := be, CS_Year := cs, Horakhun := horakhun, Kammacubala := kammacubala,
    Uccabala := uccabala, Avoman := avoman, Masaken := masaken, Tithi := tithi }

/-- suriya_year.go:136-138 / 141-143 on machine numbers: `int(math.Abs(float64(base-su.Year)))%n + 1`. -/
def cyclePosMachine (s : IntSize) (base n year : Int) : Int :=
  (intFloor s |toFloat (wrapInt s (base - year))|).tmod n + 1

end Verif.Model
