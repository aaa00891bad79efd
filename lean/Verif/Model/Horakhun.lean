import Verif.Go.Time
import Verif.Go.Num
/-
Model of helpers.go:44-69 `HorakhunToDate` on machine numbers.
-/
set_option autoImplicit false

namespace Verif.Model
open Verif.Go

/-- suriya.go:22 `horakhunRef`. -/
abbrev horakhunRef : Int := 484049

/-- helpers.go:46-48: `time.Parse("2006 Jan 2", "1963 Jul 5")` plus 23:59:59. -/
def horakhunRefTime : Time := (date 1963 7 5 0 0).add ((23 * 3600 + 59 * 60 + 59) * nsPerSec)

/-- `time.Duration(n) * time.Hour * 24` in int64. -/
def daysDuration (n : Int) : Int := wrap64 (wrap64 (n * 3600000000000) * 24)

/-- helpers.go:60 `stepDays = 290 * 356`. -/
abbrev stepDays : Int := 290 * 356

/-- helpers.go:61-67, the stepping loop and the final `Add`; `none` means the model's fuel ran out. -/
def horakhunLoop (s : IntSize) (direction : Int) : (fuel : Nat) → (delta : Int) → (date : Time) → Option Time
  | 0, _, _ => none
  | fuel + 1, delta, date =>
    if |fl (delta : ℚ)| > (stepDays : ℚ) then
      horakhunLoop s direction fuel (wrapInt s (delta + wrapInt s (wrapInt s (direction * -1) * stepDays)))
        (date.add (daysDuration (wrapInt s (direction * stepDays))))
    else some (date.add (daysDuration delta))

/-- helpers.go:44-69 `HorakhunToDate`. -/
def horakhunToDate? (s : IntSize) (horakhun : Int) : Option Time :=
  let delta := wrapInt s (horakhun - horakhunRef)
  let direction := if delta < 0 then -1 else 1
  horakhunLoop s direction (delta.natAbs + 1) delta horakhunRefTime

/-- helpers.go:44-69 `HorakhunToDate`. The default is never used (`c16_terminates`). -/
def horakhunToDate (s : IntSize) (horakhun : Int) : Time := (horakhunToDate? s horakhun).getD default

end Verif.Model
