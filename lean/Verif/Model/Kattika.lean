import Verif.Model.Year
/-
Model of helpers.go:71-109 (CalculatePreviousKattika) and suriya_year.go:192-206 (AsalhaPuja).
-/
set_option autoImplicit false

namespace Verif.Model
open Verif.Go

/-- helpers.go:77-80: the epoch, `time.Parse("2006-01-02", "2015-11-25")`. -/
def kattikaEpoch : Time := date 2015 11 25 0 0

/-- helpers.go:91-106, the stepping loop `for y := kattika_date.Year(); y != solar_year-1; y += direction`.
`target` is `solar_year-1`. The fuel is an artefact of the model: `none` means it ran out (proved impossible
for the fuel used below). `time.Duration(n*direction) * time.Hour * 24` never overflows as |n| ≤ 384. -/
def kattikaLoop (cfg : Config) (target direction : Int) : (fuel : Nat) → (y : Int) → (kattika_date : Time) → Option Time
  | 0, y, kattika_date => if y = target then some kattika_date else none
  | fuel + 1, y, kattika_date =>
    if y = target then some kattika_date
    else
      let su_year := if direction = 1 then SuriyaYear.init (y + 1) else SuriyaYear.init y
      let n : Int := 6 * 29 + 6 * 30
      let n := if su_year.isAdhikamasa then n + 30
               else if su_year.isAdhikavara cfg then n + 1
               else n
      kattikaLoop cfg target direction fuel (y + direction) (kattika_date.add (n * direction * nsPerDay))

/-- helpers.go:82-88: the direction of stepping. -/
def kattikaDirection (solar_year : Int) : Int :=
  if kattikaEpoch.year < solar_year - 1 then 1
  else if kattikaEpoch.year > solar_year - 1 then -1
  else 0

/-- helpers.go:75-109 `CalculatePreviousKattika`, as the raw loop result with enough fuel. -/
def calculatePreviousKattika? (cfg : Config) (solar_year : Int) : Option Time :=
  kattikaLoop cfg (solar_year - 1) (kattikaDirection solar_year)
    (solar_year - 1 - kattikaEpoch.year).natAbs kattikaEpoch.year kattikaEpoch

/-- helpers.go:75-109 `CalculatePreviousKattika`. The default value is never used: see
`Props/Kattika.lean`, `kattika_terminates`. -/
def calculatePreviousKattika (cfg : Config) (solar_year : Int) : Time :=
  (calculatePreviousKattika? cfg solar_year).getD default

/-- suriya_year.go:192-206 `AsalhaPuja`. -/
def SuriyaYear.asalhaPuja (cfg : Config) (su : SuriyaYear) : Time :=
  let days : Int := 4 * (29 + 30)
  let days := if su.isAdhikamasa then days + 30
              else if su.isAdhikavara cfg then days + 1
              else days
  let prev_kattika := calculatePreviousKattika cfg su.Year
  prev_kattika.add (days * nsPerDay)

end Verif.Model
