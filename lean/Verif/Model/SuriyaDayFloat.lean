import Verif.Model.SuriyaDay
import Verif.Model.Ral
/-
Model of the float fields of `(*SuriyaDay).Init`, suriya_day.go:68-195. The sine is a parameter: `sin a` stands for the
float64 value of `math.Sin(a*radconv)`, `a` in degrees. Every other operation rounds its exact result, except that a product
may be fused with the addition or subtraction after it, as the compiler likes.
-/
set_option autoImplicit false

namespace Verif.Model
open Verif.Go

/-- The places where a product is followed by an addition or subtraction, and whether the compiler fuses them. The Go specification
leaves it the choice, also across statements; on amd64 it does not fuse (unless built for `GOAMD64=v3`), on arm64, ppc64le and riscv64 it
does. -/
structure Fusing where
  /-- suriya_day.go:85 with helpers.go:19, when `DegreeToRal` is inlined at line 91. -/
  degree : Bool
  /-- helpers.go:33, called at suriya_day.go:97, 133 and 191. -/
  ral97 : Bool
  ral133 : Bool
  ral191 : Bool
  /-- suriya_day.go:112. -/
  sun : Bool
  /-- suriya_day.go:133. -/
  tithi : Bool
  /-- helpers.go:41. -/
  turn : Bool
  /-- suriya_day.go:142. -/
  apogee : Bool
  /-- math/sin.go: the three steps of the reduction of the argument. -/
  part1 : Bool
  part2 : Bool
  part3 : Bool
  /-- math/sin.go: the steps of the two polynomials. -/
  sin1 : Bool
  sin2 : Bool
  sin3 : Bool
  sin4 : Bool
  sin5 : Bool
  sin6 : Bool
  cos1 : Bool
  cos2 : Bool
  cos3 : Bool
  cos4 : Bool
  cos5 : Bool
  half : Bool
  cos6 : Bool
deriving DecidableEq

/-- No operation is fused, as on amd64. -/
def Fusing.none : Fusing := ⟨false, false, false, false, false, false, false, false, false, false, false, false, false, false, false,
  false, false, false, false, false, false, false, false, false⟩

/-- Every operation that can be fused is. -/
def Fusing.all : Fusing := ⟨true, true, true, true, true, true, true, true, true, true, true, true, true, true, true, true, true, true,
  true, true, true, true, true, true⟩

/-- suriya_day.go:20-24, the positions in degrees. -/
structure SuriyaDayPositions where
  MeanSun : ℚ
  TrueSun : ℚ
  MeanMoon : ℚ
  TrueMoon : ℚ
  Raek : ℚ
deriving DecidableEq

/-- suriya_day.go:82-97: the mean sun from the eight-hundredths of days elapsed. -/
def meanSun (fu : Fusing) (eight_hundredths : Int) : ℚ :=
  let a := fl (eight_hundredths : ℚ)
  match degreeToRalOfMul fu.degree (fl (a / EraDays)) 360 with
  | (x, y, z) => ralToDegree x y (z - 3) fu.ral97

/-- suriya_day.go:103-112. -/
def trueSun (fu : Fusing) (sin : ℚ → ℚ) (meanSun : ℚ) : ℚ :=
  let a := |fl (meanSun - 80)|
  let b := ⌊fl (134 * sin a)⌋
  fl ((⌊mulAdd fu.sun meanSun 10000 (fl (fl ((b : ℚ) * 10000) / 60))⌋ : ℚ) / 10000)

/-- suriya_day.go:120-133. -/
def meanMoon (fu : Fusing) (trueSun : ℚ) (avoman tithi : Int) : ℚ :=
  let a := fl (fl (fl (avoman : ℚ) + (⌊fl (fl (avoman : ℚ) / 25)⌋ : ℚ)) / 60)
  normalizeDegree (fl (mulAdd fu.tithi (fl (tithi : ℚ)) 12 (fl (trueSun + a)) - ralToDegree 0 0 40 fu.ral133)) fu.turn

/-- suriya_day.go:142. -/
def meanUccabala (fu : Fusing) (days : Int) : ℚ :=
  fl (mulAdd fu.apogee (fl (fl (fl (fl (days : ℚ) * 3) * 30) / 808)) 60 2 / 60)

/-- suriya_day.go:172-186. -/
def trueMoon (sin : ℚ → ℚ) (meanMoon meanUccabala : ℚ) : ℚ :=
  let a := fl (meanMoon - meanUccabala)
  let b := fl (fl (296 * sin a) / 60)
  fl ((⌊fl (fl (meanMoon - b) * 10000)⌋ : ℚ) / 10000)

/-- suriya_day.go:191-193. -/
def raek (fu : Fusing) (trueMoon : ℚ) : ℚ := fl (fl (trueMoon / ralToDegree 0 13 20 fu.ral191) + 1)

/-- suriya_day.go:31-197 `(*SuriyaDay).Init`, float part. -/
def SuriyaDayPositions.init (fu : Fusing) (sin : ℚ → ℚ) (ce_year lunar_year_day : Int) : SuriyaDayPositions :=
  let suYear := SuriyaYear.init ce_year
  let suDay := SuriyaDay.init ce_year lunar_year_day
  let elapsedDays := lunar_year_day - suYear.Tithi
  let ms := meanSun fu (elapsedDays * EraYears + suYear.Kammacubala)
  let ts := trueSun fu sin ms
  let mm := meanMoon fu ts suDay.Avoman suDay.Tithi
  let tm := trueMoon sin mm (meanUccabala fu (suYear.Uccabala + elapsedDays))
  { MeanSun := ms, TrueSun := ts, MeanMoon := mm, TrueMoon := tm, Raek := raek fu tm }

end Verif.Model
