import Verif.Go.Num
/-
Model of the degree helpers of helpers.go:9-43 on float64 values, represented by the rationals they stand for; every
float64 operation rounds its exact result (`fl`). Infinities, NaN, signed zero and subnormals are not represented.
`math.Floor` is exact. Converting to `int` is exact for magnitudes below 2^63. The flags tell whether a product is fused with the
addition after it, which the language leaves to the compiler.
-/
set_option autoImplicit false

namespace Verif.Model
open Verif.Go

/-- helpers.go:11-23 `DegreeToRal`. -/
def degreeToRal (degree : ℚ) : Int × Int × Int :=
  let x := ⌊fl (degree / 30)⌋
  let y := (⌊degree⌋).tmod 30
  let z := ⌊fl (fl (degree - fl (⌊degree⌋ : ℚ)) * 60)⌋
  (x, y, z)

/-- `DegreeToRal(p*q)` with the product of the caller possibly fused with the subtraction of helpers.go:19, as is allowed where the
call is inlined. -/
def degreeToRalOfMul (fused : Bool) (p q : ℚ) : Int × Int × Int :=
  let degree := fl (p * q)
  let x := ⌊fl (degree / 30)⌋
  let y := (⌊degree⌋).tmod 30
  let z := ⌊fl ((if fused then fl (p * q - fl (⌊degree⌋ : ℚ)) else fl (degree - fl (⌊degree⌋ : ℚ))) * 60)⌋
  (x, y, z)

/-- helpers.go:25-28 `DegreeToRalString`. -/
def degreeToRalString (degree : ℚ) : String :=
  match degreeToRal degree with
  | (u, v, t) => toString u ++ ":" ++ toString v ++ "°" ++ toString t ++ "'"

/-- helpers.go:30-34 `RalToDegree`. -/
def ralToDegree (x y z : Int) (fused : Bool := false) : ℚ :=
  fl ((⌊mulAdd fused (fl ((30 * x + y : Int) : ℚ)) 10000 (fl (fl ((z * 10000 : Int) : ℚ) / 60))⌋ : ℚ) / 10000)

/-- helpers.go:37-42 `NormalizeDegree`. -/
def normalizeDegree (deg : ℚ) (fused : Bool := false) : ℚ :=
  if deg ≤ 360 then deg else mulSub fused deg (fl (⌊fl (deg / 360)⌋ : ℚ)) 360

end Verif.Model
