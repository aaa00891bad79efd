import Verif.Model.SuriyaDayFloat
/-
Model of Go's `math.Sin` (math/sin.go, after the Cephes library) and of the sine of `(*SuriyaDay).Init`, suriya_day.go:106-107 and 178.
The constants are the decimal literals of the source, rounded to float64 as the compiler does.
Simplifications: arguments from 2^29 radians on (where Go 1.12 and later reduce the argument in another way), infinities, NaN and the
sign of zero are not represented. Products may be fused with the additions after them; s390x, where `math.Sin` is another program in
assembly, is not modelled.
-/
set_option autoImplicit false

namespace Verif.Model
open Verif.Go

/-- `math.Pi`, an exact constant. -/
def goPi : ℚ := 314159265358979323846264338327950288419716939937510582097494459 / 10 ^ 62

/-- math/sin.go `_sin`. -/
def sinCoeffs : List ℚ := [fl 1.58962301576546568060e-10, fl (-2.50507477628578072866e-8), fl 2.75573136213857245213e-6,
  fl (-1.98412698295895385996e-4), fl 8.33333333332211858878e-3, fl (-1.66666666666666307295e-1)]

/-- math/sin.go `_cos`. -/
def cosCoeffs : List ℚ := [fl (-1.13585365213876817300e-11), fl 2.08757008419747316778e-9, fl (-2.75573141792967388112e-7),
  fl 2.48015872888517045348e-5, fl (-1.38888888888730564116e-3), fl 4.16666666666665929218e-2]

/-- `PI4A`, `PI4B` and `PI4C`: π/4 in three parts. -/
def pi4a : ℚ := fl 7.85398125648498535156e-1
def pi4b : ℚ := fl 3.77489470793079817668e-8
def pi4c : ℚ := fl 2.69515142907905952645e-15

/-- `((((((c[0]*zz)+c[1])*zz+c[2])*zz+c[3])*zz+c[4])*zz+c[5])`. -/
def horner (fused : List Bool) (zz : ℚ) : List ℚ → ℚ
  | [] => 0
  | c :: cs => (fused.zip cs).foldl (fun p fc => mulAdd fc.1 p zz fc.2) c

/-- `z + z*zz*(…)`. -/
def sinKernel (fu : Fusing) (z : ℚ) : ℚ :=
  let zz := fl (z * z)
  mulAdd fu.sin6 (fl (z * zz)) (horner [fu.sin1, fu.sin2, fu.sin3, fu.sin4, fu.sin5] zz sinCoeffs) z

/-- `1.0 - 0.5*zz + zz*zz*(…)`. -/
def cosKernel (fu : Fusing) (z : ℚ) : ℚ :=
  let zz := fl (z * z)
  mulAdd fu.cos6 (fl (zz * zz)) (horner [fu.cos1, fu.cos2, fu.cos3, fu.cos4, fu.cos5] zz cosCoeffs) (mulSub fu.half 1 (1 / 2) zz)

/-- math/sin.go `sin`. -/
def goSin (fu : Fusing) (x : ℚ) : ℚ :=
  if x = 0 then 0
  else
    let sign := decide (x < 0)
    let x := if x < 0 then -x else x
    let j := ⌊fl (x * fl (4 / goPi))⌋.toNat
    let y := fl (j : ℚ)
    let (j, y) := if j % 2 = 1 then (j + 1, fl (y + 1)) else (j, y)
    let j := j % 8
    let z := mulSub fu.part3 (mulSub fu.part2 (mulSub fu.part1 x y pi4a) y pi4b) y pi4c
    let (sign, j) := if 3 < j then (!sign, j - 4) else (sign, j)
    let y := if j = 1 ∨ j = 2 then cosKernel fu z else sinKernel fu z
    if sign then -y else y

/-- suriya_day.go:106-107 and 178: `radconv := math.Pi / 180` and `math.Sin(a*radconv)`. -/
def sinDegrees (fu : Fusing) (a : ℚ) : ℚ := goSin fu (fl (a * fl (goPi / 180)))

end Verif.Model
