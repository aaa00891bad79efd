import Mathlib.Data.Int.Log
import Mathlib.Data.Rat.Floor
/-
Go's machine numbers, as far as the code uses them: 64-bit two's complement integers (`int64`, `time.Duration`), `int` with
32 or 64 bits and float64 with round-to-nearest-even. Not code of /repo.
-/
set_option autoImplicit false

namespace Verif.Go

/-- Wrap-around to a signed 64-bit integer. -/
def wrap64 (n : Int) : Int := (n + 9223372036854775808) % 18446744073709551616 - 9223372036854775808

/-- The size of Go's `int`, which depends on the platform. -/
inductive IntSize where
  | bits32
  | bits64
deriving DecidableEq, Repr

/-- Half the number of values: an `int` is at least `-half` and less than `half`. -/
def IntSize.half : IntSize → Int
  | .bits32 => 2147483648
  | .bits64 => 9223372036854775808

/-- Wrap-around to an `int`. -/
def wrapInt (s : IntSize) (n : Int) : Int := (n + s.half) % (2 * s.half) - s.half

/-- Round to the nearest integer, ties to even. -/
def roundEven (x : ℚ) : ℤ :=
  let f := ⌊x⌋
  if x - f < 1 / 2 then f
  else if 1 / 2 < x - f then f + 1
  else if f % 2 = 0 then f else f + 1

/-- Exponent of the last place of a 53-bit significand for a value of the magnitude of `q`. -/
def ulpExp (q : ℚ) : ℤ := Int.log 2 |q| - 52

/-- The float64 nearest to the rational `q`. Overflow, infinities, NaN, subnormals and the sign of zero are not
represented: this is float64 rounding for 0 and for magnitudes between 2^-1022 and 2^1023. -/
def fl (q : ℚ) : ℚ := if q = 0 then 0 else roundEven (q / 2 ^ ulpExp q) * 2 ^ ulpExp q

/-- `x*y + z`. The Go specification lets the compiler fuse the two operations: `f` tells whether it does, so that the product is
not rounded on its own. -/
def mulAdd (f : Bool) (x y z : ℚ) : ℚ := if f then fl (x * y + z) else fl (fl (x * y) + z)

/-- `x - y*z`, fused or not. -/
def mulSub (f : Bool) (x y z : ℚ) : ℚ := if f then fl (x - y * z) else fl (x - fl (y * z))

end Verif.Go
