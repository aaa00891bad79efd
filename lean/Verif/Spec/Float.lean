import Mathlib.Data.Rat.Floor
/-
Specification vocabulary: the rationals that are float64 values (normal range, unbounded exponent).
-/
set_option autoImplicit false

namespace Verif.Spec

/-- `q` has a significand of 53 bits. -/
def IsFloat (q : ℚ) : Prop := ∃ n e : ℤ, |n| < 2 ^ 53 ∧ q = n * 2 ^ e

end Verif.Spec
