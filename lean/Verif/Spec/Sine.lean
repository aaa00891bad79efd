import Mathlib.Analysis.SpecialFunctions.Trigonometric.Basic
/-
The sine of an angle in degrees, in real numbers.
-/
set_option autoImplicit false

namespace Verif.Spec

/-- The sine of `a` degrees. -/
noncomputable def sinDeg (a : ℝ) : ℝ := Real.sin (a * (Real.pi / 180))

end Verif.Spec
