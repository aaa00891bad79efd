import Mathlib.Analysis.Complex.Trigonometric
/-
Taylor polynomials of sine and cosine with bounds for the remainder.
-/
set_option autoImplicit false

namespace Verif.Lemmas
open Finset

/-- The terms of sine up to degree 13, in the form of Horner. -/
noncomputable def sinPoly (z : ℝ) : ℝ :=
  z + z * z ^ 2 * ((((((1 / 6227020800 * z ^ 2) - 1 / 39916800) * z ^ 2 + 1 / 362880) * z ^ 2 - 1 / 5040) * z ^ 2 + 1 / 120) * z ^ 2 - 1 / 6)

/-- The terms of cosine up to degree 14. -/
noncomputable def cosPoly (z : ℝ) : ℝ :=
  1 - 1 / 2 * z ^ 2 + z ^ 2 * z ^ 2 *
    ((((((-1 / 87178291200 * z ^ 2) + 1 / 479001600) * z ^ 2 - 1 / 3628800) * z ^ 2 + 1 / 40320) * z ^ 2 - 1 / 720) * z ^ 2 + 1 / 24)

theorem exp_sum (z : ℝ) : ∑ m ∈ range 15, ((z : ℂ) * Complex.I) ^ m / (m.factorial : ℂ) =
    (cosPoly z : ℂ) + (sinPoly z : ℂ) * Complex.I := by
  have h2 : Complex.I ^ 2 = -1 := Complex.I_sq
  have h3 : Complex.I ^ 3 = -Complex.I := by rw [pow_succ, h2]; ring
  have h4 : Complex.I ^ 4 = 1 := Complex.I_pow_four
  have e (k : ℕ) : Complex.I ^ (4 + k) = Complex.I ^ k := by rw [pow_add, h4, one_mul]
  have h5 : Complex.I ^ 5 = Complex.I := (e 1).trans (pow_one _)
  have h6 : Complex.I ^ 6 = -1 := (e 2).trans h2
  have h7 : Complex.I ^ 7 = -Complex.I := (e 3).trans h3
  have h8 : Complex.I ^ 8 = 1 := (e 4).trans h4
  have h9 : Complex.I ^ 9 = Complex.I := (e 5).trans h5
  have h10 : Complex.I ^ 10 = -1 := (e 6).trans h6
  have h11 : Complex.I ^ 11 = -Complex.I := (e 7).trans h7
  have h12 : Complex.I ^ 12 = 1 := (e 8).trans h8
  have h13 : Complex.I ^ 13 = Complex.I := (e 9).trans h9
  have h14 : Complex.I ^ 14 = -1 := (e 10).trans h10
  unfold cosPoly sinPoly
  simp only [Finset.sum_range_succ, Finset.sum_range_zero, mul_pow, Nat.factorial]
  rw [h2, h3, h4, h5, h6, h7, h8, h9, h10, h11, h12, h13, h14]
  push_cast
  ring

theorem exp_close (z : ℝ) (h : |z| ≤ 1) :
    ‖Complex.exp (z * Complex.I) - ((cosPoly z : ℂ) + (sinPoly z : ℂ) * Complex.I)‖ ≤ 1 / 10 ^ 12 := by
  have hn : ‖(z : ℂ) * Complex.I‖ ≤ 1 := by simpa using h
  have := Complex.exp_bound hn (n := 15) (by norm_num)
  rw [exp_sum] at this
  refine this.trans ?_
  have h1 : ‖(z : ℂ) * Complex.I‖ ^ 15 ≤ 1 := pow_le_one₀ (norm_nonneg _) hn
  calc _ ≤ 1 * (((Nat.succ 15 : ℕ) : ℝ) * ((Nat.factorial 15 : ℕ) * (15 : ℕ) : ℝ)⁻¹) := by
        apply mul_le_mul_of_nonneg_right h1; positivity
    _ ≤ 1 / 10 ^ 12 := by norm_num [Nat.factorial]

theorem sin_close (z : ℝ) (h : |z| ≤ 1) : |Real.sin z - sinPoly z| ≤ 1 / 10 ^ 12 := by
  have := (Complex.abs_im_le_norm _).trans (exp_close z h)
  simpa using this

theorem cos_close (z : ℝ) (h : |z| ≤ 1) : |Real.cos z - cosPoly z| ≤ 1 / 10 ^ 12 := by
  have := (Complex.abs_re_le_norm _).trans (exp_close z h)
  simpa using this

end Verif.Lemmas
