import Verif.Lemmas.SinTaylor
import Verif.Lemmas.Sin
import Mathlib.Analysis.Real.Pi.Bounds
/-
134 times the sine of the angles with four decimals from 0 to 90 degrees: between which whole numbers it lies.
-/
set_option autoImplicit false

namespace Verif.Lemmas
open Verif.Spec

/-- The largest angles, in units of 10⁻⁴ degrees, for which 134 times the sine is less than 1, 2, ..., 133; the last entry is the last
angle considered. At 300000 it is exactly 67. -/
def sineSteps : List Nat := [
  4275, 8551, 12828, 17105, 21383, 25663, 29944, 34226, 38511, 42797, 47086, 51378, 55673, 59970, 64271, 68576, 72885,
  77197, 81514, 85836, 90163, 94495, 98832, 103176, 107525, 111880, 116242, 120611, 124987, 129370, 133761, 138160, 142568,
  146984, 151409, 155843, 160287, 164741, 169205, 173679, 178165, 182662, 187170, 191691, 196224, 200770, 205329, 209902,
  214489, 219090, 223706, 228338, 232985, 237649, 242329, 247027, 251742, 256476, 261229, 266001, 270793, 275606, 280439,
  285295, 290173, 295074, 299999, 304949, 309924, 314925, 319953, 325009, 330093, 335207, 340351, 345527, 350735, 355976,
  361252, 366564, 371912, 377299, 382725, 388192, 393701, 399255, 404853, 410499, 416193, 421939, 427737, 433589, 439499,
  445468, 451499, 457595, 463758, 469991, 476298, 482681, 489146, 495695, 502334, 509066, 515897, 522832, 529878, 537040,
  544326, 551745, 559304, 567014, 574884, 582929, 591160, 599594, 608249, 617144, 626304, 635756, 645532, 655673, 666224,
  677246, 688812, 701017, 713987, 727894, 742989, 759653, 778532, 800884, 829958, 899834]

/-- An approximation of the sine of `n` times 10⁻⁴ degrees. -/
def sineQ (n : Nat) : ℚ :=
  if n ≤ 450000 then sinPolyQ (n * (3141592653589793 / 1800000000000000000000))
  else cosPolyQ ((900000 - n : Nat) * (3141592653589793 / 1800000000000000000000))

def stepsOk : Nat → Nat → List Nat → Bool
  | _, lo, [] => lo == 899835
  | k, lo, hi :: l => decide ((k : ℚ) + 2 / 10 ^ 7 ≤ 134 * sineQ lo) && decide (134 * sineQ hi ≤ (k : ℚ) + 1 - 2 / 10 ^ 7) &&
    decide (hi ≤ 900000) && stepsOk (k + 1) (if hi = 299999 then 300001 else hi + 1) l

theorem sineSteps_ok : stepsOk 0 1 sineSteps = true := by decide +kernel

theorem pi_close : |Real.pi - 3141592653589793 / 10 ^ 15| ≤ 1 / 10 ^ 15 := by
  have h1 := Real.pi_gt_d20
  have h2 := Real.pi_lt_d20
  rw [abs_le]
  constructor <;> norm_num at * <;> linarith

theorem angle_close {x : ℝ} (h0 : 0 ≤ x) (h : x ≤ 450000) :
    |x / 10000 * (Real.pi / 180) - x * (3141592653589793 / 1800000000000000000000)| ≤ 1 / 10 ^ 12 := by
  have e : x / 10000 * (Real.pi / 180) - x * (3141592653589793 / 1800000000000000000000) =
      x / 1800000 * (Real.pi - 3141592653589793 / 10 ^ 15) := by ring
  rw [e, abs_mul, abs_of_nonneg (by positivity)]
  calc _ ≤ 1 * (1 / 10 ^ 15 : ℝ) := mul_le_mul (by linarith) pi_close (abs_nonneg _) (by norm_num)
    _ ≤ _ := by norm_num

theorem sineQ_close (n : Nat) (h : n ≤ 900000) : |Real.sin (n / 10000 * (Real.pi / 180)) - sineQ n| ≤ 2 / 10 ^ 12 := by
  have hp := pi_close
  have hp3 := Real.pi_gt_three
  have hp4 := Real.pi_lt_d20
  unfold sineQ
  split
  case isTrue h1 =>
    have hn : (n : ℝ) ≤ 450000 := by exact_mod_cast h1
    have hn0 : (0 : ℝ) ≤ n := Nat.cast_nonneg n
    rw [sinPolyQ_cast]
    push_cast
    have c := angle_close hn0 hn
    have b : |(n : ℝ) * (3141592653589793 / 1800000000000000000000)| ≤ 1 := by
      rw [abs_le]
      constructor <;> norm_num <;> linarith
    have s1 := sin_close _ b
    have s2 := (Real.abs_sin_sub_sin_le _ _).trans c
    rw [abs_le] at *
    constructor <;> norm_num at * <;> linarith
  case isFalse h1 =>
    have hn : (n : ℝ) ≤ 900000 := by exact_mod_cast h
    have hn0 : (450000 : ℝ) ≤ n := by exact_mod_cast (by omega : 450000 ≤ n)
    rw [cosPolyQ_cast]
    push_cast [h]
    have e : Real.sin ((n : ℝ) / 10000 * (Real.pi / 180)) = Real.cos ((900000 - n) / 10000 * (Real.pi / 180)) := by
      rw [← Real.sin_pi_div_two_sub]
      congr 1
      ring
    rw [e]
    have c := angle_close (x := 900000 - n) (by linarith) (by linarith)
    have b : |(900000 - (n : ℝ)) * (3141592653589793 / 1800000000000000000000)| ≤ 1 := by
      rw [abs_le]
      constructor <;> norm_num <;> linarith
    have s1 := cos_close _ b
    have s2 := (Real.abs_cos_sub_cos_le _ _).trans c
    rw [abs_le] at *
    constructor <;> norm_num at * <;> linarith

theorem sine_mono {m n : Nat} (h : m ≤ n) (hn : n ≤ 900000) :
    Real.sin (m / 10000 * (Real.pi / 180)) ≤ Real.sin (n / 10000 * (Real.pi / 180)) := by
  have hp := Real.pi_pos
  have h' : (m : ℝ) ≤ n := by exact_mod_cast h
  have hn' : (n : ℝ) ≤ 900000 := by exact_mod_cast hn
  have hm : (0 : ℝ) ≤ m := Nat.cast_nonneg m
  apply Real.sin_le_sin_of_le_of_le_pi_div_two
  · have : 0 ≤ (m : ℝ) / 10000 * (Real.pi / 180) := by positivity
    linarith
  · have : (n : ℝ) / 10000 * (Real.pi / 180) = n * Real.pi / 1800000 := by ring
    rw [this, div_le_div_iff₀ (by norm_num) (by norm_num)]
    nlinarith
  · apply mul_le_mul_of_nonneg_right _ (by positivity)
    linarith

theorem steps_find (n : Nat) (hn : n ≤ 899834) (hs : n ≠ 300000) (l : List Nat) : ∀ (k lo : Nat), stepsOk k lo l = true → lo ≤ n →
    ∃ b : Nat, (b : ℝ) + 1 / 10 ^ 7 ≤ 134 * Real.sin (n / 10000 * (Real.pi / 180)) ∧
      134 * Real.sin (n / 10000 * (Real.pi / 180)) ≤ b + 1 - 1 / 10 ^ 7 := by
  induction l with
  | nil =>
    intro k lo h hlo
    simp only [stepsOk, beq_iff_eq] at h
    omega
  | cons hi l ih =>
    intro k lo h hlo
    simp only [stepsOk, Bool.and_eq_true, decide_eq_true_eq] at h
    obtain ⟨⟨⟨h1, h2⟩, h3⟩, h4⟩ := h
    by_cases hh : n ≤ hi
    · refine ⟨k, ?_, ?_⟩
      · have c := sineQ_close lo (by omega)
        have m := sine_mono hlo (by omega)
        have h1' : (((k : ℚ) + 2 / 10 ^ 7 : ℚ) : ℝ) ≤ ((134 * sineQ lo : ℚ) : ℝ) := by exact_mod_cast h1
        push_cast at h1'
        rw [abs_le] at c
        norm_num at *
        linarith
      · have c := sineQ_close hi h3
        have m := sine_mono hh h3
        have h2' : ((134 * sineQ hi : ℚ) : ℝ) ≤ (((k : ℚ) + 1 - 2 / 10 ^ 7 : ℚ) : ℝ) := by exact_mod_cast h2
        push_cast at h2'
        rw [abs_le] at c
        norm_num at *
        linarith
    · refine ih _ _ h4 ?_
      split <;> omega

/-- Away from the angles where it is a whole number, 134 times the sine of an angle with four decimals is never near one. -/
theorem sine_between (n : Nat) (h1 : 1 ≤ n) (hn : n ≤ 899834) (hs : n ≠ 300000) :
    ∃ b : Nat, (b : ℝ) + 1 / 10 ^ 7 ≤ 134 * Real.sin (n / 10000 * (Real.pi / 180)) ∧
      134 * Real.sin (n / 10000 * (Real.pi / 180)) ≤ b + 1 - 1 / 10 ^ 7 :=
  steps_find n hn hs sineSteps 0 1 sineSteps_ok h1

end Verif.Lemmas
