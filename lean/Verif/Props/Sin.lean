import Verif.Spec.Sine
import Verif.Lemmas.Sin
import Verif.Props.Positions
/-
C62: the sine of `(*SuriyaDay).Init` is the sine, and the positions are those of the real sine.
-/
set_option autoImplicit false

namespace Verif.Props
open Verif.Go Verif.Model Verif.Spec Verif.Lemmas

/-- C62: up to 50000 degrees the computed sine differs from the sine by at most 2·10⁻¹¹. -/
theorem c62_sine (fu : Fusing) (a : ℚ) (h : |a| ≤ 50000) : |(sinDegrees fu a : ℝ) - sinDeg a| ≤ 2 / 10 ^ 11 := sinDegrees_close fu h

/-- C62: the sine of 1000 degrees. -/
example (fu : Fusing) : |(sinDegrees fu 1000 : ℝ) - sinDeg (1000 : ℚ)| ≤ 2 / 10 ^ 11 := c62_sine fu 1000 (by norm_num)

/-- C62: the computed sine never leaves [-1, 1], and is not negative from 0 to 180 degrees, whatever the rounding. -/
theorem c62_range (fu : Fusing) (a : ℚ) (h : |a| ≤ 50000) : |sinDegrees fu a| ≤ 1 ∧ (0 ≤ a → a ≤ 180 → 0 ≤ sinDegrees fu a) :=
  ⟨abs_sinDegrees_le fu h, fun h0 h1 => sinDegrees_nonneg fu h0 h1⟩

/-- C62 at the ends: the sine of 90 degrees is exactly 1; that of 180 degrees is 1.2·10⁻¹⁶ and not 0. -/
example : sinDegrees .none 90 = 1 ∧ sinDegrees .none (-90) = -1 ∧ 0 < sinDegrees .none 180 ∧ sinDegrees .none 180 < 2 / 10 ^ 16 ∧ sinDegrees .none 30 < 1 / 2 := by
  decide +kernel

/-- The computed sine, cut off beyond the arguments that occur. -/
def cutSine (fu : Fusing) (a : ℚ) : ℚ := if |a| ≤ 50000 then sinDegrees fu a else 0

theorem cutSine_le (fu : Fusing) (a : ℚ) : |cutSine fu a| ≤ 1 := by
  unfold cutSine
  split
  · exact abs_sinDegrees_le fu (by assumption)
  · norm_num

theorem cutSine_nonneg (fu : Fusing) (a : ℚ) (h0 : 0 ≤ a) (h1 : a ≤ 180) : 0 ≤ cutSine fu a := by
  unfold cutSine
  split
  · exact sinDegrees_nonneg fu h0 h1
  · norm_num

theorem trueSun_cut (fu : Fusing) (m : ℚ) (h : |m| ≤ 2000) : trueSun fu (sinDegrees fu) m = trueSun fu (cutSine fu) m := by
  unfold trueSun
  have h1 : |m - 80| ≤ 3000 := by
    rw [abs_le] at *
    constructor <;> linarith
  have h2 := abs_le_of_near (fl_within h1) h1
  have h3 : |(|fl (m - 80)|)| ≤ 50000 := by
    rw [abs_abs]
    refine h2.trans ?_
    norm_num
  have e : cutSine fu |fl (m - 80)| = sinDegrees fu |fl (m - 80)| := if_pos h3
  simp only [e]

theorem trueMoon_cut (fu : Fusing) (m u : ℚ) (h : |m| ≤ 2000) (hu : |u| ≤ 12000) : trueMoon (sinDegrees fu) m u = trueMoon (cutSine fu) m u := by
  unfold trueMoon
  have h1 : |m - u| ≤ 14000 := by
    rw [abs_le] at *
    constructor <;> linarith
  have h2 := abs_le_of_near (fl_within h1) h1
  have h3 : |fl (m - u)| ≤ 50000 := by
    refine h2.trans ?_
    norm_num
  have e : cutSine fu (fl (m - u)) = sinDegrees fu (fl (m - u)) := if_pos h3
  simp only [e]

theorem days_range (y d : Int) (hy : 638 ≤ y) (h0 : 0 ≤ d) (hd : d ≤ 1000) :
    |(SuriyaYear.init y).Uccabala + (d - (SuriyaYear.init y).Tithi)| ≤ 10 ^ 5 := by
  have ht := tithi_range y hy
  have hu : 0 ≤ (SuriyaYear.init y).Uccabala ∧ (SuriyaYear.init y).Uccabala < 3232 := (c01_init_values y hy).2.2.2.uccabala_range
  rw [abs_le]
  omega

theorem positions_cut (fu : Fusing) (y d : Int) (hy : 638 ≤ y) (h0 : 0 ≤ d) (hd : d ≤ 1000) (hh : 0 ≤ (SuriyaDay.init y d).Horakhun) :
    SuriyaDayPositions.init fu (sinDegrees fu) y d = SuriyaDayPositions.init fu (cutSine fu) y d := by
  have h1 := mean_sun_bound fu (cutSine fu) y d hy h0 hd
  have h2 := mean_moon_bound fu (cutSine fu) (cutSine_le fu) y d hy h0 hd hh
  have h3 := (uccabala_formula fu _ (days_range y d hy h0 hd)).2
  simp only [SuriyaDayPositions.init] at h1 h2 ⊢
  rw [trueSun_cut fu _ (by linarith)]
  rw [trueMoon_cut fu _ _ (by linarith) h3]

theorem horakhun_of_new_year (y d : Int) (hy : 638 ≤ y) (h : (SuriyaYear.init y).Tithi ≤ d) : 0 ≤ (SuriyaDay.init y d).Horakhun := by
  show 0 ≤ (SuriyaYear.init y).Horakhun + (d - (SuriyaYear.init y).Tithi)
  rw [init_Horakhun hy]
  have := hor_pos hy
  omega

/-- C62: with the computed sine the corrections, the moon and the raek stay in the ranges of C48. -/
theorem c62_positions (fu : Fusing) (y d : Int) (hy : 638 ≤ y) (h : (SuriyaYear.init y).Tithi ≤ d) (hd : d ≤ 1000) :
    let p := SuriyaDayPositions.init fu (sinDegrees fu) y d
    |p.TrueSun - p.MeanSun| ≤ 134 / 60 + 1 / 5000 ∧ (-3 ≤ p.MeanMoon ∧ p.MeanMoon ≤ 360) ∧
    |p.TrueMoon - p.MeanMoon| ≤ 296 / 60 + 1 / 5000 ∧ (-8 < p.TrueMoon ∧ p.TrueMoon < 365) ∧
    (4 / 10 < p.Raek ∧ p.Raek < 284 / 10) := by
  have ht := tithi_range y hy
  rw [positions_cut fu y d hy (by omega) hd (horakhun_of_new_year y d hy h)]
  exact c48_ranges fu (cutSine fu) (cutSine_le fu) y d hy h hd

/-- C62: the range of the moon on lunar day 103 of 1963. -/
example (fu : Fusing) : -8 < (SuriyaDayPositions.init fu (sinDegrees fu) 1963 103).TrueMoon ∧ (SuriyaDayPositions.init fu (sinDegrees fu) 1963 103).TrueMoon < 365 :=
  (c62_positions fu 1963 103 (by decide) (by decide) (by decide)).2.2.2.1

theorem sinDeg_close {a b e : ℝ} (h : |a - b| ≤ e) : |sinDeg a - sinDeg b| ≤ e := by
  unfold sinDeg
  refine (Real.abs_sin_sub_sin_le _ _).trans ?_
  rw [← sub_mul, abs_mul]
  have hp : |Real.pi / 180| ≤ 1 := by
    rw [abs_of_pos (by positivity)]
    linarith [Real.pi_le_four]
  calc _ ≤ e * 1 := mul_le_mul h hp (abs_nonneg _) ((abs_nonneg _).trans h)
    _ = e := mul_one _

/-- C62: the positions with the real sine: the true sun is at most an arc minute and the truncation below
MeanSun + 134'·sin|MeanSun - 80|, and not above it. -/
theorem c62_true_sun (fu : Fusing) (y d : Int) (hy : 638 ≤ y) (h0 : 0 ≤ d) (hd : d ≤ 1000) :
    let p := SuriyaDayPositions.init fu (sinDegrees fu) y d
    let exact : ℝ := p.MeanSun + 134 / 60 * sinDeg |(p.MeanSun : ℝ) - 80|
    exact - 1 / 60 - 1 / 10000 - 1 / 10 ^ 8 < p.TrueSun ∧ (p.TrueSun : ℝ) ≤ exact + 1 / 10 ^ 8 := by
  intro p exact
  have hm : |p.MeanSun| ≤ 1000 := mean_sun_bound fu (sinDegrees fu) y d hy h0 hd
  have ee : exact = p.MeanSun + 134 / 60 * sinDeg |(p.MeanSun : ℝ) - 80| := rfl
  rw [ee]
  have et : p.TrueSun = trueSun fu (cutSine fu) p.MeanSun := trueSun_cut fu p.MeanSun (by linarith)
  obtain ⟨h1, h2⟩ := true_sun_formula fu (cutSine fu) (cutSine_le fu) p.MeanSun (by linarith)
  rw [← et] at h1 h2
  generalize p.MeanSun = m at *
  generalize p.TrueSun = t at *
  have k1 : |m - 80| ≤ 3000 := by
    rw [abs_le] at *
    constructor <;> linarith
  have k2 := fl_within k1
  have k3 := abs_le_of_near k2 k1
  have k4 : |(|fl (m - 80)|)| ≤ 50000 := by
    rw [abs_abs]
    refine k3.trans ?_
    norm_num
  have k5 : |(|fl (m - 80)|) - (|m - 80|)| ≤ 3000 / 2 ^ 53 := (abs_abs_sub_abs_le_abs_sub _ _).trans k2
  have hc : cutSine fu |fl (m - 80)| = sinDegrees fu |fl (m - 80)| := if_pos k4
  rw [hc] at h1 h2
  generalize |fl (m - 80)| = A at *
  have s1 := c62_sine fu A k4
  have s2 := abs_sinDegrees_le fu k4
  generalize sinDegrees fu A = s at *
  have s3 : |134 * s| ≤ 134 := by
    rw [abs_le] at *
    constructor <;> linarith
  have s4 := fl_within s3
  generalize fl (134 * s) = r at *
  have f1 := Int.floor_le r
  have f2 := Int.lt_floor_add_one r
  generalize (⌊r⌋ : ℚ) = b at *
  have s5 : |sinDeg A - sinDeg (|(m : ℝ) - 80|)| ≤ 3000 / 2 ^ 53 := by
    apply sinDeg_close
    have := cast_abs_le k5
    push_cast at this
    exact this
  have q1 : m + (134 * s - 134 / 2 ^ 53 - 1) / 60 - 1 / 10000 - 1 / 10 ^ 9 < t := by
    rw [abs_le] at s4
    linarith
  have q2 : t ≤ m + (134 * s + 134 / 2 ^ 53) / 60 + 1 / 10 ^ 9 := by
    rw [abs_le] at s4
    linarith
  have q1' : ((m + (134 * s - 134 / 2 ^ 53 - 1) / 60 - 1 / 10000 - 1 / 10 ^ 9 : ℚ) : ℝ) < (t : ℝ) := by exact_mod_cast q1
  have q2' : (t : ℝ) ≤ ((m + (134 * s + 134 / 2 ^ 53) / 60 + 1 / 10 ^ 9 : ℚ) : ℝ) := by exact_mod_cast q2
  push_cast at q1' q2'
  rw [abs_le] at s1 s5
  norm_num at q1' q2' s1 s5 ⊢
  constructor <;> linarith

/-- C62: the sun on lunar day 0 of 2015 against the real sine. -/
example (fu : Fusing) : ((SuriyaDayPositions.init fu (sinDegrees fu) 2015 0).TrueSun : ℝ) ≤ (SuriyaDayPositions.init fu (sinDegrees fu) 2015 0).MeanSun +
    134 / 60 * sinDeg |((SuriyaDayPositions.init fu (sinDegrees fu) 2015 0).MeanSun : ℝ) - 80| + 1 / 10 ^ 8 :=
  (c62_true_sun fu 2015 0 (by decide) (by decide) (by decide)).2

/-- C62: the true moon is the mean moon less 296' times the sine of its distance from the apogee, truncated. -/
theorem c62_true_moon (fu : Fusing) (y d : Int) (hy : 638 ≤ y) (h0 : 0 ≤ d) (hd : d ≤ 1000) (hh : 0 ≤ (SuriyaDay.init y d).Horakhun) :
    let p := SuriyaDayPositions.init fu (sinDegrees fu) y d
    let days := (SuriyaYear.init y).Uccabala + (d - (SuriyaYear.init y).Tithi)
    let exact : ℝ := p.MeanMoon - 296 / 60 * sinDeg ((p.MeanMoon : ℝ) - (days * 90 / 808 + 2 / 60))
    exact - 1 / 10000 - 1 / 10 ^ 8 < p.TrueMoon ∧ (p.TrueMoon : ℝ) ≤ exact + 1 / 10 ^ 8 := by
  intro p days exact
  have hu := uccabala_formula fu days (days_range y d hy h0 hd)
  have ep : p = SuriyaDayPositions.init fu (cutSine fu) y d := positions_cut fu y d hy h0 hd hh
  obtain ⟨a, h1, h2, h3⟩ := c50_true_moon fu (cutSine fu) (cutSine_le fu) y d hy h0 hd hh
  have hm := mean_moon_bound fu (cutSine fu) (cutSine_le fu) y d hy h0 hd hh
  rw [← ep] at h1 h2 h3 hm
  change |a - (p.MeanMoon - (days * 90 / 808 + 2 / 60))| ≤ _ at h1
  have ha : |a| ≤ 50000 := by
    obtain ⟨u1, u2⟩ := hu
    generalize (days : ℚ) * 90 / 808 + 2 / 60 = w at *
    rw [abs_le] at *
    norm_num at *
    constructor <;> linarith
  have hc : cutSine fu a = sinDegrees fu a := if_pos ha
  rw [hc] at h2 h3
  have h4 := c62_sine fu a ha
  have h5 : |sinDeg a - sinDeg ((p.MeanMoon : ℝ) - (days * 90 / 808 + 2 / 60))| ≤ 1 / 10 ^ 9 := by
    apply sinDeg_close
    have := cast_abs_le h1
    push_cast at this
    exact this
  have h2' : ((p.MeanMoon - 296 * sinDegrees fu a / 60 - 1 / 10000 - 1 / 10 ^ 9 : ℚ) : ℝ) < (p.TrueMoon : ℝ) := by exact_mod_cast h2
  have h3' : (p.TrueMoon : ℝ) ≤ ((p.MeanMoon - 296 * sinDegrees fu a / 60 + 1 / 10 ^ 9 : ℚ) : ℝ) := by exact_mod_cast h3
  push_cast at h2' h3'
  have ee : exact = p.MeanMoon - 296 / 60 * sinDeg ((p.MeanMoon : ℝ) - (days * 90 / 808 + 2 / 60)) := rfl
  rw [ee]
  rw [abs_le] at h4 h5
  norm_num at h2' h3' h4 h5 ⊢
  constructor <;> linarith

/-- C62 applies: the days of the project's own test, suriya_test.go:189-257, and their positions. -/
example : 0 ≤ (SuriyaDay.init 1963 103).Horakhun ∧ (SuriyaYear.init 1963).Tithi ≤ 103 ∧
    (SuriyaDayPositions.init .none (sinDegrees .none) 1963 103).TrueSun = fl 79.4832 ∧
    (SuriyaDayPositions.init .none (sinDegrees .none) 1963 103).TrueMoon = fl 247.6955 ∧
    (SuriyaDayPositions.init .none (sinDegrees .none) 2015 133).TrueSun = fl 104.5499 ∧
    (SuriyaDayPositions.init .none (sinDegrees .none) 2015 133).TrueMoon = fl 275.4053 ∧
    (SuriyaDayPositions.init .none (sinDegrees .none) 2015 118).TrueSun = fl 89.2166 ∧
    (SuriyaDayPositions.init .none (sinDegrees .none) 2015 118).TrueMoon = fl 86.5874 := by
  decide +kernel

/-- C62: the positions are not reduced to a circle: on lunar day 275 of 2026 the true moon is below zero and the raek
below one, on lunar day 191 of 1942 the true moon is above 360 degrees and the raek above 28. -/
theorem c62_not_reduced :
    (SuriyaDayPositions.init .none (sinDegrees .none) 2026 275).TrueMoon = fl (-48154 / 10000) ∧
    (SuriyaDayPositions.init .none (sinDegrees .none) 1942 191).TrueMoon = fl (3649154 / 10000) ∧
    (SuriyaDayPositions.init .none (sinDegrees .none) 2026 275).Raek < 1 ∧ 28 < (SuriyaDayPositions.init .none (sinDegrees .none) 1942 191).Raek := by
  decide +kernel

/-- C62: with the computed sine the true sun is not behind the mean sun on either side of 80 degrees (C51). -/
theorem c62_sun_not_behind (fu : Fusing) (y d : Int) (hy : 638 ≤ y) (h0 : 0 ≤ d) (hd : d ≤ 1000)
    (h1 : |(SuriyaDayPositions.init fu (sinDegrees fu) y d).MeanSun - 80| ≤ 180) :
    (SuriyaDayPositions.init fu (sinDegrees fu) y d).MeanSun - 1 / 10000 - 1 / 10 ^ 9 < (SuriyaDayPositions.init fu (sinDegrees fu) y d).TrueSun := by
  have em : (SuriyaDayPositions.init fu (sinDegrees fu) y d).MeanSun = (SuriyaDayPositions.init fu (cutSine fu) y d).MeanSun := rfl
  have hm := mean_sun_bound fu (cutSine fu) y d hy h0 hd
  have et : (SuriyaDayPositions.init fu (sinDegrees fu) y d).TrueSun = (SuriyaDayPositions.init fu (cutSine fu) y d).TrueSun :=
    trueSun_cut fu (SuriyaDayPositions.init fu (cutSine fu) y d).MeanSun (by linarith)
  rw [em] at h1
  rw [em, et]
  exact c51_sun_not_behind fu (cutSine fu) (cutSine_le fu) (cutSine_nonneg fu) y d hy h0 hd h1

/-- C62 applies: lunar day 200 of 2015, with the mean sun at 169.7 degrees, ahead of which the true sun is by more than 2 degrees. -/
example : |(SuriyaDayPositions.init .none (sinDegrees .none) 2015 200).MeanSun - 80| ≤ 180 ∧
    (SuriyaDayPositions.init .none (sinDegrees .none) 2015 200).MeanSun + 2 < (SuriyaDayPositions.init .none (sinDegrees .none) 2015 200).TrueSun := by
  decide +kernel

end Verif.Props
