import Verif.Lemmas.SinTable
import Verif.Props.Sin
/-
C74: the whole arc minutes of the correction of the sun do not depend on the fusing of operations.
-/
set_option autoImplicit false

namespace Verif.Props
open Verif.Go Verif.Model Verif.Spec Verif.Lemmas

/-- `radconv` times 30, and what the reduction of `math.Sin` leaves of `radconv` times 210. -/
def rad30 : ℚ := 4716158501352293 / 9007199254740992
def rad210 : ℚ := 4716158501352295 / 9007199254740992

theorem kernel30 : ∀ s1 s2 s3 s4 s5 s6 : Bool,
    mulAdd s6 (fl (rad30 * fl (rad30 * rad30))) (horner [s1, s2, s3, s4, s5] (fl (rad30 * rad30)) sinCoeffs) rad30 =
    1 / 2 - 1 / 2 ^ 54 := by
  decide +kernel

theorem kernel210 : ∀ s1 s2 s3 s4 s5 s6 : Bool,
    mulAdd s6 (fl (rad210 * fl (rad210 * rad210))) (horner [s1, s2, s3, s4, s5] (fl (rad210 * rad210)) sinCoeffs) rad210 =
    1 / 2 + 1 / 2 ^ 53 := by
  decide +kernel

/-- `goSin` of a positive number, given the octant and the rest of the argument. -/
theorem goSin_of (fu : Fusing) {x z : ℚ} {k j : Nat} (hx : 0 < x) (hk : ⌊fl (x * fl (4 / goPi))⌋.toNat = k)
    (hj : (if k % 2 = 1 then k + 1 else k) = j) (hy : fl (if k % 2 = 1 then fl (k : ℚ) + 1 else fl (k : ℚ)) = j)
    (hz : ∀ p1 p2 p3 : Bool, mulSub p3 (mulSub p2 (mulSub p1 x j pi4a) j pi4b) j pi4c = z) :
    goSin fu x = if 3 < j % 8 then -(if j % 8 - 4 = 1 ∨ j % 8 - 4 = 2 then cosKernel fu z else sinKernel fu z)
      else if j % 8 = 1 ∨ j % 8 = 2 then cosKernel fu z else sinKernel fu z := by
  unfold goSin
  rw [if_neg hx.ne', if_neg (not_lt.2 hx.le)]
  have hd : decide (x < 0) = false := by simp [hx.le]
  simp only [hk, hd]
  by_cases h : k % 2 = 1
  · simp only [h, if_true] at hj hy ⊢
    subst hj
    rw [hy, hz]
    split <;> simp
  · simp only [h, if_false] at hj hy ⊢
    subst hj
    have : fl (k : ℚ) = k := by
      rw [Lemmas.IsFloat.fl_eq (isFloat_fl (k : ℚ))] at hy
      exact hy
    rw [this, hz]
    split <;> simp

theorem sine30 (fu : Fusing) : sinDegrees fu 30 = 1 / 2 - 1 / 2 ^ 54 := by
  unfold sinDegrees
  rw [goSin_of fu (z := rad30) (k := 0) (j := 0) (by decide +kernel) (by decide +kernel) (by decide) (by decide +kernel) (by decide +kernel)]
  exact kernel30 _ _ _ _ _ _

theorem sine150 (fu : Fusing) : sinDegrees fu 150 = 1 / 2 - 1 / 2 ^ 54 := by
  unfold sinDegrees
  rw [goSin_of fu (z := -rad30) (k := 3) (j := 4) (by decide +kernel) (by decide +kernel) (by decide) (by decide +kernel) (by decide +kernel)]
  rw [sinKernel_neg]
  simp only [show 3 < 4 % 8 by decide, if_true, show ¬ (4 % 8 - 4 = 1 ∨ 4 % 8 - 4 = 2) by decide, if_false, neg_neg]
  exact kernel30 _ _ _ _ _ _

theorem sine210 (fu : Fusing) : sinDegrees fu 210 = -(1 / 2 + 1 / 2 ^ 53) := by
  unfold sinDegrees
  rw [goSin_of fu (z := rad210) (k := 4) (j := 4) (by decide +kernel) (by decide +kernel) (by decide) (by decide +kernel) (by decide +kernel)]
  simp only [show 3 < 4 % 8 by decide, if_true, show ¬ (4 % 8 - 4 = 1 ∨ 4 % 8 - 4 = 2) by decide, if_false]
  rw [neg_inj]
  exact kernel210 _ _ _ _ _ _

/-- Near 1, float64 rounding to 1. -/
theorem fl_one_near {q : ℚ} (h : |q - 1| ≤ 1 / 2 ^ 60) : fl q = 1 := by
  rw [abs_le] at h
  have h1 : fl (1 - 1 / 2 ^ 60) ≤ fl q := fl_mono (by linarith)
  have h2 : fl q ≤ fl (1 + 1 / 2 ^ 60) := fl_mono (by linarith)
  have e1 : fl (1 - 1 / 2 ^ 60) = 1 := by decide +kernel
  have e2 : fl (1 + 1 / 2 ^ 60) = 1 := by decide +kernel
  rw [e1] at h1
  rw [e2] at h2
  linarith

theorem fl_or_tiny {r q e : ℚ} (h : r = fl q ∨ r = q) (hq : |q| ≤ e) : |r| ≤ 2 * e := by
  have h1 := fl_or_err h
  have h2 := abs_add_le (r - q) q
  rw [sub_add_cancel] at h2
  have : |q| / 2 ^ 53 ≤ |q| := div_le_self (abs_nonneg _) (by norm_num)
  linarith

/-- The cosine of a tiny angle is 1. -/
theorem cosKernel_tiny (fu : Fusing) {z : ℚ} (h : |z| ≤ 1 / 2 ^ 50) : cosKernel fu z = 1 := by
  have hz : |fl (z * z)| ≤ 1 / 2 ^ 99 := by
    have h1 := abs_mul_le h h
    have := fl_or_tiny (.inl rfl : fl (z * z) = fl (z * z) ∨ _) h1
    norm_num at this ⊢
    exact this
  have hh := (horner_cos fu.cos1 fu.cos2 fu.cos3 fu.cos4 fu.cos5 (zz := fl (z * z)) (Z := 0) (d := 1 / 2 ^ 99)
    (by simpa using hz) (hz.trans (by norm_num)) (by norm_num) (by norm_num)).1
  unfold cosKernel
  simp only
  generalize horner [fu.cos1, fu.cos2, fu.cos3, fu.cos4, fu.cos5] (fl (z * z)) cosCoeffs = H at *
  generalize fl (z * z) = w at *
  have hH : |H| ≤ 1 := by
    rw [abs_le] at *
    norm_num at hh ⊢
    constructor <;> linarith
  obtain ⟨r, hr, er⟩ := mulSub_split fu.half 1 (1 / 2) w
  have hr' : |r| ≤ 1 / 2 ^ 99 := by
    have := fl_or_tiny hr (e := 1 / 2 ^ 100) (by rw [abs_mul]; norm_num at hz ⊢; linarith)
    norm_num at this ⊢
    exact this
  have e1 : mulSub fu.half 1 (1 / 2) w = 1 := by
    rw [er]
    refine fl_one_near ?_
    rw [show 1 - r - 1 = -r by ring, abs_neg]
    exact hr'.trans (by norm_num)
  obtain ⟨s, hs, es⟩ := mulAdd_split fu.cos6 (fl (w * w)) H 1
  have hw : |fl (w * w)| ≤ 1 / 2 ^ 190 := by
    have h1 := abs_mul_le hz hz
    have := fl_or_tiny (.inl rfl : fl (w * w) = fl (w * w) ∨ _) h1
    norm_num at this ⊢
    linarith
  have hs' : |s| ≤ 1 / 2 ^ 189 := by
    have h1 := abs_mul_le hw hH
    have := fl_or_tiny hs h1
    norm_num at this ⊢
    exact this
  rw [e1, es]
  refine fl_one_near ?_
  rw [show s + 1 - 1 = s by ring]
  exact hs'.trans (by norm_num)

theorem sine90 (fu : Fusing) : sinDegrees fu 90 = 1 := by
  unfold sinDegrees
  rw [goSin_of fu (z := -4851325781271 / 79228162514264337593543950336) (k := 2) (j := 2) (by decide +kernel) (by decide +kernel)
    (by decide) (by decide +kernel) (by decide +kernel)]
  exact cosKernel_tiny fu (by decide +kernel)

theorem sine270 (fu : Fusing) : sinDegrees fu 270 = -1 := by
  unfold sinDegrees
  rw [goSin_of fu (z := -14553977343813 / 79228162514264337593543950336) (k := 6) (j := 6) (by decide +kernel) (by decide +kernel)
    (by decide) (by decide +kernel) (by decide +kernel)]
  rw [cosKernel_tiny fu (by decide +kernel)]
  rfl

theorem sine0 (fu : Fusing) : sinDegrees fu 0 = 0 := by
  unfold sinDegrees goSin
  simp [fl_zero]

/-- 134 times the sine of an angle with four decimals, up to 316 degrees, is not near a whole number unless the angle is a multiple of
30 degrees or within 166 units of 90 or 270 degrees. -/
theorem sinDeg_between (n : Nat) (h : n ≤ 3160000) (h0 : n ≠ 0) (h30 : n ≠ 300000) (h150 : n ≠ 1500000) (h180 : n ≠ 1800000)
    (h210 : n ≠ 2100000) (h90 : n ≤ 899834 ∨ 900166 ≤ n) (h270 : n ≤ 2699834 ∨ 2700166 ≤ n) :
    ∃ b : ℤ, (b : ℝ) + 1 / 10 ^ 7 ≤ 134 * sinDeg (n / 10000) ∧ 134 * sinDeg (n / 10000) ≤ b + 1 - 1 / 10 ^ 7 := by
  unfold sinDeg
  rcases h90 with h90 | h90
  · obtain ⟨b, h1, h2⟩ := sine_between n (by omega) h90 h30
    exact ⟨b, h1, h2⟩
  by_cases c : n < 1800000
  · obtain ⟨b, h1, h2⟩ := sine_between (1800000 - n) (by omega) (by omega) (by omega)
    have e : Real.sin (((1800000 - n : Nat) : ℝ) / 10000 * (Real.pi / 180)) = Real.sin (n / 10000 * (Real.pi / 180)) := by
      rw [Nat.cast_sub c.le, ← Real.sin_pi_sub]
      congr 1
      push_cast
      ring
    rw [e] at h1 h2
    exact ⟨b, h1, h2⟩
  have key : ∀ m : Nat, 1 ≤ m → m ≤ 899834 → m ≠ 300000 →
      Real.sin ((m : ℝ) / 10000 * (Real.pi / 180)) = -Real.sin (n / 10000 * (Real.pi / 180)) →
      ∃ b : ℤ, (b : ℝ) + 1 / 10 ^ 7 ≤ 134 * Real.sin (n / 10000 * (Real.pi / 180)) ∧
        134 * Real.sin (n / 10000 * (Real.pi / 180)) ≤ b + 1 - 1 / 10 ^ 7 := by
    intro m m1 m2 m3 e
    obtain ⟨b, h1, h2⟩ := sine_between m m1 m2 m3
    rw [e] at h1 h2
    refine ⟨-b - 1, ?_, ?_⟩ <;> push_cast <;> linarith
  rcases h270 with h270 | h270
  · refine key (n - 1800000) (by omega) (by omega) (by omega) ?_
    rw [Nat.cast_sub (by omega), ← Real.sin_sub_pi]
    congr 1
    push_cast
    ring
  · refine key (3600000 - n) (by omega) (by omega) (by omega) ?_
    rw [Nat.cast_sub (by omega), ← Real.sin_neg, ← Real.sin_add_two_pi (-_)]
    congr 1
    push_cast
    ring

/-- The whole arc minutes of the correction of the sun, for a mean sun of `t` units of 10⁻⁴ degrees. -/
def sunMinutes (fu : Fusing) (t : Int) : ℤ := ⌊fl (134 * sinDegrees fu |fl (fl ((t : ℚ) / 10000) - 80)|)⌋

theorem minutes_of_between (fu : Fusing) (t : Int) (h1 : -800000 ≤ t) (h2 : t ≤ 3960000) (b : ℤ)
    (hb1 : (b : ℝ) + 1 / 10 ^ 7 ≤ 134 * sinDeg ((t - 800000).natAbs / 10000))
    (hb2 : 134 * sinDeg ((t - 800000).natAbs / 10000) ≤ b + 1 - 1 / 10 ^ 7) : sunMinutes fu t = b := by
  have hq1 : (-800000 : ℚ) ≤ t := by exact_mod_cast h1
  have hq2 : (t : ℚ) ≤ 3960000 := by exact_mod_cast h2
  have c1 := fl_within (q := (t : ℚ) / 10000) (B := 400) (by rw [abs_le]; constructor <;> linarith)
  unfold sunMinutes
  generalize fl ((t : ℚ) / 10000) = m at *
  have c2 := fl_within (q := m - 80) (B := 500) (by
    rw [abs_le] at *
    norm_num at c1
    constructor <;> linarith)
  generalize fl (m - 80) = a at *
  have ea : (((t - 800000).natAbs : ℕ) : ℚ) / 10000 = |(t : ℚ) / 10000 - 80| := by
    rw [show (t : ℚ) / 10000 - 80 = ((t - 800000 : ℤ) : ℚ) / 10000 by push_cast; ring, abs_div, Nat.cast_natAbs, Int.cast_abs]
    norm_num
  have c3 : |(|a|) - ((t - 800000).natAbs : ℕ) / 10000| ≤ 1 / 10 ^ 12 := by
    rw [ea]
    refine (abs_abs_sub_abs_le_abs_sub _ _).trans ?_
    rw [abs_le] at *
    norm_num at c1 c2 ⊢
    constructor <;> linarith
  have c4 : |(((|a| : ℚ) : ℝ)) - ((t - 800000).natAbs : ℕ) / 10000| ≤ 1 / 10 ^ 12 := by
    have := cast_abs_le c3
    push_cast at this ⊢
    exact this
  have ha : |(|a|)| ≤ 50000 := by
    rw [abs_abs]
    rw [abs_le] at *
    norm_num at c1 c2 ⊢
    constructor <;> linarith
  have c5 := c62_sine fu |a| ha
  have c6 := sinDeg_close c4
  have hr := abs_sinDegrees_le fu ha
  generalize sinDegrees fu |a| = s at *
  have c7 := fl_within (q := 134 * s) (B := 134) (by rw [abs_mul]; norm_num; linarith)
  have c8 : |((fl (134 * s) : ℚ) : ℝ) - 134 * s| ≤ 1 / 10 ^ 12 := by
    have := cast_abs_le c7
    push_cast at this
    refine this.trans (by norm_num)
  generalize fl (134 * s) = v at *
  rw [Int.floor_eq_iff]
  have g : (b : ℝ) ≤ v ∧ (v : ℝ) < b + 1 := by
    clear c7 hr c3 c4 ea c1 c2
    rw [abs_le] at c5 c6 c8
    norm_num at hb1 hb2 c5 c6 c8
    constructor <;> linarith
  exact ⟨by exact_mod_cast g.1, by exact_mod_cast g.2⟩

/-- C74: the whole arc minutes of the sun's correction are the same, whatever is fused, for every mean sun from -0.05 to 396 degrees. -/
theorem minutes_fused (fu fu' : Fusing) (M : Int) (h0 : -3 ≤ M) (h1 : M ≤ 23720) : sunMinutes fu (500 * M / 3) = sunMinutes fu' (500 * M / 3) := by
  have special : ∀ (t : Int) (a : ℚ) (s : ℚ), |fl (fl ((t : ℚ) / 10000) - 80)| = a → (∀ f, sinDegrees f a = s) → sunMinutes fu t = sunMinutes fu' t := by
    intro t a s ha hs
    unfold sunMinutes
    rw [ha, hs, hs]
  by_cases c0 : M = 4800
  · subst c0; exact special _ 0 0 (by decide +kernel) sine0
  by_cases c1 : M = 3000
  · subst c1; exact special _ 30 _ (by decide +kernel) sine30
  by_cases c2 : M = 6600
  · subst c2; exact special _ 30 _ (by decide +kernel) sine30
  by_cases c3 : M = 10200
  · subst c3; exact special _ 90 _ (by decide +kernel) sine90
  by_cases c4 : M = 13800
  · subst c4; exact special _ 150 _ (by decide +kernel) sine150
  by_cases c5 : M = 17400
  · subst c5; exact special _ 210 _ (by decide +kernel) sine210
  by_cases c6 : M = 21000
  · subst c6; exact special _ 270 _ (by decide +kernel) sine270
  by_cases c7 : M = 15600
  · subst c7
    have z : ∀ f, sunMinutes f (500 * 15600 / 3) = 0 := by
      intro f
      unfold sunMinutes
      have e : |fl (fl (((500 * 15600 / 3 : Int) : ℚ) / 10000) - 80)| = 180 := by decide +kernel
      rw [e]
      have r1 := sinDegrees_nonneg f (a := 180) (by norm_num) (by norm_num)
      have r2 := c62_sine f 180 (by norm_num)
      have e2 : sinDeg ((180 : ℚ) : ℝ) = 0 := by
        unfold sinDeg
        rw [show ((180 : ℚ) : ℝ) * (Real.pi / 180) = Real.pi by push_cast; ring, Real.sin_pi]
      rw [e2, abs_le] at r2
      have r3 : sinDegrees f 180 ≤ 2 / 10 ^ 11 := by
        have : ((sinDegrees f 180 : ℚ) : ℝ) ≤ ((2 / 10 ^ 11 : ℚ) : ℝ) := by push_cast; linarith [r2.2]
        exact_mod_cast this
      have g1 := fl_nonneg (q := 134 * sinDegrees f 180) (by linarith)
      have g2 : fl (134 * sinDegrees f 180) ≤ fl (1 / 2) := fl_mono (by norm_num at r3 ⊢; linarith)
      have g3 : fl (1 / 2) = 1 / 2 := by decide +kernel
      rw [Int.floor_eq_iff]
      norm_num
      exact ⟨g1, by rw [g3] at g2; linarith⟩
    rw [z, z]
  have := sinDeg_between (500 * M / 3 - 800000).natAbs (by omega) (by omega) (by omega) (by omega) (by omega) (by omega)
    (by omega) (by omega)
  obtain ⟨b, hb1, hb2⟩ := this
  rw [minutes_of_between fu _ (by omega) (by omega) b hb1 hb2, minutes_of_between fu' _ (by omega) (by omega) b hb1 hb2]

end Verif.Props
