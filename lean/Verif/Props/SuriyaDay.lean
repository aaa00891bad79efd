import Verif.Model.SuriyaDayFloat
import Verif.Props.Ral
import Verif.Lemmas.Year
/-
C47, C48: the positions computed for a day.
-/
set_option autoImplicit false

namespace Verif.Props
open Verif.Go Verif.Model Verif.Spec Verif.Lemmas

theorem fl_close {q B : ℚ} (h : |q| ≤ B) : q - B / 2 ^ 53 ≤ fl q ∧ fl q ≤ q + B / 2 ^ 53 := by
  have he := abs_le.1 (fl_err q)
  have : |q| / 2 ^ 53 ≤ B / 2 ^ 53 := div_le_div_of_nonneg_right h (by positivity)
  constructor <;> linarith [he.1, he.2]

theorem fl_or_close {r q B : ℚ} (hr : r = fl q ∨ r = q) (h : |q| ≤ B) : q - B / 2 ^ 53 ≤ r ∧ r ≤ q + B / 2 ^ 53 := by
  have he := abs_le.1 (fl_or_within hr h)
  constructor <;> linarith [he.1, he.2]

/-- The parts of any degree, up to rounding. -/
theorem parts_close {d : ℚ} (hd : IsFloat d) (hb : |d| < 2 ^ 38) (x y z : Int) (h : degreeToRal d = (x, y, z)) :
    x = ⌊d⌋ / 30 ∧ y = ⌊d⌋.tmod 30 ∧ (d - ⌊d⌋) * 60 - 1 - 1 / 10 ^ 12 < z ∧ (z : ℚ) ≤ (d - ⌊d⌋) * 60 + 1 / 10 ^ 12 ∧
    0 ≤ z ∧ z ≤ 60 := by
  have hb' : |d| < 2 ^ 53 := by
    have : (2 : ℚ) ^ 38 < 2 ^ 53 := by norm_num
    linarith
  have hq := floor_fl_quot hd hb' (d := 30) (by norm_num)
  push_cast at hq
  have hx : ⌊d / 30⌋ = ⌊d⌋ / 30 := by
    have := Int.floor_div_natCast d 30
    simpa using this
  have f1 := Int.floor_le d
  have f2 := Int.lt_floor_add_one d
  have hfb : |⌊d⌋| ≤ 2 ^ 53 := by
    rw [abs_lt] at hb
    have h1 : (⌊d⌋ : ℚ) < 2 ^ 38 := by linarith
    have h2 : -(2 ^ 38) - 1 < (⌊d⌋ : ℚ) := by linarith
    have h1 : ⌊d⌋ < 2 ^ 38 := by exact_mod_cast h1
    have h2 : -(2 ^ 38) - 1 < ⌊d⌋ := by exact_mod_cast h2
    rw [abs_le]; omega
  unfold degreeToRal at h
  simp only [Prod.mk.injEq] at h
  obtain ⟨rfl, rfl, rfl⟩ := h
  rw [fl_int _ hfb]
  refine ⟨by rw [hq, hx], rfl, ?_⟩
  have r1 := fl_close (q := d - ⌊d⌋) (B := 1) (by rw [abs_le]; constructor <;> linarith)
  have r0 : 0 ≤ fl (d - ⌊d⌋) := by
    have := le_fl_of_int (k := 0) (q := d - ⌊d⌋) (by norm_num) (by push_cast; linarith)
    simpa using this
  have r3 : fl (d - ⌊d⌋) ≤ 1 := by
    have := fl_le_of_int (k := 1) (q := d - ⌊d⌋) (by norm_num) (by push_cast; linarith)
    simpa using this
  generalize fl (d - ⌊d⌋) = r at *
  have s1 := fl_close (q := r * 60) (B := 60) (by rw [abs_le]; constructor <;> linarith)
  have s0 : 0 ≤ fl (r * 60) := by
    have := le_fl_of_int (k := 0) (q := r * 60) (by norm_num) (by push_cast; linarith)
    simpa using this
  have s3 : fl (r * 60) ≤ 60 := by
    have := fl_le_of_int (k := 60) (q := r * 60) (by norm_num) (by push_cast; linarith)
    simpa using this
  generalize fl (r * 60) = s at *
  have g1 := Int.floor_le s
  have g2 := Int.lt_floor_add_one s
  refine ⟨?_, ?_, Int.floor_nonneg.2 s0, ?_⟩
  · norm_num at r1 s1 ⊢; linarith
  · norm_num at r1 s1 ⊢; linarith
  · have : (⌊s⌋ : ℚ) ≤ 60 := by linarith
    exact_mod_cast this

/-- The float64 degree from which the mean sun is taken. -/
def sunDegree (a : Int) : ℚ := fl (fl (fl (a : ℚ) / 292207) * 360)

theorem sunDegree_close (a : Int) (h : |a| ≤ 10 ^ 8) :
    |sunDegree a - a * 360 / 292207| ≤ 1 / 10 ^ 10 ∧ |sunDegree a| ≤ 123202 ∧ IsFloat (sunDegree a) := by
  have e : fl (a : ℚ) = a := fl_int a (by omega)
  have hq : |(a : ℚ)| ≤ 10 ^ 8 := by rw [← Int.cast_abs]; exact_mod_cast h
  rw [abs_le] at hq
  have h1 := fl_close (q := (a : ℚ) / 292207) (B := 343) (by
    rw [abs_le, le_div_iff₀ (by norm_num), div_le_iff₀ (by norm_num)]
    constructor <;> norm_num at hq ⊢ <;> linarith)
  have b1 : |(a : ℚ) / 292207| ≤ 3423 / 10 := by
    rw [abs_le, le_div_iff₀ (by norm_num), div_le_iff₀ (by norm_num)]
    norm_num at hq ⊢
    constructor <;> linarith
  rw [abs_le] at b1
  have e2 : (a : ℚ) * 360 / 292207 = a / 292207 * 360 := by ring
  unfold sunDegree
  rw [e, e2]
  refine ⟨?_, ?_, isFloat_fl _⟩
  all_goals
    generalize (a : ℚ) / 292207 = q at *
    have h2 := fl_close (q := fl q * 360) (B := 123400) (by
      rw [abs_le]; norm_num at h1 ⊢; constructor <;> linarith)
    rw [abs_le]
    norm_num at h1 h2 ⊢
    constructor <;> linarith

/-- The lipda of a degree that is not near a whole arc minute: rounding does not matter. -/
theorem lipda_stable {X r : ℚ} {N k : ℤ} (h1 : k + 1 / 10 ^ 6 ≤ (X - N) * 60) (h2 : (X - N) * 60 ≤ k + 1 - 1 / 10 ^ 6)
    (h3 : 0 ≤ k) (h4 : k < 60) (hr : |r - (X - N)| ≤ 1 / 10 ^ 9) : ⌊fl (r * 60)⌋ = k := by
  have h3' : (0 : ℚ) ≤ k := by exact_mod_cast h3
  have h4' : (k : ℚ) ≤ 59 := by exact_mod_cast (by omega : k ≤ 59)
  norm_num at h1 h2 hr
  rw [abs_le] at hr
  have s1 := fl_close (q := r * 60) (B := 61) (by rw [abs_le]; constructor <;> linarith)
  norm_num at s1
  rw [Int.floor_eq_iff]
  constructor <;> linarith

/-- C74: whether the product of suriya_day.go:85 is rounded before helpers.go:19 subtracts the whole degrees from it does not matter:
the position is never near a whole arc minute unless it is a whole number of turns. -/
theorem degree_fused (f : Bool) (a : Int) (h : |a| ≤ 10 ^ 8) :
    degreeToRalOfMul f (fl (fl (a : ℚ) / 292207)) 360 = degreeToRal (sunDegree a) := by
  cases f
  · rfl
  have ea : fl (a : ℚ) = a := fl_int a (by omega)
  obtain ⟨c1, c2, -⟩ := sunDegree_close a h
  unfold degreeToRalOfMul degreeToRal
  have es : fl (fl (fl (a : ℚ) / 292207) * 360) = sunDegree a := rfl
  simp only [es, if_true, Prod.mk.injEq, true_and]
  by_cases hd : (292207 : ℤ) ∣ a
  · obtain ⟨t, rfl⟩ := hd
    have ht : |t| ≤ 400 := by rw [abs_le] at *; omega
    rw [abs_le] at ht
    have e0 : fl (fl ((292207 * t : ℤ) : ℚ) / 292207) = t := by
      rw [ea]
      have : ((292207 * t : ℤ) : ℚ) / 292207 = t := by push_cast; field_simp
      rw [this, fl_int t (by rw [abs_le]; omega)]
    have e1 : sunDegree (292207 * t) = t * 360 := by
      unfold sunDegree
      rw [e0]
      have := fl_int (t * 360) (by rw [abs_le]; omega)
      push_cast at this
      exact this
    rw [e0, e1]
  · -- the whole degrees and minutes of the exact position
    obtain ⟨N, hN⟩ : ∃ N : ℤ, N = 360 * a / 292207 := ⟨_, rfl⟩
    obtain ⟨k, hk⟩ : ∃ k : ℤ, k = (21600 * a / 292207) - 60 * N := ⟨_, rfl⟩
    have n1 : 292207 * (60 * N + k) + 1 ≤ 21600 * a := by omega
    have n2 : 21600 * a + 1 ≤ 292207 * (60 * N + k + 1) := by omega
    have k0 : 0 ≤ k := by omega
    have k1 : k < 60 := by omega
    have m1 : 292207 * N + 1 ≤ 360 * a := by omega
    have m2 : 360 * a + 1 ≤ 292207 * (N + 1) := by omega
    have n1' : (292207 * (60 * N + k) + 1 : ℚ) ≤ 21600 * a := by exact_mod_cast n1
    have n2' : (21600 * a + 1 : ℚ) ≤ 292207 * (60 * N + k + 1) := by exact_mod_cast n2
    have m1' : (292207 * N + 1 : ℚ) ≤ 360 * a := by exact_mod_cast m1
    have m2' : (360 * a + 1 : ℚ) ≤ 292207 * (N + 1) := by exact_mod_cast m2
    have hq : |(a : ℚ)| ≤ 10 ^ 8 := by rw [← Int.cast_abs]; exact_mod_cast h
    have hfl : ⌊sunDegree a⌋ = N := by
      rw [abs_le] at c1
      norm_num at c1
      rw [Int.floor_eq_iff]
      constructor <;> linarith
    have hNb : |N| ≤ 2 ^ 53 := by rw [abs_le] at *; omega
    rw [hfl, fl_int N hNb, ea]
    have hp := fl_close (q := (a : ℚ) / 292207) (B := 343) (by
      rw [abs_le] at *
      rw [le_div_iff₀ (by norm_num), div_le_iff₀ (by norm_num)]
      norm_num at hq ⊢
      constructor <;> linarith)
    have x1 : (k : ℚ) + 1 / 10 ^ 6 ≤ ((a : ℚ) * 360 / 292207 - N) * 60 := by norm_num; linarith
    have x2 : ((a : ℚ) * 360 / 292207 - N) * 60 ≤ k + 1 - 1 / 10 ^ 6 := by norm_num; linarith
    have near (q : ℚ) (hq : |q - a * 360 / 292207| ≤ 1 / 10 ^ 10) : |fl (q - N) - (a * 360 / 292207 - N)| ≤ 1 / 10 ^ 9 := by
      rw [abs_le] at hq
      norm_num at hq x1 x2
      have k0' : (0 : ℚ) ≤ k := by exact_mod_cast k0
      have k1' : (k : ℚ) ≤ 59 := by exact_mod_cast (by omega : k ≤ 59)
      have := fl_close (q := q - N) (B := 2) (by rw [abs_le]; constructor <;> linarith)
      norm_num at this
      rw [abs_le]
      norm_num
      constructor <;> linarith
    rw [lipda_stable x1 x2 k0 k1 (near _ c1), lipda_stable x1 x2 k0 k1 (near _ ?_)]
    have e2 : (a : ℚ) * 360 / 292207 = a / 292207 * 360 := by ring
    rw [e2, abs_le]
    generalize (a : ℚ) / 292207 = w at *
    norm_num at hp ⊢
    constructor <;> linarith

theorem ral_of_sunDegree (a : Int) (h : |a| ≤ 10 ^ 8) :
    |30 * (degreeToRal (sunDegree a)).1 + (degreeToRal (sunDegree a)).2.1| ≤ 2 ^ 38 ∧ |(degreeToRal (sunDegree a)).2.2 - 3| ≤ 60 := by
  obtain ⟨-, hb, hf⟩ := sunDegree_close a h
  have hb' : |sunDegree a| < 2 ^ 38 := by norm_num; linarith
  obtain ⟨hx, hy, -, -, z3, z4⟩ := parts_close hf hb' (degreeToRal (sunDegree a)).1 (degreeToRal (sunDegree a)).2.1
    (degreeToRal (sunDegree a)).2.2 rfl
  have f1 := Int.floor_le (sunDegree a)
  have f2 := Int.lt_floor_add_one (sunDegree a)
  rw [abs_le] at hb
  have g1 : (⌊sunDegree a⌋ : ℚ) ≤ 123202 := by linarith
  have g2 : (-123204 : ℚ) ≤ ⌊sunDegree a⌋ := by linarith
  have g1 : ⌊sunDegree a⌋ ≤ 123202 := by exact_mod_cast g1
  have g2 : -123204 ≤ ⌊sunDegree a⌋ := by exact_mod_cast g2
  have t1 := Int.tmod_lt_of_pos ⌊sunDegree a⌋ (show (0 : ℤ) < 30 by norm_num)
  have t2 := Int.lt_tmod_of_pos ⌊sunDegree a⌋ (show (0 : ℤ) < 30 by norm_num)
  rw [hx, hy, abs_le, abs_le]
  omega

theorem meanSun_eq (fu : Fusing) (a : Int) (h : |a| ≤ 10 ^ 8) : meanSun fu a =
    ralToDegree (degreeToRal (sunDegree a)).1 (degreeToRal (sunDegree a)).2.1 ((degreeToRal (sunDegree a)).2.2 - 3) := by
  obtain ⟨r1, r2⟩ := ral_of_sunDegree a h
  have e := degree_fused fu.degree a h
  unfold meanSun
  have : (EraDays : ℚ) = 292207 := by norm_num [EraDays]
  simp only [this, e]
  rw [c39_ral_to_degree _ _ _ r1 r2 fu.ral97, c39_ral_to_degree _ _ _ r1 r2]

/-- The mean sun from the whole degrees used for it and the lipda. -/
theorem meanSun_close (fu : Fusing) (a N : Int) (h : |a| ≤ 10 ^ 8)
    (hN : 30 * (degreeToRal (sunDegree a)).1 + (degreeToRal (sunDegree a)).2.1 = N) (hNb : |N| ≤ 123300) :
    (N - ⌊sunDegree a⌋) + sunDegree a - 4 / 60 - 1 / 10000 < meanSun fu a - 1 / 10 ^ 8 ∧
    meanSun fu a ≤ (N - ⌊sunDegree a⌋) + sunDegree a - 3 / 60 + 1 / 10 ^ 10 := by
  obtain ⟨-, hb, hf⟩ := sunDegree_close a h
  have hb' : |sunDegree a| < 2 ^ 38 := by norm_num; linarith
  obtain ⟨-, -, z1, z2, z3, z4⟩ := parts_close hf hb' (degreeToRal (sunDegree a)).1 (degreeToRal (sunDegree a)).2.1
    (degreeToRal (sunDegree a)).2.2 rfl
  have hm := c39_ral_to_degree (degreeToRal (sunDegree a)).1 (degreeToRal (sunDegree a)).2.1
    ((degreeToRal (sunDegree a)).2.2 - 3) (by rw [hN]; omega) (by rw [abs_le]; omega)
  rw [← meanSun_eq fu a h, hN] at hm
  rw [hm]
  generalize (degreeToRal (sunDegree a)).2.2 = z at *
  obtain ⟨t1, t2⟩ := trunc_bounds N (z - 3)
  have hNq : |(N : ℚ)| ≤ 123300 := by rw [← Int.cast_abs]; exact_mod_cast hNb
  have z3' : (0 : ℚ) ≤ z := by exact_mod_cast z3
  have z4' : (z : ℚ) ≤ 60 := by exact_mod_cast z4
  generalize ⌊((N : ℚ) + ((z - 3 : ℤ) : ℚ) / 60) * 10000⌋ = T at *
  push_cast at t1 t2
  rw [abs_le] at hNq
  obtain ⟨n1, n2⟩ := hNq
  clear hm hf hb hb' hN hNb h z3 z4
  generalize (⌊sunDegree a⌋ : ℚ) = w at *
  generalize sunDegree a = v at *
  generalize (z : ℚ) = z' at *
  generalize (N : ℚ) = N' at *
  have hT := fl_close (q := (T : ℚ) / 10000) (B := 123302) (by
    rw [abs_le, le_div_iff₀ (by norm_num), div_le_iff₀ (by norm_num)]
    norm_num
    constructor <;> linarith)
  have e : (T : ℚ) = T / 10000 * 10000 := by ring
  generalize (T : ℚ) / 10000 = t at *
  rw [e] at t1 t2
  norm_num at z1 z2 t1 t2 hT ⊢
  constructor <;> linarith

/-- C47: from the New Year on the mean sun is the exact position less 3 arc minutes, truncated to arc minutes. -/
theorem mean_sun_after (fu : Fusing) (a : Int) (h0 : 0 ≤ a) (h : a ≤ 10 ^ 8) :
    (a : ℚ) * 360 / 292207 - 4 / 60 - 1 / 10000 < meanSun fu a ∧ meanSun fu a ≤ (a : ℚ) * 360 / 292207 - 3 / 60 + 1 / 10 ^ 9 := by
  have ha : |a| ≤ 10 ^ 8 := by rw [abs_of_nonneg h0]; exact h
  obtain ⟨h1, h2, h3⟩ := sunDegree_close a ha
  have h00 : 0 ≤ sunDegree a := by
    have p1 : 0 ≤ fl ((a : ℚ) / 292207) := by
      have := le_fl_of_int (k := 0) (q := (a : ℚ) / 292207) (by norm_num) (by
        push_cast; apply div_nonneg _ (by norm_num); exact_mod_cast h0)
      simpa using this
    have := le_fl_of_int (k := 0) (q := fl ((a : ℚ) / 292207) * 360) (by norm_num) (by push_cast; linarith)
    unfold sunDegree
    rw [fl_int a (by omega)]
    simpa using this
  have f1 := Int.floor_le (sunDegree a)
  obtain ⟨hx, hy, -⟩ := parts_close h3 (by norm_num; linarith) (degreeToRal (sunDegree a)).1 (degreeToRal (sunDegree a)).2.1
    (degreeToRal (sunDegree a)).2.2 rfl
  have hfl : 0 ≤ ⌊sunDegree a⌋ := Int.floor_nonneg.2 h00
  have hfu : ⌊sunDegree a⌋ ≤ 123300 := by
    rw [abs_le] at h2
    have : (⌊sunDegree a⌋ : ℚ) ≤ 123300 := by linarith
    exact_mod_cast this
  have hN : 30 * (degreeToRal (sunDegree a)).1 + (degreeToRal (sunDegree a)).2.1 = ⌊sunDegree a⌋ := by
    rw [hx, hy, Int.tmod_eq_emod_of_nonneg hfl]; omega
  have := meanSun_close fu a _ ha hN (by rw [abs_of_nonneg hfl]; exact hfu)
  rw [abs_le] at h1
  norm_num at *
  constructor <;> linarith

/-- C47: on the days before the New Year the mean sun is 30 degrees short. -/
theorem mean_sun_before (fu : Fusing) (a : Int) (h0 : a < 0) (h : -23500 ≤ a) :
    (a : ℚ) * 360 / 292207 - 30 - 4 / 60 - 1 / 10000 < meanSun fu a ∧
    meanSun fu a ≤ (a : ℚ) * 360 / 292207 - 30 - 3 / 60 + 1 / 10 ^ 9 := by
  have ha : |a| ≤ 10 ^ 8 := by rw [abs_of_neg h0]; omega
  obtain ⟨h1, h2, h3⟩ := sunDegree_close a ha
  rw [abs_le] at h1
  have h0' : (a : ℚ) ≤ -1 := by
    have : a ≤ -1 := by omega
    exact_mod_cast this
  have h' : (-23500 : ℚ) ≤ a := by exact_mod_cast h
  have hneg : sunDegree a < 0 := by norm_num at h1; linarith
  have hlo : -29 < sunDegree a := by norm_num at h1; linarith
  have hf1 : ⌊sunDegree a⌋ ≤ -1 := by
    have : ⌊sunDegree a⌋ < 0 := by rw [Int.floor_lt]; exact_mod_cast hneg
    omega
  have hf2 : -29 ≤ ⌊sunDegree a⌋ := by rw [Int.le_floor]; push_cast; linarith
  obtain ⟨hx, hy, -⟩ := parts_close h3 (by norm_num; linarith) (degreeToRal (sunDegree a)).1 (degreeToRal (sunDegree a)).2.1
    (degreeToRal (sunDegree a)).2.2 rfl
  have hN : 30 * (degreeToRal (sunDegree a)).1 + (degreeToRal (sunDegree a)).2.1 = ⌊sunDegree a⌋ - 30 := by
    rw [hx, hy, Int.tmod_eq_emod]
    split <;> omega
  have := meanSun_close fu a _ ha hN (by rw [abs_le]; omega)
  push_cast at this
  norm_num at *
  constructor <;> linarith

/-- The exact position of the mean sun in degrees `d` days into the lunar year, before the correction of 3 arc minutes:
360 degrees per 292207/800 days, counted from the solar New Year. -/
def exactSun (y d : Int) : ℚ :=
  (((d - (SuriyaYear.init y).Tithi) * 800 + (SuriyaYear.init y).Kammacubala : Int) : ℚ) * 360 / 292207

theorem kammacubala_range (y : Int) (h : 638 ≤ y) : 1 ≤ (SuriyaYear.init y).Kammacubala ∧
    (SuriyaYear.init y).Kammacubala ≤ 800 := by
  rw [init_Kammacubala h]; omega

theorem tithi_range (y : Int) (h : 638 ≤ y) : 0 ≤ (SuriyaYear.init y).Tithi ∧ (SuriyaYear.init y).Tithi < 30 := by
  rw [init_Tithi h]; omega

/-- C47: from the New Year day on, `MeanSun` is the exact position less 3 arc minutes, truncated to arc minutes and four
decimals. -/
theorem c47_after (fu : Fusing) (sin : ℚ → ℚ) (y d : Int) (hy : 638 ≤ y) (h : (SuriyaYear.init y).Tithi ≤ d) (hd : d ≤ 100000) :
    exactSun y d - 4 / 60 - 1 / 10000 < (SuriyaDayPositions.init fu sin y d).MeanSun ∧
    (SuriyaDayPositions.init fu sin y d).MeanSun ≤ exactSun y d - 3 / 60 + 1 / 10 ^ 9 := by
  have hk := kammacubala_range y hy
  have ht := tithi_range y hy
  exact mean_sun_after fu ((d - (SuriyaYear.init y).Tithi) * 800 + (SuriyaYear.init y).Kammacubala) (by omega) (by omega)

/-- C47: lunar day 103 of 1963. -/
example (fu : Fusing) (sin : ℚ → ℚ) : exactSun 1963 103 - 4 / 60 - 1 / 10000 < (SuriyaDayPositions.init fu sin 1963 103).MeanSun ∧
    (SuriyaDayPositions.init fu sin 1963 103).MeanSun ≤ exactSun 1963 103 - 3 / 60 + 1 / 10 ^ 9 :=
  c47_after fu sin 1963 103 (by decide) (by decide) (by decide)

/-- C47: on the days of the lunar year before the solar New Year, `MeanSun` is 30 degrees short of that. -/
theorem c47_before (fu : Fusing) (sin : ℚ → ℚ) (y d : Int) (hy : 638 ≤ y) (h : d < (SuriyaYear.init y).Tithi) (hd : 0 ≤ d)
    (he : exactSun y d ≠ 0) :
    exactSun y d - 30 - 4 / 60 - 1 / 10000 < (SuriyaDayPositions.init fu sin y d).MeanSun ∧
    (SuriyaDayPositions.init fu sin y d).MeanSun ≤ exactSun y d - 30 - 3 / 60 + 1 / 10 ^ 9 := by
  have hk := kammacubala_range y hy
  have ht := tithi_range y hy
  have hne : (d - (SuriyaYear.init y).Tithi) * 800 + (SuriyaYear.init y).Kammacubala ≠ 0 := by
    intro hc
    apply he
    unfold exactSun
    rw [hc]; norm_num
  exact mean_sun_before fu ((d - (SuriyaYear.init y).Tithi) * 800 + (SuriyaYear.init y).Kammacubala) (by omega) (by omega)

/-- C47: lunar day 5 of 2015, before its New Year. -/
example (fu : Fusing) (sin : ℚ → ℚ) : (SuriyaDayPositions.init fu sin 2015 5).MeanSun ≤ exactSun 2015 5 - 30 - 3 / 60 + 1 / 10 ^ 9 :=
  (c47_before fu sin 2015 5 (by decide) (by decide) (by decide) (by decide +kernel)).2

/-- C47: so the mean sun jumps by almost 31 degrees on the New Year day, while one day is worth less than one degree. -/
theorem c47_jump (fu : Fusing) (sin : ℚ → ℚ) (y : Int) (hy : 638 ≤ y) (h : 1 ≤ (SuriyaYear.init y).Tithi)
    (hk : (SuriyaYear.init y).Kammacubala ≠ 800) :
    exactSun y (SuriyaYear.init y).Tithi - exactSun y ((SuriyaYear.init y).Tithi - 1) < 1 ∧
    309 / 10 < (SuriyaDayPositions.init fu sin y (SuriyaYear.init y).Tithi).MeanSun -
      (SuriyaDayPositions.init fu sin y ((SuriyaYear.init y).Tithi - 1)).MeanSun := by
  have hk' := kammacubala_range y hy
  have ht := tithi_range y hy
  have h1 := c47_after fu sin y _ hy (le_refl _) (by omega)
  have h2 := c47_before fu sin y ((SuriyaYear.init y).Tithi - 1) hy (by omega) (by omega) (by
    unfold exactSun
    have : ((SuriyaYear.init y).Tithi - 1 - (SuriyaYear.init y).Tithi) * 800 + (SuriyaYear.init y).Kammacubala ≠ 0 := by
      omega
    have : ((((SuriyaYear.init y).Tithi - 1 - (SuriyaYear.init y).Tithi) * 800 + (SuriyaYear.init y).Kammacubala : Int) : ℚ) ≠ 0 := by
      exact_mod_cast this
    intro hc
    apply this
    rcases div_eq_zero_iff.1 hc with hc | hc
    · rcases mul_eq_zero.1 hc with hc | hc
      · exact hc
      · norm_num at hc
    · norm_num at hc)
  have e : exactSun y (SuriyaYear.init y).Tithi - exactSun y ((SuriyaYear.init y).Tithi - 1) = 288000 / 292207 := by
    unfold exactSun; push_cast; ring
  generalize exactSun y (SuriyaYear.init y).Tithi = u at *
  generalize exactSun y ((SuriyaYear.init y).Tithi - 1) = v at *
  norm_num at *
  constructor <;> linarith

/-- C47 applies: the New Year of 2015 is on lunar day 28. -/
example : (SuriyaYear.init 2015).Tithi = 28 ∧ (SuriyaYear.init 2015).Kammacubala = 188 ∧
    meanSun .none 188 = fl (1666 / 10000) ∧ meanSun .all (188 - 800) = fl (-308167 / 10000) := by decide +kernel

/-- C48: the correction of the sun is at most 134 arc minutes, up to truncation to four decimals. -/
theorem true_sun_close (fu : Fusing) (sin : ℚ → ℚ) (hs : ∀ a, |sin a| ≤ 1) (m : ℚ) (hm : |m| ≤ 2000) :
    |trueSun fu sin m - m| ≤ 134 / 60 + 1 / 5000 := by
  simp only [trueSun]
  have hs' := abs_le.1 (hs |fl (m - 80)|)
  generalize sin |fl (m - 80)| = s at *
  have hb1 : (-134 : ℤ) ≤ ⌊fl (134 * s)⌋ := by
    rw [Int.le_floor]
    have := le_fl_of_int (k := -134) (q := 134 * s) (by norm_num) (by push_cast; linarith [hs'.1])
    exact_mod_cast this
  have hb2 : ⌊fl (134 * s)⌋ ≤ (134 : ℤ) := by
    have h1 := fl_le_of_int (k := 134) (q := 134 * s) (by norm_num) (by push_cast; linarith [hs'.2])
    have h2 := Int.floor_le (fl (134 * s))
    have : (⌊fl (134 * s)⌋ : ℚ) ≤ 134 := by push_cast at h1; linarith
    exact_mod_cast this
  generalize ⌊fl (134 * s)⌋ = b at *
  have hb1' : (-134 : ℚ) ≤ b := by exact_mod_cast hb1
  have hb2' : (b : ℚ) ≤ 134 := by exact_mod_cast hb2
  generalize (b : ℚ) = b' at *
  rw [abs_le] at hm
  have h2 := fl_close (q := b' * 10000) (B := 1340000) (by rw [abs_le]; constructor <;> linarith)
  generalize fl (b' * 10000) = v at *
  obtain ⟨u, hu, eu⟩ := mulAdd_split fu.sun m 10000 (fl (v / 60))
  have h1 := fl_or_close hu (B := 20000000) (by rw [abs_le]; constructor <;> linarith)
  rw [eu]
  clear hu eu
  norm_num at h1 h2
  have h3 := fl_close (q := v / 60) (B := 30000) (by rw [abs_le]; constructor <;> linarith)
  generalize fl (v / 60) = w at *
  norm_num at h3
  have h4 := fl_close (q := u + w) (B := 20100000) (by rw [abs_le]; constructor <;> linarith)
  generalize fl (u + w) = t at *
  norm_num at h4
  have f1 := Int.floor_le t
  have f2 := Int.lt_floor_add_one t
  generalize (⌊t⌋ : ℚ) = f at *
  have h5 := fl_close (q := f / 10000) (B := 2100) (by rw [abs_le]; constructor <;> linarith)
  norm_num at h5
  rw [abs_le]
  constructor <;> linarith

/-- C48: the correction of the moon is at most 296 arc minutes, up to truncation to four decimals. -/
theorem true_moon_close (sin : ℚ → ℚ) (hs : ∀ a, |sin a| ≤ 1) (m u : ℚ) (hm : |m| ≤ 2000) :
    |trueMoon sin m u - m| ≤ 296 / 60 + 1 / 5000 := by
  simp only [trueMoon]
  have hs' := abs_le.1 (hs (fl (m - u)))
  generalize sin (fl (m - u)) = s at *
  rw [abs_le] at hm
  have h1 := fl_close (q := 296 * s) (B := 296) (by rw [abs_le]; constructor <;> linarith)
  generalize fl (296 * s) = p at *
  norm_num at h1
  have h2 := fl_close (q := p / 60) (B := 5) (by rw [abs_le]; constructor <;> linarith)
  generalize fl (p / 60) = b at *
  norm_num at h2
  have h3 := fl_close (q := m - b) (B := 2010) (by rw [abs_le]; constructor <;> linarith)
  generalize fl (m - b) = v at *
  norm_num at h3
  have h4 := fl_close (q := v * 10000) (B := 20110000) (by rw [abs_le]; constructor <;> linarith)
  generalize fl (v * 10000) = t at *
  norm_num at h4
  have f1 := Int.floor_le t
  have f2 := Int.lt_floor_add_one t
  generalize (⌊t⌋ : ℚ) = f at *
  have h5 := fl_close (q := f / 10000) (B := 2100) (by rw [abs_le]; constructor <;> linarith)
  norm_num at h5
  rw [abs_le]
  constructor <;> linarith

/-- C48: the mean moon lies in [-3, 360]. -/
theorem mean_moon_range (fu : Fusing) (t : ℚ) (ht : -(231 / 100) ≤ t) (ht' : t ≤ 2000) (av ti : Int) (h0 : 0 ≤ av) (h1 : av < 692)
    (h2 : 0 ≤ ti) (h3 : ti < 30) : -3 ≤ meanMoon fu t av ti ∧ meanMoon fu t av ti ≤ 360 := by
  unfold meanMoon
  have e40 : ralToDegree 0 0 40 fu.ral133 = fl (6666 / 10000) := by
    rw [c39_ral_to_degree 0 0 40 (by decide) (by decide) fu.ral133]
    decide +kernel
  have hr := fl_close (q := (6666 : ℚ) / 10000) (B := 1) (by norm_num)
  rw [e40, fl_int av (by rw [abs_le]; omega), fl_int ti (by rw [abs_le]; omega)]
  generalize fl (6666 / 10000) = r at *
  norm_num at hr
  have a0 : (0 : ℚ) ≤ av := by exact_mod_cast h0
  have a1 : (av : ℚ) ≤ 691 := by
    have : av ≤ 691 := by omega
    exact_mod_cast this
  have t0 : (0 : ℚ) ≤ ti := by exact_mod_cast h2
  have t1 : (ti : ℚ) ≤ 29 := by
    have : ti ≤ 29 := by omega
    exact_mod_cast this
  generalize (av : ℚ) = a at *
  generalize (ti : ℚ) = i at *
  have q0 : 0 ≤ fl (a / 25) := by
    have := le_fl_of_int (k := 0) (q := a / 25) (by norm_num) (by push_cast; linarith)
    simpa using this
  have q1 := fl_close (q := a / 25) (B := 30) (by rw [abs_le]; constructor <;> linarith)
  simp only
  generalize fl (a / 25) = q at *
  norm_num at q1
  have f0 : (0 : ℤ) ≤ ⌊q⌋ := Int.floor_nonneg.2 q0
  have f0 : (0 : ℚ) ≤ ⌊q⌋ := by exact_mod_cast f0
  have f1 := Int.floor_le q
  generalize (⌊q⌋ : ℚ) = f at *
  have s := fl_close (q := a + f) (B := 800) (by rw [abs_le]; constructor <;> linarith)
  generalize fl (a + f) = b at *
  norm_num at s
  have s2 := fl_close (q := b / 60) (B := 20) (by rw [abs_le]; constructor <;> linarith)
  generalize fl (b / 60) = c at *
  norm_num at s2
  have s3 := fl_close (q := t + c) (B := 2100) (by rw [abs_le]; constructor <;> linarith)
  generalize fl (t + c) = e at *
  norm_num at s3
  obtain ⟨g, hg, eg⟩ := mulAdd_split fu.tithi i 12 e
  have s4 := fl_or_close hg (B := 360) (by rw [abs_le]; constructor <;> linarith)
  rw [eg, add_comm g]
  clear hg eg
  norm_num at s4
  have s5 := fl_close (q := e + g) (B := 2500) (by rw [abs_le]; constructor <;> linarith)
  generalize fl (e + g) = h at *
  norm_num at s5
  have s6 := fl_close (q := h - r) (B := 2600) (by rw [abs_le]; constructor <;> linarith)
  have hf := isFloat_fl (h - r)
  generalize fl (h - r) = k at *
  norm_num at s6
  rcases le_or_gt k 360 with hk | hk
  · rw [c40_small k hk fu.turn]
    constructor <;> linarith
  · obtain ⟨-, h5, h6⟩ := c40_reduce k hf hk (by norm_num; linarith) fu.turn
    constructor <;> linarith

theorem raek_range (fu : Fusing) (t : ℚ) (h1 : -(794 / 100) ≤ t) (h2 : t ≤ 36495 / 100) : 4 / 10 < raek fu t ∧ raek fu t < 284 / 10 := by
  unfold raek
  have e13 : ralToDegree 0 13 20 fu.ral191 = fl (133333 / 10000) := by
    rw [c39_ral_to_degree 0 13 20 (by decide) (by decide) fu.ral191]
    decide +kernel
  have hr := fl_close (q := (133333 : ℚ) / 10000) (B := 20) (by norm_num)
  rw [e13]
  generalize fl (133333 / 10000) = r at *
  norm_num at hr
  have hr0 : 0 < r := by linarith
  have l1 : -(596 / 1000) ≤ t / r := by rw [le_div_iff₀ hr0]; linarith
  have l2 : t / r ≤ 2738 / 100 := by rw [div_le_iff₀ hr0]; linarith
  have s := fl_close (q := t / r) (B := 30) (by rw [abs_le]; constructor <;> linarith)
  generalize t / r = q at *
  generalize fl q = p at *
  norm_num at s
  have s2 := fl_close (q := p + 1) (B := 40) (by rw [abs_le]; constructor <;> linarith)
  norm_num at s2
  constructor <;> linarith

theorem day_ranges (y d : Int) (hy : 638 ≤ y) (h : (SuriyaYear.init y).Tithi ≤ d) :
    0 ≤ (SuriyaDay.init y d).Avoman ∧ (SuriyaDay.init y d).Avoman < 692 ∧
    0 ≤ (SuriyaDay.init y d).Tithi ∧ (SuriyaDay.init y d).Tithi < 30 := by
  have hh : 0 ≤ (SuriyaYear.init y).Horakhun := by rw [init_Horakhun hy]; have := hor_pos hy; omega
  unfold SuriyaDay.init
  simp only
  generalize (SuriyaYear.init y).Horakhun = H at *
  generalize (SuriyaYear.init y).Tithi = T at *
  simp only [show CycleDaily = 11 from rfl, show EraAvoman = 650 from rfl, show CycleSolar = 692 from rfl,
    show EraMasaken = 0 from rfl, show MonthLength = 30 from rfl]
  have h1 : 0 ≤ (H + (d - T)) * 11 + 650 := by omega
  rw [Int.tmod_eq_emod_of_nonneg h1]
  have h2 : 0 ≤ ((H + (d - T)) * 11 + 650).fdiv 692 + 0 + (H + (d - T)) := by
    rw [Int.fdiv_eq_ediv_of_nonneg _ (by norm_num)]; omega
  rw [Int.tmod_eq_emod_of_nonneg h2]
  omega

/-- C48: ranges of the positions from the New Year day on, for any sine with values in [-1, 1]. -/
theorem c48_ranges (fu : Fusing) (sin : ℚ → ℚ) (hs : ∀ a, |sin a| ≤ 1) (y d : Int) (hy : 638 ≤ y) (h : (SuriyaYear.init y).Tithi ≤ d)
    (hd : d ≤ 1000) : let p := SuriyaDayPositions.init fu sin y d
    |p.TrueSun - p.MeanSun| ≤ 134 / 60 + 1 / 5000 ∧ (-3 ≤ p.MeanMoon ∧ p.MeanMoon ≤ 360) ∧
    |p.TrueMoon - p.MeanMoon| ≤ 296 / 60 + 1 / 5000 ∧ (-8 < p.TrueMoon ∧ p.TrueMoon < 365) ∧
    (4 / 10 < p.Raek ∧ p.Raek < 284 / 10) := by
  intro p
  have hk := kammacubala_range y hy
  have ht := tithi_range y hy
  obtain ⟨m1, m2⟩ := c47_after fu sin y d hy h (by omega)
  have x1 : 0 ≤ exactSun y d := by
    unfold exactSun
    have : 0 ≤ (d - (SuriyaYear.init y).Tithi) * 800 + (SuriyaYear.init y).Kammacubala := by omega
    have : (0 : ℚ) ≤ (((d - (SuriyaYear.init y).Tithi) * 800 + (SuriyaYear.init y).Kammacubala : Int) : ℚ) := by
      exact_mod_cast this
    linarith
  have x2 : exactSun y d ≤ 1000 := by
    unfold exactSun
    have : (d - (SuriyaYear.init y).Tithi) * 800 + (SuriyaYear.init y).Kammacubala ≤ 800800 := by omega
    have : (((d - (SuriyaYear.init y).Tithi) * 800 + (SuriyaYear.init y).Kammacubala : Int) : ℚ) ≤ 800800 := by
      exact_mod_cast this
    linarith
  norm_num at m1 m2
  have h1 : |p.TrueSun - p.MeanSun| ≤ 134 / 60 + 1 / 5000 :=
    true_sun_close fu sin hs p.MeanSun (by rw [abs_le]; constructor <;> linarith)
  have h1' := abs_le.1 h1
  have e : p.MeanSun = (SuriyaDayPositions.init fu sin y d).MeanSun := rfl
  rw [e] at h1'
  norm_num at h1'
  obtain ⟨a0, a1, a2, a3⟩ := day_ranges y d hy h
  have h2 : -3 ≤ p.MeanMoon ∧ p.MeanMoon ≤ 360 :=
    mean_moon_range fu p.TrueSun (by linarith) (by linarith) _ _ a0 a1 a2 a3
  have h3 : |p.TrueMoon - p.MeanMoon| ≤ 296 / 60 + 1 / 5000 :=
    true_moon_close sin hs p.MeanMoon _ (by rw [abs_le]; constructor <;> linarith [h2.1, h2.2])
  have h3' := abs_le.1 h3
  norm_num at h3'
  refine ⟨h1, h2, h3, ⟨by linarith [h2.1, h3'.1], by linarith [h2.2, h3'.2]⟩, ?_⟩
  exact raek_range fu p.TrueMoon (by linarith [h2.1, h3'.1]) (by linarith [h2.2, h3'.2])

/-- C48: without any correction, the sine being zero. -/
example (fu : Fusing) : |(SuriyaDayPositions.init fu (fun _ => 0) 1963 103).TrueMoon - (SuriyaDayPositions.init fu (fun _ => 0) 1963 103).MeanMoon| ≤ 296 / 60 + 1 / 5000 :=
  (c48_ranges fu (fun _ => 0) (by norm_num) 1963 103 (by decide) (by decide) (by decide)).2.2.1

/-- The two sines used for (2026, 275). -/
def sin2026 (a : ℚ) : ℚ :=
  if a = 2863714098523983 / 17592186044416 then 2666009134057493 / 9007199254740992
  else if a = -4726868847676511 / 17592186044416 then 2251212515186503 / 2251799813685248
  else 0

/-- The two sines used for (1942, 191). -/
def sin1942 (a : ℚ) : ℚ :=
  if a = 952762889449295 / 8796093022208 then 8550844698612651 / 9007199254740992
  else if a = 2417760891301029 / 8796093022208 then -4487357186708769 / 4503599627370496
  else 0

/-- C48: the true moon is not reduced to [0, 360]: with the sines of these two days it is negative, and above 360. -/
theorem c48_not_reduced :
    (SuriyaDayPositions.init .none sin2026 2026 275).TrueMoon = fl (-48154 / 10000) ∧
    (SuriyaDayPositions.init .none sin1942 1942 191).TrueMoon = fl (3649154 / 10000) ∧
    (SuriyaDayPositions.init .none sin2026 2026 275).Raek < 1 ∧ 28 < (SuriyaDayPositions.init .none sin1942 1942 191).Raek := by
  decide +kernel

/-- C48 applies to these days. -/
example : (∀ a, |sin2026 a| ≤ 1) ∧ (SuriyaYear.init 2026).Tithi ≤ 275 := by
  refine ⟨fun a => ?_, by decide⟩
  unfold sin2026
  split
  · rw [abs_of_nonneg] <;> norm_num
  · split
    · rw [abs_of_nonneg] <;> norm_num
    · norm_num

end Verif.Props
