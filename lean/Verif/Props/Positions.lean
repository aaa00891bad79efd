import Verif.Props.SuriyaDay
import Verif.Props.Asalha
/-
C50, C51: the formulas behind the positions, up to rounding.
-/
set_option autoImplicit false

namespace Verif.Props
open Verif.Go Verif.Model Verif.Spec Verif.Lemmas

theorem true_sun_formula (fu : Fusing) (sin : ℚ → ℚ) (hs : ∀ a, |sin a| ≤ 1) (m : ℚ) (hm : |m| ≤ 2000) :
    let b : ℚ := ⌊fl (134 * sin |fl (m - 80)|)⌋
    m + b / 60 - 1 / 10000 - 1 / 10 ^ 9 < trueSun fu sin m ∧ trueSun fu sin m ≤ m + b / 60 + 1 / 10 ^ 9 := by
  simp only [trueSun]
  have hs' := abs_le.1 (hs |fl (m - 80)|)
  generalize sin |fl (m - 80)| = s at *
  have hb1 : (-134 : ℤ) ≤ ⌊fl (134 * s)⌋ := by
    rw [Int.le_floor]
    have := le_fl_of_int (k := -134) (q := 134 * s) (by norm_num) (by push_cast; linarith [hs'.1])
    exact_mod_cast this
  have hb2 : ⌊fl (134 * s)⌋ ≤ (134 : ℤ) := by
    have h1 := fl_le_of_int (k := 134) (q := 134 * s) (by norm_num) (by push_cast; linarith [hs'.2])
    have h2 := Int.floor_le (fl (134 * s))
    have : (⌊fl (134 * s)⌋ : ℚ) ≤ 134 := by push_cast at h1; linarith
    exact_mod_cast this
  generalize ⌊fl (134 * s)⌋ = b at *
  have hb1' : (-134 : ℚ) ≤ b := by exact_mod_cast hb1
  have hb2' : (b : ℚ) ≤ 134 := by exact_mod_cast hb2
  generalize (b : ℚ) = b' at *
  rw [abs_le] at hm
  have h2 := fl_close (q := b' * 10000) (B := 1340000) (by rw [abs_le]; constructor <;> linarith)
  generalize fl (b' * 10000) = v at *
  obtain ⟨u, hu, eu⟩ := mulAdd_split fu.sun m 10000 (fl (v / 60))
  have h1 := fl_or_close hu (B := 20000000) (by rw [abs_le]; constructor <;> linarith)
  rw [eu]
  clear hu eu
  norm_num at h1 h2
  have h3 := fl_close (q := v / 60) (B := 30000) (by rw [abs_le]; constructor <;> linarith)
  generalize fl (v / 60) = w at *
  norm_num at h3
  have h4 := fl_close (q := u + w) (B := 20100000) (by rw [abs_le]; constructor <;> linarith)
  generalize fl (u + w) = t at *
  norm_num at h4
  have f1 := Int.floor_le t
  have f2 := Int.lt_floor_add_one t
  generalize (⌊t⌋ : ℚ) = f at *
  have h5 := fl_close (q := f / 10000) (B := 2100) (by rw [abs_le]; constructor <;> linarith)
  norm_num at h5 ⊢
  constructor <;> linarith

theorem true_moon_formula (sin : ℚ → ℚ) (hs : ∀ a, |sin a| ≤ 1) (m u : ℚ) (hm : |m| ≤ 2000) :
    let b : ℚ := 296 * sin (fl (m - u)) / 60
    m - b - 1 / 10000 - 1 / 10 ^ 9 < trueMoon sin m u ∧ trueMoon sin m u ≤ m - b + 1 / 10 ^ 9 := by
  simp only [trueMoon]
  have hs' := abs_le.1 (hs (fl (m - u)))
  generalize sin (fl (m - u)) = s at *
  rw [abs_le] at hm
  have h1 := fl_close (q := 296 * s) (B := 296) (by rw [abs_le]; constructor <;> linarith)
  generalize fl (296 * s) = p at *
  norm_num at h1
  have h2 := fl_close (q := p / 60) (B := 5) (by rw [abs_le]; constructor <;> linarith)
  generalize fl (p / 60) = b at *
  norm_num at h2
  have h3 := fl_close (q := m - b) (B := 2010) (by rw [abs_le]; constructor <;> linarith)
  generalize fl (m - b) = v at *
  norm_num at h3
  have h4 := fl_close (q := v * 10000) (B := 20110000) (by rw [abs_le]; constructor <;> linarith)
  generalize fl (v * 10000) = t at *
  norm_num at h4
  have f1 := Int.floor_le t
  have f2 := Int.lt_floor_add_one t
  generalize (⌊t⌋ : ℚ) = f at *
  have h5 := fl_close (q := f / 10000) (B := 2100) (by rw [abs_le]; constructor <;> linarith)
  norm_num at h5 ⊢
  constructor <;> linarith

theorem uccabala_formula (fu : Fusing) (n : Int) (h : |n| ≤ 10 ^ 5) :
    |meanUccabala fu n - (n * 90 / 808 + 2 / 60)| ≤ 1 / 10 ^ 10 ∧ |meanUccabala fu n| ≤ 12000 := by
  unfold meanUccabala
  rw [fl_int n (by omega)]
  have hn : |(n : ℚ)| ≤ 10 ^ 5 := by rw [← Int.cast_abs]; exact_mod_cast h
  have e3 : fl ((n : ℚ) * 3) = n * 3 := by
    have := fl_int (n * 3) (by rw [abs_le] at *; omega)
    push_cast at this; exact this
  have e90 : fl ((n : ℚ) * 3 * 30) = n * 90 := by
    have := fl_int (n * 90) (by rw [abs_le] at *; omega)
    push_cast at this
    rw [← this]; congr 1; ring
  rw [e3, e90]
  generalize (n : ℚ) = x at *
  rw [abs_le] at hn
  norm_num at hn
  have h1 := fl_close (q := x * 90 / 808) (B := 12000) (by rw [abs_le]; constructor <;> linarith)
  generalize fl (x * 90 / 808) = a at *
  norm_num at h1
  obtain ⟨b, hb, eb⟩ := mulAdd_split fu.apogee a 60 2
  have h2 := fl_or_close hb (B := 700000) (by rw [abs_le]; constructor <;> linarith)
  rw [eb]
  clear hb eb
  norm_num at h2
  have h3 := fl_close (q := b + 2) (B := 700000) (by rw [abs_le]; constructor <;> linarith)
  generalize fl (b + 2) = c at *
  norm_num at h3
  have h4 := fl_close (q := c / 60) (B := 12000) (by rw [abs_le]; constructor <;> linarith)
  norm_num at h4
  rw [abs_le, abs_le]
  norm_num
  refine ⟨⟨?_, ?_⟩, ?_, ?_⟩ <;> linarith

theorem mean_moon_formula (fu : Fusing) (t : ℚ) (ht : |t| ≤ 2000) (av ti : Int) (h0 : 0 ≤ av) (h1 : av < 692)
    (h2 : 0 ≤ ti) (h3 : ti < 30) : ∃ k : ℤ, 0 ≤ k ∧
    |meanMoon fu t av ti - (t + ((av + av / 25 : ℤ) : ℚ) / 60 + 12 * ti - 6666 / 10000 - 360 * k)| ≤ 1 / 10 ^ 9 ∧
    |meanMoon fu t av ti| ≤ |t| + 370 ∧ meanMoon fu t av ti ≤ 360 := by
  unfold meanMoon
  have e40 : ralToDegree 0 0 40 fu.ral133 = fl (6666 / 10000) := by
    rw [c39_ral_to_degree 0 0 40 (by decide) (by decide) fu.ral133]
    decide +kernel
  have hr := fl_close (q := (6666 : ℚ) / 10000) (B := 1) (by norm_num)
  have eq25 : ⌊fl ((av : ℚ) / 25)⌋ = av / 25 := by
    have hb : |(av : ℚ)| < 2 ^ 53 := by
      have : |av| < 2 ^ 53 := by rw [abs_lt]; omega
      rw [← Int.cast_abs]; exact_mod_cast this
    have := floor_fl_quot (q := av) (isFloat_int (by rw [abs_lt]; omega)) hb (d := 25) (by norm_num)
    push_cast at this
    rw [this]
    have := Rat.floor_intCast_div_natCast av 25
    simpa using this
  rw [e40, fl_int av (by rw [abs_le]; omega), fl_int ti (by rw [abs_le]; omega), eq25]
  generalize fl (6666 / 10000) = r at *
  norm_num at hr
  have esum : (av : ℚ) + ((av / 25 : ℤ) : ℚ) = ((av + av / 25 : ℤ) : ℚ) := by push_cast; ring
  simp only
  rw [esum, fl_int (av + av / 25) (by rw [abs_le]; omega)]
  have a0 : (0 : ℚ) ≤ ((av + av / 25 : ℤ) : ℚ) := by exact_mod_cast (by omega : 0 ≤ av + av / 25)
  have a1 : ((av + av / 25 : ℤ) : ℚ) ≤ 718 := by exact_mod_cast (by omega : av + av / 25 ≤ 718)
  have e12 : fl ((ti : ℚ) * 12) = ti * 12 := by
    have := fl_int (ti * 12) (by rw [abs_le]; omega)
    push_cast at this; exact this
  rw [mulAdd_exact fu.tithi e12, add_comm ((ti : ℚ) * 12)]
  have t0 : (0 : ℚ) ≤ ti := by exact_mod_cast h2
  have t1 : (ti : ℚ) ≤ 29 := by exact_mod_cast (by omega : ti ≤ 29)
  generalize ((av + av / 25 : ℤ) : ℚ) = b at *
  generalize (ti : ℚ) = i at *
  rw [abs_le] at ht
  have s2 := fl_close (q := b / 60) (B := 20) (by rw [abs_le]; constructor <;> linarith)
  generalize fl (b / 60) = c at *
  norm_num at s2
  have s3 := fl_close (q := t + c) (B := 2100) (by rw [abs_le]; constructor <;> linarith)
  generalize fl (t + c) = e at *
  norm_num at s3
  have s5 := fl_close (q := e + i * 12) (B := 2500) (by rw [abs_le]; constructor <;> linarith)
  generalize fl (e + i * 12) = h at *
  norm_num at s5
  have s6 := fl_close (q := h - r) (B := 2600) (by rw [abs_le]; constructor <;> linarith)
  have hf := isFloat_fl (h - r)
  generalize fl (h - r) = k at *
  norm_num at s6
  rcases le_or_gt k 360 with hk | hk
  · rw [c40_small k hk fu.turn]
    refine ⟨0, le_refl _, ?_, ?_, hk⟩
    · rw [abs_le]; norm_num
      constructor <;> linarith
    · rw [abs_le]; constructor <;> linarith [neg_abs_le t, le_abs_self t, abs_nonneg t]
  · obtain ⟨h4, h5, h6⟩ := c40_reduce k hf hk (by norm_num; linarith) fu.turn
    refine ⟨⌊k / 360⌋, Int.floor_nonneg.2 (by apply div_nonneg <;> linarith), ?_, ?_, by linarith⟩
    · rw [h4]
      generalize (⌊k / 360⌋ : ℚ) = w at *
      rw [abs_le]; norm_num
      constructor <;> linarith
    · rw [abs_le]; constructor <;> linarith [neg_abs_le t, le_abs_self t, abs_nonneg t]

theorem raek_formula (fu : Fusing) (t : ℚ) (h : |t| ≤ 2000) : |raek fu t - (t / (133333 / 10000) + 1)| ≤ 1 / 10 ^ 9 := by
  unfold raek
  have e13 : ralToDegree 0 13 20 fu.ral191 = fl (133333 / 10000) := by
    rw [c39_ral_to_degree 0 13 20 (by decide) (by decide) fu.ral191]
    decide +kernel
  have hr := fl_close (q := (133333 : ℚ) / 10000) (B := 20) (by norm_num)
  rw [e13]
  generalize fl (133333 / 10000) = r at *
  norm_num at hr
  have hr0 : 0 < r := by linarith
  rw [abs_le] at h
  -- t/r and t/13.3333 are close
  have hq : |t / r - t / (133333 / 10000)| ≤ 1 / 10 ^ 11 := by
    have e : t / r - t / (133333 / 10000) = t * ((133333 / 10000 - r) / (r * (133333 / 10000))) := by
      field_simp
    have hd : |(133333 / 10000 - r) / (r * (133333 / 10000))| ≤ 1 / 10 ^ 15 := by
      rw [abs_le, le_div_iff₀ (by positivity), div_le_iff₀ (by positivity)]
      norm_num
      constructor <;> linarith
    rw [e, abs_mul]
    have ht : |t| ≤ 2000 := by rw [abs_le]; exact h
    calc |t| * |(133333 / 10000 - r) / (r * (133333 / 10000))| ≤ 2000 * (1 / 10 ^ 15) :=
          mul_le_mul ht hd (abs_nonneg _) (by norm_num)
      _ ≤ 1 / 10 ^ 11 := by norm_num
  generalize t / r = q at *
  rw [abs_le] at hq
  norm_num at hq
  have s := fl_close (q := q) (B := 200) (by rw [abs_le]; constructor <;> linarith)
  generalize fl q = p at *
  norm_num at s
  have s2 := fl_close (q := p + 1) (B := 300) (by rw [abs_le]; constructor <;> linarith)
  norm_num at s2
  rw [abs_le]
  norm_num
  constructor <;> linarith

theorem mean_sun_bound (fu : Fusing) (sin : ℚ → ℚ) (y d : Int) (hy : 638 ≤ y) (h0 : 0 ≤ d) (hd : d ≤ 1000) :
    |(SuriyaDayPositions.init fu sin y d).MeanSun| ≤ 1000 := by
  have hk := kammacubala_range y hy
  have ht := tithi_range y hy
  show |meanSun fu ((d - (SuriyaYear.init y).Tithi) * 800 + (SuriyaYear.init y).Kammacubala)| ≤ 1000
  have b1 : -23500 ≤ (d - (SuriyaYear.init y).Tithi) * 800 + (SuriyaYear.init y).Kammacubala := by omega
  have b2 : (d - (SuriyaYear.init y).Tithi) * 800 + (SuriyaYear.init y).Kammacubala ≤ 800800 := by omega
  generalize (d - (SuriyaYear.init y).Tithi) * 800 + (SuriyaYear.init y).Kammacubala = a at *
  have c1 : (-23500 : ℚ) ≤ a := by exact_mod_cast b1
  have c2 : (a : ℚ) ≤ 800800 := by exact_mod_cast b2
  rw [abs_le]
  rcases lt_or_ge a 0 with h | h
  · have := mean_sun_before fu a h b1
    norm_num at this
    constructor <;> linarith
  · have := mean_sun_after fu a h (by omega)
    norm_num at this
    constructor <;> linarith

theorem true_sun_bound (fu : Fusing) (sin : ℚ → ℚ) (hs : ∀ a, |sin a| ≤ 1) (y d : Int) (hy : 638 ≤ y) (h0 : 0 ≤ d) (hd : d ≤ 1000) :
    |(SuriyaDayPositions.init fu sin y d).TrueSun| ≤ 1010 := by
  have h1 := mean_sun_bound fu sin y d hy h0 hd
  have h2 : |(SuriyaDayPositions.init fu sin y d).TrueSun - (SuriyaDayPositions.init fu sin y d).MeanSun| ≤ 134 / 60 + 1 / 5000 :=
    true_sun_close fu sin hs (SuriyaDayPositions.init fu sin y d).MeanSun (by linarith)
  rw [abs_le] at *
  norm_num at h2
  constructor <;> linarith

/-- C50: the true sun is the mean sun plus a whole number of arc minutes, the floor of 134 sin|MeanSun - 80|, truncated
to four decimals. -/
theorem c50_true_sun (fu : Fusing) (sin : ℚ → ℚ) (hs : ∀ a, |sin a| ≤ 1) (y d : Int) (hy : 638 ≤ y) (h0 : 0 ≤ d) (hd : d ≤ 1000) :
    let p := SuriyaDayPositions.init fu sin y d
    let b : ℚ := ⌊fl (134 * sin |fl (p.MeanSun - 80)|)⌋
    p.MeanSun + b / 60 - 1 / 10000 - 1 / 10 ^ 9 < p.TrueSun ∧ p.TrueSun ≤ p.MeanSun + b / 60 + 1 / 10 ^ 9 :=
  true_sun_formula fu sin hs (SuriyaDayPositions.init fu sin y d).MeanSun
    (by have := mean_sun_bound fu sin y d hy h0 hd; linarith)

/-- C50: lunar day 0 of 2015, with a sine of one half everywhere: the sun is moved by 67 arc minutes. -/
example (fu : Fusing) : (SuriyaDayPositions.init fu (fun _ => 1 / 2) 2015 0).MeanSun + 67 / 60 - 1 / 10000 - 1 / 10 ^ 9 <
    (SuriyaDayPositions.init fu (fun _ => 1 / 2) 2015 0).TrueSun := by
  have h := (c50_true_sun fu (fun _ => 1 / 2) (fun a => by rw [abs_le]; norm_num) 2015 0 (by decide) (by decide) (by decide)).1
  have e : ⌊fl (134 * (1 / 2 : ℚ))⌋ = 67 := by decide +kernel
  rw [e] at h
  push_cast at h
  exact h

/-- C50: the mean moon is the true sun plus 12 degrees per tithi plus 26/25 arc minutes per avoman less 0.6666 degrees,
reduced by whole turns to at most 360 degrees. -/
theorem c50_mean_moon (fu : Fusing) (sin : ℚ → ℚ) (hs : ∀ a, |sin a| ≤ 1) (y d : Int) (hy : 638 ≤ y) (h0 : 0 ≤ d) (hd : d ≤ 1000)
    (hh : 0 ≤ (SuriyaDay.init y d).Horakhun) :
    let p := SuriyaDayPositions.init fu sin y d
    let av := (SuriyaDay.init y d).Avoman
    p.MeanMoon ≤ 360 ∧ ∃ k : ℤ, 0 ≤ k ∧ |p.MeanMoon - (p.TrueSun + ((av + av / 25 : ℤ) : ℚ) / 60 +
      12 * (SuriyaDay.init y d).Tithi - 6666 / 10000 - 360 * k)| ≤ 1 / 10 ^ 9 := by
  intro p av
  obtain ⟨-, hav, hti, -⟩ := c35_quantities y d hh
  have ht := true_sun_bound fu sin hs y d hy h0 hd
  obtain ⟨k, hk, h1, -, h3⟩ := mean_moon_formula fu p.TrueSun (by linarith) av (SuriyaDay.init y d).Tithi hav.1 hav.2
    hti.1 hti.2
  exact ⟨h3, k, hk, h1⟩

/-- C50: lunar day 103 of 1963. -/
example (fu : Fusing) (sin : ℚ → ℚ) (hs : ∀ a, |sin a| ≤ 1) : (SuriyaDayPositions.init fu sin 1963 103).MeanMoon ≤ 360 :=
  (c50_mean_moon fu sin hs 1963 103 (by decide) (by decide) (by decide) (by decide)).1

theorem mean_moon_bound (fu : Fusing) (sin : ℚ → ℚ) (hs : ∀ a, |sin a| ≤ 1) (y d : Int) (hy : 638 ≤ y) (h0 : 0 ≤ d) (hd : d ≤ 1000)
    (hh : 0 ≤ (SuriyaDay.init y d).Horakhun) : |(SuriyaDayPositions.init fu sin y d).MeanMoon| ≤ 1500 := by
  obtain ⟨-, hav, hti, -⟩ := c35_quantities y d hh
  have ht := true_sun_bound fu sin hs y d hy h0 hd
  obtain ⟨k, hk, -, h2, -⟩ := mean_moon_formula fu (SuriyaDayPositions.init fu sin y d).TrueSun (by linarith)
    (SuriyaDay.init y d).Avoman (SuriyaDay.init y d).Tithi hav.1 hav.2 hti.1 hti.2
  have e : (SuriyaDayPositions.init fu sin y d).MeanMoon =
    meanMoon fu (SuriyaDayPositions.init fu sin y d).TrueSun (SuriyaDay.init y d).Avoman (SuriyaDay.init y d).Tithi := rfl
  rw [e]
  linarith

/-- C50: the true moon is the mean moon less 296 sin(a) arc minutes, truncated to four decimals, where the anomaly `a` is
the distance of the mean moon from the apogee: 90/808 degree per day of the Uccabala, plus 2 arc minutes. -/
theorem c50_true_moon (fu : Fusing) (sin : ℚ → ℚ) (hs : ∀ a, |sin a| ≤ 1) (y d : Int) (hy : 638 ≤ y) (h0 : 0 ≤ d) (hd : d ≤ 1000)
    (hh : 0 ≤ (SuriyaDay.init y d).Horakhun) :
    let p := SuriyaDayPositions.init fu sin y d
    let days := (SuriyaYear.init y).Uccabala + (d - (SuriyaYear.init y).Tithi)
    ∃ a : ℚ, |a - (p.MeanMoon - (days * 90 / 808 + 2 / 60))| ≤ 1 / 10 ^ 9 ∧
      p.MeanMoon - 296 * sin a / 60 - 1 / 10000 - 1 / 10 ^ 9 < p.TrueMoon ∧
      p.TrueMoon ≤ p.MeanMoon - 296 * sin a / 60 + 1 / 10 ^ 9 := by
  intro p days
  have ht := tithi_range y hy
  have hu : 0 ≤ (SuriyaYear.init y).Uccabala ∧ (SuriyaYear.init y).Uccabala < 3232 := by
    have := (c01_init_values y hy).2.2.2.uccabala_range
    exact this
  obtain ⟨u1, u2⟩ := uccabala_formula fu days (by rw [abs_le]; omega)
  have hm : |p.MeanMoon| ≤ 1500 := mean_moon_bound fu sin hs y d hy h0 hd hh
  refine ⟨fl (p.MeanMoon - meanUccabala fu days), ?_, ?_⟩
  · rw [abs_le] at u1 u2 hm
    have := fl_close (q := p.MeanMoon - meanUccabala fu days) (B := 14000) (by rw [abs_le]; constructor <;> linarith)
    generalize fl (p.MeanMoon - meanUccabala fu days) = f at *
    norm_num at this u1
    rw [abs_le]
    norm_num
    constructor <;> linarith
  · exact true_moon_formula sin hs p.MeanMoon (meanUccabala fu days) (by linarith)

/-- C50: with a sine of zero the true moon is the mean one, truncated. -/
example (fu : Fusing) : (SuriyaDayPositions.init fu (fun _ => 0) 1963 103).TrueMoon ≤ (SuriyaDayPositions.init fu (fun _ => 0) 1963 103).MeanMoon + 1 / 10 ^ 9 := by
  obtain ⟨a, -, -, h⟩ := c50_true_moon fu (fun _ => 0) (by norm_num) 1963 103 (by decide) (by decide) (by decide) (by decide)
  simpa using h

/-- C50: the raek is one plus the true moon in units of 13.3333 degrees. -/
theorem c50_raek (fu : Fusing) (sin : ℚ → ℚ) (hs : ∀ a, |sin a| ≤ 1) (y d : Int) (hy : 638 ≤ y) (h0 : 0 ≤ d) (hd : d ≤ 1000)
    (hh : 0 ≤ (SuriyaDay.init y d).Horakhun) :
    let p := SuriyaDayPositions.init fu sin y d
    |p.Raek - (p.TrueMoon / (133333 / 10000) + 1)| ≤ 1 / 10 ^ 9 := by
  intro p
  have hm : |p.MeanMoon| ≤ 1500 := mean_moon_bound fu sin hs y d hy h0 hd hh
  have h3 : |p.TrueMoon - p.MeanMoon| ≤ 296 / 60 + 1 / 5000 :=
    true_moon_close sin hs p.MeanMoon _ (by linarith)
  apply raek_formula fu p.TrueMoon
  rw [abs_le] at *
  norm_num at h3
  constructor <;> linarith

/-- C50 applies: every day from lunar day 29 on. -/
example : 0 ≤ (SuriyaDay.init 638 29).Horakhun ∧ 0 ≤ (SuriyaDay.init 1963 0).Horakhun := by decide

/-- C51: the sun's correction is taken from the distance to 80 degrees regardless of its side. For a sine that is not
negative from 0 to 180 degrees, the true sun is nowhere in the half circle beyond 80 degrees behind the mean sun by more
than the truncation, as it is nowhere in the half circle before. -/
theorem c51_sun_not_behind (fu : Fusing) (sin : ℚ → ℚ) (hs : ∀ a, |sin a| ≤ 1) (hp : ∀ a, 0 ≤ a → a ≤ 180 → 0 ≤ sin a) (y d : Int)
    (hy : 638 ≤ y) (h0 : 0 ≤ d) (hd : d ≤ 1000) (h1 : |(SuriyaDayPositions.init fu sin y d).MeanSun - 80| ≤ 180) :
    (SuriyaDayPositions.init fu sin y d).MeanSun - 1 / 10000 - 1 / 10 ^ 9 < (SuriyaDayPositions.init fu sin y d).TrueSun := by
  have h := (c50_true_sun fu sin hs y d hy h0 hd).1
  have hb : 0 ≤ ⌊fl (134 * sin |fl ((SuriyaDayPositions.init fu sin y d).MeanSun - 80)|)⌋ := by
    rw [abs_le] at h1
    have e1 := fl_le_of_int (k := 180) (q := (SuriyaDayPositions.init fu sin y d).MeanSun - 80) (by norm_num)
      (by push_cast; linarith)
    have e2 := le_fl_of_int (k := -180) (q := (SuriyaDayPositions.init fu sin y d).MeanSun - 80) (by norm_num)
      (by push_cast; linarith)
    have := hp |fl ((SuriyaDayPositions.init fu sin y d).MeanSun - 80)| (abs_nonneg _)
      (by rw [abs_le]; push_cast at e1 e2; exact ⟨e2, e1⟩)
    apply Int.floor_nonneg.2
    have := le_fl_of_int (k := 0) (q := 134 * sin |fl ((SuriyaDayPositions.init fu sin y d).MeanSun - 80)|) (by norm_num)
      (by push_cast; linarith)
    simpa using this
  have hb' : (0 : ℚ) ≤ ⌊fl (134 * sin |fl ((SuriyaDayPositions.init fu sin y d).MeanSun - 80)|)⌋ := by exact_mod_cast hb
  linarith

/-- C51: the true sun depends on the sine at distances from 80 degrees only: the corrections at equal distances before
and after are equal, up to the truncation. -/
theorem c51_symmetric (fu : Fusing) (sin : ℚ → ℚ) (hs : ∀ a, |sin a| ≤ 1) (y d y' d' : Int) (hy : 638 ≤ y) (h0 : 0 ≤ d) (hd : d ≤ 1000)
    (hy' : 638 ≤ y') (h0' : 0 ≤ d') (hd' : d' ≤ 1000)
    (h : |fl ((SuriyaDayPositions.init fu sin y d).MeanSun - 80)| = |fl ((SuriyaDayPositions.init fu sin y' d').MeanSun - 80)|) :
    |((SuriyaDayPositions.init fu sin y d).TrueSun - (SuriyaDayPositions.init fu sin y d).MeanSun) -
      ((SuriyaDayPositions.init fu sin y' d').TrueSun - (SuriyaDayPositions.init fu sin y' d').MeanSun)| ≤ 1 / 10000 + 1 / 10 ^ 8 := by
  have h1 := c50_true_sun fu sin hs y d hy h0 hd
  have h2 := c50_true_sun fu sin hs y' d' hy' h0' hd'
  simp only at h1 h2
  rw [h] at h1
  generalize (⌊fl (134 * sin |fl ((SuriyaDayPositions.init fu sin y' d').MeanSun - 80)|)⌋ : ℚ) = b at *
  norm_num at h1 h2
  rw [abs_le]
  norm_num
  constructor <;> linarith

/-- A crude sine: 1/2 on the half circle from 0 to 180 degrees, -1/2 elsewhere. -/
def halfSine (a : ℚ) : ℚ := if 0 ≤ a ∧ a ≤ 180 then 1 / 2 else -1 / 2

/-- C51 applies: on day 200 of 2015 the mean sun is at 169.7 degrees, almost 90 degrees beyond 80. -/
example : (∀ a, |halfSine a| ≤ 1) ∧ (∀ a, 0 ≤ a → a ≤ 180 → 0 ≤ halfSine a) ∧
    169 < (SuriyaDayPositions.init .none halfSine 2015 200).MeanSun ∧ (SuriyaDayPositions.init .none halfSine 2015 200).MeanSun < 170 ∧
    (SuriyaDayPositions.init .none halfSine 2015 200).MeanSun + 1 < (SuriyaDayPositions.init .none halfSine 2015 200).TrueSun := by
  refine ⟨fun a => ?_, fun a h1 h2 => ?_, ?_⟩
  · unfold halfSine; split <;> rw [abs_le] <;> norm_num
  · unfold halfSine; rw [if_pos ⟨h1, h2⟩]; norm_num
  · decide +kernel

end Verif.Props
