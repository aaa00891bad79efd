import Verif.Lemmas.Fused
import Verif.Props.FusedSine
/-
C74: fused multiply-add changes no position of the sun or of the mean moon from the New Year day on.
-/
set_option autoImplicit false

namespace Verif.Props
open Verif.Go Verif.Model Verif.Spec Verif.Lemmas

theorem fl_half_ulp {q : ℚ} (h : q ≠ 0) : |fl q - q| ≤ 2 ^ (Int.log 2 |q| - 53) := by
  have hp := two_zpow_pos (ulpExp q)
  have he := roundEven_err (q / 2 ^ ulpExp q)
  have e1 : fl q - q = (roundEven (q / 2 ^ ulpExp q) - q / 2 ^ ulpExp q) * 2 ^ ulpExp q := by
    unfold fl; rw [if_neg h]; field_simp
  have e2 : (2 : ℚ) ^ (Int.log 2 |q| - 53) = 1 / 2 * 2 ^ ulpExp q := by
    unfold ulpExp
    rw [show Int.log 2 |q| - 53 = (Int.log 2 |q| - 52) - 1 by ring, zpow_sub_one₀ (by norm_num)]
    ring
  rw [e1, e2, abs_mul, abs_of_pos hp]
  exact mul_le_mul_of_nonneg_right he hp.le

/-- The rounded degrees times 10000 are less than 5/8 of a unit below the whole number. -/
theorem scaled_near (T : ℤ) (i : ℕ) (hi : i ≤ 40) (h0 : 0 < T) (h2 : T ≤ 2 ^ (i + 1)) :
    (T : ℚ) - 5 / 8 / 2 ^ (52 - i) ≤ fl ((T : ℚ) / 10000) * 10000 := by
  have hT : (0 : ℚ) < T := by exact_mod_cast h0
  have hq : (0 : ℚ) < (T : ℚ) / 10000 := by positivity
  have hu := fl_half_ulp hq.ne'
  have hb := (log_bounds hq.ne').1
  rw [abs_of_pos hq] at hu hb
  generalize Int.log 2 ((T : ℚ) / 10000) = e at *
  have h2' : (T : ℚ) ≤ 2 ^ ((i : ℤ) + 1) := by
    have : (2 : ℚ) ^ ((i : ℤ) + 1) = 2 ^ (i + 1) := by exact_mod_cast rfl
    rw [this]
    exact_mod_cast h2
  have he : e + 13 < (i : ℤ) + 1 := by
    apply (zpow_lt_zpow_iff_right₀ (by norm_num : (1 : ℚ) < 2)).1
    rw [zpow_add₀ (by norm_num)]
    have p := two_zpow_pos e
    rw [le_div_iff₀ (by norm_num)] at hb
    norm_num
    linarith
  have hle : (2 : ℚ) ^ (e - 53) ≤ 2 ^ (-((52 - i : ℕ) : ℤ) - 14) := zpow_le_zpow_right₀ (by norm_num) (by omega)
  have e14 : (2 : ℚ) ^ (-((52 - i : ℕ) : ℤ) - 14) = 1 / 2 ^ (52 - i) / 16384 := by
    rw [zpow_sub₀ (by norm_num), zpow_neg, zpow_natCast]
    norm_num
  rw [e14] at hle
  have pos : (0 : ℚ) < 1 / 2 ^ (52 - i) := by positivity
  rw [show (5 : ℚ) / 8 / 2 ^ (52 - i) = 5 / 8 * (1 / 2 ^ (52 - i)) by ring]
  have := (abs_le.1 hu).1
  linarith

theorem exists_binade (T : ℤ) (h : 2 ≤ T) (hb : T ≤ 2 ^ 30) : ∃ i : ℕ, i ≤ 29 ∧ (2 : ℤ) ^ i < T ∧ T ≤ 2 ^ (i + 1) := by
  obtain ⟨n, rfl⟩ : ∃ n : ℕ, T = n + 1 := ⟨(T - 1).toNat, by omega⟩
  have hn : n ≠ 0 := by omega
  have h1 := Nat.pow_log_le_self 2 hn
  have h2 := Nat.lt_pow_succ_log_self (b := 2) (by norm_num) n
  have hb' : n < 2 ^ 30 := by
    have : (n : ℤ) < 2 ^ 30 := by omega
    exact_mod_cast this
  have h3 : 2 ^ Nat.log 2 n < 2 ^ 30 := lt_of_le_of_lt h1 hb'
  have h4 := (Nat.pow_lt_pow_iff_right (by norm_num : 1 < 2)).1 h3
  refine ⟨Nat.log 2 n, by omega, ?_, ?_⟩
  · have : ((2 ^ Nat.log 2 n : ℕ) : ℤ) ≤ n := by exact_mod_cast h1
    push_cast at this
    omega
  · have : (n : ℤ) < ((2 ^ (Nat.log 2 n + 1) : ℕ) : ℤ) := by exact_mod_cast h2
    push_cast at this
    omega

theorem floor_of_le {x : ℚ} {S : ℤ} (h1 : (S : ℚ) - 1 ≤ x) (h2 : x < S + 1) : ⌊x⌋ = if (S : ℚ) ≤ x then S else S - 1 := by
  split
  · rw [Int.floor_eq_iff]
    exact ⟨by assumption, h2⟩
  · rw [Int.floor_eq_iff]
    push_cast
    exact ⟨h1, by linarith⟩

/-- The sum of suriya_day.go:112 has the same floor, fused or not. -/
theorem sum_fused (f : Bool) (T b : ℤ) (h0 : 2 ≤ T) (h1 : T ≤ 3960000) (hb : |b| ≤ 134) (hneg : T ≤ 2600000 → 0 ≤ b) :
    ⌊mulAdd f (fl ((T : ℚ) / 10000)) 10000 (fl (fl ((b : ℚ) * 10000) / 60))⌋ =
      ⌊mulAdd false (fl ((T : ℚ) / 10000)) 10000 (fl (fl ((b : ℚ) * 10000) / 60))⌋ := by
  have hT0 : (2 : ℚ) ≤ T := by exact_mod_cast h0
  have hT1 : (T : ℚ) ≤ 3960000 := by exact_mod_cast h1
  rw [abs_le] at hb
  have e1 : fl ((b : ℚ) * 10000) = b * 10000 := by
    have := fl_int (b * 10000) (by rw [abs_le]; omega)
    push_cast at this
    exact this
  rw [e1]
  have cv := fl_within (q := (T : ℚ) / 10000) (B := 400) (by rw [abs_le]; constructor <;> linarith)
  rw [abs_le] at cv
  by_cases d3 : b % 3 = 0
  · obtain ⟨c, rfl⟩ : ∃ c, b = 3 * c := ⟨b / 3, by omega⟩
    have e2 : fl (((3 * c : ℤ) : ℚ) * 10000 / 60) = ((500 * c : ℤ) : ℚ) := by
      rw [← fl_int (500 * c) (by rw [abs_le]; omega)]
      congr 1
      push_cast
      ring
    rw [e2]
    cases f
    · rfl
    show ⌊fl (fl ((T : ℚ) / 10000) * 10000 + ((500 * c : ℤ) : ℚ))⌋ = ⌊fl (fl (fl ((T : ℚ) / 10000) * 10000) + ((500 * c : ℤ) : ℚ))⌋
    have key : ((T + 500 * c : ℤ) : ℚ) ≤ fl (fl (fl ((T : ℚ) / 10000) * 10000) + ((500 * c : ℤ) : ℚ)) ↔
        ((T + 500 * c : ℤ) : ℚ) ≤ fl (fl ((T : ℚ) / 10000) * 10000 + ((500 * c : ℤ) : ℚ)) := by
      by_cases hv : fl ((T : ℚ) / 10000) * 10000 < T
      · obtain ⟨i, i1, i2, i3⟩ := exists_binade T h0 (by omega)
        by_cases c0 : 0 ≤ c
        · obtain ⟨j, j1, j2, j3⟩ := exists_binade (T + 500 * c) (by omega) (by omega)
          have hij : i ≤ j := by
            have : (2 : ℤ) ^ i < 2 ^ (j + 1) := by omega
            have := (pow_lt_pow_iff_right₀ (by norm_num : (1 : ℤ) < 2)).1 this
            omega
          exact twice_iff hij (by omega) i2 i3 j2 j3 hv (scaled_near T i (by omega) (by omega) i3)
        · have hT : 2600000 < T := by
            by_contra hc
            have := hneg (by omega)
            omega
          exact twice_iff (i := 21) (j := 21) le_rfl (by norm_num) (by norm_num; omega) (by norm_num; omega) (by norm_num; omega)
            (by norm_num; omega) hv (scaled_near T 21 (by norm_num) (by omega) (by norm_num; omega))
      · have hv := not_lt.1 hv
        have r : (T : ℚ) ≤ fl (fl ((T : ℚ) / 10000) * 10000) := le_fl_of_int (by rw [abs_le]; omega) hv
        constructor
        · intro _
          refine le_fl_of_int (by rw [abs_le]; omega) ?_
          push_cast
          linarith
        · intro _
          refine le_fl_of_int (by rw [abs_le]; omega) ?_
          push_cast
          linarith
    have hc1 : (-22500 : ℚ) ≤ ((500 * c : ℤ) : ℚ) := by exact_mod_cast (by omega : -22500 ≤ 500 * c)
    have hc2 : ((500 * c : ℤ) : ℚ) ≤ 22500 := by exact_mod_cast (by omega : 500 * c ≤ 22500)
    generalize fl ((T : ℚ) / 10000) = m at *
    have g1 := fl_within (q := m * 10000) (B := 4000000) (by rw [abs_le]; norm_num at cv; constructor <;> linarith)
    rw [abs_le] at g1
    generalize fl (m * 10000) = u at *
    generalize hw : ((500 * c : ℤ) : ℚ) = w at *
    have g2 := fl_within (q := m * 10000 + w) (B := 4000000) (by rw [abs_le]; norm_num at cv; constructor <;> linarith)
    have g3 := fl_within (q := u + w) (B := 4000000) (by rw [abs_le]; norm_num at cv g1; constructor <;> linarith)
    rw [abs_le] at g2 g3
    generalize fl (m * 10000 + w) = A at *
    generalize fl (u + w) = B at *
    have hS : ((T + 500 * c : ℤ) : ℚ) = T + w := by rw [← hw]; push_cast; ring
    norm_num at cv g1 g2 g3
    rw [floor_of_le (x := A) (S := T + 500 * c) (by rw [hS]; linarith) (by rw [hS]; linarith),
      floor_of_le (x := B) (S := T + 500 * c) (by rw [hS]; linarith) (by rw [hS]; linarith)]
    simp only [key]
  · have k1 : (((500 * b) / 3 : ℤ) : ℚ) + 1 / 3 ≤ (b : ℚ) * 10000 / 60 := by
      have : 3 * ((500 * b) / 3) + 1 ≤ 500 * b := by omega
      have : 3 * (((500 * b) / 3 : ℤ) : ℚ) + 1 ≤ 500 * b := by exact_mod_cast this
      linarith
    have k2 : (b : ℚ) * 10000 / 60 ≤ (((500 * b) / 3 : ℤ) : ℚ) + 2 / 3 := by
      have : 500 * b ≤ 3 * ((500 * b) / 3) + 2 := by omega
      have : (500 : ℚ) * b ≤ 3 * (((500 * b) / 3 : ℤ) : ℚ) + 2 := by exact_mod_cast this
      linarith
    have b1 : (-134 : ℚ) ≤ b := by exact_mod_cast hb.1
    have b2 : (b : ℚ) ≤ 134 := by exact_mod_cast hb.2
    have g0 := fl_within (q := (b : ℚ) * 10000 / 60) (B := 22500) (by rw [abs_le]; constructor <;> linarith)
    rw [abs_le] at g0
    have all : ∀ f, ⌊mulAdd f (fl ((T : ℚ) / 10000)) 10000 (fl ((b : ℚ) * 10000 / 60))⌋ = T + (500 * b) / 3 := by
      intro f
      obtain ⟨r, hr, e⟩ := mulAdd_split f (fl ((T : ℚ) / 10000)) 10000 (fl ((b : ℚ) * 10000 / 60))
      rw [e]
      generalize fl ((T : ℚ) / 10000) = m at *
      generalize fl ((b : ℚ) * 10000 / 60) = w at *
      have g1 := fl_or_within hr (B := 4000000) (by rw [abs_le]; norm_num at cv; constructor <;> linarith)
      rw [abs_le] at g1
      have g2 := fl_within (q := r + w) (B := 4000000) (by rw [abs_le]; norm_num at cv g0 g1; constructor <;> linarith)
      rw [abs_le] at g2
      norm_num at cv g0 g1 g2
      rw [Int.floor_eq_iff]
      push_cast
      constructor <;> linarith
    rw [all, all]

theorem trueSun_minutes (fu : Fusing) (T : ℤ) : trueSun fu (sinDegrees fu) (fl ((T : ℚ) / 10000)) =
    fl ((⌊mulAdd fu.sun (fl ((T : ℚ) / 10000)) 10000 (fl (fl ((sunMinutes fu T : ℚ) * 10000) / 60))⌋ : ℚ) / 10000) := rfl

theorem minutes_range (fu : Fusing) (T : ℤ) (h0 : -1000 ≤ T) (h1 : T ≤ 3960000) :
    |sunMinutes fu T| ≤ 134 ∧ (T ≤ 2600000 → 0 ≤ sunMinutes fu T) := by
  have hT0 : (-1000 : ℚ) ≤ T := by exact_mod_cast h0
  have hT1 : (T : ℚ) ≤ 3960000 := by exact_mod_cast h1
  have c1 := fl_within (q := (T : ℚ) / 10000) (B := 400) (by rw [abs_le]; constructor <;> linarith)
  have hup : T ≤ 2600000 → fl ((T : ℚ) / 10000) ≤ 260 := by
    intro h
    have h' : (T : ℚ) ≤ 2600000 := by exact_mod_cast h
    have := fl_le_of_int (k := 260) (q := (T : ℚ) / 10000) (by norm_num) (by push_cast; linarith)
    exact_mod_cast this
  unfold sunMinutes
  generalize fl ((T : ℚ) / 10000) = m at *
  have c2 := fl_within (q := m - 80) (B := 500) (by
    rw [abs_le] at *
    norm_num at c1
    constructor <;> linarith)
  have hlow : fl (m - 80) ≤ 180 ∨ 260 < m := by
    rcases le_or_gt m 260 with h | h
    · left
      have := fl_le_of_int (k := 180) (q := m - 80) (by norm_num) (by push_cast; linarith)
      exact_mod_cast this
    · exact .inr h
  generalize fl (m - 80) = a at *
  rw [abs_le] at c1 c2
  norm_num at c1 c2
  have ha : |(|a|)| ≤ 50000 := by
    rw [abs_abs, abs_le]
    constructor <;> linarith
  have hr := abs_sinDegrees_le fu ha
  have hn : T ≤ 2600000 → 0 ≤ sinDegrees fu |a| := by
    intro h
    refine sinDegrees_nonneg fu (abs_nonneg _) ?_
    have := hup h
    rw [abs_le]
    rcases hlow with h' | h'
    · exact ⟨by linarith, h'⟩
    · linarith
  generalize sinDegrees fu |a| = s at *
  rw [abs_le] at hr
  have u : fl (134 * s) ≤ 134 := by
    have := fl_le_of_int (k := 134) (q := 134 * s) (by norm_num) (by push_cast; linarith)
    exact_mod_cast this
  have l : -134 ≤ fl (134 * s) := by
    have := le_fl_of_int (k := -134) (q := 134 * s) (by norm_num) (by push_cast; linarith)
    exact_mod_cast this
  refine ⟨?_, ?_⟩
  · rw [abs_le]
    constructor
    · rw [Int.le_floor]
      exact_mod_cast l
    · have := Int.floor_le (fl (134 * s))
      have : (⌊fl (134 * s)⌋ : ℚ) ≤ (134 : ℤ) := by push_cast; linarith
      exact_mod_cast this
  · intro h
    exact Int.floor_nonneg.2 (fl_nonneg (by linarith [hn h]))

/-- C74: the true sun of every mean sun from -0.05 to 395 degrees is the same, whatever is fused. -/
theorem trueSun_fused (fu fu' : Fusing) (M : ℤ) (h0 : -3 ≤ M) (h1 : M ≤ 23720) :
    trueSun fu (sinDegrees fu) (fl (((500 * M / 3 : ℤ) : ℚ) / 10000)) = trueSun fu' (sinDegrees fu') (fl (((500 * M / 3 : ℤ) : ℚ) / 10000)) := by
  rw [trueSun_minutes, trueSun_minutes, minutes_fused fu .none M h0 h1, minutes_fused fu' .none M h0 h1]
  obtain ⟨r1, r2⟩ := minutes_range .none (500 * M / 3) (by omega) (by omega)
  by_cases c : 1 ≤ M
  · rw [sum_fused fu.sun _ _ (by omega) (by omega) r1 r2, sum_fused fu'.sun _ _ (by omega) (by omega) r1 r2]
  · have key : ∀ M : ℤ, M = -3 ∨ M = -2 ∨ M = -1 ∨ M = 0 → ∀ f f' : Bool,
        mulAdd f (fl (((500 * M / 3 : ℤ) : ℚ) / 10000)) 10000 (fl (fl ((sunMinutes .none (500 * M / 3) : ℚ) * 10000) / 60)) =
        mulAdd f' (fl (((500 * M / 3 : ℤ) : ℚ) / 10000)) 10000 (fl (fl ((sunMinutes .none (500 * M / 3) : ℚ) * 10000) / 60)) := by
      rintro M (rfl | rfl | rfl | rfl) <;> decide +kernel
    rw [key M (by omega) fu.sun fu'.sun]

/-- From the New Year on the mean sun is a whole number of arc minutes, truncated to four decimals. -/
theorem meanSun_grid (fu : Fusing) (a : ℤ) (h0 : 0 ≤ a) (h1 : a ≤ 320800) :
    ∃ M : ℤ, -3 ≤ M ∧ M ≤ 23720 ∧ meanSun fu a = fl (((500 * M / 3 : ℤ) : ℚ) / 10000) := by
  have ha : |a| ≤ 10 ^ 8 := by rw [abs_of_nonneg h0]; omega
  obtain ⟨c1, c2, c3⟩ := sunDegree_close a ha
  have h00 : 0 ≤ sunDegree a := by
    unfold sunDegree
    have p0 : 0 ≤ fl (a : ℚ) := fl_nonneg (by exact_mod_cast h0)
    have p1 : 0 ≤ fl (fl (a : ℚ) / 292207) := fl_nonneg (by positivity)
    exact fl_nonneg (by positivity)
  obtain ⟨r1, r2⟩ := ral_of_sunDegree a ha
  rw [meanSun_eq fu a ha, c39_ral_to_degree _ _ _ r1 r2]
  obtain ⟨hx, hy, -, z2, z3, z4⟩ := parts_close c3 (by norm_num; linarith) (degreeToRal (sunDegree a)).1 (degreeToRal (sunDegree a)).2.1
    (degreeToRal (sunDegree a)).2.2 rfl
  have hfl : 0 ≤ ⌊sunDegree a⌋ := Int.floor_nonneg.2 h00
  have hN : 30 * (degreeToRal (sunDegree a)).1 + (degreeToRal (sunDegree a)).2.1 = ⌊sunDegree a⌋ := by
    rw [hx, hy, Int.tmod_eq_emod_of_nonneg hfl]; omega
  rw [hN]
  generalize (degreeToRal (sunDegree a)).2.2 = z at *
  generalize ⌊sunDegree a⌋ = N at *
  refine ⟨60 * N + (z - 3), by omega, ?_, ?_⟩
  · have h1' : (a : ℚ) ≤ 320800 := by exact_mod_cast h1
    have : (a : ℚ) * 360 / 292207 ≤ 3953 / 10 := by
      rw [div_le_iff₀ (by norm_num)]
      linarith
    rw [abs_le] at c1
    norm_num at c1 z2
    have hM : ((60 * N + (z - 3) : ℤ) : ℚ) ≤ 23720 := by push_cast; linarith
    exact_mod_cast hM
  · congr 3
    have : ((N : ℚ) + ((z - 3 : ℤ) : ℚ) / 60) * 10000 = ((500 * (60 * N + (z - 3)) : ℤ) : ℚ) / (3 : ℕ) := by push_cast; ring
    rw [this, Int.floor_div_natCast, Int.floor_intCast]
    rfl

theorem meanMoon_fused (fu fu' : Fusing) (t : ℚ) (ht : |t| ≤ 2000) (av ti : ℤ) (h0 : 0 ≤ av) (h1 : av < 692) (h2 : 0 ≤ ti) (h3 : ti < 30) :
    meanMoon fu t av ti = meanMoon fu' t av ti := by
  have e1 : fl ((ti : ℚ)) = ti := fl_int ti (by rw [abs_le]; omega)
  have e2 : fl ((ti : ℚ) * 12) = ti * 12 := by
    have := fl_int (ti * 12) (by rw [abs_le]; omega)
    push_cast at this
    exact this
  have e3 : ∀ f, ralToDegree 0 0 40 f = ralToDegree 0 0 40 := by
    intro f
    rw [c39_ral_to_degree _ _ _ (by norm_num) (by norm_num) f, c39_ral_to_degree _ _ _ (by norm_num) (by norm_num)]
  have e4 : ralToDegree 0 0 40 = fl (6666 / 10000) := by decide +kernel
  unfold meanMoon
  simp only [e1, e3, mulAdd_exact _ (x := (ti : ℚ)) (y := 12) e2]
  have hb : fl (fl ((ti : ℚ) * 12 + fl (t + fl (fl (fl (av : ℚ) + (⌊fl (fl (av : ℚ) / 25)⌋ : ℚ)) / 60))) - ralToDegree 0 0 40) < 2 ^ 53 := by
    have q0 : (0 : ℚ) ≤ av := by exact_mod_cast h0
    have q1 : (av : ℚ) ≤ 692 := by exact_mod_cast h1.le
    have q2 : (ti : ℚ) ≤ 30 := by exact_mod_cast h3.le
    rw [abs_le] at ht
    have up : ∀ {q : ℚ} (k : ℤ), |k| ≤ 2 ^ 53 → q ≤ k → fl q ≤ k := fun k hk h => fl_le_of_int hk h
    have s1 := up (q := (av : ℚ)) 692 (by norm_num) (by push_cast; exact q1)
    have s2 := up (q := fl (av : ℚ) / 25) 692 (by norm_num) (by push_cast at s1 ⊢; linarith)
    have s3 := Int.floor_le (fl (fl (av : ℚ) / 25))
    have s4 := up (q := fl (av : ℚ) + (⌊fl (fl (av : ℚ) / 25)⌋ : ℚ)) 1400 (by norm_num) (by push_cast at s1 s2 ⊢; linarith)
    have s5 := up (q := fl (fl (av : ℚ) + (⌊fl (fl (av : ℚ) / 25)⌋ : ℚ)) / 60) 1400 (by norm_num) (by push_cast at s4 ⊢; linarith)
    have s6 := up (q := t + fl (fl (fl (av : ℚ) + (⌊fl (fl (av : ℚ) / 25)⌋ : ℚ)) / 60)) 4000 (by norm_num) (by push_cast at s5 ⊢; linarith)
    generalize fl (t + fl (fl (fl (av : ℚ) + (⌊fl (fl (av : ℚ) / 25)⌋ : ℚ)) / 60)) = u at *
    have s7 := up (q := (ti : ℚ) * 12 + u) 5000 (by norm_num) (by push_cast at s6 ⊢; linarith)
    have s8 := up (q := fl ((ti : ℚ) * 12 + u) - ralToDegree 0 0 40) 5001 (by norm_num) (by
      have : 0 ≤ ralToDegree 0 0 40 := by rw [e4]; exact fl_nonneg (by norm_num)
      push_cast at s7 ⊢
      linarith)
    push_cast at s8
    linarith [show (5001 : ℚ) < 2 ^ 53 by norm_num]
  have hF := isFloat_fl (fl ((ti : ℚ) * 12 + fl (t + fl (fl (fl (av : ℚ) + (⌊fl (fl (av : ℚ) / 25)⌋ : ℚ)) / 60))) - ralToDegree 0 0 40)
  generalize fl (fl ((ti : ℚ) * 12 + fl (t + fl (fl (fl (av : ℚ) + (⌊fl (fl (av : ℚ) / 25)⌋ : ℚ)) / 60))) - ralToDegree 0 0 40) = D at *
  by_cases c : D ≤ 360
  · rw [c40_small D c fu.turn, c40_small D c fu'.turn]
  · have c := not_le.1 c
    rw [(c40_reduce D hF c (hb.trans (by norm_num)) fu.turn).1, (c40_reduce D hF c (hb.trans (by norm_num)) fu'.turn).1]

/-- C74: the mean sun does not depend on the fusing of operations, on any day. -/
theorem c74_mean_sun (fu fu' : Fusing) (sin sin' : ℚ → ℚ) (y d : Int) (hy : 638 ≤ y) (h0 : 0 ≤ d) (hd : d ≤ 100000) :
    (SuriyaDayPositions.init fu sin y d).MeanSun = (SuriyaDayPositions.init fu' sin' y d).MeanSun := by
  have ht := tithi_range y hy
  have hk := kammacubala_range y hy
  have hE : EraYears = 800 := rfl
  show meanSun fu _ = meanSun fu' _
  have hb : |(d - (SuriyaYear.init y).Tithi) * EraYears + (SuriyaYear.init y).Kammacubala| ≤ 10 ^ 8 := by
    rw [abs_le, hE]
    omega
  rw [meanSun_eq fu _ hb, meanSun_eq fu' _ hb]

/-- C74: the mean sun of lunar day 1 of 1985, on which the true sun depends on fusing (`c74_differs`). -/
example : (SuriyaDayPositions.init .all (sinDegrees .all) 1985 1).MeanSun = (SuriyaDayPositions.init .none (fun _ => 0) 1985 1).MeanSun :=
  c74_mean_sun .all .none _ _ 1985 1 (by decide) (by decide) (by decide)

/-- C74: from the New Year day on the true sun and the mean moon do not depend on it either. -/
theorem c74_sun_and_moon (fu fu' : Fusing) (y d : Int) (hy : 638 ≤ y) (h : (SuriyaYear.init y).Tithi ≤ d) (hd : d ≤ 400) :
    (SuriyaDayPositions.init fu (sinDegrees fu) y d).TrueSun = (SuriyaDayPositions.init fu' (sinDegrees fu') y d).TrueSun ∧
    (SuriyaDayPositions.init fu (sinDegrees fu) y d).MeanMoon = (SuriyaDayPositions.init fu' (sinDegrees fu') y d).MeanMoon := by
  have ht := tithi_range y hy
  have hk := kammacubala_range y hy
  have hE : EraYears = 800 := rfl
  have hms := c74_mean_sun fu fu' (sinDegrees fu) (sinDegrees fu') y d hy (by omega) (by omega)
  obtain ⟨M, m1, m2, m3⟩ := meanSun_grid fu ((d - (SuriyaYear.init y).Tithi) * EraYears + (SuriyaYear.init y).Kammacubala)
    (by rw [hE]; omega) (by rw [hE]; omega)
  have hts : (SuriyaDayPositions.init fu (sinDegrees fu) y d).TrueSun = (SuriyaDayPositions.init fu' (sinDegrees fu') y d).TrueSun := by
    show trueSun fu (sinDegrees fu) (meanSun fu _) = trueSun fu' (sinDegrees fu') (meanSun fu' _)
    have hms' : meanSun fu _ = meanSun fu' _ := hms
    rw [← hms', m3]
    exact trueSun_fused fu fu' M m1 m2
  refine ⟨hts, ?_⟩
  show meanMoon fu (SuriyaDayPositions.init fu (sinDegrees fu) y d).TrueSun _ _ =
    meanMoon fu' (SuriyaDayPositions.init fu' (sinDegrees fu') y d).TrueSun _ _
  rw [← hts]
  have hb : |(SuriyaDayPositions.init fu (sinDegrees fu) y d).TrueSun| ≤ 2000 := by
    rw [positions_cut fu y d hy (by omega) (by omega) (horakhun_of_new_year y d hy h)]
    have := true_sun_bound fu (cutSine fu) (cutSine_le fu) y d hy (by omega) (by omega)
    linarith
  obtain ⟨r1, r2, r3, r4⟩ := day_ranges y d hy h
  exact meanMoon_fused fu fu' _ hb _ _ r1 r2 r3 r4

/-- C74: lunar day 200 of 2015, computed without and with fusing. -/
example : (SuriyaDayPositions.init .none (sinDegrees .none) 2015 200).TrueSun = (SuriyaDayPositions.init .all (sinDegrees .all) 2015 200).TrueSun ∧
    (SuriyaDayPositions.init .none (sinDegrees .none) 2015 200).MeanMoon = (SuriyaDayPositions.init .all (sinDegrees .all) 2015 200).MeanMoon :=
  c74_sun_and_moon .none .all 2015 200 (by decide) (by decide) (by decide)

/-- C74: the values of that example, in degrees. -/
example : (SuriyaDayPositions.init .all (sinDegrees .all) 2015 200).TrueSun = (SuriyaDayPositions.init .none (sinDegrees .none) 2015 200).TrueSun ∧
    171 < (SuriyaDayPositions.init .all (sinDegrees .all) 2015 200).TrueSun := by decide +kernel

theorem raek_fused (fu fu' : Fusing) (t : ℚ) : raek fu t = raek fu' t := by
  unfold raek
  rw [c39_ral_to_degree _ _ _ (by norm_num) (by norm_num) fu.ral191, c39_ral_to_degree _ _ _ (by norm_num) (by norm_num) fu'.ral191]

/-- C74: the true moon may differ, but by one unit of the fourth decimal at most; if it does not differ, the raek does not. -/
theorem c74_true_moon (fu fu' : Fusing) (y d : Int) (hy : 638 ≤ y) (h : (SuriyaYear.init y).Tithi ≤ d) (hd : d ≤ 400) :
    (∃ k k' : ℤ, |k - k'| ≤ 1 ∧ (SuriyaDayPositions.init fu (sinDegrees fu) y d).TrueMoon = fl (k / 10000) ∧
      (SuriyaDayPositions.init fu' (sinDegrees fu') y d).TrueMoon = fl (k' / 10000)) ∧
    ((SuriyaDayPositions.init fu (sinDegrees fu) y d).TrueMoon = (SuriyaDayPositions.init fu' (sinDegrees fu') y d).TrueMoon →
      (SuriyaDayPositions.init fu (sinDegrees fu) y d).Raek = (SuriyaDayPositions.init fu' (sinDegrees fu') y d).Raek) := by
  have ht := tithi_range y hy
  have hh := horakhun_of_new_year y d hy h
  refine ⟨?_, fun e => ?_⟩
  · have b1 := c62_true_moon fu y d hy (by omega) (by omega) hh
    have b2 := c62_true_moon fu' y d hy (by omega) (by omega) hh
    have r1 := (c62_positions fu y d hy h (by omega)).2.2.2.1
    have r2 := (c62_positions fu' y d hy h (by omega)).2.2.2.1
    simp only at b1 b2
    rw [(c74_sun_and_moon fu fu' y d hy h hd).2] at b1
    obtain ⟨k, hk⟩ : ∃ k : ℤ, (SuriyaDayPositions.init fu (sinDegrees fu) y d).TrueMoon = fl (k / 10000) := ⟨_, rfl⟩
    obtain ⟨k', hk'⟩ : ∃ k : ℤ, (SuriyaDayPositions.init fu' (sinDegrees fu') y d).TrueMoon = fl (k / 10000) := ⟨_, rfl⟩
    refine ⟨k, k', ?_, hk, hk'⟩
    rw [hk] at b1 r1
    rw [hk'] at b2 r2
    have near : ∀ n : ℤ, -8 < fl ((n : ℚ) / 10000) ∧ fl ((n : ℚ) / 10000) < 365 → |fl ((n : ℚ) / 10000) - (n : ℚ) / 10000| ≤ 1 / 10 ^ 9 := by
      intro n ⟨n1, n2⟩
      have e := fl_err ((n : ℚ) / 10000)
      generalize (n : ℚ) / 10000 = q at *
      have l : |q| ≤ 400 := by
        have t := abs_add_le (fl q) (q - fl q)
        rw [add_sub_cancel, abs_sub_comm q] at t
        have : |fl q| ≤ 365 := by rw [abs_le]; constructor <;> linarith
        have := abs_nonneg q
        norm_num at e
        linarith
      refine e.trans ?_
      norm_num
      linarith
    have n1 := cast_abs_le (near k r1)
    have n2 := cast_abs_le (near k' r2)
    push_cast at n1 n2
    rw [abs_le] at n1 n2
    norm_num at n1 n2 b1 b2
    have g1 : ((k - k' : ℤ) : ℝ) < 2 := by push_cast; linarith
    have g2 : (-2 : ℝ) < ((k - k' : ℤ) : ℝ) := by push_cast; linarith
    have g1 : k - k' < 2 := by exact_mod_cast g1
    have g2 : -2 < k - k' := by exact_mod_cast g2
    rw [abs_le]
    omega
  · show raek fu (SuriyaDayPositions.init fu (sinDegrees fu) y d).TrueMoon = raek fu' (SuriyaDayPositions.init fu' (sinDegrees fu') y d).TrueMoon
    rw [e, raek_fused fu fu']

/-- C74: the moon of lunar day 200 of 2015 is the same to the last decimal, the raek too. -/
example : (SuriyaDayPositions.init .none (sinDegrees .none) 2015 200).Raek = (SuriyaDayPositions.init .all (sinDegrees .all) 2015 200).Raek :=
  (c74_true_moon .none .all 2015 200 (by decide) (by decide) (by decide)).2 (by decide +kernel)

/-- C74: on the days before the New Year the true sun differs by less than 61 arc seconds. -/
theorem c74_before (fu fu' : Fusing) (y d : Int) (hy : 638 ≤ y) (h0 : 0 ≤ d) (hd : d ≤ 1000) :
    |(SuriyaDayPositions.init fu (sinDegrees fu) y d).TrueSun - (SuriyaDayPositions.init fu' (sinDegrees fu') y d).TrueSun| < 61 / 3600 := by
  have b1 := c62_true_sun fu y d hy h0 hd
  have b2 := c62_true_sun fu' y d hy h0 hd
  simp only at b1 b2
  rw [c74_mean_sun fu fu' (sinDegrees fu) (sinDegrees fu') y d hy h0 (by omega)] at b1
  rw [abs_lt]
  norm_num at b1 b2
  have g1 : (((SuriyaDayPositions.init fu (sinDegrees fu) y d).TrueSun - (SuriyaDayPositions.init fu' (sinDegrees fu') y d).TrueSun : ℚ) : ℝ) <
      ((61 / 3600 : ℚ) : ℝ) := by
    push_cast
    linarith
  have g2 : ((-(61 / 3600) : ℚ) : ℝ) < (((SuriyaDayPositions.init fu (sinDegrees fu) y d).TrueSun -
      (SuriyaDayPositions.init fu' (sinDegrees fu') y d).TrueSun : ℚ) : ℝ) := by
    push_cast
    linarith
  exact ⟨by exact_mod_cast g2, by exact_mod_cast g1⟩

/-- C74: lunar day 1 of 1985, with the values of `c74_differs`. -/
example : |(SuriyaDayPositions.init .none (sinDegrees .none) 1985 1).TrueSun - (SuriyaDayPositions.init .all (sinDegrees .all) 1985 1).TrueSun| < 61 / 3600 :=
  c74_before .none .all 1985 1 (by decide) (by decide) (by decide)

/-- C74: and there it does differ: on lunar day 1 of 1985, 25 days before the New Year, the true sun is -52.1167 degrees without fusing
and -52.1168 with it, and the true moon -32.0698 or -32.0699. -/
theorem c74_differs :
    (SuriyaDayPositions.init .none (sinDegrees .none) 1985 1).TrueSun = fl (-521167 / 10000) ∧
    (SuriyaDayPositions.init .all (sinDegrees .all) 1985 1).TrueSun = fl (-521168 / 10000) ∧
    (SuriyaDayPositions.init .none (sinDegrees .none) 1985 1).TrueMoon = fl (-320698 / 10000) ∧
    (SuriyaDayPositions.init .all (sinDegrees .all) 1985 1).TrueMoon = fl (-320699 / 10000) ∧ (SuriyaYear.init 1985).Tithi = 26 := by
  decide +kernel

end Verif.Props
