import Verif.Go.Num
import Mathlib.Tactic.Linarith
import Mathlib.Tactic.Ring
import Mathlib.Tactic.FieldSimp
import Mathlib.Tactic.Positivity
import Mathlib.Tactic.NormNum
/-
Helper lemmas on 64-bit wrap-around and float64 rounding.
-/
set_option autoImplicit false

namespace Verif.Lemmas
open Verif.Go

theorem wrap64_id {n : Int} (h1 : -9223372036854775808 ≤ n) (h2 : n < 9223372036854775808) : wrap64 n = n := by
  unfold wrap64; omega

theorem wrap64_range (n : Int) : -9223372036854775808 ≤ wrap64 n ∧ wrap64 n < 9223372036854775808 := by
  unfold wrap64; omega

theorem half_ge (s : IntSize) : 2147483648 ≤ s.half := by cases s <;> decide

theorem wrapInt_id {s : IntSize} {n : Int} (h : (n.natAbs : Int) < s.half) : wrapInt s n = n := by
  unfold wrapInt; rw [Int.emod_eq_of_lt (by omega) (by omega)]; omega

theorem roundEven_int (n : ℤ) : roundEven (n : ℚ) = n := by
  unfold roundEven; simp

theorem roundEven_err (x : ℚ) : |(roundEven x : ℚ) - x| ≤ 1 / 2 := by
  have h1 := Int.floor_le x
  have h2 := Int.lt_floor_add_one x
  unfold roundEven
  rw [abs_le]
  simp only
  split
  · constructor <;> linarith
  · split
    · push_cast; constructor <;> linarith
    · split
      · constructor <;> linarith
      · push_cast; constructor <;> linarith

theorem le_roundEven {m : ℤ} {x : ℚ} (h : (m : ℚ) ≤ x) : m ≤ roundEven x := by
  have : m ≤ ⌊x⌋ := Int.le_floor.2 h
  unfold roundEven
  simp only
  split
  · exact this
  · split
    · omega
    · split <;> omega

theorem roundEven_le {m : ℤ} {x : ℚ} (h : x ≤ (m : ℚ)) : roundEven x ≤ m := by
  have h1 := roundEven_err x
  rw [abs_le] at h1
  have h2 := Int.floor_le x
  have h3 := Int.lt_floor_add_one x
  have hf : ⌊x⌋ ≤ m := by
    have : ((⌊x⌋ : ℤ) : ℚ) ≤ m := le_trans h2 h
    exact_mod_cast this
  rcases eq_or_lt_of_le hf with e | e
  · have hx : x = (m : ℚ) := le_antisymm h (by rw [← e]; exact h2)
    rw [hx, roundEven_int]
  · unfold roundEven
    simp only
    split
    · exact hf
    · split
      · omega
      · split <;> omega

theorem roundEven_mono {x y : ℚ} (h : x ≤ y) : roundEven x ≤ roundEven y := by
  have hx := Int.floor_le x
  have hx' := Int.lt_floor_add_one x
  have hy := Int.floor_le y
  have hy' := Int.lt_floor_add_one y
  have hfl : ⌊x⌋ ≤ ⌊y⌋ := Int.floor_le_floor h
  rcases eq_or_lt_of_le hfl with e | e
  · unfold roundEven
    simp only
    rw [← e]
    rw [← e] at hy hy'
    split <;> split <;> try omega
    all_goals (try split) <;> (try split) <;> try omega
    all_goals (exfalso; linarith)
  · have h1 : roundEven x ≤ ⌊x⌋ + 1 := roundEven_le (by push_cast; linarith)
    have h2 : ⌊y⌋ ≤ roundEven y := le_roundEven hy
    omega

theorem two_zpow_pos (e : ℤ) : (0 : ℚ) < 2 ^ e := zpow_pos (by norm_num) e

/-- `2^log ≤ |q| < 2^(log+1)`. -/
theorem log_bounds {q : ℚ} (h : q ≠ 0) :
    (2 : ℚ) ^ (Int.log 2 |q|) ≤ |q| ∧ |q| < (2 : ℚ) ^ (Int.log 2 |q| + 1) := by
  have hp : 0 < |q| := abs_pos.2 h
  have h1 := Int.zpow_log_le_self (b := 2) (by norm_num) hp
  have h2 := Int.lt_zpow_succ_log_self (b := 2) (by norm_num) |q|
  push_cast at h1 h2
  exact ⟨h1, h2⟩

theorem fl_zero : fl 0 = 0 := by simp [fl]

theorem fl_err (q : ℚ) : |fl q - q| ≤ |q| / 2 ^ 53 := by
  by_cases h : q = 0
  · subst h; simp [fl]
  · have hb := log_bounds h
    have hp := two_zpow_pos (ulpExp q)
    have he := roundEven_err (q / 2 ^ ulpExp q)
    have e1 : fl q - q = (roundEven (q / 2 ^ ulpExp q) - q / 2 ^ ulpExp q) * 2 ^ ulpExp q := by
      unfold fl; rw [if_neg h]; field_simp
    rw [e1, abs_mul, abs_of_pos hp]
    have e2 : (2 : ℚ) ^ ulpExp q = 2 ^ (Int.log 2 |q|) / 2 ^ 52 := by
      unfold ulpExp; rw [zpow_sub₀ (by norm_num)]; norm_num
    calc _ ≤ 1 / 2 * (2 : ℚ) ^ ulpExp q := by nlinarith
      _ = 2 ^ (Int.log 2 |q|) / 2 ^ 53 := by rw [e2]; ring
      _ ≤ |q| / 2 ^ 53 := by
        apply div_le_div_of_nonneg_right hb.1; positivity


theorem ulp_eq (q : ℚ) : (2 : ℚ) ^ (Int.log 2 |q|) = 2 ^ 52 * 2 ^ ulpExp q := by
  unfold ulpExp
  rw [zpow_sub₀ (by norm_num)]
  have : (2 : ℚ) ^ (52 : ℤ) = 2 ^ 52 := by norm_num
  rw [this, mul_div_cancel₀ _ (by norm_num)]

theorem roundEven_neg (x : ℚ) : roundEven (-x) = -roundEven x := by
  have h1 := Int.floor_le x
  have h2 := Int.lt_floor_add_one x
  rcases eq_or_lt_of_le h1 with e | e
  · rw [← e]
    have : (-((⌊x⌋ : ℤ) : ℚ)) = ((-⌊x⌋ : ℤ) : ℚ) := by push_cast; rfl
    rw [this, roundEven_int, roundEven_int]
  · have hf : ⌊-x⌋ = -⌊x⌋ - 1 := by
      rw [Int.floor_eq_iff]; push_cast; constructor <;> linarith
    unfold roundEven
    simp only [hf]
    push_cast
    split <;> split <;> try (exfalso; linarith)
    all_goals (try split) <;> (try split) <;> (try split) <;> first | omega | (exfalso; linarith)

theorem fl_neg (q : ℚ) : fl (-q) = -fl q := by
  unfold fl
  by_cases h : q = 0
  · simp [h]
  · have h' : -q ≠ 0 := neg_ne_zero.2 h
    have e : ulpExp (-q) = ulpExp q := by unfold ulpExp; rw [abs_neg]
    rw [if_neg h, if_neg h', e, neg_div, roundEven_neg]
    push_cast; ring

/-- A positive value stays within its binade (closed above). -/
theorem fl_binade {q : ℚ} (h : 0 < q) :
    (2 : ℚ) ^ (Int.log 2 |q|) ≤ fl q ∧ fl q ≤ 2 ^ (Int.log 2 |q| + 1) := by
  have hb := log_bounds h.ne'
  have hp := two_zpow_pos (ulpExp q)
  rw [abs_of_pos h] at hb
  have e1 := ulp_eq q
  rw [abs_of_pos h] at e1 ⊢
  have e2 : (2 : ℚ) ^ (Int.log 2 q + 1) = 2 ^ 53 * 2 ^ ulpExp q := by
    rw [zpow_add₀ (by norm_num), e1]; ring
  unfold fl
  rw [if_neg h.ne']
  constructor
  · rw [e1]
    have : ((2 ^ 52 : ℤ) : ℚ) ≤ q / 2 ^ ulpExp q := by
      rw [le_div_iff₀ hp]; push_cast; norm_num at e1; rw [← e1]; exact hb.1
    have h3 : ((2 ^ 52 : ℤ) : ℚ) ≤ (roundEven (q / 2 ^ ulpExp q) : ℚ) := by exact_mod_cast le_roundEven this
    push_cast at h3
    exact mul_le_mul_of_nonneg_right h3 hp.le
  · rw [e2]
    have : q / 2 ^ ulpExp q ≤ ((2 ^ 53 : ℤ) : ℚ) := by
      rw [div_le_iff₀ hp]; push_cast; norm_num at e2; rw [← e2]; exact hb.2.le
    have h3 : (roundEven (q / 2 ^ ulpExp q) : ℚ) ≤ ((2 ^ 53 : ℤ) : ℚ) := by exact_mod_cast roundEven_le this
    push_cast at h3
    exact mul_le_mul_of_nonneg_right h3 hp.le

theorem fl_pos {q : ℚ} (h : 0 < q) : 0 < fl q := lt_of_lt_of_le (two_zpow_pos _) (fl_binade h).1

theorem fl_mono_pos {p q : ℚ} (hp : 0 < p) (h : p ≤ q) : fl p ≤ fl q := by
  have hq : 0 < q := lt_of_lt_of_le hp h
  have hlog : Int.log 2 |p| ≤ Int.log 2 |q| := by
    rw [abs_of_pos hp, abs_of_pos hq]; exact Int.log_mono_right hp h
  rcases eq_or_lt_of_le hlog with e | e
  · have eu : ulpExp p = ulpExp q := by unfold ulpExp; rw [e]
    unfold fl
    rw [if_neg hp.ne', if_neg hq.ne', eu]
    have hpos := two_zpow_pos (ulpExp q)
    have : roundEven (p / 2 ^ ulpExp q) ≤ roundEven (q / 2 ^ ulpExp q) :=
      roundEven_mono (div_le_div_of_nonneg_right h hpos.le)
    have : (roundEven (p / 2 ^ ulpExp q) : ℚ) ≤ (roundEven (q / 2 ^ ulpExp q) : ℚ) := by exact_mod_cast this
    exact mul_le_mul_of_nonneg_right this hpos.le
  · calc fl p ≤ 2 ^ (Int.log 2 |p| + 1) := (fl_binade hp).2
      _ ≤ 2 ^ (Int.log 2 |q|) := zpow_le_zpow_right₀ (by norm_num) (by omega)
      _ ≤ fl q := (fl_binade hq).1

/-- Rounding is monotone. -/
theorem fl_mono {p q : ℚ} (h : p ≤ q) : fl p ≤ fl q := by
  rcases lt_trichotomy p 0 with hp | hp | hp
  · rcases lt_trichotomy q 0 with hq | hq | hq
    · have := fl_mono_pos (p := -q) (q := -p) (by linarith) (by linarith)
      rw [fl_neg, fl_neg] at this; linarith
    · subst hq
      have := fl_pos (q := -p) (by linarith)
      rw [fl_neg] at this; rw [fl_zero]; linarith
    · have h1 := fl_pos (q := -p) (by linarith)
      rw [fl_neg] at h1
      have := fl_pos hq; linarith
  · subst hp
    rcases eq_or_lt_of_le h with e | e
    · rw [← e]
    · have := fl_pos e; rw [fl_zero]; linarith
  · exact fl_mono_pos hp h

theorem fl_rep (n e : ℤ) (hn : |n| ≤ 2 ^ 53) : fl ((n : ℚ) * 2 ^ e) = n * 2 ^ e := by
  by_cases h0 : (n : ℚ) * 2 ^ e = 0
  · rw [h0, fl_zero]
  · have hb := log_bounds h0
    have hpe := two_zpow_pos e
    have hpu := two_zpow_pos (ulpExp ((n : ℚ) * 2 ^ e))
    have hq := ulp_eq ((n : ℚ) * 2 ^ e)
    have habs : |(n : ℚ) * 2 ^ e| = |(n : ℚ)| * 2 ^ e := by rw [abs_mul, abs_of_pos hpe]
    have hn' : |(n : ℚ)| ≤ 2 ^ 53 := by exact_mod_cast hn
    unfold fl
    rw [if_neg h0]
    generalize hu : ulpExp ((n : ℚ) * 2 ^ e) = u at *
    suffices h : ∃ k : ℤ, (n : ℚ) * 2 ^ e / 2 ^ u = k by
      obtain ⟨k, hk⟩ := h
      rw [hk, roundEven_int, ← hk]; field_simp
    rcases le_or_gt u e with hue | hue
    · obtain ⟨m, hm⟩ : ∃ m : ℕ, e = u + m := ⟨(e - u).toNat, by omega⟩
      refine ⟨n * 2 ^ m, ?_⟩
      rw [hm, zpow_add₀ (by norm_num), zpow_natCast]; push_cast; field_simp
    · have h1 : (2 : ℚ) ^ (Int.log 2 |(n : ℚ) * 2 ^ e|) ≤ 2 ^ (53 + e) := by
        refine le_trans hb.1 ?_
        rw [habs, zpow_add₀ (by norm_num)]
        have : (2 : ℚ) ^ (53 : ℤ) = 2 ^ 53 := by norm_num
        rw [this]
        exact mul_le_mul_of_nonneg_right hn' hpe.le
      have h2 : Int.log 2 |(n : ℚ) * 2 ^ e| ≤ 53 + e := (zpow_le_zpow_iff_right₀ (by norm_num)).1 h1
      have h3 : u = e + 1 := by unfold ulpExp at hu; omega
      have h4 : Int.log 2 |(n : ℚ) * 2 ^ e| = 53 + e := by unfold ulpExp at hu; omega
      rw [h4, habs, zpow_add₀ (by norm_num)] at hb
      have h5 : (2 : ℚ) ^ 53 ≤ |(n : ℚ)| := by
        have : (2 : ℚ) ^ (53 : ℤ) = 2 ^ 53 := by norm_num
        rw [this] at hb
        exact le_of_mul_le_mul_right hb.1 hpe
      have h6 : |n| = 2 ^ 53 := by
        have : (2 : ℤ) ^ 53 ≤ |n| := by exact_mod_cast h5
        omega
      have e3 : (2 : ℚ) ^ u = 2 ^ e * 2 := by rw [h3, zpow_add₀ (by norm_num)]; norm_num
      rcases abs_choice n with hc | hc
      · refine ⟨2 ^ 52, ?_⟩
        have : n = 2 ^ 53 := by omega
        rw [e3, this]; push_cast; field_simp; norm_num
      · refine ⟨-2 ^ 52, ?_⟩
        have : n = -2 ^ 53 := by omega
        rw [e3, this]; push_cast; field_simp; norm_num

/-- Integers up to 2^53 are float64 values. -/
theorem fl_int (n : ℤ) (hn : |n| ≤ 2 ^ 53) : fl (n : ℚ) = n := by
  have := fl_rep n 0 hn
  simpa using this

theorem le_fl_of_int {k : ℤ} {q : ℚ} (hk : |k| ≤ 2 ^ 53) (h : (k : ℚ) ≤ q) : (k : ℚ) ≤ fl q := by
  rw [← fl_int k hk]; exact fl_mono h

theorem fl_le_of_int {k : ℤ} {q : ℚ} (hk : |k| ≤ 2 ^ 53) (h : q ≤ (k : ℚ)) : fl q ≤ (k : ℚ) := by
  rw [← fl_int k hk]; exact fl_mono h

/-- A float division of integers never rounds up across an integer, as long as the quotient is small
compared to 2^53 / denominator. -/
theorem floor_fl_div {a d : ℤ} (hd : 0 < d) (ha : |a| < 2 ^ 52) : ⌊fl ((a : ℚ) / d)⌋ = a / d := by
  have hd' : (0 : ℚ) < d := by exact_mod_cast hd
  have h1 : a = d * (a / d) + a % d := (Int.mul_ediv_add_emod a d).symm
  have h2 := Int.emod_nonneg a hd.ne'
  have h3 := Int.emod_lt_of_pos a hd
  generalize a / d = k at *
  generalize a % d = r at *
  have hlo : (k : ℚ) ≤ (a : ℚ) / d := by
    rw [le_div_iff₀ hd']
    have : k * d ≤ a := by rw [h1, Int.mul_comm]; omega
    exact_mod_cast this
  have hhi : (a : ℚ) / d + 1 / d ≤ k + 1 := by
    rw [← add_div, div_le_iff₀ hd']
    have : a + 1 ≤ (k + 1) * d := by rw [h1, Int.add_mul, Int.mul_comm k d]; omega
    exact_mod_cast this
  have hk : |k| ≤ 2 ^ 53 := by
    have ha' := abs_lt.1 ha
    rw [abs_le]
    constructor <;> nlinarith
  have herr := fl_err ((a : ℚ) / d)
  have habs : |(a : ℚ) / d| / 2 ^ 53 < 1 / d := by
    rw [abs_div, abs_of_pos hd', div_div, div_lt_div_iff₀ (by positivity) hd']
    have : |(a : ℚ)| < 2 ^ 52 := by exact_mod_cast ha
    nlinarith
  rw [Int.floor_eq_iff]
  refine ⟨le_fl_of_int hk hlo, ?_⟩
  have := (abs_le.1 herr).2
  linarith

end Verif.Lemmas
