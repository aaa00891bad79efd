import Verif.Spec.Float
import Verif.Lemmas.Num
import Mathlib.Tactic.Linarith
import Mathlib.Tactic.Positivity
import Mathlib.Tactic.Ring
import Mathlib.Tactic.FieldSimp
import Mathlib.Tactic.NormNum
/-
Helper lemmas on float64 values below 2^53 as dyadic fractions.
-/
set_option autoImplicit false

namespace Verif.Lemmas
open Verif.Go Verif.Spec

/-- A float64 value below 2^53 is a fraction with a 53-bit numerator and a power of two as denominator. -/
theorem IsFloat.dyadic {q : ℚ} (h : IsFloat q) (hb : |q| < 2 ^ 53) : ∃ (n : ℤ) (k : ℕ), |n| < 2 ^ 53 ∧ q = n / 2 ^ k := by
  obtain ⟨n, e, hn, rfl⟩ := h
  rcases Int.le_total e 0 with he | he
  · refine ⟨n, (-e).toNat, hn, ?_⟩
    obtain ⟨k, hk⟩ : ∃ k : ℕ, e = -(k : ℤ) := ⟨(-e).toNat, by omega⟩
    subst hk
    rw [zpow_neg, zpow_natCast]
    simp [div_eq_mul_inv]
  · obtain ⟨k, rfl⟩ : ∃ k : ℕ, e = (k : ℤ) := ⟨e.toNat, by omega⟩
    refine ⟨n * 2 ^ k, 0, ?_, ?_⟩
    · rw [zpow_natCast] at hb
      have : ((|n * 2 ^ k| : ℤ) : ℚ) < ((2 ^ 53 : ℤ) : ℚ) := by push_cast; exact hb
      exact_mod_cast this
    · simp

theorem fl_dyadic (n : ℤ) (k : ℕ) (hn : |n| ≤ 2 ^ 53) : fl ((n : ℚ) / 2 ^ k) = n / 2 ^ k := by
  have := fl_rep n (-(k : ℤ)) hn
  rw [zpow_neg, zpow_natCast] at this
  rw [div_eq_mul_inv]; exact this

theorem IsFloat.fl_eq {q : ℚ} (h : IsFloat q) : fl q = q := by
  obtain ⟨n, e, hn, rfl⟩ := h
  exact fl_rep n e hn.le

/-- The distance of a float64 value below 2^53 from an integer it does not reach is more than its relative rounding
error. -/
theorem gap {q : ℚ} (h : IsFloat q) (hb : |q| < 2 ^ 53) {m : ℤ} (hm : q < m) : |q| / 2 ^ 53 < m - q := by
  obtain ⟨n, k, hn, rfl⟩ := IsFloat.dyadic h hb
  have hp : (0 : ℚ) < 2 ^ k := by positivity
  have h1 : (n : ℚ) < m * 2 ^ k := by rwa [div_lt_iff₀ hp] at hm
  have h2 : n < m * 2 ^ k := by exact_mod_cast h1
  have h3 : (1 : ℚ) ≤ m * 2 ^ k - n := by
    have : (1 : ℤ) ≤ m * 2 ^ k - n := by omega
    exact_mod_cast this
  have h4 : ((|n| : ℤ) : ℚ) < 2 ^ 53 := by exact_mod_cast hn
  have e1 : (m : ℚ) - n / 2 ^ k = (m * 2 ^ k - n) / 2 ^ k := by field_simp
  rw [e1, abs_div, abs_of_pos hp, div_div, div_lt_div_iff₀ (by positivity) hp]
  have h5 : |(n : ℚ)| < 2 ^ 53 := by rw [← Int.cast_abs]; exact h4
  nlinarith [mul_le_mul_of_nonneg_right h3 (show (0:ℚ) ≤ 2 ^ 53 * 2 ^ k by positivity)]

/-- Dividing a float64 value by a positive integer never rounds up to an integer. -/
theorem floor_fl_quot {q : ℚ} (h : IsFloat q) (hb : |q| < 2 ^ 53) {d : ℤ} (hd : 0 < d) : ⌊fl (q / d)⌋ = ⌊q / d⌋ := by
  have hd' : (0 : ℚ) < d := by exact_mod_cast hd
  have hd1 : (1 : ℚ) ≤ d := by exact_mod_cast hd
  rw [Int.floor_eq_iff]
  have f1 := Int.floor_le (q / d)
  have f2 := Int.lt_floor_add_one (q / d)
  generalize hf : ⌊q / d⌋ = f at *
  have hqd : |q / d| ≤ |q| := by
    rw [abs_div, abs_of_pos hd']
    exact div_le_self (abs_nonneg _) hd1
  have hfb : |f| ≤ 2 ^ 53 := by
    have hb' := abs_lt.1 (lt_of_le_of_lt hqd hb)
    rw [abs_le]
    constructor
    · have : (-(2 ^ 53) : ℚ) < f + 1 := by linarith
      have : (-(2 ^ 53) : ℤ) < f + 1 := by exact_mod_cast this
      omega
    · have : (f : ℚ) < 2 ^ 53 := by linarith
      have : f < 2 ^ 53 := by exact_mod_cast this
      omega
  refine ⟨le_fl_of_int hfb f1, ?_⟩
  have he := abs_le.1 (fl_err (q / d))
  have hm : q < ((f + 1) * d : ℤ) := by
    push_cast
    rwa [div_lt_iff₀ hd'] at f2
  have hg := gap h hb hm
  have e : |q / d| / 2 ^ 53 = |q| / 2 ^ 53 / d := by rw [abs_div, abs_of_pos hd']; ring
  have : |q| / 2 ^ 53 / d < (f + 1) - q / d := by
    rw [div_lt_iff₀ hd', sub_mul, div_mul_cancel₀ _ hd'.ne']
    push_cast at hg; exact hg
  linarith [he.2]

/-- Subtracting an integer is exact if it does not increase the magnitude. -/
theorem fl_sub_int {q : ℚ} (h : IsFloat q) (hb : |q| < 2 ^ 53) {m : ℤ} (hm : |q - m| ≤ |q|) :
    fl (q - m) = q - m ∧ IsFloat (q - m) := by
  obtain ⟨n, k, hn, rfl⟩ := IsFloat.dyadic h hb
  have hp : (0 : ℚ) < 2 ^ k := by positivity
  have e : (n : ℚ) / 2 ^ k - m = ((n - m * 2 ^ k : ℤ) : ℚ) / 2 ^ k := by push_cast; field_simp
  have h3 : |n - m * 2 ^ k| < 2 ^ 53 := by
    rw [e, abs_div, abs_of_pos hp, abs_div, abs_of_pos hp] at hm
    have h := (div_le_div_iff_of_pos_right hp).1 hm
    rw [← Int.cast_abs, ← Int.cast_abs] at h
    have h : |n - m * 2 ^ k| ≤ |n| := by exact_mod_cast h
    omega
  rw [e]
  refine ⟨fl_dyadic _ _ h3.le, n - m * 2 ^ k, -(k : ℤ), h3, ?_⟩
  rw [zpow_neg, zpow_natCast, div_eq_mul_inv]

theorem isFloat_int {n : ℤ} (h : |n| < 2 ^ 53) : IsFloat n := ⟨n, 0, h, by simp⟩

theorem isFloat_fl (q : ℚ) : IsFloat (fl q) := by
  by_cases h : q = 0
  · subst h; rw [fl_zero]; exact ⟨0, 0, by norm_num, by simp⟩
  · have hb := log_bounds h
    have hp := two_zpow_pos (ulpExp q)
    have hu := ulp_eq q
    have hr : |roundEven (q / 2 ^ ulpExp q)| ≤ 2 ^ 53 := by
      have hq : |q / 2 ^ ulpExp q| ≤ ((2 ^ 53 : ℤ) : ℚ) := by
        rw [abs_div, abs_of_pos hp, div_le_iff₀ hp]
        have h2 := hb.2
        rw [zpow_add_one₀ (by norm_num), hu] at h2
        push_cast
        linarith
      rw [abs_le] at hq ⊢
      constructor
      · apply le_roundEven; push_cast at hq ⊢; exact hq.1
      · apply roundEven_le; exact hq.2
    have e : fl q = roundEven (q / 2 ^ ulpExp q) * 2 ^ ulpExp q := by unfold fl; rw [if_neg h]
    generalize roundEven (q / 2 ^ ulpExp q) = n at *
    rcases lt_or_eq_of_le hr with hr | hr
    · exact ⟨n, ulpExp q, hr, e⟩
    · have hn : n = 2 * (n / 2) := by
        rcases abs_choice n with h' | h' <;> rw [h'] at hr <;> omega
      refine ⟨n / 2, ulpExp q + 1, ?_, ?_⟩
      · rw [abs_lt]
        rcases abs_choice n with h' | h' <;> rw [h'] at hr <;> omega
      · rw [e, zpow_add_one₀ (by norm_num)]
        conv => lhs; rw [hn]
        push_cast; ring

theorem mulAdd_split (f : Bool) (x y z : ℚ) : ∃ r, (r = fl (x * y) ∨ r = x * y) ∧ mulAdd f x y z = fl (r + z) := by
  cases f
  · exact ⟨_, .inl rfl, rfl⟩
  · exact ⟨_, .inr rfl, rfl⟩

theorem mulSub_split (f : Bool) (x y z : ℚ) : ∃ r, (r = fl (y * z) ∨ r = y * z) ∧ mulSub f x y z = fl (x - r) := by
  cases f
  · exact ⟨_, .inl rfl, rfl⟩
  · exact ⟨_, .inr rfl, rfl⟩

theorem fl_or_err {r q : ℚ} (h : r = fl q ∨ r = q) : |r - q| ≤ |q| / 2 ^ 53 := by
  rcases h with rfl | rfl
  · exact fl_err q
  · rw [sub_self, abs_zero]
    positivity

theorem fl_or_within {r q B : ℚ} (h : r = fl q ∨ r = q) (hB : |q| ≤ B) : |r - q| ≤ B / 2 ^ 53 := by
  have : |q| / 2 ^ 53 ≤ B / 2 ^ 53 := by apply div_le_div_of_nonneg_right hB; positivity
  exact (fl_or_err h).trans this

theorem mulAdd_neg (f : Bool) (x y z : ℚ) : mulAdd f (-x) y (-z) = -mulAdd f x y z := by
  cases f
  · simp only [mulAdd, Bool.false_eq_true, if_false]
    rw [neg_mul, fl_neg, ← neg_add, fl_neg]
  · simp only [mulAdd, if_true]
    rw [neg_mul, ← neg_add, fl_neg]

theorem mulSub_mono (f : Bool) {x x' : ℚ} (h : x ≤ x') (y z : ℚ) : mulSub f x y z ≤ mulSub f x' y z := by
  obtain ⟨⟩ | ⟨⟩ := f
  · exact fl_mono (sub_le_sub_right h _)
  · exact fl_mono (sub_le_sub_right h _)

theorem mulAdd_exact (f : Bool) {x y : ℚ} (h : fl (x * y) = x * y) (z : ℚ) : mulAdd f x y z = fl (x * y + z) := by
  obtain ⟨r, hr, e⟩ := mulAdd_split f x y z
  rw [e]
  rcases hr with rfl | rfl
  · rw [h]
  · rfl

theorem mulSub_exact (f : Bool) {y z : ℚ} (h : fl (y * z) = y * z) (x : ℚ) : mulSub f x y z = fl (x - y * z) := by
  obtain ⟨r, hr, e⟩ := mulSub_split f x y z
  rw [e]
  rcases hr with rfl | rfl
  · rw [h]
  · rfl

end Verif.Lemmas
