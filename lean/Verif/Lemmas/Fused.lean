import Verif.Lemmas.Float
/-
Rounding once or twice: the sum of a product near a whole number and a whole number.
-/
set_option autoImplicit false

namespace Verif.Lemmas
open Verif.Go Verif.Spec

/-- Rounding of a number between two powers of two. -/
theorem fl_of_binade {q : ℚ} {j : ℕ} (hj : j ≤ 52) (h1 : (2 : ℚ) ^ j ≤ q) (h2 : q < 2 ^ (j + 1)) :
    fl q = roundEven (q * 2 ^ (52 - j)) / 2 ^ (52 - j) := by
  have hp : 0 < q := lt_of_lt_of_le (by positivity) h1
  have hb := log_bounds hp.ne'
  rw [abs_of_pos hp] at hb
  have e : Int.log 2 |q| = j := by
    rw [abs_of_pos hp]
    have a1 : (2 : ℚ) ^ (j : ℤ) < 2 ^ (Int.log 2 q + 1) := by
      rw [zpow_natCast]
      exact lt_of_le_of_lt h1 hb.2
    have a2 : (2 : ℚ) ^ (Int.log 2 q) < 2 ^ ((j : ℤ) + 1) := by
      have : ((2 : ℚ) ^ ((j : ℤ) + 1)) = 2 ^ (j + 1) := by exact_mod_cast rfl
      rw [this]
      exact lt_of_le_of_lt hb.1 h2
    have b1 := (zpow_lt_zpow_iff_right₀ (by norm_num : (1 : ℚ) < 2)).1 a1
    have b2 := (zpow_lt_zpow_iff_right₀ (by norm_num : (1 : ℚ) < 2)).1 a2
    omega
  have u : ulpExp q = -((52 - j : ℕ) : ℤ) := by
    unfold ulpExp
    rw [e]
    omega
  unfold fl
  rw [if_neg hp.ne', u, zpow_neg, zpow_natCast]
  simp [div_eq_mul_inv]

theorem even_le_roundEven {k : ℤ} {x : ℚ} (h : ((2 * k : ℤ) : ℚ) - 1 / 2 ≤ x) : 2 * k ≤ roundEven x := by
  have f1 := Int.floor_le x
  have f2 := Int.lt_floor_add_one x
  push_cast at h
  have hf : 2 * k - 1 ≤ ⌊x⌋ := by
    rw [Int.le_floor]
    push_cast
    linarith
  by_cases c : 2 * k ≤ ⌊x⌋
  · exact le_roundEven (by have : ((2 * k : ℤ) : ℚ) ≤ (⌊x⌋ : ℚ) := by exact_mod_cast c
                           linarith)
  · have e : ⌊x⌋ = 2 * k - 1 := by omega
    have e' : (⌊x⌋ : ℚ) = 2 * k - 1 := by rw [e]; push_cast; ring
    unfold roundEven
    simp only
    rw [if_neg (by rw [e']; linarith)]
    split
    · omega
    · rw [if_neg (by omega)]
      omega

theorem roundEven_lt {k : ℤ} {x : ℚ} (h : x < (k : ℚ) - 1 / 2) : roundEven x ≤ k - 1 := by
  have := abs_le.1 (roundEven_err x)
  have h1 : (roundEven x : ℚ) < k := by linarith [this.2]
  have : roundEven x < k := by exact_mod_cast h1
  omega

section
variable {S : ℤ} {j : ℕ} {y : ℚ} (hj : j ≤ 40) (hS1 : (2 : ℤ) ^ j < S) (hS2 : S ≤ 2 ^ (j + 1))
include hj hS1 hS2

theorem bound_of_le : |S| ≤ 2 ^ 53 := by
  have : (2 : ℤ) ^ (j + 1) ≤ 2 ^ 53 := pow_le_pow_right₀ (by norm_num) (by omega)
  have : (0 : ℤ) < 2 ^ j := by positivity
  rw [abs_le]
  omega

/-- Up to half a unit below a whole number, rounding reaches it. -/
theorem le_fl_of_near (h : (S : ℚ) - 1 / 2 / 2 ^ (52 - j) ≤ y) : (S : ℚ) ≤ fl y := by
  by_cases c : (S : ℚ) ≤ y
  · exact le_fl_of_int (bound_of_le hj hS1 hS2) c
  have c := not_le.1 c
  have hD : (0 : ℚ) < 2 ^ (52 - j) := by positivity
  have h1 : (2 : ℚ) ^ j ≤ y := by
    have : (2 : ℤ) ^ j + 1 ≤ S := by omega
    have : (2 : ℚ) ^ j + 1 ≤ S := by exact_mod_cast this
    have : (1 : ℚ) / 2 / 2 ^ (52 - j) ≤ 1 := by
      rw [div_le_one hD]
      have : (1 : ℚ) ≤ 2 ^ (52 - j) := one_le_pow₀ (by norm_num)
      linarith
    linarith
  have h2 : y < (2 : ℚ) ^ (j + 1) := by
    have : (S : ℚ) ≤ 2 ^ (j + 1) := by exact_mod_cast hS2
    linarith
  rw [fl_of_binade (by omega) h1 h2, le_div_iff₀ hD]
  obtain ⟨d, hd⟩ : ∃ d, 52 - j = d + 1 := ⟨51 - j, by omega⟩
  have hk := even_le_roundEven (k := S * 2 ^ d) (x := y * 2 ^ (52 - j)) (by
    have : (S : ℚ) * 2 ^ (52 - j) - 1 / 2 ≤ y * 2 ^ (52 - j) := by
      have := mul_le_mul_of_nonneg_right h hD.le
      rw [sub_mul, div_mul_cancel₀ _ hD.ne'] at this
      exact this
    rw [hd, pow_succ] at this ⊢
    push_cast
    linarith)
  have : ((2 * (S * 2 ^ d) : ℤ) : ℚ) ≤ (roundEven (y * 2 ^ (52 - j)) : ℚ) := by exact_mod_cast hk
  rw [hd, pow_succ] at this ⊢
  push_cast at this
  linarith

omit hS1 in
/-- Farther below it does not, and stays at least a unit below. -/
theorem fl_le_of_far (h1 : (2 : ℚ) ^ j ≤ y) (h : y < (S : ℚ) - 1 / 2 / 2 ^ (52 - j)) : fl y ≤ (S : ℚ) - 1 / 2 ^ (52 - j) := by
  have hD : (0 : ℚ) < 2 ^ (52 - j) := by positivity
  have h2 : y < (2 : ℚ) ^ (j + 1) := by
    have : (S : ℚ) ≤ 2 ^ (j + 1) := by exact_mod_cast hS2
    have : (0 : ℚ) < 1 / 2 / 2 ^ (52 - j) := by positivity
    linarith
  rw [fl_of_binade (by omega) h1 h2, div_le_iff₀ hD, sub_mul, div_mul_cancel₀ _ hD.ne']
  have hk := roundEven_lt (k := S * 2 ^ (52 - j)) (x := y * 2 ^ (52 - j)) (by
    have := mul_lt_mul_of_pos_right h hD
    rw [sub_mul, div_mul_cancel₀ _ hD.ne'] at this
    push_cast
    exact this)
  have : (roundEven (y * 2 ^ (52 - j)) : ℚ) ≤ ((S * 2 ^ (52 - j) - 1 : ℤ) : ℚ) := by exact_mod_cast hk
  push_cast at this
  exact this

end

/-- `v` a little below the whole number `T`: adding the whole number `c` reaches `T + c` with one rounding if and only if it does with
two. -/
theorem twice_iff {v : ℚ} {T c : ℤ} {i j : ℕ} (hij : i ≤ j) (hj : j ≤ 40) (hT1 : (2 : ℤ) ^ i < T) (hT2 : T ≤ 2 ^ (i + 1))
    (hS1 : (2 : ℤ) ^ j < T + c) (hS2 : T + c ≤ 2 ^ (j + 1)) (hv : v < T) (hv' : (T : ℚ) - 5 / 8 / 2 ^ (52 - i) ≤ v) :
    ((T + c : ℤ) : ℚ) ≤ fl (fl v + c) ↔ ((T + c : ℤ) : ℚ) ≤ fl (v + c) := by
  have hD : (0 : ℚ) < 2 ^ (52 - j) := by positivity
  have hDi : (0 : ℚ) < 2 ^ (52 - i) := by positivity
  have hle : (1 : ℚ) / 2 ^ (52 - i) ≤ 1 := by
    rw [div_le_one hDi]
    exact one_le_pow₀ (by norm_num)
  have h58 : (5 : ℚ) / 8 / 2 ^ (52 - i) = 5 / 8 * (1 / 2 ^ (52 - i)) := by ring
  have hT : (2 : ℚ) ^ i + 1 ≤ T := by
    have : (2 : ℤ) ^ i + 1 ≤ T := by omega
    exact_mod_cast this
  have hS : (2 : ℚ) ^ j + 1 ≤ T + c := by
    have : (2 : ℤ) ^ j + 1 ≤ T + c := by omega
    exact_mod_cast this
  have hv1 : (2 : ℚ) ^ i ≤ v := by
    rw [h58] at hv'
    linarith
  rcases eq_or_lt_of_le hij with rfl | hlt
  · by_cases near : (T : ℚ) - 1 / 2 / 2 ^ (52 - i) ≤ v
    · have r1 := le_fl_of_near hj hT1 hT2 near
      have r2 : ((T + c : ℤ) : ℚ) ≤ fl (v + c) := le_fl_of_near hj hS1 hS2 (by push_cast; linarith)
      refine ⟨fun _ => r2, fun _ => ?_⟩
      refine le_fl_of_int (bound_of_le hj hS1 hS2) ?_
      push_cast
      linarith
    · have near := not_le.1 near
      have r1 := fl_le_of_far hj hT2 hv1 near
      have r2 := fl_le_of_far (y := v + c) hj hS2 (by rw [h58] at hv'; linarith) (by push_cast; linarith)
      have pos : (0 : ℚ) < 1 / 2 ^ (52 - i) := by positivity
      have r3 : fl (fl v + c) ≤ fl (((T + c : ℤ) : ℚ) - 1 / 2 ^ (52 - i)) := fl_mono (by push_cast; linarith)
      have e : ((T + c : ℤ) : ℚ) - 1 / 2 ^ (52 - i) = (((T + c) * 2 ^ (52 - i) - 1 : ℤ) : ℚ) / 2 ^ (52 - i) := by
        rw [eq_div_iff hD.ne', sub_mul, div_mul_cancel₀ _ hD.ne']
        push_cast
        ring
      have r4 : fl (((T + c : ℤ) : ℚ) - 1 / 2 ^ (52 - i)) = ((T + c : ℤ) : ℚ) - 1 / 2 ^ (52 - i) := by
        rw [e]
        apply fl_dyadic
        have hp : (0 : ℤ) < 2 ^ i := by positivity
        have hp' : (0 : ℤ) < 2 ^ (52 - i) := by positivity
        have h53 : (T + c) * 2 ^ (52 - i) ≤ 2 ^ 53 := by
          calc (T + c) * 2 ^ (52 - i) ≤ 2 ^ (i + 1) * 2 ^ (52 - i) := mul_le_mul_of_nonneg_right hS2 hp'.le
            _ = 2 ^ 53 := by rw [← pow_add]; congr 1; omega
        have h0 : 0 < (T + c) * 2 ^ (52 - i) := mul_pos (by omega) hp'
        rw [abs_le]
        omega
      rw [r4] at r3
      constructor
      · intro h; exfalso; linarith
      · intro h; exfalso; linarith
  · have hd : (1 : ℚ) / 2 ^ (52 - i) ≤ 1 / 2 / 2 ^ (52 - j) := by
      rw [div_div, ← pow_succ']
      apply one_div_le_one_div_of_le (by positivity)
      exact pow_le_pow_right₀ (by norm_num) (by omega)
    have pos : (0 : ℚ) < 1 / 2 ^ (52 - i) := by positivity
    refine ⟨fun _ => ?_, fun _ => ?_⟩
    · refine le_fl_of_near hj hS1 hS2 ?_
      push_cast
      rw [h58] at hv'
      linarith
    · refine le_fl_of_near hj hS1 hS2 ?_
      have hv2 : v < (2 : ℚ) ^ (i + 1) := by
        have : (T : ℚ) ≤ 2 ^ (i + 1) := by exact_mod_cast hT2
        linarith
      have r : (T : ℚ) - 1 / 2 ^ (52 - i) ≤ fl v := by
        rw [fl_of_binade (by omega) hv1 hv2, le_div_iff₀ hDi, sub_mul, div_mul_cancel₀ _ hDi.ne']
        have hk := le_roundEven (m := T * 2 ^ (52 - i) - 1) (x := v * 2 ^ (52 - i)) (by
          have := mul_le_mul_of_nonneg_right hv' hDi.le
          rw [sub_mul, div_mul_cancel₀ _ hDi.ne'] at this
          push_cast
          linarith)
        have : ((T * 2 ^ (52 - i) - 1 : ℤ) : ℚ) ≤ (roundEven (v * 2 ^ (52 - i)) : ℚ) := by exact_mod_cast hk
        push_cast at this
        exact this
      push_cast
      linarith

end Verif.Lemmas
