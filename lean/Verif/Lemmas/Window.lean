import Verif.Lemmas.Phase
/-
Helper lemmas: kernel scan of the stepped Kattika days over a finite interval of years.
-/
set_option autoImplicit false

namespace Verif.Lemmas
open Verif.Go Verif.Model

/-- Check `p` on (year, Kattika day) for `n` years, stepping the day by `YearLength`. -/
def scanKat (p : Int → Int → Bool) : Nat → Int → Int → Bool
  | 0, _, _ => true
  | n + 1, y, k => p y k && scanKat p n (y + 1) (k + (SuriyaYear.init y).yearLength .default)

theorem scanKat_spec {p : Int → Int → Bool} : ∀ {n : Nat} {a k : Int}, katDay .default a = k →
    scanKat p n a k = true → ∀ y, a ≤ y → y < a + n → p y (katDay .default y) = true := by
  intro n
  induction n with
  | zero => intro a k _ _ y h1 h2; omega
  | succ n ih =>
    intro a k hk h y h1 h2
    simp only [scanKat, Bool.and_eq_true] at h
    by_cases e : y = a
    · subst e; rw [hk]; exact h.1
    · exact ih (by rw [katDay_succ, hk]) h.2 y (by omega) (by omega)

theorem katDay_638 : katDay .default 638 = 232578 := by
  have h := phase_638
  unfold phase at h
  have h2 : - hor 638 + age 638 + carry 638 = 30 := by decide +kernel
  omega

/-- Going down `n` years from 638. -/
theorem katDay_down : ∀ n : Nat, ∀ k : Int, n ≤ 20 →
    (List.range n).foldl (fun k (i : Nat) => k - (SuriyaYear.init (637 - (i : Int))).yearLength .default) 232578 = k →
    katDay .default (638 - n) = k := by
  intro n
  induction n with
  | zero => intro k _ h; simp at h; rw [← h]; exact katDay_638
  | succ n ih =>
    intro k hn h
    rw [List.range_succ, List.foldl_append] at h
    have h1 := ih _ (by omega) rfl
    simp only [List.foldl_cons, List.foldl_nil] at h
    have h2 := katDay_succ .default (638 - ((n + 1 : Nat) : Int))
    have e : 638 - ((n + 1 : Nat) : Int) + 1 = 638 - n := by omega
    have e' : 638 - ((n + 1 : Nat) : Int) = 637 - n := by omega
    rw [e] at h2
    rw [e'] at h2 ⊢
    omega

theorem katDay_630 : katDay .default 630 = 229738 := by
  have := katDay_down 8 229738 (by decide) (by decide +kernel)
  have e : (638 - ((8 : Nat) : Int)) = 630 := rfl
  rw [e] at this; exact this

/-- Position of the Kattika day relative to January 1 of the year. -/
theorem window_scan : scanKat (fun y k => decide (
    (if y = 630 then daysSinceEpoch y ≤ k else
     if y = 4117 then daysSinceEpoch y ≤ k ∧ k < daysSinceEpoch y + 14 else
     daysSinceEpoch y - 118 ≤ k ∧ k < daysSinceEpoch y ∧ (1290 ≤ y → daysSinceEpoch y - 74 ≤ k) ∧
       (1995 ≤ y → y ≤ 1997 → daysSinceEpoch y - 73 ≤ k) ∧
       (y ≤ 3571 → k < daysSinceEpoch y - 8) ∧ (y = 3572 → daysSinceEpoch y - 8 ≤ k)))) 3488 630 229738 = true := by
  decide +kernel

theorem window {y : Int} (h1 : 631 ≤ y) (h2 : y ≤ 4116) :
    daysSinceEpoch y - 118 ≤ katDay .default y ∧ katDay .default y < daysSinceEpoch y ∧
    (1290 ≤ y → daysSinceEpoch y - 74 ≤ katDay .default y) ∧
    (1995 ≤ y → y ≤ 1997 → daysSinceEpoch y - 73 ≤ katDay .default y) ∧
    (y ≤ 3571 → katDay .default y < daysSinceEpoch y - 8) ∧
    (y = 3572 → daysSinceEpoch y - 8 ≤ katDay .default y) := by
  have := scanKat_spec katDay_630 window_scan y (by omega) (by omega)
  have e1 : ¬ y = 630 := by omega
  have e2 : ¬ y = 4117 := by omega
  rw [decide_eq_true_eq, if_neg e1, if_neg e2] at this
  exact this

theorem window_4117 : daysSinceEpoch 4117 ≤ katDay .default 4117 ∧
    katDay .default 4117 < daysSinceEpoch 4117 + 14 := by
  have := scanKat_spec katDay_630 window_scan 4117 (by omega) (by omega)
  simpa using this

end Verif.Lemmas
