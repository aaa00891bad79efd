import Verif.Lemmas.Window
import Mathlib.Data.List.Basic
/-
Helper lemmas: how far the entries of an exception table move the Kattika day.
-/
set_option autoImplicit false

namespace Verif.Lemmas
open Verif.Go Verif.Model

/-- An entry changes the length of its year by at most one day; without an entry the length is the computed one. -/
theorem yearLength_table (cfg : Config) (y : Int) :
    (SuriyaYear.init y).yearLength .default - 1 ≤ (SuriyaYear.init y).yearLength cfg ∧
    (SuriyaYear.init y).yearLength cfg ≤ (SuriyaYear.init y).yearLength .default + 1 ∧
    (cfg.exceptions y = none → (SuriyaYear.init y).yearLength cfg = (SuriyaYear.init y).yearLength .default) := by
  have hy : (SuriyaYear.init y).Year = y := rfl
  refine ⟨?_, ?_, ?_⟩
  · unfold SuriyaYear.yearLength; simp only; split <;> (repeat' split) <;> omega
  · unfold SuriyaYear.yearLength; simp only; split <;> (repeat' split) <;> omega
  · intro h
    have e : (SuriyaYear.init y).isAdhikavara cfg = (SuriyaYear.init y).isAdhikavara .default := by
      have d : (SuriyaYear.init y).isAdhikavara .default = (SuriyaYear.init y).isAdhikavaraRule := rfl
      rw [d]
      unfold SuriyaYear.isAdhikavara
      rw [hy, h]
      split <;> rfl
    unfold SuriyaYear.yearLength
    rw [e]

/-- Number of the listed years from `a` up to but not including `b`. -/
def listed (years : List Int) (a b : Int) : Nat := years.countP fun z => decide (a ≤ z) && decide (z < b)

theorem listed_le (years : List Int) (a b : Int) : listed years a b ≤ years.length := List.countP_le_length

theorem listed_up (years : List Int) {a y : Int} (h : a ≤ y) :
    listed years a (y + 1) = listed years a y + years.count y := by
  unfold listed
  induction years with
  | nil => rfl
  | cons z l ih =>
    rw [List.countP_cons, List.countP_cons, List.count_cons, ih]
    by_cases e : z = y
    · subst e
      have h1 : z < z + 1 := by omega
      simp [h, h1]; omega
    · have : (decide (z < y + 1)) = decide (z < y) := by simp only [decide_eq_decide]; omega
      rw [this]; simp [e]; omega

theorem listed_down (years : List Int) {y b : Int} (h : y < b) :
    listed years y b = listed years (y + 1) b + years.count y := by
  unfold listed
  induction years with
  | nil => rfl
  | cons z l ih =>
    rw [List.countP_cons, List.countP_cons, List.count_cons, ih]
    by_cases e : z = y
    · subst e
      have h1 : ¬ z + 1 ≤ z := by omega
      simp [h, h1]; omega
    · have : (decide (y + 1 ≤ z)) = decide (y ≤ z) := by simp only [decide_eq_decide]; omega
      rw [this]; simp [e]; omega

/-- The Kattika day is moved by at most one day per entry between its year and 2016. -/
theorem katDay_table {cfg : Config} {years : List Int} (hy : ∀ y, cfg.exceptions y ≠ none → y ∈ years) (y : Int) :
    katDay .default y - (listed years y 2016 + listed years 2016 y : Nat) ≤ katDay cfg y ∧
    katDay cfg y ≤ katDay .default y + (listed years y 2016 + listed years 2016 y : Nat) := by
  have step : ∀ y, (SuriyaYear.init y).yearLength .default - (years.count y : Nat) ≤ (SuriyaYear.init y).yearLength cfg ∧
      (SuriyaYear.init y).yearLength cfg ≤ (SuriyaYear.init y).yearLength .default + (years.count y : Nat) := by
    intro y
    have t := yearLength_table cfg y
    by_cases h : cfg.exceptions y = none
    · rw [t.2.2 h]; omega
    · have := List.count_pos_iff.2 (hy y h); omega
  have up : ∀ n : Nat, katDay .default (2016 + n) - (listed years 2016 (2016 + n) : Nat) ≤ katDay cfg (2016 + n) ∧
      katDay cfg (2016 + n) ≤ katDay .default (2016 + n) + (listed years 2016 (2016 + n) : Nat) := by
    intro n
    induction n with
    | zero => simp only [Int.natCast_zero, Int.add_zero, katDay_epoch]; omega
    | succ n ih =>
      have e : (2016 + ((n + 1 : Nat) : Int)) = 2016 + n + 1 := by omega
      rw [e, katDay_succ, katDay_succ, listed_up years (by omega)]
      have := step (2016 + n)
      omega
  have down : ∀ n : Nat, katDay .default (2016 - n) - (listed years (2016 - n) 2016 : Nat) ≤ katDay cfg (2016 - n) ∧
      katDay cfg (2016 - n) ≤ katDay .default (2016 - n) + (listed years (2016 - n) 2016 : Nat) := by
    intro n
    induction n with
    | zero => simp only [Int.natCast_zero, Int.sub_zero, katDay_epoch]; omega
    | succ n ih =>
      have e : (2016 - (n : Int)) = 2016 - ((n + 1 : Nat) : Int) + 1 := by omega
      rw [e, katDay_succ, katDay_succ] at ih
      rw [listed_down years (by omega)]
      have := step (2016 - ((n + 1 : Nat) : Int))
      omega
  rcases Int.le_total 2016 y with h | h
  · have := up (y - 2016).toNat
    have e : (2016 + ((y - 2016).toNat : Int)) = y := by omega
    rw [e] at this; omega
  · have := down (2016 - y).toNat
    have e : (2016 - ((2016 - y).toNat : Int)) = y := by omega
    rw [e] at this; omega

end Verif.Lemmas
