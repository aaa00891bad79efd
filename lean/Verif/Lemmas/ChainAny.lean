import Verif.Lemmas.Generate
/-
Helper lemmas: the chain of moons of a solar year whose Kattika is not too early, however late it may be.
-/
set_option autoImplicit false

namespace Verif.Lemmas
open Verif.Go Verif.Model

theorem seed_any (cfg : Config) (y : Int) : ∃ ly, kattikaSeed cfg y = shift (katDay cfg y) ly seed0 := by
  refine ⟨(calculatePreviousKattika cfg y).year + BEdiff, ?_⟩
  unfold kattikaSeed
  simp only
  rw [kattika_eq]
  unfold shift seed0 Time.add
  simp only [UposathaMoon.mk.injEq, Time.mk.injEq, and_true, true_and]
  omega

/-- The moons up to the end of the solar year are those of the table, continued with the same flags; with their events
if the moon before lies in the year. -/
theorem chain_any {cfg : Config} {y : Int} (hx : (fa y && fv cfg y) = false) (hlo : daysSinceEpoch y - 118 ≤ katDay cfg y) :
    ∃ ly, ∀ k : Nat, (chain cfg y k).Date.day < daysSinceEpoch (y + 1) + 14 →
      core (chain cfg y k) = core (shift (katDay cfg y) ly (tab (fa y) (fv cfg y) k)) ∧
      (∀ j, k = j + 1 → daysSinceEpoch y ≤ (chain cfg y j).Date.day →
        chain cfg y k = shift (katDay cfg y) ly (tab (fa y) (fv cfg y) k)) := by
  obtain ⟨ly, hseed⟩ := seed_any cfg y
  have h0 : (chain cfg y 0).Date.day = katDay cfg y := by
    rw [chain, hseed, day_shift]
    have : seed0.Date.day = 0 := by decide +kernel
    omega
  refine ⟨ly, fun k => ?_⟩
  induction k with
  | zero => intro _; exact ⟨by rw [chain, hseed]; rfl, fun j hj => by omega⟩
  | succ k ih =>
    intro hk
    have hd := chain_day_succ cfg y k
    have ihk := (ih (by omega)).1
    have hstep : ∀ a v, step a v (chain cfg y k) = shift (katDay cfg y) ly (step a v (tab (fa y) (fv cfg y) k)) := by
      intro a v
      rw [← step_core, ihk, step_core, step_shift]
    have hm := (chain_day_mono cfg y (j := 0) (k := k) (by omega)).1
    have hexact : daysSinceEpoch y ≤ (chain cfg y k).Date.day →
        chain cfg y (k + 1) = shift (katDay cfg y) ly (tab (fa y) (fv cfg y) (k + 1)) := by
      intro hin
      have hyear : (chain cfg y k).Date.year = y := by
        unfold Time.year; rw [year_eq_iff]; omega
      rw [chain, next_eq_step, hyear, hstep]; rfl
    refine ⟨?_, fun j hj => by have : j = k := by omega
                               subst this; exact hexact⟩
    by_cases hin : daysSinceEpoch y ≤ (chain cfg y k).Date.day
    · rw [hexact hin]
    · have hk9 : k < 9 := by omega
      have hm24 : 24 ≤ moons (fa y) := by unfold moons; split <;> omega
      have ht := tab_facts (fa y) (fv cfg y) hx ⟨k, by omega⟩ (by show k < _; omega)
      simp only at ht
      obtain ⟨-, -, -, hc, -⟩ := ht
      have hdate : (chain cfg y k).Date = (shift (katDay cfg y) ly (tab (fa y) (fv cfg y) k)).Date := by
        have := congrArg UposathaMoon.Date ihk
        exact this
      have ho : off (fa y) (fv cfg y) k < 118 := by
        rw [hdate, day_shift] at hin
        change ¬ _ ≤ off _ _ k + _ at hin
        omega
      rw [chain, next_eq_step, hstep, core_shift, hc ho, ← core_shift]

/-- The days of those moons. -/
theorem chain_any_day {cfg : Config} {y : Int} (hx : (fa y && fv cfg y) = false) (hlo : daysSinceEpoch y - 118 ≤ katDay cfg y)
    (k : Nat) (hk : (chain cfg y k).Date.day < daysSinceEpoch (y + 1) + 14) :
    (chain cfg y k).Date.day = katDay cfg y + off (fa y) (fv cfg y) k := by
  obtain ⟨ly, h⟩ := chain_any hx hlo
  have := congrArg UposathaMoon.Date (h k hk).1
  have this : (chain cfg y k).Date = (shift (katDay cfg y) ly (tab (fa y) (fv cfg y) k)).Date := this
  rw [this, day_shift]
  unfold off; omega

theorem chain_zero_day (cfg : Config) (y : Int) : (chain cfg y 0).Date.day = katDay cfg y := by
  obtain ⟨ly, h⟩ := seed_any cfg y
  rw [chain, h, day_shift]
  have : seed0.Date.day = 0 := by decide +kernel
  omega

theorem flags_of {cfg : Config} {y : Int}
    (hx : ¬ ((SuriyaYear.init y).isAdhikamasa = true ∧ (SuriyaYear.init y).isAdhikavara cfg = true)) : (fa y && fv cfg y) = false := by
  rw [Bool.and_eq_false_iff]
  rcases h : fa y with _ | _
  · exact .inl rfl
  · right; rcases h' : fv cfg y with _ | _
    · rfl
    · exact absurd ⟨h, h'⟩ hx

end Verif.Lemmas
