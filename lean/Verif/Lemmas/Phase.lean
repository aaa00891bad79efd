import Verif.Lemmas.Kattika
import Verif.Lemmas.Count
import Verif.Lemmas.Scan
/-
Helper lemmas: the adhikavāra rule in terms of avoman wraps, and the phase lock between the stepped
Kattika dates and the Horakhun/Tithi arithmetic.
-/
set_option autoImplicit false

namespace Verif.Lemmas
open Verif.Go Verif.Model Verif.Spec

/-- The avoman boundary case: a Suriya leap year with Avoman exactly 126. -/
def tie (y : Int) : Bool := (SuriyaYear.init y).isSuriyaLeap && decide ((SuriyaYear.init y).Avoman = 126)

theorem leap_iff {y : Int} (h : 638 ≤ y) : (SuriyaYear.init y).isSuriyaLeap = true ↔ 593 ≤ eraNum y % 800 := by
  unfold SuriyaYear.isSuriyaLeap
  rw [init_Kammacubala h]; simp; omega

theorem tie_iff {y : Int} (h : 638 ≤ y) : tie y = true ↔ (593 ≤ eraNum y % 800 ∧ avo y = 126) := by
  unfold tie
  rw [Bool.and_eq_true, leap_iff h, init_Avoman h]; simp

theorem wv_iff {y : Int} (h : 638 ≤ y) : (SuriyaYear.init y).wouldBeAdhikavara = true ↔
    ((593 ≤ eraNum y % 800 ∧ avo y ≤ 126) ∨ (¬ 593 ≤ eraNum y % 800 ∧ avo y < 137)) := by
  unfold SuriyaYear.wouldBeAdhikavara
  rw [init_Avoman h]
  have := leap_iff h
  by_cases hl : 593 ≤ eraNum y % 800
  · rw [if_pos (this.2 hl)]; simp [hl]
  · have : ¬ ((SuriyaYear.init y).isSuriyaLeap = true) := by rw [this]; exact hl
    rw [if_neg this]; simp [hl]

theorem avo_succ (y : Int) : avo (y + 1) =
    (avo y + (if 593 ≤ eraNum y % 800 then 566 else 555)) % 692 := by
  unfold avo; rw [hor_succ]; split <;> omega

theorem avo_range (y : Int) : 0 ≤ avo y ∧ avo y < 692 := by unfold avo; omega

/-- Number of wraps per year from the adhikavāra condition. -/
theorem wraps_wv {y : Int} (h : 638 ≤ y) : wraps (y + 1) = wraps y + 6 -
    (if (SuriyaYear.init y).wouldBeAdhikavara = true then 1 else 0) + (if tie y = true then 1 else 0) := by
  rw [wraps_succ]
  simp only [wv_iff h, tie_iff h]
  have := avo_range y
  (repeat' split) <;> omega

theorem wv_next {y : Int} (h : 638 ≤ y) (h1 : (SuriyaYear.init y).wouldBeAdhikavara = true)
    (h2 : (SuriyaYear.init (y + 1)).wouldBeAdhikavara = true) : tie y = true := by
  rw [wv_iff h] at h1
  rw [wv_iff (by omega)] at h2
  rw [tie_iff h]
  have := avo_succ y
  have := avo_range y
  split at * <;> omega

theorem wv_of_tie {y : Int} (h : 638 ≤ y) (ht : tie y = true) :
    (SuriyaYear.init y).wouldBeAdhikavara = true ∧ (SuriyaYear.init (y + 1)).wouldBeAdhikavara = true ∧
    tie (y + 1) = false := by
  rw [tie_iff h] at ht
  have ha := avo_succ y
  rw [if_pos ht.1, ht.2] at ha
  rw [wv_iff h, wv_iff (y := y + 1) (by omega), ← Bool.not_eq_true, tie_iff (y := y + 1) (by omega)]
  generalize avo (y + 1) = a at *
  generalize eraNum (y + 1) % 800 = e at *
  refine ⟨?_, ?_, ?_⟩ <;> omega

theorem isAdhikavara_default (su : SuriyaYear) : su.isAdhikavara .default = su.isAdhikavaraRule := by
  simp [SuriyaYear.isAdhikavara, Config.default]

theorem carried_iff (y : Int) : (SuriyaYear.init y).hasCarriedAdhikavara = true ↔
    ((SuriyaYear.init (y - 1)).isAdhikamasa = true ∧ (SuriyaYear.init (y - 1)).wouldBeAdhikavara = true) := by
  unfold SuriyaYear.hasCarriedAdhikavara; simp [init_Year]

theorem adh_not_next (y : Int) (h : (SuriyaYear.init y).isAdhikamasa = true) :
    (SuriyaYear.init (y + 1)).isAdhikamasa = false := by
  rcases h2 : (SuriyaYear.init (y + 1)).isAdhikamasa with _ | _
  · rfl
  · simp only [SuriyaYear.isAdhikamasa, init_Year, Bool.and_eq_true, Bool.not_eq_true'] at h h2
    rw [h2.2] at h
    exact absurd h.1 (by simp)

/-- Age of the moon at New Year counted from the calendar's own month start: 6..35. -/
def age (y : Int) : Int := rawTithi y - 30 * ((rawTithi y - 6) / 30)

theorem age_range (y : Int) : 6 ≤ age y ∧ age y ≤ 35 := by unfold age; omega

/-- A year's adhikavāra is being carried into `y` (0 or 1). -/
def carry (y : Int) : Int := if (SuriyaYear.init y).hasCarriedAdhikavara then 1 else 0

theorem carry_range (y : Int) : 0 ≤ carry y ∧ carry y ≤ 1 := by unfold carry; split <;> omega

/-- The phase of year `y`. -/
def phase (y : Int) : Int := katDay .default y - hor y + age y + carry y

/-- Boundary case falling into an adhikamāsa year (0 or 1). -/
def tieAdh (y : Int) : Int := if tie y && (SuriyaYear.init y).isAdhikamasa then 1 else 0
/-- Boundary case falling into another year (0 or 1). -/
def tieOnly (y : Int) : Int := if tie y && !(SuriyaYear.init y).isAdhikamasa then 1 else 0

theorem age_succ {y : Int} (h : 638 ≤ y) : age (y + 1) = age y + (rawTithi (y + 1) - rawTithi y) -
    (if (SuriyaYear.init y).isAdhikamasa = true then 390 else 360) := by
  unfold age
  rcases hb : (SuriyaYear.init y).isAdhikamasa with _ | _
  · have := (not_isAdhikamasa_iff h).1 hb; simp; omega
  · have := (isAdhikamasa_iff h).1 hb; simp; omega

/-- One step of the phase lock, for years after the first of the era. -/
theorem phase_succ {y : Int} (h : 639 ≤ y) :
    phase (y + 1) - tieAdh y = phase y - tieAdh (y - 1) + tieOnly y := by
  unfold phase
  rw [katDay_succ, age_succ (by omega)]
  have hw := wraps_wv (y := y) (by omega)
  have e : rawTithi (y + 1) - rawTithi y = hor (y + 1) - hor y + (wraps (y + 1) - wraps y) := by
    unfold rawTithi; omega
  rw [e, hw]
  have c1 := carried_iff (y + 1)
  have c0 := carried_iff y
  have e1 : y + 1 - 1 = y := by omega
  rw [e1] at c1
  have hn := adh_not_next (y - 1)
  have e2 : y - 1 + 1 = y := by omega
  rw [e2] at hn
  have t1 := wv_of_tie (y := y - 1) (by omega)
  have t2 := wv_next (y := y - 1) (by omega)
  have t3 := wv_of_tie (y := y) (by omega)
  rw [e2] at t1 t2
  unfold carry tieAdh tieOnly SuriyaYear.yearLength
  rw [isAdhikavara_default]
  unfold SuriyaYear.isAdhikavaraRule
  rcases a0 : (SuriyaYear.init y).isAdhikamasa <;> rcases a1 : (SuriyaYear.init (y - 1)).isAdhikamasa <;>
  rcases b0 : (SuriyaYear.init y).wouldBeAdhikavara <;> rcases b1 : (SuriyaYear.init (y - 1)).wouldBeAdhikavara <;>
  rcases d0 : (SuriyaYear.init y).hasCarriedAdhikavara <;>
  rcases d1 : (SuriyaYear.init (y + 1)).hasCarriedAdhikavara <;>
  rcases f0 : tie y <;> rcases f1 : tie (y - 1) <;>
  simp [a0, a1, b0, b1, d0, d1, f0, f1] at c0 c1 hn t1 t2 t3 ⊢ <;> omega

theorem tie_scan : scanAll (fun y => !tie y || decide (y = 3577)) 3460 638 = true := by decide +kernel

/-- The only boundary year before 4098 is 3577. -/
theorem tie_before {y : Int} (h1 : 638 ≤ y) (h2 : y < 4098) (ht : tie y = true) : y = 3577 := by
  have := scanAll_spec tie_scan y h1 (by omega)
  simpa [ht] using this

theorem tie_3577 : tie 3577 = true ∧ (SuriyaYear.init 3577).isAdhikamasa = true := by decide +kernel
theorem tie_4098 : tie 4098 = true ∧ (SuriyaYear.init 4098).isAdhikamasa = false := by decide +kernel

/-- A boundary year that is not adhikamāsa: it leaves a permanent surplus day. -/
def isSurplus (z : Int) : Bool := tie z && !(SuriyaYear.init z).isAdhikamasa

/-- Permanent surplus days created before year `y`. -/
def surplus (y : Int) : Int := countYears isSurplus 638 (y - 638).toNat

theorem surplus_nonneg (y : Int) : 0 ≤ surplus y := by unfold surplus; omega

theorem surplus_succ {y : Int} (h : 638 ≤ y) : surplus (y + 1) = surplus y + tieOnly y := by
  unfold surplus
  have e : (y + 1 - 638).toNat = (y - 638).toNat + 1 := by omega
  rw [e, countYears_succ]
  have e2 : (638 + ((y - 638).toNat : Int)) = y := by omega
  rw [e2]
  unfold tieOnly isSurplus
  split <;> simp

theorem surplus_before {y : Int} (h : y ≤ 4098) : surplus y = 0 := by
  unfold surplus
  have : countYears isSurplus 638 (y - 638).toNat = 0 := by
    apply countYears_eq_zero
    intro z h1 h2
    rcases ht : tie z with _ | _
    · simp [isSurplus, ht]
    · have := tie_before h1 (by omega) ht
      subst this
      simp [isSurplus, tie_3577]
  rw [this]; rfl

theorem phase_lock_aux (n : Nat) :
    phase (639 + n) - tieAdh (639 + n - 1) - surplus (639 + n) = phase 639 - tieAdh 638 - surplus 639 := by
  induction n with
  | zero => simp
  | succ n ih =>
    have h1 := phase_succ (y := 639 + n) (by omega)
    have h2 := surplus_succ (y := 639 + n) (by omega)
    have e : (639 + ((n + 1 : Nat) : Int)) = 639 + n + 1 := by omega
    rw [e]
    have e2 : (639 + (n : Int) + 1 - 1) = 639 + n := by omega
    rw [e2]; omega

theorem phase_2016 : phase 2016 = 232608 := by
  unfold phase; rw [katDay_epoch]; decide +kernel

/-- Phase lock from 639. -/
theorem phase_lock_639 {y : Int} (h : 639 ≤ y) : phase y = 232608 + tieAdh (y - 1) + surplus y := by
  have h1 := phase_lock_aux (y - 639).toNat
  have h2 := phase_lock_aux 1377
  have e1 : (639 + ((y - 639).toNat : Int)) = y := by omega
  have e2 : (639 + ((1377 : Nat) : Int)) = 2016 := by omega
  rw [e1] at h1
  rw [e2, phase_2016, surplus_before (y := 2016) (by decide)] at h2
  have : tieAdh (2016 - 1) = 0 := by decide +kernel
  omega

theorem tieAdh_637 : tieAdh 637 = 0 := by decide +kernel

theorem phase_638 : phase 638 = 232608 := by
  have h := phase_lock_639 (y := 639) (by decide)
  rw [surplus_before (by decide)] at h
  unfold phase at h ⊢
  have e : (639 : Int) = 638 + 1 := by decide
  have hk := katDay_succ .default 638
  rw [← e] at hk
  rw [hk] at h
  have h1 : tieAdh (639 - 1) = 0 := by decide +kernel
  have h2 : (SuriyaYear.init 638).yearLength .default - hor 639 + age 639 + carry 639 =
    - hor 638 + age 638 + carry 638 := by decide +kernel
  omega

/-- Phase lock for every year of the era. -/
theorem phase_lock {y : Int} (h : 638 ≤ y) : phase y = 232608 + tieAdh (y - 1) + surplus y := by
  rcases Int.lt_or_eq_of_le h with h1 | h1
  · exact phase_lock_639 (by omega)
  · subst h1
    rw [phase_638, surplus_before (by decide)]
    have : (638 - 1 : Int) = 637 := rfl
    rw [this, tieAdh_637]; rfl

theorem tieAdh_range (y : Int) : 0 ≤ tieAdh y ∧ tieAdh y ≤ 1 := by unfold tieAdh; split <;> omega

/-- Closed form of the Kattika day. -/
theorem katDay_closed {y : Int} (h : 638 ≤ y) :
    katDay .default y = hor y - age y - carry y + 232608 + tieAdh (y - 1) + surplus y := by
  have := phase_lock h
  unfold phase at this; omega

end Verif.Lemmas
