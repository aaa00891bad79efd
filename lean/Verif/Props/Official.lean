import Verif.Props.Festivals
import Verif.Props.Cycles
/-
Properties C10, C11, C13, C15 and C34 with the official exceptions switched on. They change a day in a few years about 1995 (C32).
-/
set_option autoImplicit false

namespace Verif.Props
open Verif.Go Verif.Model Verif.Spec Verif.Lemmas

/-- C11: the phase lock of the default settings holds with the official exceptions, but for a day in 1995, 1996 and 1997. -/
theorem c11_official (y : Int) (h : 638 ≤ y) (hy : y ≤ 10 ^ 9) (m : Int) (hm1 : 6 ≤ m) (hm2 : m ≤ 35)
    (hm3 : (m - (SuriyaYear.init y).Tithi) % 30 = 0) :
    (calculatePreviousKattika .official y).day =
      (horakhunToDate .bits64 ((SuriyaYear.init y).Horakhun)).day - m - 133
      - (if (SuriyaYear.init y).hasCarriedAdhikavara = true then 1 else 0)
      + (if (SuriyaYear.init (y - 1)).isSuriyaLeap = true ∧ (SuriyaYear.init (y - 1)).Avoman = 126 ∧
            (SuriyaYear.init (y - 1)).isAdhikamasa = true then 1 else 0)
      + surplusDays y - (if y = 1995 ∨ y = 1996 ∨ y = 1997 then 1 else 0) := by
  have h1 := c11_phase_lock y h hy m hm1 hm2 hm3
  have h2 : (calculatePreviousKattika .official y).day =
      (calculatePreviousKattika .default y).day + (if y = 1995 ∨ y = 1996 ∨ y = 1997 then -1 else 0) := katDay_official y
  rw [h2, h1]
  split <;> omega

/-- C11: in 1996 the moon has the age 27 at New Year, and the exceptions move the full moon a day. -/
example : (SuriyaYear.init 1996).Tithi = 27 ∧ (calculatePreviousKattika .official 1996).day = 728602 ∧
    (calculatePreviousKattika .default 1996).day = 728603 := by decide +kernel

/-- C13: in 631..4116 the Kattika full moon is in the previous calendar year, with both shipped settings, -/
theorem c13_shipped (cfg : Config) (hs : Shipped cfg) (y : Int) (h1 : 631 ≤ y) (h2 : y ≤ 4116) :
    (calculatePreviousKattika cfg y).year = y - 1 := by
  have hw := shipped_window hs h1 h2
  rw [Time.year, year_eq_iff]
  change daysSinceEpoch (y - 1) ≤ katDay cfg y ∧ katDay cfg y < daysSinceEpoch (y - 1 + 1)
  have hs := daysSinceEpoch_succ (y - 1)
  have hb := yearDays_bounds (y - 1)
  have e : y - 1 + 1 = y := by omega
  rw [e] at hs ⊢
  omega

/-- C13: and not in 630, 4117 and the years from 10000 on. -/
theorem c13_shipped_maximal (cfg : Config) (hs : Shipped cfg) :
    (calculatePreviousKattika cfg 630).year = 630 ∧ (calculatePreviousKattika cfg 4117).year = 4117 ∧
    ∀ y, 10000 ≤ y → y ≤ (calculatePreviousKattika cfg y).year := by
  have e : ∀ y, y ≠ 1995 → y ≠ 1996 → y ≠ 1997 → calculatePreviousKattika cfg y = calculatePreviousKattika .default y := by
    intro y a b c
    rcases hs with rfl | rfl
    · rfl
    · rw [c32_kattika, if_neg (by omega)]
  rw [e 630 (by decide) (by decide) (by decide), e 4117 (by decide) (by decide) (by decide)]
  refine ⟨c13_maximal.1, c13_maximal.2, fun y hy => ?_⟩
  rw [e y (by omega) (by omega) (by omega)]
  exact c13_far_future y hy

/-- C13: the Kattika full moon before 1996 is on 6 November 1995. -/
example : calculatePreviousKattika .official 1996 = date 1995 11 6 0 0 ∧
    (calculatePreviousKattika .official 1996).year = 1995 :=
  ⟨by decide +kernel, c13_shipped .official (Or.inr rfl) 1996 (by decide) (by decide)⟩

/-- C15: in 638..4098 Asalha Puja has tithi 14 or 15, with both shipped settings. -/
theorem c15_shipped (cfg : Config) (hs : Shipped cfg) (y : Int) (h : 638 ≤ y) (h2 : y ≤ 4098) (hA : Int)
    (hd : hA + 232741 = ((SuriyaYear.init y).asalhaPuja cfg).day) : tithiOfDay hA = 14 ∨ tithiOfDay hA = 15 := by
  rcases hs with rfl | rfl
  · exact c15_full_moon_until_4098 y h h2 hA hd
  · by_cases hy : y = 1994 ∨ y = 1995 ∨ y = 1996
    · have three : ∀ z : Int, z = 1994 ∨ z = 1995 ∨ z = 1996 →
          tithiOfDay (((SuriyaYear.init z).asalhaPuja .official).day - 232741) = 14 := by
        rintro z (rfl | rfl | rfl) <;> decide +kernel
      left
      have e : hA = ((SuriyaYear.init y).asalhaPuja .official).day - 232741 := by omega
      rw [e]
      exact three y hy
    · rw [c32_asalha, if_neg hy] at hd
      exact c15_full_moon_until_4098 y h h2 hA hd

/-- C15: Asalha Puja 1996 with the official exceptions is on 29 July, on tithi 14; without them on 30 July, on tithi 15. -/
example : (SuriyaYear.init 1996).asalhaPuja .official = date 1996 7 29 0 0 ∧
    tithiOfDay ((date 1996 7 29 0 0).day - 232741) = 14 ∧
    (SuriyaYear.init 1996).asalhaPuja .default = date 1996 7 30 0 0 ∧ tithiOfDay ((date 1996 7 30 0 0).day - 232741) = 15 := by
  decide +kernel

/-- C10: with the official exceptions any eight consecutive years (from 638) contain an adhikavāra year. -/
theorem c10_within_eight_official (y : Int) (h : 638 ≤ y) :
    ∃ i : Int, 0 ≤ i ∧ i ≤ 7 ∧ (SuriyaYear.init (y + i)).isAdhikavara .official = true := by
  have e : ∀ z, z ≠ 1994 → (SuriyaYear.init z).isAdhikavara .default = true → (SuriyaYear.init z).isAdhikavara .official = true := by
    intro z hz hd
    unfold SuriyaYear.isAdhikavara Config.official shippedExceptions
    rw [init_Year]
    simp only [if_true, if_neg hz]
    by_cases h7 : z = 1997
    · rw [if_pos h7]
    · rw [if_neg h7]; exact hd
  by_cases hy : 1988 ≤ y ∧ y ≤ 1994
  · have near : ∀ k : Fin 7, ∃ i : Fin 8, (SuriyaYear.init (1988 + k + i)).isAdhikavara .official = true := by decide +kernel
    obtain ⟨i, hi⟩ := near ⟨(y - 1988).toNat, by omega⟩
    refine ⟨i, by omega, by omega, ?_⟩
    have ey : (1988 : Int) + (((y - 1988).toNat : Nat) : Int) = y := by omega
    simp only [ey] at hi
    exact hi
  · obtain ⟨i, h0, h6, hi⟩ := c10_within_seven y h
    exact ⟨i, h0, by omega, e _ (by omega) hi⟩

/-- C10: seven are not enough: there is none from 1990 to 1996. -/
theorem c10_seven_official_fails :
    ¬ ∃ i : Int, 0 ≤ i ∧ i ≤ 6 ∧ (SuriyaYear.init (1990 + i)).isAdhikavara .official = true := by
  rintro ⟨i, h0, h6, hi⟩
  have none : ∀ k : Fin 7, (SuriyaYear.init (1990 + k)).isAdhikavara .official = false := by decide +kernel
  have := none ⟨i.toNat, by omega⟩
  have ei : ((i.toNat : Nat) : Int) = i := by omega
  simp only [ei] at this
  rw [this] at hi
  cases hi

/-- C10: the official adhikavāra years about these are 1989 and 1997. -/
example : (SuriyaYear.init 1989).isAdhikavara .official = true ∧ (SuriyaYear.init 1997).isAdhikavara .official = true := by
  decide +kernel

/-- C34: from 646 `DeltaAdhikavara` with the official exceptions is between 1 and 8. -/
theorem c34_adhikavara_official (y : Int) (h : 646 ≤ y) : ∃ r, (SuriyaYear.init y).deltaAdhikavara .official = some r ∧
    1 ≤ r ∧ r ≤ 8 := by
  obtain ⟨r, h1, h2, h3⟩ := c34_adhikavara .official y
  refine ⟨r, h1, ?_⟩
  obtain ⟨i, h4, h5, h6⟩ := c10_within_eight_official (y - 8) (by omega)
  have e : y - 8 + i = y - (8 - i) := by omega
  rw [e] at h6
  have hne : r ≠ -1 := by
    intro hr
    have := h3.1 hr (8 - i) (by omega) (by omega)
    rw [h6] at this; simp at this
  have h7 := (h2 r hne).1 rfl
  refine ⟨h7.2.1, ?_⟩
  by_contra hc
  have := h7.2.2.2 (8 - i) (by omega) (by omega)
  simp only at this
  rw [h6] at this; simp at this

/-- C34: 8 is reached in 1997. -/
example : (SuriyaYear.init 1997).deltaAdhikavara .official = some 8 ∧ (SuriyaYear.init 1997).deltaAdhikavara .default = some 3 := by
  decide +kernel

end Verif.Props
