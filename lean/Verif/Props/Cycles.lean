import Verif.Props.Kattika
/-
Properties C33 (cycle positions) and C34 (Delta functions).
-/
set_option autoImplicit false

namespace Verif.Props
open Verif.Go Verif.Model Verif.Spec Verif.Lemmas

/-! ### C33 -/

/-- C33: range of the positions, for every year. -/
theorem c33_range (su : SuriyaYear) :
    1 ≤ su.adhikavaraCyclePos ∧ su.adhikavaraCyclePos ≤ 57 ∧
    1 ≤ su.adhikamasaCyclePos ∧ su.adhikamasaCyclePos ≤ 19 := by
  unfold SuriyaYear.adhikavaraCyclePos SuriyaYear.adhikamasaCyclePos
  rw [Int.tmod_eq_emod_of_nonneg (by omega), Int.tmod_eq_emod_of_nonneg (by omega)]
  omega

/-- C33: from 1414 the 57-year position advances by one per year, with 1984 at position 1; before 1414 it runs
backwards. -/
theorem c33_adhikavara (y : Int) :
    (1414 ≤ y → (SuriyaYear.init (y + 1)).adhikavaraCyclePos = (SuriyaYear.init y).adhikavaraCyclePos % 57 + 1) ∧
    (y < 1414 → (SuriyaYear.init y).adhikavaraCyclePos = (SuriyaYear.init (y + 1)).adhikavaraCyclePos % 57 + 1) ∧
    (SuriyaYear.init 1984).adhikavaraCyclePos = 1 ∧ (SuriyaYear.init 2040).adhikavaraCyclePos = 57 := by
  refine ⟨?_, ?_, by decide, by decide⟩ <;> intro h <;>
  unfold SuriyaYear.adhikavaraCyclePos <;> simp only [init_Year] <;>
  rw [Int.tmod_eq_emod_of_nonneg (by omega), Int.tmod_eq_emod_of_nonneg (by omega)] <;> omega

/-- C33: a step after 1414 and one before. -/
example : (SuriyaYear.init 2016).adhikavaraCyclePos = (SuriyaYear.init 2015).adhikavaraCyclePos % 57 + 1 ∧
    (SuriyaYear.init 1000).adhikavaraCyclePos = (SuriyaYear.init 1001).adhikavaraCyclePos % 57 + 1 :=
  ⟨(c33_adhikavara 2015).1 (by decide), (c33_adhikavara 1000).2.1 (by decide)⟩

/-- C33: the same for the 19-year position from 1794. -/
theorem c33_adhikamasa (y : Int) :
    (1794 ≤ y → (SuriyaYear.init (y + 1)).adhikamasaCyclePos = (SuriyaYear.init y).adhikamasaCyclePos % 19 + 1) ∧
    (y < 1794 → (SuriyaYear.init y).adhikamasaCyclePos = (SuriyaYear.init (y + 1)).adhikamasaCyclePos % 19 + 1) ∧
    (SuriyaYear.init 1984).adhikamasaCyclePos = 1 := by
  refine ⟨?_, ?_, by decide⟩ <;> intro h <;>
  unfold SuriyaYear.adhikamasaCyclePos <;> simp only [init_Year] <;>
  rw [Int.tmod_eq_emod_of_nonneg (by omega), Int.tmod_eq_emod_of_nonneg (by omega)] <;> omega

/-- C33: a step after 1794 and one before. -/
example : (SuriyaYear.init 2003).adhikamasaCyclePos = (SuriyaYear.init 2002).adhikamasaCyclePos % 19 + 1 ∧
    (SuriyaYear.init 1000).adhikamasaCyclePos = (SuriyaYear.init 1001).adhikamasaCyclePos % 19 + 1 :=
  ⟨(c33_adhikamasa 2002).1 (by decide), (c33_adhikamasa 1000).2.1 (by decide)⟩

/-- C33: so from its start the position is determined by the year modulo the cycle; closed form. -/
theorem c33_closed (y : Int) :
    (1414 ≤ y → (SuriyaYear.init y).adhikavaraCyclePos = (y - 1984) % 57 + 1) ∧
    (1794 ≤ y → (SuriyaYear.init y).adhikamasaCyclePos = (y - 1984) % 19 + 1) := by
  constructor <;> intro h <;> simp only [SuriyaYear.adhikavaraCyclePos, SuriyaYear.adhikamasaCyclePos, init_Year] <;> rw [Int.tmod_eq_emod_of_nonneg (by omega)] <;> omega

/-- C33: the positions of 2015. -/
example : (SuriyaYear.init 2015).adhikavaraCyclePos = 32 ∧ (SuriyaYear.init 2015).adhikamasaCyclePos = 13 :=
  ⟨(c33_closed 2015).1 (by decide), (c33_closed 2015).2 (by decide)⟩

/-! ### C34 -/

theorem deltaLoop_spec (test : SuriyaYear → Bool) (limit y : Int) (fuel : Nat) :
    ∀ k : Int, 0 ≤ k → k ≤ limit → limit < k + fuel →
    (∀ e, 1 ≤ e → e ≤ k → test (SuriyaYear.init (y - e)) = false) →
    ∃ r, SuriyaYear.deltaLoop test limit y fuel (y - (k + 1)) = some r ∧
      ((r = -1 ∧ ∀ e, 1 ≤ e → e ≤ limit + 1 → test (SuriyaYear.init (y - e)) = false) ∨
       (r ≤ limit + 1 ∧ IsDistance (fun z => test (SuriyaYear.init z)) y r)) := by
  induction fuel with
  | zero => intro k h0 h1 h2; omega
  | succ fuel ih =>
    intro k h0 h1 h2 hno
    unfold SuriyaYear.deltaLoop
    have hyr := init_Year (y - (k + 1))
    simp only
    by_cases ht : test (SuriyaYear.init (y - (k + 1))) = true
    · rw [if_pos ht]
      rw [hyr]
      refine ⟨_, rfl, .inr ⟨by omega, by omega, ?_, ?_⟩⟩
      · have e : y - (y - (y - (k + 1))) = y - (k + 1) := by omega
        show test (SuriyaYear.init _) = true
        rw [e]; exact ht
      · intro e he1 he2; exact hno e he1 (by omega)
    · rw [if_neg ht]
      simp only [Bool.not_eq_true] at ht
      by_cases hk : k = limit
      · rw [if_pos (by omega)]
        refine ⟨-1, rfl, .inl ⟨rfl, ?_⟩⟩
        intro e he1 he2
        by_cases hee : e = k + 1
        · rw [hee]; exact ht
        · exact hno e he1 (by omega)
      · rw [if_neg (by omega)]
        have e : y - (k + 1) - 1 = y - (k + 1 + 1) := by omega
        rw [e]
        apply ih (k + 1) (by omega) (by omega) (by omega)
        intro e he1 he2
        by_cases hee : e = k + 1
        · rw [hee]; exact ht
        · exact hno e he1 (by omega)

theorem _root_.Verif.Spec.IsDistance.unique {p : Int → Bool} {y d d' : Int} (h : IsDistance p y d) (h' : IsDistance p y d') : d = d' := by
  obtain ⟨a, b, c⟩ := h
  obtain ⟨a', b', c'⟩ := h'
  rcases Int.lt_trichotomy d d' with hh | hh | hh
  · have := c' d a hh; rw [b] at this; simp at this
  · exact hh
  · have := c d' a' hh; rw [b'] at this; simp at this

/-- The loop returns the true distance if it is at most `limit+1`, else -1. -/
theorem delta_iff (test : SuriyaYear → Bool) (limit y : Int) (hl : 0 ≤ limit) (hf : limit < 100) :
    ∃ r, SuriyaYear.deltaLoop test limit y 100 (y - 1) = some r ∧
      (∀ d, d ≠ -1 → (r = d ↔ (d ≤ limit + 1 ∧ IsDistance (fun z => test (SuriyaYear.init z)) y d))) ∧
      (r = -1 ↔ ∀ e, 1 ≤ e → e ≤ limit + 1 → test (SuriyaYear.init (y - e)) = false) := by
  obtain ⟨r, h1, h2⟩ := deltaLoop_spec test limit y 100 0 (by omega) (by omega) (by omega)
    (by intro e a b; omega)
  have e : y - (0 + 1) = y - 1 := by omega
  rw [e] at h1
  refine ⟨r, h1, ?_, ?_⟩
  · intro d hd
    rcases h2 with ⟨h2, h3⟩ | ⟨h2, h3⟩
    · constructor
      · intro h; omega
      · rintro ⟨ha, hb⟩
        have := h3 d hb.1 ha
        have := hb.2.1
        simp_all
    · constructor
      · rintro rfl; exact ⟨h2, h3⟩
      · rintro ⟨_, hb⟩; exact h3.unique hb
  · rcases h2 with ⟨h2, h3⟩ | ⟨h2, h3⟩
    · exact ⟨fun _ => h3, fun _ => h2⟩
    · constructor
      · intro h; have := h3.1; omega
      · intro h
        have := h r h3.1 h2
        have h4 := h3.2.1
        simp_all

/-- C34: `DeltaAdhikamasa` terminates and returns the distance to the previous adhikamāsa year if that is at most
7 years back, otherwise -1. -/
theorem c34_adhikamasa (y : Int) : ∃ r, (SuriyaYear.init y).deltaAdhikamasa = some r ∧
    (∀ d, d ≠ -1 → (r = d ↔ (d ≤ 7 ∧ IsDistance (fun z => (SuriyaYear.init z).isAdhikamasa) y d))) ∧
    (r = -1 ↔ ∀ e, 1 ≤ e → e ≤ 7 → (SuriyaYear.init (y - e)).isAdhikamasa = false) :=
  delta_iff SuriyaYear.isAdhikamasa 6 y (by decide) (by decide)

/-- C34: 2015 comes three years after an adhikamāsa year, and a distance in the sense of the statement. -/
example : IsDistance (fun z => (SuriyaYear.init z).isAdhikamasa) 2015 3 := by
  obtain ⟨r, hr, h, -⟩ := c34_adhikamasa 2015
  have e : (SuriyaYear.init 2015).deltaAdhikamasa = some 3 := by decide +kernel
  rw [e] at hr
  exact ((h 3 (by decide)).1 (Option.some.inj hr).symm).2

/-- C34: `DeltaAdhikavara`, with bound 13, for every exception setting. -/
theorem c34_adhikavara (cfg : Config) (y : Int) : ∃ r, (SuriyaYear.init y).deltaAdhikavara cfg = some r ∧
    (∀ d, d ≠ -1 → (r = d ↔ (d ≤ 13 ∧ IsDistance (fun z => (SuriyaYear.init z).isAdhikavara cfg) y d))) ∧
    (r = -1 ↔ ∀ e, 1 ≤ e → e ≤ 13 → (SuriyaYear.init (y - e)).isAdhikavara cfg = false) :=
  delta_iff (SuriyaYear.isAdhikavara cfg) 12 y (by decide) (by decide)

/-- C34: 2016 comes seven years after an adhikavāra year. -/
example : IsDistance (fun z => (SuriyaYear.init z).isAdhikavara .default) 2016 7 := by
  obtain ⟨r, hr, h, -⟩ := c34_adhikavara .default 2016
  have e : (SuriyaYear.init 2016).deltaAdhikavara .default = some 7 := by decide +kernel
  rw [e] at hr
  exact ((h 7 (by decide)).1 (Option.some.inj hr).symm).2

/-- C34: from 641 `DeltaAdhikamasa` is 1, 2 or 3. -/
theorem c34_adhikamasa_small (y : Int) (h : 641 ≤ y) : ∃ r, (SuriyaYear.init y).deltaAdhikamasa = some r ∧
    1 ≤ r ∧ r ≤ 3 := by
  obtain ⟨r, h1, h2, h3⟩ := c34_adhikamasa y
  refine ⟨r, h1, ?_⟩
  have h4 := c06_some_within_three (y - 3) (by omega)
  have e1 : y - 3 + 1 = y - 2 := by omega
  have e2 : y - 3 + 2 = y - 1 := by omega
  rw [e1, e2] at h4
  have hne : r ≠ -1 := by
    intro hr
    have := h3.1 hr
    have := this 1 (by omega) (by omega)
    have := h3.1 hr 2 (by omega) (by omega)
    have := h3.1 hr 3 (by omega) (by omega)
    simp_all
  have h5 := (h2 r hne).1 rfl
  refine ⟨h5.2.1, ?_⟩
  by_contra hc
  have a := h5.2.2.2 1 (by omega) (by omega)
  have b := h5.2.2.2 2 (by omega) (by omega)
  have c := h5.2.2.2 3 (by omega) (by omega)
  simp only at a b c
  simp_all

/-- C34: a year far in the future. -/
example : ∃ r, (SuriyaYear.init 1000000).deltaAdhikamasa = some r ∧ 1 ≤ r ∧ r ≤ 3 := c34_adhikamasa_small 1000000 (by decide)

/-- C10/C34: from 645 `DeltaAdhikavara` (default settings) is between 1 and 7, never -1. -/
theorem c34_adhikavara_small (y : Int) (h : 645 ≤ y) : ∃ r, (SuriyaYear.init y).deltaAdhikavara .default = some r ∧
    1 ≤ r ∧ r ≤ 7 := by
  obtain ⟨r, h1, h2, h3⟩ := c34_adhikavara .default y
  refine ⟨r, h1, ?_⟩
  obtain ⟨i, h4, h5, h6⟩ := c10_within_seven (y - 7) (by omega)
  have e : y - 7 + i = y - (7 - i) := by omega
  rw [e] at h6
  have hne : r ≠ -1 := by
    intro hr
    have := h3.1 hr (7 - i) (by omega) (by omega)
    rw [h6] at this; simp at this
  have h7 := (h2 r hne).1 rfl
  refine ⟨h7.2.1, ?_⟩
  by_contra hc
  have := h7.2.2.2 (7 - i) (by omega) (by omega)
  simp only at this
  rw [h6] at this; simp at this

/-- Both outcomes of C34 occur: a distance, and -1 far before the era. -/
example : (SuriyaYear.init 2015).deltaAdhikamasa = some 3 ∧ (SuriyaYear.init 600).deltaAdhikamasa = some (-1) ∧
    (SuriyaYear.init 2016).deltaAdhikavara .default = some 7 := by decide +kernel

end Verif.Props
