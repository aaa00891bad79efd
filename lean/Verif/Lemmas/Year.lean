import Verif.Model.Year
/-
Helper lemmas on the year arithmetic: floor-division forms of the fields of `SuriyaYear.init` for
years ≥ 638, yearly increments, closed forms of the adhikamāsa and adhikavāra rules.
-/
set_option autoImplicit false

namespace Verif.Lemmas
open Verif.Model

/-- Era numerator of year `y`. -/
def eraNum (y : Int) : Int := 292207 * (y - 638) + 373
/-- Horakhun by floor division. -/
def hor (y : Int) : Int := eraNum y / 800 + 1
/-- Number of completed 692-avoman wraps. -/
def wraps (y : Int) : Int := (11 * hor y + 650) / 692
/-- Elapsed tithis of the era. -/
def rawTithi (y : Int) : Int := hor y + wraps y
/-- Avoman by floor division. -/
def avo (y : Int) : Int := (11 * hor y + 650) % 692

theorem eraNum_succ (y : Int) : eraNum (y + 1) = eraNum y + 292207 := by unfold eraNum; omega

theorem hor_pos {y : Int} (h : 638 ≤ y) : 1 ≤ hor y := by unfold hor eraNum; omega

theorem init_Year (y : Int) : (SuriyaYear.init y).Year = y := rfl

theorem init_Horakhun {y : Int} (h : 638 ≤ y) : (SuriyaYear.init y).Horakhun = hor y := by
  simp only [SuriyaYear.init, EraDays, EraHorakhun, KammacubalaDaily, CSdiff, hor]
  rw [Int.tdiv_eq_ediv_of_nonneg (by omega)]
  unfold eraNum
  rw [Int.mul_comm (y - 638)]

theorem init_Kammacubala {y : Int} (h : 638 ≤ y) :
    (SuriyaYear.init y).Kammacubala = 800 - eraNum y % 800 := by
  simp only [SuriyaYear.init, EraDays, EraHorakhun, KammacubalaDaily, CSdiff]
  rw [Int.tmod_eq_emod_of_nonneg (by omega)]
  unfold eraNum
  rw [Int.mul_comm (y - 638)]

theorem init_Uccabala {y : Int} (h : 638 ≤ y) :
    (SuriyaYear.init y).Uccabala = (hor y + 2611) % 3232 := by
  have h1 := init_Horakhun h
  have h2 := hor_pos h
  have : (SuriyaYear.init y).Uccabala = ((SuriyaYear.init y).Horakhun + 2611).tmod 3232 := rfl
  rw [this, h1, Int.tmod_eq_emod_of_nonneg (by omega)]

theorem init_Avoman {y : Int} (h : 638 ≤ y) : (SuriyaYear.init y).Avoman = avo y := by
  have h1 := init_Horakhun h
  have h2 := hor_pos h
  have : (SuriyaYear.init y).Avoman = ((SuriyaYear.init y).Horakhun * 11 + 650).tmod 692 := rfl
  rw [this, h1, Int.tmod_eq_emod_of_nonneg (by omega), Int.mul_comm]; rfl

theorem init_Masaken {y : Int} (h : 638 ≤ y) : (SuriyaYear.init y).Masaken = rawTithi y / 30 := by
  have h1 := init_Horakhun h
  have h2 := hor_pos h
  have : (SuriyaYear.init y).Masaken = (((SuriyaYear.init y).Horakhun * 11 + 650).fdiv 692 + 0 +
      (SuriyaYear.init y).Horakhun).tdiv 30 := rfl
  rw [this, h1, Int.fdiv_eq_ediv_of_nonneg _ (by omega), Int.tdiv_eq_ediv_of_nonneg (by omega)]
  unfold rawTithi wraps; rw [Int.mul_comm (hor y) 11]; congr 1; omega

theorem init_Tithi {y : Int} (h : 638 ≤ y) : (SuriyaYear.init y).Tithi = rawTithi y % 30 := by
  have h1 := init_Horakhun h
  have h2 := hor_pos h
  have : (SuriyaYear.init y).Tithi = (((SuriyaYear.init y).Horakhun * 11 + 650).fdiv 692 +
      (SuriyaYear.init y).Horakhun).tmod 30 := rfl
  rw [this, h1, Int.fdiv_eq_ediv_of_nonneg _ (by omega), Int.tmod_eq_emod_of_nonneg (by omega)]
  unfold rawTithi wraps; rw [Int.mul_comm (hor y) 11]; congr 1; omega

/-! Yearly increments (valid for every integer year, since floor division is used). -/

theorem hor_succ (y : Int) :
    hor (y + 1) = hor y + (if 593 ≤ eraNum y % 800 then 366 else 365) := by
  unfold hor; rw [eraNum_succ]; split <;> omega

theorem wraps_succ (y : Int) :
    wraps (y + 1) = wraps y +
      (if 593 ≤ eraNum y % 800 then (if avo y < 126 then 5 else 6) else (if avo y < 137 then 5 else 6)) := by
  unfold wraps avo; rw [hor_succ]; split <;> split <;> omega

theorem rawTithi_succ (y : Int) :
    rawTithi y + 370 ≤ rawTithi (y + 1) ∧ rawTithi (y + 1) ≤ rawTithi y + 372 := by
  unfold rawTithi; rw [hor_succ, wraps_succ]; split <;> split <;> omega

theorem rawTithi_succ2 (y : Int) :
    rawTithi y + 741 ≤ rawTithi (y + 2) ∧ rawTithi (y + 2) ≤ rawTithi y + 743 := by
  unfold rawTithi wraps hor
  have : eraNum (y+2) = eraNum y + 584414 := by unfold eraNum; omega
  rw [this]; omega

theorem wouldBe_iff {y : Int} (h : 638 ≤ y) : (SuriyaYear.init y).wouldBeAdhikamasa = true ↔
    (24 ≤ rawTithi y % 30 ∨ rawTithi y % 30 ≤ 5) := by
  have := init_Tithi h
  simp only [SuriyaYear.wouldBeAdhikamasa, this]
  simp; omega

/-- Closed form of the adhikamāsa rule: the year contains 13 months of a single global month count. -/
theorem isAdhikamasa_iff {y : Int} (h : 638 ≤ y) : (SuriyaYear.init y).isAdhikamasa = true ↔
    (rawTithi (y + 1) - 6) / 30 = (rawTithi y - 6) / 30 + 13 := by
  have h1 := wouldBe_iff h
  have h2 := wouldBe_iff (y := y + 1) (by omega)
  have h3 := rawTithi_succ y
  simp only [SuriyaYear.isAdhikamasa, init_Year, Bool.and_eq_true, Bool.not_eq_true', h1,
    ← Bool.not_eq_true, h2]
  omega

theorem not_isAdhikamasa_iff {y : Int} (h : 638 ≤ y) : (SuriyaYear.init y).isAdhikamasa = false ↔
    (rawTithi (y + 1) - 6) / 30 = (rawTithi y - 6) / 30 + 12 := by
  have h1 := isAdhikamasa_iff h
  have h3 := rawTithi_succ y
  rw [← Bool.not_eq_true, h1]
  omega

end Verif.Lemmas
