import Verif.Lemmas.Year
import Verif.Lemmas.Count
/-
Properties C01, C03-C10 (year arithmetic and intercalation rules).
-/
set_option autoImplicit false

namespace Verif.Props
open Verif.Model Verif.Spec Verif.Lemmas

/-! ### C01 -/

/-- C01: for every year from 638 the fields set by `Init` are Suriyayatra year quantities. -/
theorem c01_init_values (y : Int) (h : 638 ≤ y) :
    (SuriyaYear.init y).Year = y ∧ (SuriyaYear.init y).BE_Year = y + 543 ∧
    (SuriyaYear.init y).CS_Year = y - 638 ∧
    YearQuantities (y - 638) (SuriyaYear.init y).Horakhun (SuriyaYear.init y).Kammacubala
      (SuriyaYear.init y).Avoman (SuriyaYear.init y).Masaken (SuriyaYear.init y).Tithi
      (SuriyaYear.init y).Uccabala := by
  refine ⟨rfl, rfl, rfl, ?_⟩
  rw [init_Horakhun h, init_Kammacubala h, init_Avoman h, init_Masaken h, init_Tithi h, init_Uccabala h]
  have := hor_pos h
  constructor
  · unfold hor eraNum; omega
  · omega
  · unfold rawTithi wraps avo; omega
  · unfold avo; omega
  · omega
  · exact ⟨(hor y + 2611) / 3232, by omega⟩
  · omega

/-- C01, uniqueness: the specification determines the quantities. -/
theorem c01_unique {cs h k a m t u h' k' a' m' t' u' : Int}
    (q : YearQuantities cs h k a m t u) (q' : YearQuantities cs h' k' a' m' t' u') :
    h = h' ∧ k = k' ∧ a = a' ∧ m = m' ∧ t = t' ∧ u = u' := by
  obtain ⟨e, kr, ti, ar, tr, ⟨n, ap⟩, ur⟩ := q
  obtain ⟨e', kr', ti', ar', tr', ⟨n', ap'⟩, ur'⟩ := q'
  have h1 : h = h' := by omega
  subst h1
  have h2 : a = a' := by omega
  have h3 : 30 * m + t = 30 * m' + t' := by omega
  refine ⟨rfl, by omega, h2, by omega, by omega, by omega⟩

/-- C01 holds of a concrete year with Eade's published values (CE 1963). -/
example : YearQuantities 1325 483969 552 61 16388 23 1780 := (c01_init_values 1963 (by decide)).2.2.2

/-! ### C03 -/

/-- C03: for every year before the era, Tithi, Masaken and Horakhun are ≤ 0 and Kammacubala is
at least 800, with equality exactly in the years congruent to 99 modulo 800. -/
theorem c03_before_era (y : Int) (h : y < 638) :
    (SuriyaYear.init y).Tithi ≤ 0 ∧ (SuriyaYear.init y).Masaken ≤ 0 ∧ (SuriyaYear.init y).Horakhun < 0 ∧
    800 ≤ (SuriyaYear.init y).Kammacubala ∧ ((SuriyaYear.init y).Kammacubala = 800 ↔ y % 800 = 99) ∧
    ((SuriyaYear.init y).wouldBeAdhikamasa = true → (SuriyaYear.init y).Tithi = 0) := by
  have key : ∀ z : Int, z ≤ 0 → z.tmod 30 ≤ 0 ∧ z.tdiv 30 ≤ 0 := by
    intro z hz
    have e : z = -(-z) := by omega
    rw [e, Int.neg_tmod, Int.neg_tdiv, Int.tmod_eq_emod_of_nonneg (by omega),
      Int.tdiv_eq_ediv_of_nonneg (by omega)]
    omega
  have hk : ((y - 638) * 292207 + 373) < 0 := by omega
  have hx : ((y - 638) * 292207 + 373).tmod 800 ≤ 0 ∧ ((y - 638) * 292207 + 373).tdiv 800 < -1 ∧
      (((y - 638) * 292207 + 373).tmod 800 = 0 ↔ y % 800 = 99) := by
    have e : ((y - 638) * 292207 + 373) = -(-((y - 638) * 292207 + 373)) := by omega
    rw [e, Int.neg_tmod, Int.neg_tdiv, Int.tmod_eq_emod_of_nonneg (by omega),
      Int.tdiv_eq_ediv_of_nonneg (by omega)]
    refine ⟨by omega, by omega, by omega⟩
  have hh : (SuriyaYear.init y).Horakhun < 0 := by
    have : (SuriyaYear.init y).Horakhun = ((y - 638) * 292207 + 373).tdiv 800 + 1 := rfl
    omega
  have hfd : ((SuriyaYear.init y).Horakhun * 11 + 650).fdiv 692 + (SuriyaYear.init y).Horakhun ≤ 0 := by
    rw [Int.fdiv_eq_ediv_of_nonneg _ (by omega)]
    omega
  have ht : (SuriyaYear.init y).Tithi ≤ 0 := (key _ hfd).1
  have hkam : (SuriyaYear.init y).Kammacubala = 800 - ((y - 638) * 292207 + 373).tmod 800 := rfl
  refine ⟨ht, ?_, hh, by omega, by omega, ?_⟩
  · have := (key _ hfd).2
    have e : (SuriyaYear.init y).Masaken = (((SuriyaYear.init y).Horakhun * 11 + 650).fdiv 692 + 0 +
      (SuriyaYear.init y).Horakhun).tdiv 30 := rfl
    rw [e, Int.add_zero]; exact this
  · intro hw
    simp [SuriyaYear.wouldBeAdhikamasa] at hw
    omega

/-- The bounds of C03 are met by a concrete year in a non-trivial way. -/
example : (SuriyaYear.init 630).Tithi = -26 ∧ (SuriyaYear.init 630).Kammacubala = 1283 := by decide

/-! ### C04 -/

/-- C04: consecutive New Years are 365 or 366 days apart, 366 exactly in a Suriya leap year. -/
theorem c04_year_days (y : Int) (h : 638 ≤ y) :
    (SuriyaYear.init (y + 1)).Horakhun - (SuriyaYear.init y).Horakhun =
      (if (SuriyaYear.init y).isSuriyaLeap = true then 366 else 365) := by
  rw [init_Horakhun h, init_Horakhun (y := y + 1) (by omega), hor_succ]
  unfold SuriyaYear.isSuriyaLeap
  rw [init_Kammacubala h]
  simp only [decide_eq_true_eq]
  split <;> split <;> omega

/-- C04: the first year of the era, a year of 366 days and one of 365. -/
example : (SuriyaYear.init 639).Horakhun - (SuriyaYear.init 638).Horakhun = 365 ∧
    (SuriyaYear.init 1985).Horakhun - (SuriyaYear.init 1984).Horakhun = 366 :=
  ⟨c04_year_days 638 (by decide), c04_year_days 1984 (by decide)⟩

/-- C04: 800 years are exactly 292207 days. -/
theorem c04_era_cycle (y : Int) (h : 638 ≤ y) :
    (SuriyaYear.init (y + 800)).Horakhun = (SuriyaYear.init y).Horakhun + 292207 := by
  rw [init_Horakhun h, init_Horakhun (y := y + 800) (by omega)]
  unfold hor eraNum; omega

/-- C04: 800 years from 1984. -/
example : (SuriyaYear.init 2784).Horakhun = (SuriyaYear.init 1984).Horakhun + 292207 := c04_era_cycle 1984 (by decide)

/-- C04: the number of Suriya leap years in a window counts the days above 365 per year. -/
theorem c04_leap_count (y : Int) (h : 638 ≤ y) (n : Nat) :
    (countYears (fun z => (SuriyaYear.init z).isSuriyaLeap) y n : Int) =
      (SuriyaYear.init (y + n)).Horakhun - (SuriyaYear.init y).Horakhun - 365 * n := by
  induction n with
  | zero => simp [countYears_zero]
  | succ n ih =>
    rw [countYears_succ]
    have h4 := c04_year_days (y + n) (by omega)
    have e : y + ((n + 1 : Nat) : Int) = y + n + 1 := by omega
    rw [e]
    split at h4 <;> rename_i hl <;> simp only [hl] at * <;> simp at * <;> omega

/-- C04: 25 leap years in the hundred years from 1900. -/
example : countYears (fun z => (SuriyaYear.init z).isSuriyaLeap) 1900 100 = 25 := by
  have h := c04_leap_count 1900 (by decide) 100
  have e : (SuriyaYear.init (1900 + ((100 : Nat) : Int))).Horakhun - (SuriyaYear.init 1900).Horakhun - 365 * ((100 : Nat) : Int) = 25 := by decide
  omega

/-- C04: any 800 consecutive years contain exactly 207 Suriya leap years. -/
theorem c04_leap_years_per_cycle (y : Int) (h : 638 ≤ y) :
    countYears (fun z => (SuriyaYear.init z).isSuriyaLeap) y 800 = 207 := by
  have h1 := c04_leap_count y h 800
  have h2 := c04_era_cycle y h
  have e : y + ((800 : Nat) : Int) = y + 800 := rfl
  rw [e, h2] at h1
  omega

example : (SuriyaYear.init 1984).isSuriyaLeap = true ∧ (SuriyaYear.init 1985).isSuriyaLeap = false := by decide

/-! ### C05 -/

/-- C05: per year the tithi advances by 10, 11 or 12 modulo 30, the month count by 12 or 13. -/
theorem c05_progress (y : Int) (h : 638 ≤ y) :
    (∃ d : Int, 10 ≤ d ∧ d ≤ 12 ∧
      (SuriyaYear.init (y + 1)).Tithi = ((SuriyaYear.init y).Tithi + d) % 30) ∧
    ((SuriyaYear.init (y + 1)).Masaken = (SuriyaYear.init y).Masaken + 12 ∨
     (SuriyaYear.init (y + 1)).Masaken = (SuriyaYear.init y).Masaken + 13) := by
  have h' : 638 ≤ y + 1 := by omega
  rw [init_Tithi h, init_Tithi h', init_Masaken h, init_Masaken h']
  have := rawTithi_succ y
  refine ⟨⟨rawTithi (y + 1) - rawTithi y - 360, by omega, by omega, by omega⟩, by omega⟩

/-- C05: from 2015 to 2016 the tithi goes from 28 to 9 and 13 months pass. -/
example : (SuriyaYear.init 2015).Tithi = 28 ∧ (SuriyaYear.init 2016).Tithi = 9 ∧
    (SuriyaYear.init 2016).Masaken = (SuriyaYear.init 2015).Masaken + 13 := by decide

/-! ### C06 -/

/-- C06: no two consecutive years are adhikamāsa; any year, any era. -/
theorem c06_never_consecutive (y : Int) :
    ¬ ((SuriyaYear.init y).isAdhikamasa = true ∧ (SuriyaYear.init (y + 1)).isAdhikamasa = true) := by
  rintro ⟨h1, h2⟩
  simp only [SuriyaYear.isAdhikamasa, init_Year, Bool.and_eq_true, Bool.not_eq_true'] at h1 h2
  rw [h2.2] at h1
  exact absurd h1.1 (by simp)

/-- C06: the next adhikamāsa year after an adhikamāsa year is 2 or 3 years later, never less or more. -/
theorem c06_gap (y : Int) (h : 638 ≤ y) (ha : (SuriyaYear.init y).isAdhikamasa = true) :
    (SuriyaYear.init (y + 1)).isAdhikamasa = false ∧
    ((SuriyaYear.init (y + 2)).isAdhikamasa = true ∨
     ((SuriyaYear.init (y + 2)).isAdhikamasa = false ∧ (SuriyaYear.init (y + 3)).isAdhikamasa = true)) := by
  have r0 := rawTithi_succ y
  have r1 := rawTithi_succ (y + 1)
  have r2 := rawTithi_succ (y + 2)
  have r3 := rawTithi_succ (y + 3)
  have s1 := rawTithi_succ2 (y + 1)
  have s0 := rawTithi_succ2 y
  have s2 := rawTithi_succ2 (y + 2)
  have e1 : y + 1 + 1 = y + 2 := by omega
  have e2 : y + 2 + 1 = y + 3 := by omega
  have e3 : y + 3 + 1 = y + 4 := by omega
  have e4 : y + 1 + 2 = y + 3 := by omega
  have e5 : y + 2 + 2 = y + 4 := by omega
  have a0 := isAdhikamasa_iff h
  have b1 := not_isAdhikamasa_iff (y := y + 1) (by omega)
  have a2 := isAdhikamasa_iff (y := y + 2) (by omega)
  have b2 := not_isAdhikamasa_iff (y := y + 2) (by omega)
  have a3 := isAdhikamasa_iff (y := y + 3) (by omega)
  simp only [e1, e2, e3, e4, e5] at *
  rw [a0] at ha
  rw [b1, a2, b2, a3]
  omega

/-- C06: after 2015 the next adhikamāsa year is 2018; after 2010 it is 2012. -/
example : (SuriyaYear.init 2015).isAdhikamasa = true ∧ (SuriyaYear.init 2017).isAdhikamasa = false ∧ (SuriyaYear.init 2018).isAdhikamasa = true ∧
    (SuriyaYear.init 2010).isAdhikamasa = true ∧ (SuriyaYear.init 2012).isAdhikamasa = true :=
  ⟨by decide, by decide, by decide, by decide, by decide⟩

/-- C06: among any three consecutive years (from 638) at least one is adhikamāsa. -/
theorem c06_some_within_three (y : Int) (h : 638 ≤ y) :
    (SuriyaYear.init y).isAdhikamasa = true ∨ (SuriyaYear.init (y + 1)).isAdhikamasa = true ∨
    (SuriyaYear.init (y + 2)).isAdhikamasa = true := by
  have r0 := rawTithi_succ y
  have r1 := rawTithi_succ (y + 1)
  have r2 := rawTithi_succ (y + 2)
  have s1 := rawTithi_succ2 (y + 1)
  have s0 := rawTithi_succ2 y
  have e1 : y + 1 + 1 = y + 2 := by omega
  have e2 : y + 2 + 1 = y + 3 := by omega
  have e4 : y + 1 + 2 = y + 3 := by omega
  rw [isAdhikamasa_iff h, isAdhikamasa_iff (y := y + 1) (by omega), isAdhikamasa_iff (y := y + 2) (by omega)]
  simp only [e1, e2, e4] at *
  omega

example : (SuriyaYear.init 2010).isAdhikamasa = true ∧ (SuriyaYear.init 2012).isAdhikamasa = true ∧
    (SuriyaYear.init 2015).isAdhikamasa = true := by decide

/-! ### C07 -/

/-- C07, exact form: the months the calendar puts into `n` years from `y` are the increments of one floor
function of the elapsed tithis `30*Masaken + Tithi`. -/
theorem c07_month_count_exact (y : Int) (h : 638 ≤ y) (n : Nat) :
    12 * (n : Int) + countYears (fun z => (SuriyaYear.init z).isAdhikamasa) y n =
      (30 * (SuriyaYear.init (y + n)).Masaken + (SuriyaYear.init (y + n)).Tithi - 6) / 30 -
      (30 * (SuriyaYear.init y).Masaken + (SuriyaYear.init y).Tithi - 6) / 30 := by
  have key : ∀ z, 638 ≤ z → 30 * (SuriyaYear.init z).Masaken + (SuriyaYear.init z).Tithi = rawTithi z := by
    intro z hz; rw [init_Masaken hz, init_Tithi hz]; omega
  induction n with
  | zero => simp [countYears_zero]
  | succ n ih =>
    rw [countYears_succ]
    rw [key _ (by omega), key _ h] at *
    have e : y + ((n + 1 : Nat) : Int) = y + n + 1 := by omega
    rw [e]
    have a := isAdhikamasa_iff (y := y + n) (by omega)
    have b := not_isAdhikamasa_iff (y := y + n) (by omega)
    rcases hb : (SuriyaYear.init (y + n)).isAdhikamasa with _ | _
    · rw [hb] at b; have := b.1 rfl; simp; omega
    · rw [hb] at a; have := a.1 rfl; simp; omega

/-- C07: 235 months in the 19 years from 1984. -/
example : 12 * ((19 : Nat) : Int) + countYears (fun z => (SuriyaYear.init z).isAdhikamasa) 1984 19 = 235 :=
  (c07_month_count_exact 1984 (by decide) 19).trans (by decide)

/-- C07: over any span the calendar's month count differs from the Masaken count by at most one. -/
theorem c07_no_month_drift (y : Int) (h : 638 ≤ y) (n : Nat) :
    ((12 * (n : Int) + countYears (fun z => (SuriyaYear.init z).isAdhikamasa) y n) -
      ((SuriyaYear.init (y + n)).Masaken - (SuriyaYear.init y).Masaken)).natAbs ≤ 1 := by
  rw [c07_month_count_exact y h n]
  have h1 := (c01_init_values y h).2.2.2.tithi_range
  have h2 := (c01_init_values (y + n) (by omega)).2.2.2.tithi_range
  omega

/-- C07: ten thousand years after 638 the two counts of months still differ by one at most. -/
example : ((12 * ((10000 : Nat) : Int) + countYears (fun z => (SuriyaYear.init z).isAdhikamasa) 638 10000) -
    ((SuriyaYear.init (638 + (10000 : Nat))).Masaken - (SuriyaYear.init 638).Masaken)).natAbs ≤ 1 :=
  c07_no_month_drift 638 (by decide) 10000

/-! ### C08, C09 -/

/-- C08: with the default settings a year is never both adhikamāsa and adhikavāra, for any `SuriyaYear` value. -/
theorem c08_exclusive_default (su : SuriyaYear) :
    ¬ (su.isAdhikamasa = true ∧ su.isAdhikavara .default = true) := by
  rintro ⟨h1, h2⟩
  simp [SuriyaYear.isAdhikavara, Config.default, SuriyaYear.isAdhikavaraRule, h1] at h2

/-- C08: the same with `UseExceptions` and the shipped exception table, for every year. -/
theorem c08_exclusive_official (y : Int) :
    ¬ ((SuriyaYear.init y).isAdhikamasa = true ∧ (SuriyaYear.init y).isAdhikavara .official = true) := by
  rintro ⟨h1, h2⟩
  simp only [SuriyaYear.isAdhikavara, Config.official, if_true, init_Year, shippedExceptions] at h2
  by_cases e1 : y = 1994
  · simp [e1] at h2
  · by_cases e2 : y = 1997
    · subst e2; revert h1; decide
    · simp [e1, e2, SuriyaYear.isAdhikavaraRule, h1] at h2

/-- C08: for an arbitrary exception table, exclusivity fails exactly at adhikamāsa years that an entry
marks as adhikavāra. -/
theorem c08_exclusive_iff (cfg : Config) (su : SuriyaYear) :
    (su.isAdhikamasa = true ∧ su.isAdhikavara cfg = true) ↔
      (su.isAdhikamasa = true ∧ cfg.useExceptions = true ∧ cfg.exceptions su.Year = some true) := by
  constructor
  · rintro ⟨h1, h2⟩
    refine ⟨h1, ?_⟩
    unfold SuriyaYear.isAdhikavara at h2
    split at h2
    · rename_i hu
      refine ⟨hu, ?_⟩
      split at h2
      · rename_i b hb; rw [hb, h2]
      · simp [SuriyaYear.isAdhikavaraRule, h1] at h2
    · simp [SuriyaYear.isAdhikavaraRule, h1] at h2
  · rintro ⟨h1, h2, h3⟩
    exact ⟨h1, by simp [SuriyaYear.isAdhikavara, h2, h3]⟩

/-- The failing case of C08 exists: marking 2015 as an adhikavāra exception makes it both. -/
example : let cfg : Config := { useExceptions := true, exceptions := fun y => if y = 2015 then some true else none }
    (SuriyaYear.init 2015).isAdhikamasa = true ∧ (SuriyaYear.init 2015).isAdhikavara cfg = true := by decide

/-- C09: `YearLength` for every year value and setting. -/
theorem c09_year_length (cfg : Config) (su : SuriyaYear) :
    (su.yearLength cfg = 384 ↔ su.isAdhikamasa = true) ∧
    (su.yearLength cfg = 355 ↔ (su.isAdhikamasa = false ∧ su.isAdhikavara cfg = true)) ∧
    (su.yearLength cfg = 354 ↔ (su.isAdhikamasa = false ∧ su.isAdhikavara cfg = false)) := by
  unfold SuriyaYear.yearLength
  rcases h1 : su.isAdhikamasa <;> rcases h2 : su.isAdhikavara cfg <;> simp

example : (SuriyaYear.init 2015).yearLength .default = 384 ∧ (SuriyaYear.init 2016).yearLength .default = 355 ∧
    (SuriyaYear.init 2017).yearLength .default = 354 := by decide

end Verif.Props
