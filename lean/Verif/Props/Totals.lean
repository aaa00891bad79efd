import Verif.Props.Festivals
/-
Property C24: how many uposathas and half moons are returned for a number of consecutive years, and how many are lost.
-/
set_option autoImplicit false

namespace Verif.Props
open Verif.Go Verif.Model Verif.Spec Verif.Lemmas

/-- Days from the Kattika full moon before a year to its New Year's Day. -/
def toNewYear (cfg : Config) (y : Int) : Int := daysSinceEpoch y - (calculatePreviousKattika cfg y).day

theorem toNewYear_eq (cfg : Config) (y : Int) : toNewYear cfg y = daysSinceEpoch y - katDay cfg y := rfl

/-- How far the loop goes if the next Kattika is `s` days before New Year. -/
def covered (a : Bool) (s : Int) : Nat := if 0 < s then moons a + 8 else moons a

/-- Table entries whose day plus `n` falls within `D` days from day `s`, if the loop goes as far as `m`. -/
def hitsUpTo (a v : Bool) (m : Nat) (n s D : Int) : Nat := ((offs a v).take m).countP (fun o => decide (s ≤ o + n ∧ o + n < s + D))

/-- The table entries in a year: those of the lunar year, less those before this New Year, and those before the next one. -/
def totalOk (a v : Bool) (s D : Int) : Bool :=
  ((hitsUpTo a v (covered a (s + D - len a v)) 0 s D : Int) ==
    moons a + (4 * (s + D - len a v) - 3) / 59 - max 0 ((4 * s - 3) / 59)) &&
  ((hitsUpTo a v (covered a (s + D - len a v)) 8 s D : Int) ==
    moons a + (4 * (s + D - len a v) - 35) / 59 - max 0 ((4 * s - 35) / 59))

theorem total_table : ∀ a v : Bool, (a && v) = false → ∀ l : Bool,
    scanAll (fun s => !(decide (-28 ≤ s + (if l then 366 else 365) - len a v ∧
      s + (if l then 366 else 365) - len a v ≤ 88)) || totalOk a v s (if l then 366 else 365)) 129 (-40) = true := by
  decide +kernel

section
variable {cfg : Config} {y : Int} (hex : (fa y && fv cfg y) = false) (hlo : daysSinceEpoch y - 88 ≤ katDay cfg y)
  (hlo' : daysSinceEpoch (y + 1) - 88 ≤ katDay cfg (y + 1)) (hhi : katDay cfg (y + 1) < daysSinceEpoch (y + 1) + 29)
include hex hlo hlo' hhi

/-- The moons of the loop are on the days of the table. -/
theorem covered_days (k : Nat) (hk : k ≤ covered (fa y) (toNewYear cfg (y + 1))) :
    (chain cfg y k).Date.day = eoff (fa y) (fv cfg y) k + katDay cfg y := by
  obtain ⟨ly, h0⟩ := seed_shift cfg y
  have L := lunar_year hex hlo hhi h0
  by_cases hm : k ≤ moons (fa y)
  · unfold eoff ext
    rw [if_pos hm, core_date (L k hm).1, day_shift]
  · unfold covered at hk
    have hneg : katDay cfg (y + 1) < daysSinceEpoch (y + 1) := by
      rw [toNewYear_eq] at hk
      split at hk <;> omega
    have hj : k ≤ moons (fa y) + 8 := by split at hk <;> omega
    have hK := katDay_succ cfg y
    rw [len_eq] at hK
    have hcl := tab_close _ _ hex
    have hc : chain cfg y (moons (fa y)) = shift (katDay cfg (y + 1)) (1 + ly) seed0 := by
      rw [(L _ (Nat.le_refl _)).2.2.1 hneg rfl, hcl, hK]
      unfold shift seed0 Time.add
      simp only [UposathaMoon.mk.injEq, Time.mk.injEq, and_true, true_and]
      generalize len _ _ = L
      unfold nsPerDay; omega
    have F := chain_from hc (k - moons (fa y))
    have e : moons (fa y) + (k - moons (fa y)) = k := by omega
    rw [e] at F
    rw [core_date (F.1 (by omega)), day_shift]
    unfold eoff ext
    rw [if_neg hm, day_shift]
    generalize len _ _ = L at *
    omega

theorem covered_end : y < (chain cfg y (covered (fa y) (toNewYear cfg (y + 1)))).Date.year := by
  have hd := covered_days hex hlo hlo' hhi _ (Nat.le_refl _)
  have hl : ∀ a v : Bool, (a && v) = false → eoff a v (moons a + 8) = len a v + 118 ∧ eoff a v (moons a) = len a v := by decide +kernel
  have hK := katDay_succ cfg y
  rw [len_eq] at hK
  have : ¬ (chain cfg y (covered (fa y) (toNewYear cfg (y + 1)))).Date.year ≤ y := by
    unfold Time.year
    rw [year_le_iff, hd]
    unfold covered
    rw [toNewYear_eq]
    obtain ⟨l1, l2⟩ := hl _ _ hex
    split
    · rw [l1]; generalize len _ _ = L at *; omega
    · rw [l2]; generalize len _ _ = L at *; omega
  omega

theorem covered_count (n : Int) :
    ((List.range (covered (fa y) (toNewYear cfg (y + 1)))).filter (fun i =>
      decide ((yearYday ((chain cfg y (0 + i + 1)).Date.day + n)).1 = y))).length =
    hitsUpTo (fa y) (fv cfg y) (covered (fa y) (toNewYear cfg (y + 1))) n (toNewYear cfg y) (Spec.yearDays y) := by
  have hc : covered (fa y) (toNewYear cfg (y + 1)) ≤ moons (fa y) + 8 := by unfold covered; split <;> omega
  unfold hitsUpTo
  rw [← offs_eq _ _ hex, ← List.map_take, List.take_range, Nat.min_eq_left hc, List.countP_map, List.countP_eq_length_filter]
  congr 1
  apply List.filter_congr
  intro i hi
  have hi' := List.mem_range.1 hi
  have hs := daysSinceEpoch_succ y
  rw [Nat.zero_add]
  simp only [Function.comp]
  rw [decide_eq_decide, year_eq_iff, covered_days hex hlo hlo' hhi _ (by omega), toNewYear_eq]
  omega

/-- One year. -/
theorem year_total :
    ((uposathasOf (generateSolarYear cfg y)).length : Int) =
      moons (fa y) + (4 * toNewYear cfg (y + 1) - 3) / 59 - max 0 ((4 * toNewYear cfg y - 3) / 59) ∧
    ((halvesOf (generateSolarYear cfg y)).length : Int) =
      moons (fa y) + (4 * toNewYear cfg (y + 1) - 35) / 59 - max 0 ((4 * toNewYear cfg y - 35) / 59) := by
  rw [generate_eq (covered_end hex hlo hlo' hhi), uposathas_emitted, halves_emitted, List.length_map, List.length_map]
  have e1 : ∀ i, ((chain cfg y (0 + i + 1)).Date.addDays 8).year = (yearYday ((chain cfg y (0 + i + 1)).Date.day + 8)).1 := by
    intro i; unfold Time.year; rw [addDays_eq, day_add]
  have e0 : ∀ i, ((chain cfg y (0 + i + 1)).Date).year = (yearYday ((chain cfg y (0 + i + 1)).Date.day + 0)).1 := by
    intro i; unfold Time.year; rw [Int.add_zero]
  simp only [e1, e0]
  rw [covered_count hex hlo hlo' hhi 8, covered_count hex hlo hlo' hhi 0]
  have hsucc := daysSinceEpoch_succ y
  have hyd := yearDays_bounds y
  have hk := katDay_succ cfg y
  rw [len_eq] at hk
  have hL : 354 ≤ len (fa y) (fv cfg y) ∧ len (fa y) (fv cfg y) ≤ 384 := by unfold len; split <;> [omega; split <;> omega]
  have ht := total_table (fa y) (fv cfg y) hex (decide (Spec.yearDays y = 366))
  have eD : (if decide (Spec.yearDays y = 366) = true then (366 : Int) else 365) = Spec.yearDays y := by
    simp only [decide_eq_true_eq]; split <;> omega
  rw [eD] at ht
  have n1 := toNewYear_eq cfg y
  have n2 := toNewYear_eq cfg (y + 1)
  have eL : toNewYear cfg y + Spec.yearDays y - len (fa y) (fv cfg y) = toNewYear cfg (y + 1) := by
    generalize len _ _ = L at *
    omega
  have ht := scanAll_spec ht (toNewYear cfg y) (by generalize len _ _ = L at *; omega) (by omega)
  rw [eL] at ht
  rw [decide_eq_true (by omega)] at ht
  simp only [Bool.not_true, Bool.false_or, totalOk, Bool.and_eq_true, beq_iff_eq] at ht
  rw [eL] at ht
  exact ht

end

/-- The sum of `f` over the `n` years from `y` on. -/
def sumYears (f : Int → Nat) (y : Int) (n : Nat) : Nat := ((List.range n).map fun (i : Nat) => f (y + i)).sum

theorem sumYears_succ (f : Int → Nat) (y : Int) (n : Nat) : sumYears f y (n + 1) = sumYears f y n + f (y + n) := by
  unfold sumYears; rw [List.range_succ, List.map_append, List.sum_append]; simp

/-- C24, any settings: the uposathas of `n` consecutive years are those of `n` lunar years: 24 a year and two more for each adhikamāsa
year, but for the few between the Kattika full moon and New Year at either end and those that are lost: one for each Kattika
that falls into its year, two from the sixteenth day on. So it is with the half moons, of which the first is lost when
New Year's Day is one of the eight days after the Kattika full moon. -/
theorem c24_total_any (cfg : Config) (y : Int) (n : Nat)
    (hex : ∀ z, y ≤ z → z < y + n → ¬ ((SuriyaYear.init z).isAdhikamasa = true ∧ (SuriyaYear.init z).isAdhikavara cfg = true))
    (hw : ∀ z, y ≤ z → z ≤ y + n → -28 ≤ toNewYear cfg z ∧ toNewYear cfg z ≤ 88) :
    let months : Int := 12 * n + countYears (fun z => (SuriyaYear.init z).isAdhikamasa) y n
    let late := fun k : Int => countYears (fun z => decide (toNewYear cfg z ≤ k)) y n
    ((sumYears (fun z => (uposathasOf (generateSolarYear cfg z)).length) y n + late 0 + late (-15) : Nat) : Int) =
      2 * months + ((4 * toNewYear cfg (y + n) - 3) / 59 - (4 * toNewYear cfg y - 3) / 59) ∧
    ((sumYears (fun z => (halvesOf (generateSolarYear cfg z)).length) y n + late 8 + late (-7) + late (-21) : Nat) : Int) =
      2 * months + ((4 * toNewYear cfg (y + n) - 35) / 59 - (4 * toNewYear cfg y - 35) / 59) := by
  intro months late
  induction n with
  | zero => simp [sumYears, countYears, months, late]
  | succ n ih =>
    obtain ⟨i1, i2⟩ := ih (fun z h1 h2 => hex z h1 (by omega)) (fun z h1 h2 => hw z h1 (by omega))
    have hex' : (fa (y + n) && fv cfg (y + n)) = false := by
      have := hex (y + n) (by omega) (by omega)
      rcases a : (SuriyaYear.init (y + n)).isAdhikamasa <;> rcases b : (SuriyaYear.init (y + n)).isAdhikavara cfg <;> simp_all
    have w1 := hw (y + n) (by omega) (by omega)
    have w2 := hw (y + n + 1) (by omega) (by omega)
    have n1 := toNewYear_eq cfg (y + n)
    have n2 := toNewYear_eq cfg (y + n + 1)
    obtain ⟨t1, t2⟩ := year_total hex' (by omega) (by omega) (by omega)
    simp only [months, late, sumYears_succ, countYears_succ, decide_eq_true_eq]
    have e : y + ((n + 1 : Nat) : Int) = y + n + 1 := by omega
    rw [e]
    have em : (moons (fa (y + n)) : Int) = 24 + 2 * (if (SuriyaYear.init (y + n)).isAdhikamasa = true then 1 else 0 : Nat) := by
      unfold moons fa; split <;> rfl
    rw [em] at t1 t2
    clear n1 n2
    constructor
    · split <;> split <;> push_cast at * <;> omega
    · split <;> split <;> split <;> push_cast at * <;> omega

/-- C24: the years 2014 and 2015 with the official exceptions: 49 uposathas and 49 half moons. 2015 is an adhikamāsa year, and
New Year 2014 and 2016 come 45 and 37 days after the Kattika: 50 + 145 / 59 - 177 / 59 and 50 + 113 / 59 - 145 / 59. -/
example : sumYears (fun z => (uposathasOf (generateSolarYear .official z)).length) 2014 2 = 49 ∧
    sumYears (fun z => (halvesOf (generateSolarYear .official z)).length) 2014 2 = 49 ∧
    countYears (fun z => (SuriyaYear.init z).isAdhikamasa) 2014 2 = 1 ∧
    toNewYear .official 2014 = 45 ∧ toNewYear .official 2016 = 37 := by
  decide +kernel

theorem shipped_toNewYear {cfg : Config} (hs : Shipped cfg) {z : Int} (h1 : 631 ≤ z) (h2 : z ≤ 5835) :
    -28 ≤ toNewYear cfg z ∧ toNewYear cfg z ≤ 86 := by
  have w := festival_window hs h1 h2
  have := toNewYear_eq cfg z
  omega

theorem shipped_not_both {cfg : Config} (hs : Shipped cfg) (z : Int) :
    ¬ ((SuriyaYear.init z).isAdhikamasa = true ∧ (SuriyaYear.init z).isAdhikavara cfg = true) := by
  rcases hs with rfl | rfl
  · exact c08_exclusive_default _
  · exact c08_exclusive_official z

/-- C24: over any number of years from 631 to 5834 the uposathas keep to the count of months, if those lost are counted too: 24 a year
and two for each adhikamāsa year, give or take seven, and from 638 on twice the months by which Masaken grew, give or take nine.
Up to 4116 none is lost. -/
theorem c24_total (cfg : Config) (hs : Shipped cfg) (y : Int) (n : Nat) (h1 : 631 ≤ y) (h2 : y + n ≤ 5835) :
    let late := fun k : Int => countYears (fun z => decide (toNewYear cfg z ≤ k)) y n
    let total : Int := sumYears (fun z => (uposathasOf (generateSolarYear cfg z)).length) y n + late 0 + late (-15)
    (total - (24 * n + 2 * countYears (fun z => (SuriyaYear.init z).isAdhikamasa) y n)).natAbs ≤ 7 ∧
    (638 ≤ y → (total - 2 * ((SuriyaYear.init (y + n)).Masaken - (SuriyaYear.init y).Masaken)).natAbs ≤ 9) ∧
    (y + n ≤ 4117 → late 0 = 0 ∧ late (-15) = 0) := by
  intro late total
  have key := (c24_total_any cfg y n (fun z _ _ => shipped_not_both hs z) (fun z a b => by
    have := shipped_toNewYear hs (z := z) (by omega) (by omega); omega)).1
  have w1 := shipped_toNewYear hs (z := y) (by omega) (by omega)
  have w2 := shipped_toNewYear hs (z := y + n) (by omega) (by omega)
  push_cast at key
  change total = _ at key
  refine ⟨by omega, fun h => ?_, fun h => ?_⟩
  · have := c07_no_month_drift y h n
    omega
  · have none : ∀ k : Int, k ≤ 0 → late k = 0 := by
      intro k hk
      simp only [late, countYears]
      rw [List.length_eq_zero_iff, List.filter_eq_nil_iff]
      intro i hi
      have := List.mem_range.1 hi
      have w := shipped_window hs (y := y + i) (by omega) (by omega)
      have := toNewYear_eq cfg (y + i)
      simp only [decide_eq_true_eq]
      omega
    exact ⟨none 0 (by omega), none (-15) (by omega)⟩

/-- C24: 4116 and 4117: 48 uposathas, and the Kattika full moon of 4117 is lost. -/
example : sumYears (fun z => (uposathasOf (generateSolarYear .default z)).length) 4116 2 = 48 ∧
    countYears (fun z => decide (toNewYear .default z ≤ 0)) 4116 2 = 1 ∧
    countYears (fun z => decide (toNewYear .default z ≤ -15)) 4116 2 = 0 ∧
    2 * ((SuriyaYear.init 4118).Masaken - (SuriyaYear.init 4116).Masaken) = 50 := by
  decide +kernel

/-- C24: the years from 4116 to 5834 have 22 to 25 uposathas and as many half moons. -/
theorem c24_later (cfg : Config) (hs : Shipped cfg) (y : Int) (h1 : 4116 ≤ y) (h2 : y ≤ 5834) :
    (22 ≤ (uposathasOf (generateSolarYear cfg y)).length ∧ (uposathasOf (generateSolarYear cfg y)).length ≤ 25) ∧
    (22 ≤ (halvesOf (generateSolarYear cfg y)).length ∧ (halvesOf (generateSolarYear cfg y)).length ≤ 25) := by
  have hex' : (fa y && fv cfg y) = false := by
    have := shipped_not_both hs y
    rcases a : (SuriyaYear.init y).isAdhikamasa <;> rcases b : (SuriyaYear.init y).isAdhikavara cfg <;> simp_all
  have w1 := shipped_toNewYear hs (z := y) (by omega) (by omega)
  have w2 := shipped_toNewYear hs (z := y + 1) (by omega) (by omega)
  have n1 := toNewYear_eq cfg y
  have n2 := toNewYear_eq cfg (y + 1)
  have t := year_total hex' (by omega) (by omega) (by omega)
  have hsucc := daysSinceEpoch_succ y
  have hyd := yearDays_bounds y
  have hk := katDay_succ cfg y
  rw [len_eq] at hk
  have hl : (moons (fa y) = 26 ∧ len (fa y) (fv cfg y) = 384) ∨
      (moons (fa y) = 24 ∧ 354 ≤ len (fa y) (fv cfg y) ∧ len (fa y) (fv cfg y) ≤ 355) := by
    unfold moons len; split
    · left; simp
    · right; split <;> simp
  generalize len _ _ = L at *
  generalize moons _ = m at *
  generalize (uposathasOf (generateSolarYear cfg y)).length = u at *
  generalize (halvesOf (generateSolarYear cfg y)).length = v at *
  omega

/-- C24: a year with 22, and one with 25. -/
example : (uposathasOf (generateSolarYear .default 5600)).length = 22 ∧ (halvesOf (generateSolarYear .default 5600)).length = 22 ∧
    (uposathasOf (generateSolarYear .default 4118)).length = 25 := by
  decide +kernel

end Verif.Props
