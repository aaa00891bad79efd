import Verif.Props.Kattika
/-
Properties C15 (Asalha Puja on the full-moon tithi), C32 (exception table), C35 (SuriyaDay).
-/
set_option autoImplicit false

namespace Verif.Props
open Verif.Go Verif.Model Verif.Spec Verif.Lemmas

/-! ### C15 -/

theorem asalha_day (y : Int) (cfg : Config) :
    ((SuriyaYear.init y).asalhaPuja cfg).day = katDay cfg (y + 1) - 118 := by
  have h := (c14_position cfg y).1
  have h2 := congrArg Time.day h
  rw [day_add] at h2
  unfold katDay; omega

/-- C15, all years: the day `surplusDays` before Asalha Puja has tithi 14 or 15; the calendar's full moon is
late by exactly the surplus days. -/
theorem c15_full_moon_tithi (y : Int) (h : 638 ≤ y) (hA : Int)
    (hd : hA + 232741 = ((SuriyaYear.init y).asalhaPuja .default).day) :
    tithiOfDay (hA - surplusDays (y + 1)) = 14 ∨ tithiOfDay (hA - surplusDays (y + 1)) = 15 := by
  have hs : surplusDays (y + 1) = surplus (y + 1) := rfl
  rw [asalha_day, katDay_closed (y := y + 1) (by omega)] at hd
  rw [hs]
  have e1 : y + 1 - 1 = y := by omega
  rw [e1] at hd
  have e2 : hA - surplus (y + 1) = hor (y + 1) - age (y + 1) - carry (y + 1) - 251 + tieAdh y := by omega
  rw [e2]
  -- relation of the carry to the avoman of the next New Year
  have hcar : (carry (y + 1) = 0 ∧ tieAdh y = 0) ∨ (carry (y + 1) = 1 ∧ tieAdh y = 0 ∧ 555 ≤ avo (y + 1)) ∨
      (carry (y + 1) = 1 ∧ tieAdh y = 1 ∧ avo (y + 1) = 0) := by
    have hc := carried_iff (y + 1)
    rw [e1] at hc
    have t1 := wv_of_tie h
    unfold carry tieAdh
    by_cases hcc : (SuriyaYear.init (y + 1)).hasCarriedAdhikavara = true
    · right
      rw [if_pos hcc]
      have hh := hc.1 hcc
      have hsucc := avo_succ y
      have hr := avo_range y
      by_cases t : tie y = true
      · right
        rw [tie_iff h] at t
        refine ⟨rfl, ?_, ?_⟩
        · simp [(tie_iff h).2 t, hh.1]
        · rw [if_pos t.1, t.2] at hsucc; omega
      · left
        have hw := (wv_iff h).1 hh.2
        have ht : ¬ (593 ≤ eraNum y % 800 ∧ avo y = 126) := by rw [← tie_iff h]; exact t
        refine ⟨rfl, ?_, ?_⟩
        · simp [t]
        · split at hsucc <;> omega
    · left
      rw [if_neg hcc]
      refine ⟨rfl, ?_⟩
      rw [if_neg]
      intro hx
      rw [Bool.and_eq_true] at hx
      exact hcc (hc.2 ⟨hx.2, (t1 hx.1).1⟩)
  have hag : age (y + 1) = hor (y + 1) + (11 * hor (y + 1) + 650) / 692 -
    30 * ((hor (y + 1) + (11 * hor (y + 1) + 650) / 692 - 6) / 30) := rfl
  have hagr := age_range (y + 1)
  have hav : avo (y + 1) = (11 * hor (y + 1) + 650) % 692 := rfl
  unfold tithiOfDay
  generalize hor (y + 1) = H at *
  generalize avo (y + 1) = A at *
  generalize age (y + 1) = G at *
  generalize carry (y + 1) = C at *
  generalize tieAdh y = T at *
  have hQ' : (11 * (H - G - C - 251 + T) + 650) / 692 = (11 * H + 650) / 692 - 4 ∨
      (11 * (H - G - C - 251 + T) + 650) / 692 = (11 * H + 650) / 692 - 5 := by omega
  have hQ'' : C = 1 → T = 0 → (11 * (H - G - C - 251 + T) + 650) / 692 = (11 * H + 650) / 692 - 4 := by omega
  have hQ3 : T = 1 → C = 1 → (11 * (H - G - C - 251 + T) + 650) / 692 = (11 * H + 650) / 692 - 5 := by omega
  generalize (11 * (H - G - C - 251 + T) + 650) / 692 = Q' at *
  generalize (11 * H + 650) / 692 = Q at *
  generalize (H + Q - 6) / 30 = M at *
  rcases hcar with ⟨c, t⟩ | ⟨c, t, ha⟩ | ⟨c, t, ha⟩
  · omega
  · have := hQ'' c t; omega
  · have := hQ3 t c; omega

/-- C15: day 103 of 1963 is the day before; Asalha Puja has Horakhun 484050. -/
example : (484050 : Int) + 232741 = ((SuriyaYear.init 1963).asalhaPuja .default).day ∧ tithiOfDay (484050 - surplusDays 1964) = 15 := by
  decide +kernel

/-- C15: in 638..4098 Asalha Puja itself has tithi 14 or 15. -/
theorem c15_full_moon_until_4098 (y : Int) (h : 638 ≤ y) (h2 : y ≤ 4098) (hA : Int)
    (hd : hA + 232741 = ((SuriyaYear.init y).asalhaPuja .default).day) :
    tithiOfDay hA = 14 ∨ tithiOfDay hA = 15 := by
  rcases Int.lt_or_eq_of_le h2 with h3 | h3
  · have := c15_full_moon_tithi y h hA hd
    rw [c11_no_surplus_until_4098.1 _ (by omega)] at this
    simpa using this
  · subst h3
    rw [asalha_day, katDay_closed (by decide)] at hd
    have e1 : (4098 + 1 - 1 : Int) = 4098 := rfl
    have e0 : (4098 + 1 : Int) = 4099 := rfl
    rw [e1, e0] at hd
    have h2 : surplus 4099 = 1 := c11_no_surplus_until_4098.2
    have h4 : hor 4099 - age 4099 - carry 4099 + 232608 + tieAdh 4098 = 1496752 := by decide +kernel
    have h5 : hA = 1263894 := by omega
    rw [h5]; decide

/-- C15: the same day without the correction. -/
example : tithiOfDay 484050 = 14 ∨ tithiOfDay 484050 = 15 :=
  c15_full_moon_until_4098 1963 (by decide) (by decide) 484050 (by decide +kernel)

/-- C15: Asalha Puja 4099 has tithi 16, one past the full moon. -/
theorem c15_drift_4099 (hA : Int) (hd : hA + 232741 = ((SuriyaYear.init 4099).asalhaPuja .default).day) :
    tithiOfDay hA = 16 := by
  rw [asalha_day, katDay_closed (by decide)] at hd
  have e1 : (4099 + 1 - 1 : Int) = 4099 := rfl
  have e0 : (4099 + 1 : Int) = 4100 := rfl
  rw [e1, e0] at hd
  have h1 := surplus_succ (y := 4099) (by decide)
  rw [e0] at h1
  have h2 : surplus 4099 = 1 := c11_no_surplus_until_4098.2
  have h3 : tieOnly 4099 = 0 := by decide +kernel
  have h4 : hor 4100 - age 4100 - carry 4100 + 232608 + tieAdh 4099 = 1497107 := by decide +kernel
  have h5 : hA = 1264249 := by omega
  rw [h5]; decide

/-- C15: the day of Asalha Puja in 4099. -/
example : tithiOfDay (((SuriyaYear.init 4099).asalhaPuja .default).day - 232741) = 16 := c15_drift_4099 _ (by omega)

/-- C15: relation to `SuriyaDay`. Asalha Puja is the day `HorakhunToDate` gives for lunar day 103 (133 in an
adhikamāsa year with Tithi at least 24), one later in an adhikavāra year that carries none from the year before,
plus surplus days. -/
theorem c15_suriya_day (y : Int) (h : 638 ≤ y) (hy : y ≤ 10 ^ 9) :
    let su := SuriyaYear.init y
    let n : Int := if su.isAdhikamasa = true ∧ 24 ≤ su.Tithi then 133 else 103
    (su.asalhaPuja .default).day = (horakhunToDate .bits64 (SuriyaDay.init y n).Horakhun).day
      + (if su.isAdhikavara .default = true ∧ su.hasCarriedAdhikavara = false then 1 else 0)
      + (if (SuriyaYear.init (y - 1)).isSuriyaLeap = true ∧ (SuriyaYear.init (y - 1)).Avoman = 126 ∧
            (SuriyaYear.init (y - 1)).isAdhikamasa = true then 1 else 0)
      + surplusDays y := by
  intro su n
  have hsH : ∀ k, (SuriyaDay.init y k).Horakhun = hor y + (k - rawTithi y % 30) := by
    intro k
    show (SuriyaYear.init y).Horakhun + (k - (SuriyaYear.init y).Tithi) = _
    rw [init_Horakhun h, init_Tithi h]
  have hhb : 1 ≤ hor y ∧ hor y ≤ 400 * 10 ^ 9 := by unfold hor eraNum; omega
  have hn : n = 103 ∨ n = 133 := by
    show (if _ then _ else _) = _ ∨ (if _ then _ else _) = _
    split <;> simp
  rw [hsH n, c16_day _ (by omega)]
  have hta : (if (SuriyaYear.init (y - 1)).isSuriyaLeap = true ∧ (SuriyaYear.init (y - 1)).Avoman = 126 ∧
            (SuriyaYear.init (y - 1)).isAdhikamasa = true then (1 : Int) else 0) = tieAdh (y - 1) := by
    unfold tieAdh tie
    simp only [Bool.and_eq_true, decide_eq_true_eq, and_assoc]
  rw [hta]
  have hs : surplusDays y = surplus y := rfl
  rw [hs]
  have hk := katDay_closed h
  have hap : (su.asalhaPuja .default).day = katDay .default y +
      (if su.isAdhikamasa = true then 266 else if su.isAdhikavara .default = true then 237 else 236) := by
    rw [asalha_day, katDay_succ]
    show _ + (su.yearLength .default) - 118 = _
    unfold SuriyaYear.yearLength
    simp only
    split
    · omega
    · split <;> omega
  rw [hap, hk]
  have hT : su.Tithi = rawTithi y % 30 := init_Tithi h
  have hw := wouldBe_iff h
  have hnw := wouldBe_iff (y := y + 1) (by omega)
  have hr := rawTithi_succ y
  have hag : age y = rawTithi y - 30 * ((rawTithi y - 6) / 30) := rfl
  have hcar : carry y = if su.hasCarriedAdhikavara = true then 1 else 0 := rfl
  have hci := carried_iff y
  have hnn := adh_not_next (y - 1)
  have e : y - 1 + 1 = y := by omega
  rw [e] at hnn
  have hadhT : su.isAdhikamasa = true → (24 ≤ rawTithi y % 30 ∨ rawTithi y % 30 ≤ 5) := by
    intro ha; apply hw.1
    simp only [su, SuriyaYear.isAdhikamasa, Bool.and_eq_true] at ha; exact ha.2
  have hnadhT : rawTithi y % 30 ≤ 5 → su.isAdhikamasa = true := by
    intro ht
    show (SuriyaYear.init y).isAdhikamasa = true
    rw [isAdhikamasa_iff h]; omega
  have hadv : su.isAdhikavara .default = true → su.isAdhikamasa = false := fun hx => ((adv_default_iff y).1 hx).1
  have hcadv : su.hasCarriedAdhikavara = true → (su.isAdhikamasa = false ∧ su.isAdhikavara .default = true) := by
    intro hx
    have h1 := hci.1 hx
    have h2 := hnn h1.1
    exact ⟨h2, (adv_default_iff y).2 ⟨h2, .inr h1⟩⟩
  have hnval : n = if su.isAdhikamasa = true ∧ 24 ≤ su.Tithi then 133 else 103 := rfl
  rw [hcar, hnval, hT, hag]
  rcases a : su.isAdhikamasa <;> rcases b : su.isAdhikavara .default <;> rcases c : su.hasCarriedAdhikavara <;>
    simp [a, b, c] at hadhT hnadhT hadv hcadv ⊢ <;> (try split) <;> omega

example : (SuriyaYear.init 2017).Tithi = 20 ∧ (SuriyaYear.init 2017).isAdhikamasa = false ∧
    (SuriyaYear.init 2015).Tithi = 28 ∧ (SuriyaYear.init 2015).isAdhikamasa = true := by decide +kernel

/-! ### C32 -/

theorem official_adv (y : Int) (h1 : y ≠ 1994) (h2 : y ≠ 1997) :
    (SuriyaYear.init y).isAdhikavara .official = (SuriyaYear.init y).isAdhikavara .default := by
  simp [SuriyaYear.isAdhikavara, Config.official, Config.default, shippedExceptions, init_Year, h1, h2]

theorem official_len (y : Int) : (SuriyaYear.init y).yearLength .official =
    (SuriyaYear.init y).yearLength .default + (if y = 1994 then -1 else if y = 1997 then 1 else 0) := by
  by_cases h1 : y = 1994
  · subst h1; decide +kernel
  · by_cases h2 : y = 1997
    · subst h2; decide +kernel
    · unfold SuriyaYear.yearLength
      rw [official_adv y h1 h2]; simp [h1, h2]

/-- C32: with the shipped exceptions the Kattika of 1995, 1996 and 1997 is one day earlier; every other year's
Kattika is unchanged. -/
theorem c32_kattika (y : Int) : calculatePreviousKattika .official y =
    if y = 1995 ∨ y = 1996 ∨ y = 1997 then (calculatePreviousKattika .default y).add (-nsPerDay)
    else calculatePreviousKattika .default y := by
  have key : katDay .official y = katDay .default y + (if y = 1995 ∨ y = 1996 ∨ y = 1997 then -1 else 0) := by
    have up : ∀ n : Nat, katDay .official (2016 + n) = katDay .default (2016 + n) := by
      intro n
      induction n with
      | zero => simp only [Int.natCast_zero, Int.add_zero, katDay_epoch]
      | succ n ih =>
        have e : (2016 + ((n + 1 : Nat) : Int)) = 2016 + n + 1 := by omega
        rw [e, katDay_succ, katDay_succ, ih, official_len]
        rw [if_neg (by omega), if_neg (by omega)]; omega
    have down : ∀ n : Nat, katDay .official (2016 - n) = katDay .default (2016 - n) +
        (if (2016 - (n : Int)) = 1995 ∨ (2016 - (n : Int)) = 1996 ∨ (2016 - (n : Int)) = 1997 then -1 else 0) := by
      intro n
      induction n with
      | zero => simp only [Int.natCast_zero, Int.sub_zero, katDay_epoch]; decide
      | succ n ih =>
        have e : (2016 - (n : Int)) = 2016 - ((n + 1 : Nat) : Int) + 1 := by omega
        rw [e, katDay_succ, katDay_succ, official_len, ← e] at ih
        (repeat' split at ih) <;> (repeat' split) <;> omega
    rcases Int.le_total 2016 y with h | h
    · have := up (y - 2016).toNat
      have e : (2016 + ((y - 2016).toNat : Int)) = y := by omega
      rw [e] at this; rw [this, if_neg (by omega)]; omega
    · have := down (2016 - y).toNat
      have e : (2016 - ((2016 - y).toNat : Int)) = y := by omega
      rw [e] at this; exact this
  rw [kattika_eq .official, kattika_eq .default, key]
  split
  · simp only [Time.add, Time.mk.injEq, and_true]; unfold nsPerDay; omega
  · simp

/-- C32: Asalha Puja is changed (one day earlier) only in 1994, 1995 and 1996. -/
theorem c32_asalha (y : Int) : (SuriyaYear.init y).asalhaPuja .official =
    if y = 1994 ∨ y = 1995 ∨ y = 1996 then ((SuriyaYear.init y).asalhaPuja .default).add (-nsPerDay)
    else (SuriyaYear.init y).asalhaPuja .default := by
  have h1 := (c14_position .official y).1
  have h2 := (c14_position .default y).1
  rw [c32_kattika] at h1
  have e : (y + 1 = 1995 ∨ y + 1 = 1996 ∨ y + 1 = 1997) ↔ (y = 1994 ∨ y = 1995 ∨ y = 1996) := by omega
  simp only [e] at h1
  rw [← h2] at h1
  generalize (SuriyaYear.init y).asalhaPuja .official = a at *
  generalize (SuriyaYear.init y).asalhaPuja .default = b at *
  cases a; cases b
  split at h1 <;> rename_i hc <;> simp only [hc] <;> simp [Time.add] at * <;> omega

/-- C32: 1994 and 1993. -/
example : (SuriyaYear.init 1994).asalhaPuja .official = date 1994 7 22 0 0 ∧ (SuriyaYear.init 1994).asalhaPuja .default = date 1994 7 23 0 0 ∧
    (SuriyaYear.init 1993).asalhaPuja .official = (SuriyaYear.init 1993).asalhaPuja .default := by decide +kernel

/-! ### C35 -/

/-- C35: `SuriyaDay`'s Horakhun advances by one per lunar day, and equals the year's on the New Year day. -/
theorem c35_horakhun (y d : Int) :
    (SuriyaDay.init y (d + 1)).Horakhun = (SuriyaDay.init y d).Horakhun + 1 ∧
    (SuriyaDay.init y (SuriyaYear.init y).Tithi).Horakhun = (SuriyaYear.init y).Horakhun := by
  constructor
  · show (SuriyaYear.init y).Horakhun + (d + 1 - (SuriyaYear.init y).Tithi) =
      (SuriyaYear.init y).Horakhun + (d - (SuriyaYear.init y).Tithi) + 1
    omega
  · show (SuriyaYear.init y).Horakhun + ((SuriyaYear.init y).Tithi - (SuriyaYear.init y).Tithi) = _
    omega

/-- C35: the lunar values depend on the Horakhun alone, whichever year and lunar day it is reached from. -/
theorem c35_day_only (y d y' d' : Int) (h : (SuriyaDay.init y d).Horakhun = (SuriyaDay.init y' d').Horakhun) :
    (SuriyaDay.init y d).Avoman = (SuriyaDay.init y' d').Avoman ∧
    (SuriyaDay.init y d).Masaken = (SuriyaDay.init y' d').Masaken ∧
    (SuriyaDay.init y d).Tithi = (SuriyaDay.init y' d').Tithi ∧
    (SuriyaDay.init y d).Uccabala = (SuriyaDay.init y' d').Uccabala := by
  have a : ∀ y d, (SuriyaDay.init y d).Avoman = ((SuriyaDay.init y d).Horakhun * 11 + 650).tmod 692 := fun _ _ => rfl
  have m : ∀ y d, (SuriyaDay.init y d).Masaken = (((SuriyaDay.init y d).Horakhun * 11 + 650).fdiv 692 + 0 +
    (SuriyaDay.init y d).Horakhun).tdiv 30 := fun _ _ => rfl
  have t : ∀ y d, (SuriyaDay.init y d).Tithi = (((SuriyaDay.init y d).Horakhun * 11 + 650).fdiv 692 + 0 +
    (SuriyaDay.init y d).Horakhun).tmod 30 := fun _ _ => rfl
  have u : ∀ y d, (SuriyaDay.init y d).Uccabala = ((SuriyaDay.init y d).Horakhun + 2611).tmod 3232 := fun _ _ => rfl
  refine ⟨by rw [a, a, h], by rw [m, m, h], by rw [t, t, h], by rw [u, u, h]⟩

/-- C35: the same day counted from two years: day 0 of 1964 and day 385 of 1963. -/
example : (SuriyaDay.init 1963 385).Horakhun = (SuriyaDay.init 1964 0).Horakhun ∧
    (SuriyaDay.init 1963 385).Tithi = (SuriyaDay.init 1964 0).Tithi :=
  ⟨by decide, (c35_day_only 1963 385 1964 0 (by decide)).2.2.1⟩

/-- C35: on the New Year day the day's values are the year's. -/
theorem c35_new_year (y : Int) :
    let day := SuriyaDay.init y (SuriyaYear.init y).Tithi
    day.Avoman = (SuriyaYear.init y).Avoman ∧ day.Masaken = (SuriyaYear.init y).Masaken ∧
    day.Tithi = (SuriyaYear.init y).Tithi ∧ day.Uccabala = (SuriyaYear.init y).Uccabala ∧
    day.Kammacubala = (SuriyaYear.init y).Kammacubala := by
  have h := (c35_horakhun y 0).2
  have e : ∀ q : Int, q + 0 = q := fun q => by omega
  refine ⟨?_, ?_, ?_, ?_, ?_⟩
  · show ((SuriyaDay.init y (SuriyaYear.init y).Tithi).Horakhun * 11 + 650).tmod 692 = _
    rw [h]; rfl
  · show (((SuriyaDay.init y (SuriyaYear.init y).Tithi).Horakhun * 11 + 650).fdiv 692 + 0 +
      (SuriyaDay.init y (SuriyaYear.init y).Tithi).Horakhun).tdiv 30 = _
    rw [h]; rfl
  · show (((SuriyaDay.init y (SuriyaYear.init y).Tithi).Horakhun * 11 + 650).fdiv 692 + 0 +
      (SuriyaDay.init y (SuriyaYear.init y).Tithi).Horakhun).tmod 30 = _
    rw [h, e]; rfl
  · show ((SuriyaDay.init y (SuriyaYear.init y).Tithi).Horakhun + 2611).tmod 3232 = _
    rw [h]; rfl
  · show 800 - ((y - 638) * 292207 + 373).tmod 800 +
      ((SuriyaYear.init y).Tithi - (SuriyaYear.init y).Tithi) * 800 = 800 - ((y - 638) * 292207 + 373).tmod 800
    omega

/-- C35: from one lunar day to the next the tithi advances by 1 or 2 modulo 30 (non-negative Horakhun). -/
theorem c35_tithi_step (y d : Int) (h : 0 ≤ (SuriyaDay.init y d).Horakhun) :
    (SuriyaDay.init y (d + 1)).Tithi = ((SuriyaDay.init y d).Tithi + 1) % 30 ∨
    (SuriyaDay.init y (d + 1)).Tithi = ((SuriyaDay.init y d).Tithi + 2) % 30 := by
  have t : ∀ y d, (SuriyaDay.init y d).Tithi = (((SuriyaDay.init y d).Horakhun * 11 + 650).fdiv 692 + 0 +
    (SuriyaDay.init y d).Horakhun).tmod 30 := fun _ _ => rfl
  rw [t, t, (c35_horakhun y d).1]
  generalize (SuriyaDay.init y d).Horakhun = H at *
  rw [Int.fdiv_eq_ediv_of_nonneg _ (by decide), Int.fdiv_eq_ediv_of_nonneg _ (by decide),
    Int.tmod_eq_emod_of_nonneg (by omega), Int.tmod_eq_emod_of_nonneg (by omega)]
  have : ((H + 1) * 11 + 650) / 692 = (H * 11 + 650) / 692 ∨
    ((H + 1) * 11 + 650) / 692 = (H * 11 + 650) / 692 + 1 := by omega
  generalize ((H + 1) * 11 + 650) / 692 = Q' at *
  generalize (H * 11 + 650) / 692 = Q at *
  omega

/-- C35: days 103 and 104 of 1963. -/
example : (SuriyaDay.init 1963 104).Tithi = 15 ∨ (SuriyaDay.init 1963 104).Tithi = 16 := c35_tithi_step 1963 103 (by decide)

/-- C35: with a non-negative Horakhun the day's tithi is the specification's `tithiOfDay`. -/
theorem c35_tithi_spec (y d : Int) (h : 0 ≤ (SuriyaDay.init y d).Horakhun) :
    (SuriyaDay.init y d).Tithi = tithiOfDay (SuriyaDay.init y d).Horakhun := by
  have t : ∀ y d, (SuriyaDay.init y d).Tithi = (((SuriyaDay.init y d).Horakhun * 11 + 650).fdiv 692 + 0 +
    (SuriyaDay.init y d).Horakhun).tmod 30 := fun _ _ => rfl
  rw [t]
  generalize (SuriyaDay.init y d).Horakhun = H at *
  unfold tithiOfDay
  rw [Int.fdiv_eq_ediv_of_nonneg _ (by decide), Int.tmod_eq_emod_of_nonneg (by omega)]
  congr 1; rw [Int.mul_comm]; omega

/-- C35: day 103 of 1963. -/
example : tithiOfDay 484049 = 14 := (c35_tithi_spec 1963 103 (by decide)).symm

/-- C35: the years and the day are recorded, and the Kammacubala grows by 800 per day from its New Year value. -/
theorem c35_fields (y d : Int) : let day := SuriyaDay.init y d
    day.Year = y ∧ day.BE_Year = y + 543 ∧ day.CS_Year = y - 638 ∧ day.Day = d ∧
    day.Kammacubala = (SuriyaYear.init y).Kammacubala + 800 * (d - (SuriyaYear.init y).Tithi) := by
  refine ⟨rfl, rfl, rfl, rfl, ?_⟩
  show 800 - ((y - 638) * 292207 + 373).tmod 800 + (d - (SuriyaYear.init y).Tithi) * 800 =
    800 - ((y - 638) * 292207 + 373).tmod 800 + 800 * (d - (SuriyaYear.init y).Tithi)
  omega

/-- C35: the lunar values satisfy the division identities of the Suriyayatra for the Horakhun of the day. -/
theorem c35_quantities (y d : Int) (h : 0 ≤ (SuriyaDay.init y d).Horakhun) : let day := SuriyaDay.init y d
    692 * (30 * day.Masaken + day.Tithi - day.Horakhun) + day.Avoman = 11 * day.Horakhun + 650 ∧
    (0 ≤ day.Avoman ∧ day.Avoman < 692) ∧ (0 ≤ day.Tithi ∧ day.Tithi < 30) ∧
    (∃ k, 3232 * k + day.Uccabala = day.Horakhun + 2611) ∧ (0 ≤ day.Uccabala ∧ day.Uccabala < 3232) := by
  intro day
  have a : day.Avoman = (day.Horakhun * 11 + 650).tmod 692 := rfl
  have m : day.Masaken = ((day.Horakhun * 11 + 650).fdiv 692 + 0 + day.Horakhun).tdiv 30 := rfl
  have t : day.Tithi = ((day.Horakhun * 11 + 650).fdiv 692 + 0 + day.Horakhun).tmod 30 := rfl
  have u : day.Uccabala = (day.Horakhun + 2611).tmod 3232 := rfl
  have h : 0 ≤ day.Horakhun := h
  rw [Int.fdiv_eq_ediv_of_nonneg _ (by decide)] at m t
  rw [Int.tdiv_eq_ediv_of_nonneg (by omega)] at m
  rw [Int.tmod_eq_emod_of_nonneg (by omega)] at t u a
  refine ⟨by omega, by omega, by omega, ⟨(day.Horakhun + 2611) / 3232, by omega⟩, by omega⟩

/-- Eade's worked example (1963, day 103): the day before Asalha Puja, tithi 14. -/
example : (SuriyaDay.init 1963 103).Horakhun = 484049 ∧ (SuriyaDay.init 1963 103).Tithi = 14 ∧
    (SuriyaDay.init 1963 103).Avoman = 249 ∧ (SuriyaDay.init 1963 103).Kammacubala = 64552 := by decide

end Verif.Props
