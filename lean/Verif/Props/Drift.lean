import Verif.Props.EmptyCount
import Verif.Props.Period
import Verif.Props.Cli
/-
Property C81: where in the Gregorian year Asalha Puja falls.
-/
set_option autoImplicit false

namespace Verif.Props
open Verif.Go Verif.Model Verif.Spec Verif.Lemmas

/-- The solar part of the date of Asalha Puja, in 800ths of a day from 1 January and from the mean drift, depends on the place of the year in
the 800 years only. -/
def solarPart (r : Int) : Int :=
  800 * ((292207 * (r + 1) + 373) / 800 + 1 - (365 * (637 + r) + (637 + r) / 4 - (637 + r) / 100 + (637 + r) / 400)) - 13 * r

theorem solarPart_eq (y : Int) : 800 * (hor (y + 1) - daysSinceEpoch y) - 13 * (y - 638) = solarPart ((y - 638) % 800) := by
  obtain ⟨q, r, h, h0, h8⟩ : ∃ q r : Int, y = 638 + 800 * q + r ∧ 0 ≤ r ∧ r < 800 :=
    ⟨(y - 638) / 800, (y - 638) % 800, by omega, by omega, by omega⟩
  have e : (y - 638) % 800 = r := by omega
  rw [e]
  subst h
  have h1 : hor (638 + 800 * q + r + 1) = 292207 * q + ((292207 * (r + 1) + 373) / 800 + 1) := by unfold hor eraNum; omega
  have h2 : daysSinceEpoch (638 + 800 * q + r) = 292194 * q + (365 * (637 + r) + (637 + r) / 4 - (637 + r) / 100 + (637 + r) / 400) := by
    dsimp only [daysSinceEpoch]; omega
  rw [h1, h2]
  unfold solarPart
  omega

theorem solarPart_range : ∀ r : Fin 800, -185835403 ≤ solarPart r.val ∧ solarPart r.val ≤ -185833170 := by decide +kernel

/-- The lunar part: the age of the moon at the next New Year, corrected for a carried day. -/
theorem lunarPart_range {y : Int} (h : 638 ≤ y) :
    6 ≤ age (y + 1) + carry (y + 1) - tieAdh y ∧ age (y + 1) + carry (y + 1) - tieAdh y ≤ 35 := by
  have ha := age_range (y + 1)
  have hc := carry_range (y + 1)
  have ht := tieAdh_range y
  have hci := carried_iff (y + 1)
  rw [show y + 1 - 1 = y by omega] at hci
  constructor
  · by_cases h1 : tieAdh y = 1
    · have : tie y = true ∧ (SuriyaYear.init y).isAdhikamasa = true := by
        unfold tieAdh at h1
        split at h1
        · exact Bool.and_eq_true_iff.1 (by assumption)
        · omega
      have : carry (y + 1) = 1 := by
        unfold carry
        rw [if_pos (hci.2 ⟨this.2, (wv_of_tie h this.1).1⟩)]
      omega
    · omega
  · by_cases h1 : carry (y + 1) = 1
    · have hm : (SuriyaYear.init y).isAdhikamasa = true := by
        unfold carry at h1
        split at h1
        · exact (hci.1 ‹_›).1
        · omega
      have hw : (SuriyaYear.init (y + 1)).wouldBeAdhikamasa = false := by
        have := (Bool.and_eq_true_iff.1 hm).1
        rwa [Bool.not_eq_true'] at this
      have hT := wouldBe_iff (y := y + 1) (by omega)
      rw [hw] at hT
      have hT : ¬ (24 ≤ rawTithi (y + 1) % 30 ∨ rawTithi (y + 1) % 30 ≤ 5) := fun x => by simpa using hT.2 x
      unfold age at ha ⊢
      omega
    · omega

theorem asalha_place {y : Int} (h : 638 ≤ y) (d : Int) (hd : d = ((SuriyaYear.init y).asalhaPuja .default).day) :
    800 * (d - daysSinceEpoch y - surplusDays (y + 1)) - 13 * (y - 638) =
      solarPart ((y - 638) % 800) + 185992000 - 800 * (age (y + 1) + carry (y + 1) - tieAdh y) := by
  have hs : surplusDays (y + 1) = surplus (y + 1) := rfl
  rw [hd, asalha_day, katDay_closed (y := y + 1) (by omega), hs, show y + 1 - 1 = y by omega, ← solarPart_eq]
  omega

/-- C81: in every year of the era Asalha Puja falls, after taking off the surplus days, between 160.74 and 192.54 days after 1 January plus
13 days for every 800 years since 638. -/
theorem c81_window (y : Int) (h : 638 ≤ y) (j : Int) (hj : Jan1 y j) :
    let days := ((SuriyaYear.init y).asalhaPuja .default).day - j - surplusDays (y + 1)
    128597 ≤ 800 * days - 13 * (y - 638) ∧ 800 * days - 13 * (y - 638) ≤ 154030 := by
  rw [jan1_iff] at hj
  subst hj
  have hp := asalha_place h _ rfl
  have hl := lunarPart_range h
  have hr := solarPart_range ⟨((y - 638) % 800).toNat, by omega⟩
  simp only [Int.toNat_of_nonneg (Int.emod_nonneg (y - 638) (by decide : (800 : Int) ≠ 0))] at hr
  intro days
  simp only [days]
  omega

/-- C81: both ends are reached, again and again. -/
theorem c81_ends (s : Int) (h : 638 ≤ s) :
    (∃ y j, s ≤ y ∧ y < s + 16608000 ∧ Jan1 y j ∧
      800 * (((SuriyaYear.init y).asalhaPuja .default).day - j - surplusDays (y + 1)) - 13 * (y - 638) = 128597) ∧
    (∃ y j, s ≤ y ∧ y < s + 16608000 ∧ Jan1 y j ∧
      800 * (((SuriyaYear.init y).asalhaPuja .default).day - j - surplusDays (y + 1)) - 13 * (y - 638) = 154030) := by
  constructor
  · obtain ⟨z, ⟨⟨h1, h2⟩, hk, -, ht⟩, -⟩ := c76_all (s + 1) (by omega) (800 - (292207 * 632 + 373) % 800) 0 5 (by decide) (by decide) (by decide)
    obtain ⟨y, rfl⟩ : ∃ y, z = y + 1 := ⟨z - 1, by omega⟩
    refine ⟨y, daysSinceEpoch y, by omega, by omega, (jan1_iff _ _).2 rfl, ?_⟩
    rw [asalha_place (by omega) _ rfl]
    rw [init_Kammacubala (by omega)] at hk
    rw [init_Tithi (by omega)] at ht
    have hr : (y - 638) % 800 = 631 := by unfold eraNum at hk; omega
    have hm : (SuriyaYear.init y).isAdhikamasa = false := by
      have : (SuriyaYear.init (y + 1)).wouldBeAdhikamasa = true := (wouldBe_iff (by omega)).2 (by omega)
      show (!(SuriyaYear.init (y + 1)).wouldBeAdhikamasa && _) = false
      rw [this]; rfl
    have hc : carry (y + 1) = 0 := by
      unfold carry
      rw [if_neg]
      rw [carried_iff, show y + 1 - 1 = y by omega, hm]
      simp
    have hta : tieAdh y = 0 := by unfold tieAdh; rw [hm]; simp
    have ha : age (y + 1) = 35 := by unfold age; omega
    rw [hr, hc, hta, ha]
    decide +kernel
  · obtain ⟨z, ⟨⟨h1, h2⟩, hk, hv, ht⟩, -⟩ := c76_all (s + 1) (by omega) (800 - (292207 * 91 + 373) % 800) 300 6 (by decide) (by decide) (by decide)
    obtain ⟨y, rfl⟩ : ∃ y, z = y + 1 := ⟨z - 1, by omega⟩
    refine ⟨y, daysSinceEpoch y, by omega, by omega, (jan1_iff _ _).2 rfl, ?_⟩
    rw [asalha_place (by omega) _ rfl]
    rw [init_Kammacubala (by omega)] at hk
    rw [init_Tithi (by omega)] at ht
    rw [init_Avoman (by omega)] at hv
    have hr : (y - 638) % 800 = 90 := by unfold eraNum at hk; omega
    have hw : (SuriyaYear.init y).wouldBeAdhikavara = false := by
      rw [← Bool.not_eq_true, wv_iff (by omega)]
      have hv' := avo_succ y
      have := avo_range y
      split at hv' <;> omega
    have hc : carry (y + 1) = 0 := by
      unfold carry
      rw [if_neg]
      rw [carried_iff, show y + 1 - 1 = y by omega, hw]
      simp
    have hta : tieAdh y = 0 := by
      have : tie y = false := by
        rw [← Bool.not_eq_true]
        intro ht
        rw [(wv_of_tie (by omega) ht).1] at hw
        cases hw
      unfold tieAdh; rw [this]; simp
    have ha : age (y + 1) = 6 := by unfold age; omega
    rw [hr, hc, hta, ha]
    decide +kernel

/-- C81: after 16608000 years Asalha Puja is 273606 days, 749 years, later in the Gregorian year. -/
theorem c81_period (y : Int) (h : 639 ≤ y) (j k : Int) (hj : Jan1 y j) (hk : Jan1 (y + 16608000) k) :
    ((SuriyaYear.init (y + 16608000)).asalhaPuja .default).day - k = ((SuriyaYear.init y).asalhaPuja .default).day - j + 273606 := by
  rw [jan1_iff] at hj hk
  subst hj hk
  have := (c76_months (y + 1) (by omega)).2.2.2
  have e : daysSinceEpoch (y + 16608000) = daysSinceEpoch y + 6065947440 := by dsimp only [daysSinceEpoch]; omega
  rw [asalha_day, asalha_day, e]
  unfold katDay
  rw [show y + 16608000 + 1 = y + 1 + 16608000 by omega]
  omega

/-- Asalha Puja for years up to 4098, by whole numbers. -/
def asalhaAt (y : Int) : Int := hor (y + 1) - age (y + 1) - carry (y + 1) + 232490 + tieAdh y

theorem asalhaAt_eq {y : Int} (h : 638 ≤ y) (h2 : y ≤ 4097) : ((SuriyaYear.init y).asalhaPuja .default).day = asalhaAt y := by
  rw [asalha_day, katDay_closed (y := y + 1) (by omega), surplus_before (by omega), show y + 1 - 1 = y by omega]
  unfold asalhaAt; omega

/-- First and last year, first and last date (month and day), and the years with these dates. -/
def asalhaSeasons : List ((Int × Int) × (Int × Int) × (Int × Int) × Int × Int) :=
  [((638, 1289), (6, 12), (7, 21), 640, 1242), ((1290, 1582), (6, 23), (7, 26), 1296, 1562), ((1583, 1899), (6, 27), (7, 31), 1589, 1890),
   ((1900, 2100), (7, 3), (8, 3), 1936, 2031), ((2101, 3000), (7, 6), (8, 17), 2115, 2999), ((3001, 4097), (7, 21), (9, 4), 3007, 4097)]

theorem seasons_scan : ∀ s ∈ asalhaSeasons, scanAll (fun y => decide ((date y s.2.1.1 s.2.1.2 0 0).day ≤ asalhaAt y -
      (if y = 1994 ∨ y = 1995 ∨ y = 1996 then 1 else 0) ∧ asalhaAt y ≤ (date y s.2.2.1.1 s.2.2.1.2 0 0).day))
    (s.1.2 - s.1.1 + 1).toNat s.1.1 = true := by decide +kernel

theorem seasons_good : ∀ s ∈ asalhaSeasons, 638 ≤ s.1.1 ∧ s.1.2 ≤ 4097 ∧ s.1.1 ≤ s.1.2 ∧ (1 ≤ s.2.1.1 ∧ s.2.1.1 ≤ 12 ∧ 1 ≤ s.2.1.2 ∧ s.2.1.1 ≠ 2 ∧ s.2.1.2 ≤ 30) ∧
    (1 ≤ s.2.2.1.1 ∧ s.2.2.1.1 ≤ 12 ∧ 1 ≤ s.2.2.1.2 ∧ s.2.2.1.1 ≠ 2 ∧ (s.2.2.1.2 ≤ 30 ∨ s.2.2.1.1 = 7 ∧ s.2.2.1.2 ≤ 31)) ∧
    (s.1.1 ≤ s.2.2.2.1 ∧ s.2.2.2.1 ≤ s.1.2 ∧ s.1.1 ≤ s.2.2.2.2 ∧ s.2.2.2.2 ≤ s.1.2) ∧
    (s.2.2.2.1 ≠ 1994 ∧ s.2.2.2.1 ≠ 1995 ∧ s.2.2.2.1 ≠ 1996 ∧ s.2.2.2.2 ≠ 1994 ∧ s.2.2.2.2 ≠ 1995 ∧ s.2.2.2.2 ≠ 1996) ∧
    asalhaAt s.2.2.2.1 = (date s.2.2.2.1 s.2.1.1 s.2.1.2 0 0).day ∧ asalhaAt s.2.2.2.2 = (date s.2.2.2.2 s.2.2.1.1 s.2.2.1.2 0 0).day := by
  decide +kernel

theorem asalha_shipped {cfg : Config} (hs : Shipped cfg) {y : Int} (h : 638 ≤ y) (h2 : y ≤ 4097) :
    let d := ((SuriyaYear.init y).asalhaPuja cfg).day
    asalhaAt y - (if y = 1994 ∨ y = 1995 ∨ y = 1996 then 1 else 0) ≤ d ∧ d ≤ asalhaAt y ∧
      (y ≠ 1994 → y ≠ 1995 → y ≠ 1996 → d = asalhaAt y) := by
  have hd := asalhaAt_eq h h2
  rcases hs with rfl | rfl
  · rw [hd]
    exact ⟨by split <;> omega, by omega, fun _ _ _ => rfl⟩
  · intro d
    have hk := katDay_official (y + 1)
    have e1 : d = katDay .official (y + 1) - 118 := asalha_day y .official
    have e2 := asalha_day y .default
    rw [hd] at e2
    split at hk <;> split <;> omega

/-- C81: the dates of Asalha Puja with the settings as shipped, and that these bounds are the best. -/
theorem c81_dates (cfg : Config) (hs : Shipped cfg) (a b m1 d1 m2 d2 p q : Int)
    (h : ((a, b), (m1, d1), (m2, d2), p, q) ∈
      [((638, 1289), (6, 12), (7, 21), 640, 1242), ((1290, 1582), (6, 23), (7, 26), 1296, 1562),
       ((1583, 1899), (6, 27), (7, 31), 1589, 1890), ((1900, 2100), (7, 3), (8, 3), 1936, 2031),
       ((2101, 3000), (7, 6), (8, 17), 2115, 2999), ((3001, 4097), (7, 21), (9, 4), 3007, 4097)]) :
    (∀ y, a ≤ y → y ≤ b → ∃ first last, IsDate first y m1 d1 ∧ IsDate last y m2 d2 ∧
      first ≤ ((SuriyaYear.init y).asalhaPuja cfg).day ∧ ((SuriyaYear.init y).asalhaPuja cfg).day ≤ last) ∧
    (a ≤ p ∧ p ≤ b ∧ IsDate ((SuriyaYear.init p).asalhaPuja cfg).day p m1 d1) ∧
    (a ≤ q ∧ q ≤ b ∧ IsDate ((SuriyaYear.init q).asalhaPuja cfg).day q m2 d2) := by
  have hg := seasons_good _ h
  have hsc := seasons_scan _ h
  simp only at hg hsc
  obtain ⟨g1, g2, g0, g3, g4, g5, g6, g7, g8⟩ := hg
  have v1 : ∀ y, d1 ≤ monthDays y m1 := fun y => by unfold monthDays; rw [if_neg g3.2.2.2.1]; split <;> omega
  have v2 : ∀ y, d2 ≤ monthDays y m2 := fun y => by unfold monthDays; rw [if_neg g4.2.2.2.1]; split <;> omega
  have i1 : ∀ y, IsDate (date y m1 d1 0 0).day y m1 d1 := fun y => (date_day g3.1 g3.2.1 g3.2.2.1 (v1 y)).1
  have i2 : ∀ y, IsDate (date y m2 d2 0 0).day y m2 d2 := fun y => (date_day g4.1 g4.2.1 g4.2.2.1 (v2 y)).1
  refine ⟨fun y ha hb => ⟨_, _, i1 y, i2 y, ?_⟩, ⟨g5.1, g5.2.1, ?_⟩, ⟨g5.2.2.1, g5.2.2.2, ?_⟩⟩
  · have := of_decide_eq_true (scanAll_spec hsc y ha (by omega))
    have hd := asalha_shipped hs (y := y) (by omega) (by omega)
    simp only at hd
    omega
  · rw [(asalha_shipped hs (y := p) (by omega) (by omega)).2.2 g6.1 g6.2.1 g6.2.2.1, g7]
    exact i1 p
  · rw [(asalha_shipped hs (y := q) (by omega) (by omega)).2.2 g6.2.2.2.1 g6.2.2.2.2.1 g6.2.2.2.2.2, g8]
    exact i2 q

theorem own_scan : scanAll (fun y => decide (asalhaAt y + 2 < daysSinceEpoch (y + 1))) 86 11101 = true ∧
    asalhaAt 11187 + 2 = daysSinceEpoch 11188 := by decide +kernel

theorem surplus_far {y : Int} (h : 638 ≤ y) (h2 : y ≤ 14626) : 0 ≤ surplus y ∧ surplus y ≤ 2 ∧ (7261 ≤ y → surplus y = 2) := by
  have := surplus_years (y - 638).toNat (by omega)
  rw [show (638 : Int) + ((y - 638).toNat : Int) = y by omega] at this
  rw [this]
  (repeat' split) <;> omega

/-- C81: the band is the same with the official exceptions. -/
theorem c81_shipped (cfg : Config) (hs : Shipped cfg) (y : Int) (h : 638 ≤ y) (j : Int) (hj : Jan1 y j) :
    let days := ((SuriyaYear.init y).asalhaPuja cfg).day - j - surplusDays (y + 1)
    128597 ≤ 800 * days - 13 * (y - 638) ∧ 800 * days - 13 * (y - 638) ≤ 154030 := by
  have hw := c81_window y h j hj
  rcases hs with rfl | rfl
  · exact hw
  · simp only at hw ⊢
    have k1 := katDay_official (y + 1)
    have a1 := asalha_day y .default
    have b1 := asalha_day y .official
    show _ ≤ 800 * (((SuriyaYear.init y).asalhaPuja .official).day - j - surplusDays (y + 1)) - _ ∧
      800 * (((SuriyaYear.init y).asalhaPuja .official).day - j - surplusDays (y + 1)) - _ ≤ _
    by_cases hc : y = 1994 ∨ y = 1995 ∨ y = 1996
    · have key : ∀ z ∈ [(1994 : Int), 1995, 1996], 129397 ≤ 800 * (asalhaAt z - daysSinceEpoch z) - 13 * (z - 638) := by decide +kernel
      have := key y (by rcases hc with rfl | rfl | rfl <;> simp)
      have hd := asalhaAt_eq h (by omega)
      have hsu : surplusDays (y + 1) = 0 := surplus_before (by omega)
      rw [jan1_iff] at hj
      rw [if_pos (by omega)] at k1
      omega
    · rw [if_neg (by omega)] at k1
      omega

/-- C81: with the settings as shipped Asalha Puja is in its own Gregorian year up to 11186; that of 11187 is on the next New Year's Day. -/
theorem c81_own_year (cfg : Config) (hs : Shipped cfg) :
    (∀ y j k, 638 ≤ y → y ≤ 11186 → Jan1 y j → Jan1 (y + 1) k → j ≤ ((SuriyaYear.init y).asalhaPuja cfg).day ∧
      ((SuriyaYear.init y).asalhaPuja cfg).day < k) ∧
    IsDate ((SuriyaYear.init 11187).asalhaPuja cfg).day 11188 1 1 := by
  have hcfg : ∀ y, (y ≤ 1993 ∨ 1997 ≤ y) → ((SuriyaYear.init y).asalhaPuja cfg).day = ((SuriyaYear.init y).asalhaPuja .default).day := by
    intro y hy
    rcases hs with rfl | rfl
    · rfl
    · have := katDay_official (y + 1)
      rw [if_neg (by omega)] at this
      have e1 := asalha_day y .official
      have e2 := asalha_day y .default
      show ((SuriyaYear.init y).asalhaPuja .official).day = _
      omega
  have far : ∀ y, 11101 ≤ y → y ≤ 11187 → ((SuriyaYear.init y).asalhaPuja cfg).day = asalhaAt y + 2 := by
    intro y h1 h2
    rw [hcfg y (by omega), asalha_day, katDay_closed (y := y + 1) (by omega), (surplus_far (y := y + 1) (by omega) (by omega)).2.2 (by omega),
      show y + 1 - 1 = y by omega]
    unfold asalhaAt; omega
  refine ⟨fun y j k h1 h2 hj hk => ?_, ?_⟩
  · rw [jan1_iff] at hk
    have hkj : daysSinceEpoch (y + 1) - daysSinceEpoch y ≥ 365 := by dsimp only [daysSinceEpoch]; omega
    by_cases hc : y ≤ 1993 ∨ 1997 ≤ y
    · have hw := c81_window y h1 j hj
      have hsu : surplusDays (y + 1) = surplus (y + 1) := rfl
      have hsf := surplus_far (y := y + 1) (by omega) (by omega)
      rw [jan1_iff] at hj
      simp only [hsu, ← hcfg y hc] at hw
      refine ⟨by omega, ?_⟩
      by_cases hf : y ≤ 11100
      · omega
      · rw [far y (by omega) (by omega), hk]
        exact of_decide_eq_true (scanAll_spec own_scan.1 y (by omega) (by omega))
    · obtain ⟨first, last, i1, i2, l1, l2⟩ := (c81_dates cfg hs 1900 2100 7 3 8 3 1936 2031 (by decide)).1 y (by omega) (by omega)
      rw [jan1_iff] at hj
      have e1 : first = (date y 7 3 0 0).day := isDate_day i1 (date_day (by decide) (by decide) (by decide) (by simp [monthDays])).1
      have e2 : last = (date y 8 3 0 0).day := isDate_day i2 (date_day (by decide) (by decide) (by decide) (by simp [monthDays])).1
      obtain rfl | rfl | rfl : y = 1994 ∨ y = 1995 ∨ y = 1996 := by omega
      all_goals
        rw [hj, hk]
        rw [e1] at l1
        rw [e2] at l2
        exact ⟨le_trans (by decide) l1, lt_of_le_of_lt l2 (by decide)⟩
  · rw [far 11187 (by omega) (by omega), own_scan.2]
    have : daysSinceEpoch 11188 = (date 11188 1 1 0 0).day := by decide +kernel
    rw [this]
    exact (date_day (by decide) (by decide) (by decide) (by decide)).1

/-- C81: 30 July 2015, 210 days after 1 January: 168000 − 13·1377 = 150099 lies in the window. -/
example : Jan1 2015 735598 ∧ IsDate ((SuriyaYear.init 2015).asalhaPuja .default).day 2015 7 30 ∧
    ((SuriyaYear.init 2015).asalhaPuja .default).day - 735598 - surplusDays 2016 = 210 := by
  have h : ((SuriyaYear.init 2015).asalhaPuja .default).day = 735808 := (asalhaAt_eq (by decide) (by decide)).trans (by decide +kernel)
  refine ⟨(jan1_iff _ _).2 (by decide), ?_, ?_⟩
  · rw [h, show (735808 : Int) = (date 2015 7 30 0 0).day by decide +kernel]
    exact (date_day (by decide) (by decide) (by decide) (by decide)).1
  · rw [h, show surplusDays 2016 = 0 from surplus_before (by decide)]; rfl

/-- C81: the years 2015 and 16610015. -/
example : Jan1 16610015 6066683038 ∧ ((SuriyaYear.init 16610015).asalhaPuja .default).day - 6066683038 = 210 + 273606 := by
  have h : ((SuriyaYear.init 2015).asalhaPuja .default).day = 735808 := (asalhaAt_eq (by decide) (by decide)).trans (by decide +kernel)
  have hj : Jan1 16610015 6066683038 := (jan1_iff _ _).2 (by decide)
  refine ⟨hj, ?_⟩
  have := c81_period 2015 (by decide) 735598 6066683038 ((jan1_iff _ _).2 (by decide)) hj
  rw [show (2015 : Int) + 16608000 = 16610015 from rfl, h] at this
  exact this

end Verif.Props
