import Verif.Lemmas.Window
import Verif.Props.Year
import Verif.Props.Machine
import Verif.Model.SuriyaDay
import Verif.Spec.Calendar
/-
Properties C10 (adhikavāra spacing), C11-C15 (Kattika and Asalha Puja), C32 (exception table).
-/
set_option autoImplicit false

namespace Verif.Props
open Verif.Go Verif.Model Verif.Spec Verif.Lemmas

/-! ### C10 -/

/-- C10: a year's own adhikavāra condition holds exactly when it gains 5 extra tithis (instead of 6), or is a
Suriya leap year with Avoman exactly 126. -/
theorem c10_own_condition (y : Int) (h : 638 ≤ y) :
    (SuriyaYear.init y).wouldBeAdhikavara = true ↔
      (extraTithis (SuriyaYear.init (y + 1)) = extraTithis (SuriyaYear.init y) + 5 ∨
       ((SuriyaYear.init y).isSuriyaLeap = true ∧ (SuriyaYear.init y).Avoman = 126)) := by
  have key : ∀ z, 638 ≤ z → extraTithis (SuriyaYear.init z) = wraps z := by
    intro z hz; unfold extraTithis
    rw [init_Masaken hz, init_Tithi hz, init_Horakhun hz]; unfold rawTithi; omega
  have ht : tie y = true ↔ ((SuriyaYear.init y).isSuriyaLeap = true ∧ (SuriyaYear.init y).Avoman = 126) := by
    simp [tie]
  rw [key _ h, key _ (by omega), ← ht]
  have hw := wraps_wv h
  have h3 := wv_of_tie h
  by_cases t : tie y = true
  · have := (h3 t).1
    simp [t, this]
  · rw [if_neg t] at hw
    split at hw <;> rename_i hc <;> simp only [hc, t] <;> simp <;> omega

/-- C10: 2015 would be an adhikavāra year and 2016 would not. -/
example : extraTithis (SuriyaYear.init 2016) = extraTithis (SuriyaYear.init 2015) + 5 ∧
    extraTithis (SuriyaYear.init 2017) ≠ extraTithis (SuriyaYear.init 2016) + 5 := by decide +kernel

/-- After an adhikavāra condition that is not a boundary case, the next four years do not meet it. -/
theorem wv_gap {w : Int} (h : 638 ≤ w) (h1 : (SuriyaYear.init w).wouldBeAdhikavara = true) (h2 : tie w = false) :
    (SuriyaYear.init (w + 1)).wouldBeAdhikavara = false ∧ (SuriyaYear.init (w + 2)).wouldBeAdhikavara = false ∧
    (SuriyaYear.init (w + 3)).wouldBeAdhikavara = false ∧ (SuriyaYear.init (w + 4)).wouldBeAdhikavara = false := by
  have k : ∀ z, 638 ≤ z → 137 ≤ avo z → (SuriyaYear.init z).wouldBeAdhikavara = false := by
    intro z hz ha
    rw [← Bool.not_eq_true, wv_iff hz]; omega
  have dec : ∀ z, 137 ≤ avo z → avo z - 137 ≤ avo (z + 1) := by
    intro z hz
    have := avo_succ z; have := avo_range z
    split at * <;> omega
  have hn : ¬ (593 ≤ eraNum w % 800 ∧ avo w = 126) := by rw [← tie_iff h, h2]; simp
  rw [wv_iff h] at h1
  have a1 : 555 ≤ avo (w + 1) := by
    have := avo_succ w; have := avo_range w
    split at * <;> omega
  have a2 := dec (w + 1) (by omega)
  have e2 : w + 1 + 1 = w + 2 := by omega
  rw [e2] at a2
  have a3 := dec (w + 2) (by omega)
  have e3 : w + 2 + 1 = w + 3 := by omega
  rw [e3] at a3
  have a4 := dec (w + 3) (by omega)
  have e4 : w + 3 + 1 = w + 4 := by omega
  rw [e4] at a4
  exact ⟨k _ (by omega) (by omega), k _ (by omega) (by omega), k _ (by omega) (by omega), k _ (by omega) (by omega)⟩

theorem adv_default_iff (y : Int) : (SuriyaYear.init y).isAdhikavara .default = true ↔
    ((SuriyaYear.init y).isAdhikamasa = false ∧
      ((SuriyaYear.init y).wouldBeAdhikavara = true ∨
       ((SuriyaYear.init (y - 1)).isAdhikamasa = true ∧ (SuriyaYear.init (y - 1)).wouldBeAdhikavara = true))) := by
  rw [isAdhikavara_default, ← carried_iff]
  unfold SuriyaYear.isAdhikavaraRule
  rcases (SuriyaYear.init y).isAdhikamasa <;> rcases (SuriyaYear.init y).hasCarriedAdhikavara <;>
    rcases (SuriyaYear.init y).wouldBeAdhikavara <;> simp

/-- C10: two adhikavāra years less than four years apart only occur at a boundary year (leap, Avoman 126),
which is the first of the two years or the year before it. -/
theorem c10_min_gap (y d : Int) (h : 639 ≤ y) (hd1 : 1 ≤ d) (hd3 : d ≤ 3)
    (h1 : (SuriyaYear.init y).isAdhikavara .default = true)
    (h2 : (SuriyaYear.init (y + d)).isAdhikavara .default = true) :
    ((SuriyaYear.init y).isSuriyaLeap = true ∧ (SuriyaYear.init y).Avoman = 126) ∨
    ((SuriyaYear.init (y - 1)).isSuriyaLeap = true ∧ (SuriyaYear.init (y - 1)).Avoman = 126) := by
  have ht : ∀ z, tie z = true ↔ ((SuriyaYear.init z).isSuriyaLeap = true ∧ (SuriyaYear.init z).Avoman = 126) := by
    intro z; simp [tie]
  rw [← ht, ← ht]
  rw [adv_default_iff] at h1 h2
  by_cases t0 : tie y = true
  · exact .inl t0
  by_cases t1 : tie (y - 1) = true
  · exact .inr t1
  exfalso
  simp only [Bool.not_eq_true] at t0 t1
  have g0 : (SuriyaYear.init y).wouldBeAdhikavara = true → _ := fun hw => wv_gap (by omega) hw t0
  have g1 : (SuriyaYear.init (y - 1)).wouldBeAdhikavara = true → _ := fun hw => wv_gap (by omega) hw t1
  have e1 : y - 1 + 1 = y := by omega
  have e2 : y - 1 + 2 = y + 1 := by omega
  have e3 : y - 1 + 3 = y + 2 := by omega
  have e4 : y - 1 + 4 = y + 3 := by omega
  rw [e1, e2, e3, e4] at g1
  have hd : d = 1 ∨ d = 2 ∨ d = 3 := by omega
  have f1 : y + 1 - 1 = y := by omega
  have f2 : y + 2 - 1 = y + 1 := by omega
  have f3 : y + 3 - 1 = y + 2 := by omega
  rcases hd with rfl | rfl | rfl <;> simp only [f1, f2, f3] at h2 <;>
    rcases h1 with ⟨n1, w | ⟨ma, w⟩⟩ <;> rcases h2 with ⟨n2, v | ⟨mb, v⟩⟩ <;>
    first
    | (have := g0 w; simp_all)
    | (have := g1 w; simp_all)

/-- C10: 4098 and 4099 are both adhikavāra years, a case of the hypotheses. -/
example : ((SuriyaYear.init 4098).isSuriyaLeap = true ∧ (SuriyaYear.init 4098).Avoman = 126) ∨
    ((SuriyaYear.init (4098 - 1)).isSuriyaLeap = true ∧ (SuriyaYear.init (4098 - 1)).Avoman = 126) :=
  c10_min_gap 4098 1 (by decide) (by decide) (by decide) (by decide +kernel) (by decide +kernel)

/-- C10: two consecutive adhikavāra years occur only when the first is a boundary year. -/
theorem c10_consecutive (y : Int) (h : 639 ≤ y)
    (h1 : (SuriyaYear.init y).isAdhikavara .default = true)
    (h2 : (SuriyaYear.init (y + 1)).isAdhikavara .default = true) :
    (SuriyaYear.init y).isSuriyaLeap = true ∧ (SuriyaYear.init y).Avoman = 126 := by
  have ht : tie y = true ↔ ((SuriyaYear.init y).isSuriyaLeap = true ∧ (SuriyaYear.init y).Avoman = 126) := by
    simp [tie]
  rw [← ht]
  rcases hb : tie y with _ | _
  · rw [adv_default_iff] at h1 h2
    have f1 : y + 1 - 1 = y := by omega
    rw [f1] at h2
    obtain ⟨n1, w⟩ := h1
    obtain ⟨n2, v⟩ := h2
    have v' : (SuriyaYear.init (y + 1)).wouldBeAdhikavara = true := by
      rcases v with v | ⟨m, _⟩
      · exact v
      · rw [n1] at m; simp at m
    rcases w with w | ⟨_, w⟩
    · have := wv_next (by omega) w v'; rw [hb] at this; exact this
    · rcases t1 : tie (y - 1) with _ | _
      · have := (wv_gap (w := y - 1) (by omega) w t1).2.1
        have e2 : y - 1 + 2 = y + 1 := by omega
        rw [e2, v'] at this; simp at this
      · have h3 := wv_of_tie (y := y - 1) (by omega) t1
        have e2 : y - 1 + 1 = y := by omega
        rw [e2] at h3
        have h4 := wv_next (y := y) (by omega) h3.2.1 v'
        rw [hb] at h4; exact h4
  · rfl

/-- C10: the first such pair. -/
example : (SuriyaYear.init 4098).isSuriyaLeap = true ∧ (SuriyaYear.init 4098).Avoman = 126 :=
  c10_consecutive 4098 (by decide) (by decide +kernel) (by decide +kernel)

/-- C10: the first two consecutive adhikavāra years of the era are 4098 and 4099. -/
theorem c10_first_consecutive :
    ((SuriyaYear.init 4098).isAdhikavara .default = true ∧ (SuriyaYear.init 4099).isAdhikavara .default = true) ∧
    ∀ y, 639 ≤ y → y < 4098 →
      ¬ ((SuriyaYear.init y).isAdhikavara .default = true ∧ (SuriyaYear.init (y + 1)).isAdhikavara .default = true) := by
  refine ⟨by decide +kernel, ?_⟩
  rintro y h1 h2 ⟨a, b⟩
  have h3 := c10_consecutive y h1 a b
  have ht : tie y = true := by simp [tie, h3]
  have := tie_before (by omega) h2 ht
  subst this
  exact absurd a (by decide +kernel)

/-- C10: any seven consecutive years (from 638) contain an adhikavāra year. -/
theorem c10_within_seven (y : Int) (h : 638 ≤ y) :
    ∃ i : Int, 0 ≤ i ∧ i ≤ 6 ∧ (SuriyaYear.init (y + i)).isAdhikavara .default = true := by
  -- some year among the first six meets the condition
  have hw : ∃ i : Int, 0 ≤ i ∧ i ≤ 5 ∧ (SuriyaYear.init (y + i)).wouldBeAdhikavara = true := by
    by_contra hc
    have step : ∀ i : Int, 0 ≤ i → i ≤ 5 → avo (y + i + 1) ≤ avo (y + i) - 126 := by
      intro i h0 h5
      have hn : ¬ (SuriyaYear.init (y + i)).wouldBeAdhikavara = true := fun hcc => hc ⟨i, h0, h5, hcc⟩
      rw [wv_iff (by omega)] at hn
      have := avo_succ (y + i); have := avo_range (y + i)
      split at * <;> omega
    have s0 := step 0 (by omega) (by omega)
    have s1 := step 1 (by omega) (by omega)
    have s2 := step 2 (by omega) (by omega)
    have s3 := step 3 (by omega) (by omega)
    have s4 := step 4 (by omega) (by omega)
    have s5 := step 5 (by omega) (by omega)
    have e0 : y + 0 + 1 = y + 1 := by omega
    have e1 : y + 1 + 1 = y + 2 := by omega
    have e2 : y + 2 + 1 = y + 3 := by omega
    have e3 : y + 3 + 1 = y + 4 := by omega
    have e4 : y + 4 + 1 = y + 5 := by omega
    rw [e0] at s0; rw [e1] at s1; rw [e2] at s2; rw [e3] at s3; rw [e4] at s4
    have := avo_range (y + 0)
    have := avo_range (y + 5 + 1)
    omega
  obtain ⟨i, h0, h5, hi⟩ := hw
  rcases ha : (SuriyaYear.init (y + i)).isAdhikamasa with _ | _
  · exact ⟨i, h0, by omega, (adv_default_iff _).2 ⟨ha, .inl hi⟩⟩
  · refine ⟨i + 1, by omega, by omega, (adv_default_iff _).2 ?_⟩
    have e : y + (i + 1) = y + i + 1 := by omega
    rw [e]
    have e2 : y + i + 1 - 1 = y + i := by omega
    rw [e2]
    exact ⟨adh_not_next _ ha, .inr ⟨ha, hi⟩⟩

/-- C10: a run of seven years is needed: of 2010 to 2015 none is an adhikavāra year, 2016 is. -/
example : (∀ i : Fin 6, (SuriyaYear.init (2010 + (i.val : Int))).isAdhikavara .default = false) ∧
    (SuriyaYear.init 2016).isAdhikavara .default = true := by decide +kernel

/-! ### C11 -/

/-- C11: phase lock. The Kattika full moon before any year of the era is the Horakhun New Year day minus the
age of the moon `m` (between 6 and 35, congruent to Tithi) minus 133 days, minus one day if an adhikavāra is
carried into the year, plus the surplus days of the boundary years so far. -/
theorem c11_phase_lock (y : Int) (h : 638 ≤ y) (hy : y ≤ 10 ^ 9) (m : Int) (hm1 : 6 ≤ m) (hm2 : m ≤ 35)
    (hm3 : (m - (SuriyaYear.init y).Tithi) % 30 = 0) :
    (calculatePreviousKattika .default y).day =
      (horakhunToDate .bits64 ((SuriyaYear.init y).Horakhun)).day - m - 133
      - (if (SuriyaYear.init y).hasCarriedAdhikavara = true then 1 else 0)
      + (if (SuriyaYear.init (y - 1)).isSuriyaLeap = true ∧ (SuriyaYear.init (y - 1)).Avoman = 126 ∧
            (SuriyaYear.init (y - 1)).isAdhikamasa = true then 1 else 0)
      + surplusDays y := by
  have hc := katDay_closed h
  have hage : m = age y := by
    rw [init_Tithi h] at hm3
    have := age_range y
    unfold age at *; omega
  have hs : surplusDays y = surplus y := rfl
  have hta : (if (SuriyaYear.init (y - 1)).isSuriyaLeap = true ∧ (SuriyaYear.init (y - 1)).Avoman = 126 ∧
            (SuriyaYear.init (y - 1)).isAdhikamasa = true then (1 : Int) else 0) = tieAdh (y - 1) := by
    unfold tieAdh tie
    simp only [Bool.and_eq_true, decide_eq_true_eq, and_assoc]
  rw [hta, hs, hage]
  rw [c16_day _ (by rw [init_Horakhun h]; unfold hor eraNum; omega), init_Horakhun h]
  unfold katDay at hc
  have hcar : (if (SuriyaYear.init y).hasCarriedAdhikavara = true then (1 : Int) else 0) = carry y := rfl
  rw [hcar]; omega

/-- C11: in 2016 the tithi is 9, so the Kattika full moon is 9 + 133 + 1 days before the New Year of the Horakhun reckoning. -/
example : (calculatePreviousKattika .default 2016).day = (horakhunToDate .bits64 503328).day - 9 - 133 - 1 := by
  have h := c11_phase_lock 2016 (by decide) (by decide) 9 (by decide) (by decide) (by decide)
  rw [if_pos (by decide +kernel), if_neg (by decide +kernel), show surplusDays 2016 = 0 by decide +kernel,
    show (SuriyaYear.init 2016).Horakhun = 503328 by decide] at h
  omega

/-- C11: until 4098 there is no surplus; the first surplus day appears in 4099. -/
theorem c11_no_surplus_until_4098 : (∀ y, y ≤ 4098 → surplusDays y = 0) ∧ surplusDays 4099 = 1 := by
  refine ⟨fun y h => surplus_before h, ?_⟩
  have h1 := surplus_succ (y := 4098) (by decide)
  rw [surplus_before (y := 4098) (by decide)] at h1
  have h2 : tieOnly 4098 = 1 := by decide +kernel
  rw [h2] at h1
  exact h1

/-- C11 on a concrete year: for 2016, Tithi 9 and a carried adhikavāra. -/
example : (SuriyaYear.init 2016).Tithi = 9 ∧ (SuriyaYear.init 2016).hasCarriedAdhikavara = true ∧
    (SuriyaYear.init 2016).Horakhun = 503328 := by decide +kernel

/-! ### C12 -/

/-- C12: the stepping loop terminates for every year and exception setting. -/
theorem c12_terminates (cfg : Config) (y : Int) : (calculatePreviousKattika? cfg y).isSome = true := by
  obtain ⟨r, h, -⟩ := kattika?_isSome cfg y
  rw [h]; rfl

/-- C12: the epoch value is 2015-11-25 00:00 UTC. -/
theorem c12_epoch (cfg : Config) :
    (calculatePreviousKattika cfg 2016).year = 2015 ∧ (calculatePreviousKattika cfg 2016).month = 11 ∧
    (calculatePreviousKattika cfg 2016).dayOfMonth = 25 ∧ (calculatePreviousKattika cfg 2016).sinceMidnight = 0 ∧
    (calculatePreviousKattika cfg 2016).offset = 0 := by
  rw [kattika_epoch]; decide

/-- C12: consecutive Kattikas are exactly `YearLength` days apart, forwards and backwards. -/
theorem c12_step (cfg : Config) (y : Int) :
    calculatePreviousKattika cfg (y + 1) =
      (calculatePreviousKattika cfg y).add ((SuriyaYear.init y).yearLength cfg * nsPerDay) :=
  kattika_succ cfg y

/-- C12: the result is always a UTC midnight. -/
theorem c12_midnight (cfg : Config) (y : Int) :
    (calculatePreviousKattika cfg y).offset = 0 ∧ (calculatePreviousKattika cfg y).sinceMidnight = 0 := by
  rw [kattika_eq]; refine ⟨rfl, ?_⟩
  unfold Time.sinceMidnight nsPerDay; simp

/-! ### C13 -/

theorem kattika_year_iff (y z : Int) : (calculatePreviousKattika .default y).year = z ↔
    (daysSinceEpoch z ≤ katDay .default y ∧ katDay .default y < daysSinceEpoch (z + 1)) := by
  unfold Time.year; exact year_eq_iff _ _

/-- C13: in 631..4116 the Kattika full moon is in the previous calendar year. -/
theorem c13_previous_year (y : Int) (h1 : 631 ≤ y) (h2 : y ≤ 4116) :
    (calculatePreviousKattika .default y).year = y - 1 := by
  rw [kattika_year_iff]
  have := window h1 h2
  have hs := daysSinceEpoch_succ (y - 1)
  have hb := yearDays_bounds (y - 1)
  have e : y - 1 + 1 = y := by omega
  rw [e] at hs ⊢
  omega

/-- C13: both ends and a year between. -/
example : (calculatePreviousKattika .default 631).year = 630 ∧ (calculatePreviousKattika .default 2015).year = 2014 ∧
    (calculatePreviousKattika .default 4116).year = 4115 :=
  ⟨c13_previous_year 631 (by decide) (by decide), c13_previous_year 2015 (by decide) (by decide),
    c13_previous_year 4116 (by decide) (by decide)⟩

/-- C13: the interval is maximal. -/
theorem c13_maximal : (calculatePreviousKattika .default 630).year = 630 ∧
    (calculatePreviousKattika .default 4117).year = 4117 := by
  constructor
  · rw [kattika_year_iff, katDay_630]; decide
  · rw [kattika_year_iff]
    have h1 := window_4117
    have h2 := window (y := 4116) (by decide) (by decide)
    have h3 := katDay_succ .default 4116
    have e : (4116 + 1 : Int) = 4117 := rfl
    rw [e] at h3
    have h4 : (SuriyaYear.init 4116).yearLength .default ≤ 384 := by
      unfold SuriyaYear.yearLength; simp only; split
      · omega
      · split <;> omega
    have h5 : daysSinceEpoch 4118 = daysSinceEpoch 4116 + 731 := by decide
    have e2 : (4117 + 1 : Int) = 4118 := rfl
    rw [e2]; omega

/-- C13: from 10000 on the "previous" Kattika never lies in the previous year. -/
theorem c13_far_future (y : Int) (h : 10000 ≤ y) : y ≤ (calculatePreviousKattika .default y).year := by
  have hc := katDay_closed (y := y) (by omega)
  have h1 := age_range y
  have h2 := carry_range y
  have h3 := tieAdh_range (y - 1)
  have h4 := surplus_nonneg y
  have h5 := daysSinceEpoch_bounds y
  have h6 : daysSinceEpoch y ≤ katDay .default y := by
    rw [hc]; unfold hor eraNum; omega
  rcases Int.lt_or_le (calculatePreviousKattika .default y).year y with hlt | hle
  · have : (calculatePreviousKattika .default y).year ≤ y - 1 := by omega
    unfold Time.year at this
    rw [year_le_iff] at this
    have e : y - 1 + 1 = y := by omega
    rw [e] at this
    unfold katDay at h6; omega
  · exact hle

/-- C13: the Kattika before the year 100000 lies in that year or later. -/
example : 100000 ≤ (calculatePreviousKattika .default 100000).year := c13_far_future 100000 (by decide)

/-! ### C14 -/

/-- C14: Asalha Puja is exactly 118 days before the Kattika that follows, and after the one that precedes. -/
theorem c14_position (cfg : Config) (y : Int) :
    ((SuriyaYear.init y).asalhaPuja cfg).add (118 * nsPerDay) = calculatePreviousKattika cfg (y + 1) ∧
    (calculatePreviousKattika cfg y).before ((SuriyaYear.init y).asalhaPuja cfg) = true := by
  rw [kattika_succ]
  unfold SuriyaYear.asalhaPuja SuriyaYear.yearLength
  simp only [init_Year]
  generalize calculatePreviousKattika cfg y = k
  unfold Time.add Time.before nsPerDay
  split
  · simp; omega
  · split <;> simp <;> omega

/-- C14: successive Asalha Pujas are a `YearLength` apart, of the later year. -/
theorem c14_step (cfg : Config) (y : Int) :
    (SuriyaYear.init (y + 1)).asalhaPuja cfg =
      ((SuriyaYear.init y).asalhaPuja cfg).add ((SuriyaYear.init (y + 1)).yearLength cfg * nsPerDay) := by
  have h1 := (c14_position cfg y).1
  have h2 := (c14_position cfg (y + 1)).1
  rw [kattika_succ, ← h1] at h2
  generalize (SuriyaYear.init (y + 1)).asalhaPuja cfg = a at *
  generalize (SuriyaYear.init y).asalhaPuja cfg = b at *
  cases a; cases b
  simp only [Time.add, Time.mk.injEq] at *
  omega

/-- C14: 2015 and 2016, an adhikavāra year. -/
example : (SuriyaYear.init 2015).asalhaPuja .default = date 2015 7 30 0 0 ∧ (SuriyaYear.init 2016).asalhaPuja .default = date 2016 7 19 0 0 ∧
    (SuriyaYear.init 2016).yearLength .default = 355 := by decide +kernel

end Verif.Props
