import Verif.Lemmas.YearList
import Verif.Spec.Events
import Verif.Props.Kattika
import Verif.Props.Asalha
/-
Properties C17-C19: `NextUposatha`.
-/
set_option autoImplicit false

namespace Verif.Props
open Verif.Go Verif.Model Verif.Spec Verif.Lemmas

/-! ### C17 -/

/-- C17: phase alternation and spacing, for every moon value and every setting. -/
theorem c17_alternation (cfg : Config) (u : UposathaMoon) :
    let n := u.nextUposatha cfg
    (n.Phase = if u.Phase = "new" then "full" else "new") ∧
    n.Date = u.Date.add (n.U_Days * nsPerDay) ∧ (n.U_Days = 14 ∨ n.U_Days = 15) ∧
    (n.Phase = "full" → n.U_Days = 15) := by
  intro n
  have h := next_days cfg u
  refine ⟨?_, h.1, h.2, ?_⟩
  · show (u.nextUposatha cfg).Phase = _
    rw [next_eq_step]; unfold step; simp only
    by_cases hp : u.Phase = "new" <;> simp [hp, nextFull, nextNew]
  · show (u.nextUposatha cfg).Phase = "full" → (u.nextUposatha cfg).U_Days = 15
    rw [next_eq_step]; unfold step; simp only
    by_cases hp : u.Phase = "new" <;> simp [hp, nextFull, nextNew]

/-- C17: a full moon stays in the month, season, year of the new moon before it; no adhikavāra mark. -/
theorem c17_full_moon (cfg : Config) (u : UposathaMoon) (h : u.Phase = "new") :
    let n := u.nextUposatha cfg
    n.LunarMonth = u.LunarMonth ∧ n.M_Days = u.M_Days ∧ n.LunarSeason = u.LunarSeason ∧
    n.LunarYear = u.LunarYear ∧ n.S_Total = u.S_Total ∧ n.S_Number = u.S_Number + 1 ∧ n.HasAdhikavara = false := by
  intro n
  have e : n = step (SuriyaYear.init u.Date.year).isAdhikamasa ((SuriyaYear.init u.Date.year).isAdhikavara cfg) u :=
    next_eq_step cfg u
  rw [e]; unfold step; simp [h, nextFull]

/-- C17: the full moon after a new moon, here the last one of Gimhāna 2015. -/
example : let u : UposathaMoon := { Date := date 2015 7 15 0 0, Phase := "new", LunarMonth := 13, LunarSeason := 2, S_Number := 9, S_Total := 10, M_Days := 30 }
    (u.nextUposatha .default).S_Number = 10 ∧ (u.nextUposatha .default).LunarMonth = 13 := by decide +kernel

/-- C17: the adhikavāra mark is set exactly on the new moon of month 8 computed in an adhikavāra year; the month
has then 30 days, otherwise odd months have 30 and even ones 29; the uposatha has 14 days exactly in 29-day months. -/
theorem c17_new_moon (cfg : Config) (u : UposathaMoon) (h : u.Phase ≠ "new") :
    let n := u.nextUposatha cfg
    (n.HasAdhikavara = true ↔
      ((SuriyaYear.init u.Date.year).isAdhikavara cfg = true ∧ n.LunarMonth = 8)) ∧
    n.M_Days = (if n.HasAdhikavara = true ∨ n.LunarMonth.tmod 2 = 1 then 30 else 29) ∧
    (n.U_Days = 14 ↔ n.M_Days = 29) := by
  intro n
  have e : n = step (SuriyaYear.init u.Date.year).isAdhikamasa ((SuriyaYear.init u.Date.year).isAdhikavara cfg) u :=
    next_eq_step cfg u
  rw [e]
  generalize (SuriyaYear.init u.Date.year).isAdhikamasa = a
  generalize (SuriyaYear.init u.Date.year).isAdhikavara cfg = v
  unfold step
  simp only [h, if_false, nextNew]
  generalize nextMonth a u.LunarMonth = m
  refine ⟨by simp, ?_, ?_⟩
  · by_cases h1 : v = true ∧ m = 8
    · simp [h1.1, h1.2]
    · have : (v && decide (m = 8)) = false := by simpa using h1
      simp [this]
  · by_cases h1 : v = true ∧ m = 8
    · simp [h1.1, h1.2]
    · have : (v && decide (m = 8)) = false := by simpa using h1
      simp [this]

/-- C17: the new moon of month 8 in the adhikavāra year 2016 has the mark, the one of 2017 has not. -/
example : let u : Int → UposathaMoon := fun y => { Date := date y 6 20 0 0, Phase := "full", LunarMonth := 7, LunarSeason := 2, S_Number := 6, S_Total := 8, M_Days := 30 }
    ((u 2016).nextUposatha .default).HasAdhikavara = true ∧ ((u 2016).nextUposatha .default).M_Days = 30 ∧
    ((u 2017).nextUposatha .default).HasAdhikavara = false ∧ ((u 2017).nextUposatha .default).M_Days = 29 := by decide +kernel

/-! ### C18 -/

/-- C18: the month changes exactly at new moons, along the order 1..8, [13], 9..12, where 13 follows 8 exactly
when the year of the month-8 moon is adhikamāsa. -/
theorem c18_month_step (cfg : Config) (u : UposathaMoon) (h1 : 1 ≤ u.LunarMonth) (h2 : u.LunarMonth ≤ 13) :
    (u.Phase = "new" → (u.nextUposatha cfg).LunarMonth = u.LunarMonth) ∧
    (u.Phase ≠ "new" → MonthAfter (SuriyaYear.init u.Date.year).isAdhikamasa u.LunarMonth
      (u.nextUposatha cfg).LunarMonth) := by
  rw [next_eq_step]
  generalize (SuriyaYear.init u.Date.year).isAdhikamasa = a
  generalize (SuriyaYear.init u.Date.year).isAdhikavara cfg = v
  constructor
  · intro h; unfold step; simp [h, nextFull]
  · intro h
    have e : (step a v u).LunarMonth = nextMonth a u.LunarMonth := by unfold step; simp [h, nextNew]
    rw [e]
    generalize u.LunarMonth = m at *
    unfold nextMonth
    by_cases c1 : m = 13
    · subst c1; exact .leave13
    · rw [if_neg c1]
      by_cases c2 : m = 8 ∧ a = true
      · rw [if_pos c2, c2.1]; exact .enter13 c2.2
      · rw [if_neg c2]
        by_cases c3 : m = 12
        · rw [if_pos c3, c3]; exact .wrap
        · rw [if_neg c3]
          by_cases c4 : m = 8
          · subst c4
            exact .skip13 (by rcases a <;> simp_all)
          · exact .next h1 (by omega) c4

/-- C18: month 8 is followed by month 13 in the adhikamāsa year 2015, and month 13 by month 9. -/
example : let u : Int → UposathaMoon := fun m => { Date := date 2015 7 1 0 0, Phase := "full", LunarMonth := m }
    ((u 8).nextUposatha .default).LunarMonth = 13 ∧ ((u 13).nextUposatha .default).LunarMonth = 9 ∧
    ((u 12).nextUposatha .default).LunarMonth = 1 := by decide +kernel

/-- C18: the month stays in 1..13 along any number of steps. -/
theorem c18_month_range (cfg : Config) (u : UposathaMoon) (h1 : 1 ≤ u.LunarMonth) (h2 : u.LunarMonth ≤ 13) (n : Nat) :
    1 ≤ ((fun v : UposathaMoon => v.nextUposatha cfg)^[n] u).LunarMonth ∧
    ((fun v : UposathaMoon => v.nextUposatha cfg)^[n] u).LunarMonth ≤ 13 := by
  induction n with
  | zero => exact ⟨h1, h2⟩
  | succ n ih =>
    rw [Function.iterate_succ_apply']
    have h := c18_month_step cfg _ ih.1 ih.2
    by_cases hp : ((fun v : UposathaMoon => v.nextUposatha cfg)^[n] u).Phase = "new"
    · rw [h.1 hp]; exact ih
    · have := h.2 hp
      revert this ih
      generalize (UposathaMoon.nextUposatha cfg _).LunarMonth = m'
      generalize ((fun v : UposathaMoon => v.nextUposatha cfg)^[n] u).LunarMonth = m
      intro ih hm
      cases hm <;> omega

/-- C18: the uposathas of 100 steps from the Kattika before 2015. -/
example : 1 ≤ ((fun v : UposathaMoon => v.nextUposatha .default)^[100] (kattikaSeed .default 2015)).LunarMonth ∧
    ((fun v : UposathaMoon => v.nextUposatha .default)^[100] (kattikaSeed .default 2015)).LunarMonth ≤ 13 :=
  c18_month_range .default _ (by decide +kernel) (by decide +kernel) 100

/-- The month order is deterministic, so C18 fixes the next month. -/
theorem MonthAfter.unique {b : Bool} {m x z : Int} (h : MonthAfter b m x) (h' : MonthAfter b m z) : x = z := by
  cases h <;> cases h' <;> simp_all

/-! ### C19 -/

theorem katDay_official (y : Int) : katDay .official y =
    katDay .default y + (if y = 1995 ∨ y = 1996 ∨ y = 1997 then -1 else 0) := by
  unfold katDay
  rw [c32_kattika]
  split
  · have := day_add (calculatePreviousKattika .default y) (-1)
    rw [← this]; congr 1
  · omega

theorem shipped_window {cfg : Config} (hs : Shipped cfg) {y : Int} (h1 : 631 ≤ y) (h2 : y ≤ 4116) :
    daysSinceEpoch y - 118 ≤ katDay cfg y ∧ katDay cfg y < daysSinceEpoch y ∧
    (1290 ≤ y → daysSinceEpoch y - 74 ≤ katDay cfg y) := by
  have w := window h1 h2
  rcases hs with rfl | rfl
  · exact ⟨w.1, w.2.1, w.2.2.1⟩
  · rw [katDay_official]
    split
    · have := w.2.2.2.1 (by omega) (by omega); omega
    · refine ⟨by omega, by omega, fun h => by have := w.2.2.1 h; omega⟩

theorem shipped_excl {cfg : Config} (hs : Shipped cfg) (y : Int) :
    ((SuriyaYear.init y).isAdhikamasa && (SuriyaYear.init y).isAdhikavara cfg) = false := by
  have : ¬ ((SuriyaYear.init y).isAdhikamasa = true ∧ (SuriyaYear.init y).isAdhikavara cfg = true) := by
    rcases hs with rfl | rfl
    · exact c08_exclusive_default _
    · exact c08_exclusive_official y
  rcases a : (SuriyaYear.init y).isAdhikamasa <;> rcases b : (SuriyaYear.init y).isAdhikavara cfg <;> simp_all

theorem shipped_regular {cfg : Config} (hs : Shipped cfg) {y : Int} (h1 : 631 ≤ y) (h2 : y ≤ 4115) :
    Regular2 cfg y := by
  have w := shipped_window hs h1 (by omega)
  have w' := shipped_window hs (y := y + 1) (by omega) (by omega)
  exact ⟨⟨shipped_excl hs y, w.1, w.2.1, by omega⟩, w'.1, w'.2.1⟩

theorem shipped_steady {cfg : Config} (hs : Shipped cfg) : Steady cfg 118 631 4116 := by
  refine ⟨fun y _ _ => ?_, fun y h1 h2 => (shipped_window hs h1 h2).1, fun y h1 h2 => (shipped_window hs h1 h2).2.1⟩
  rcases hs with rfl | rfl
  · exact c08_exclusive_default _
  · exact c08_exclusive_official y

theorem shipped_steady74 {cfg : Config} (hs : Shipped cfg) : Steady cfg 74 1290 4116 := by
  have h := shipped_steady hs
  exact ⟨fun y _ _ => h.exclusive y (by omega) (by omega), fun y h1 h2 => (shipped_window hs (by omega) h2).2.2 h1,
    fun y _ _ => h.notLate y (by omega) (by omega)⟩

/-- A wider window and fewer years. -/
theorem _root_.Verif.Spec.Steady.mono {cfg : Config} {w a b w' a' b' : Int} (h : Steady cfg w a b) (hw : w ≤ w') (ha : a ≤ a')
    (hb : b' ≤ b) : Steady cfg w' a' b' :=
  ⟨fun y _ _ => h.exclusive y (by omega) (by omega),
    fun y _ _ => by have := h.notEarly y (by omega) (by omega); omega,
    fun y _ _ => h.notLate y (by omega) (by omega)⟩

theorem _root_.Verif.Spec.Steady.excl {cfg : Config} {w a b : Int} (h : Steady cfg w a b) {y : Int} (h1 : a ≤ y) (h2 : y ≤ b) :
    ((SuriyaYear.init y).isAdhikamasa && (SuriyaYear.init y).isAdhikavara cfg) = false := by
  have := h.exclusive y h1 h2
  rcases a : (SuriyaYear.init y).isAdhikamasa <;> rcases b : (SuriyaYear.init y).isAdhikavara cfg <;> simp_all

theorem _root_.Verif.Spec.Steady.regular {cfg : Config} {w a b : Int} (h : Steady cfg w a b) (hw : w ≤ 118) {y : Int} (h1 : a ≤ y)
    (h2 : y < b) : Regular2 cfg y := by
  have w1 : _ ≤ katDay cfg y := h.notEarly y h1 (by omega)
  have w2 : katDay cfg y < _ := h.notLate y h1 (by omega)
  have w3 : _ ≤ katDay cfg (y + 1) := h.notEarly (y + 1) (by omega) (by omega)
  have w4 : katDay cfg (y + 1) < _ := h.notLate (y + 1) (by omega) (by omega)
  exact ⟨⟨h.excl h1 (by omega), by omega, w2, by omega⟩, by omega, w4⟩

/-- Iterates of `NextUposatha` from the seed of `GenerateSolarYear`. -/
theorem chain_iterate (cfg : Config) (y : Int) (k : Nat) :
    chain cfg y k = (fun u : UposathaMoon => u.nextUposatha cfg)^[k] (kattikaSeed cfg y) := by
  induction k with
  | zero => rfl
  | succ k ih => rw [Function.iterate_succ_apply', ← ih]; rfl

/-- C19: one lunar year of uposathas ends exactly at the seed of the next year, with any steady settings. -/
theorem c19_closes_steady (cfg : Config) (a b : Int) (hs : Steady cfg 118 a b) (y : Int) (h1 : a ≤ y) (h2 : y < b) :
    (fun u : UposathaMoon => u.nextUposatha cfg)^[if (SuriyaYear.init y).isAdhikamasa = true then 26 else 24]
      (kattikaSeed cfg y) = kattikaSeed cfg (y + 1) := by
  have hr := hs.regular (Int.le_refl _) h1 h2
  have := chain_close hr.toRegular hr.lo' hr.hi'
  rw [chain_iterate] at this
  exact this

/-- C19: the shipped setting is steady from 631 to 4116; 26 uposathas lead from the Kattika before 2015 to the next one. -/
example : (fun u : UposathaMoon => u.nextUposatha .default)^[26] (kattikaSeed .default 2015) = kattikaSeed .default 2016 :=
  c19_closes_steady .default 631 4116 (shipped_steady (Or.inl rfl)) 2015 (by decide) (by decide)

/-- C19: one lunar year of uposathas ends exactly at the seed of the next year. -/
theorem c19_closes (cfg : Config) (hs : Shipped cfg) (y : Int) (h1 : 631 ≤ y) (h2 : y ≤ 4115) :
    (fun u : UposathaMoon => u.nextUposatha cfg)^[if (SuriyaYear.init y).isAdhikamasa = true then 26 else 24]
      (kattikaSeed cfg y) = kattikaSeed cfg (y + 1) :=
  c19_closes_steady cfg 631 4116 (shipped_steady hs) y h1 (by omega)

/-- C19: 24 uposathas in the lunar year of 2016, with the official table too. -/
example : (fun u : UposathaMoon => u.nextUposatha .official)^[24] (kattikaSeed .official 2016) = kattikaSeed .official 2017 :=
  c19_closes .official (Or.inr rfl) 2016 (by decide) (by decide)

/-- C19: seasons are numbered 1, 2, 3 with their uposathas numbered 1..8 (1..10 in the hot season of an
adhikamāsa year); all of them belong to lunar year `y + 543`. -/
theorem c19_seasons_steady (cfg : Config) (a b : Int) (hs : Steady cfg 118 a b) (y : Int) (h1 : a ≤ y) (h2 : y < b) (k : Nat)
    (hk : k < if (SuriyaYear.init y).isAdhikamasa = true then 26 else 24) :
    let u := (fun u : UposathaMoon => u.nextUposatha cfg)^[k + 1] (kattikaSeed cfg y)
    (u.LunarSeason, u.S_Number, u.S_Total) = seasonOf (if (SuriyaYear.init y).isAdhikamasa = true then 10 else 8) k ∧
    u.LunarYear = y + 543 := by
  intro u
  have hr := (hs.regular (Int.le_refl _) h1 h2).toRegular
  have hu : u = chain cfg y (k + 1) := (chain_iterate _ _ _).symm
  have hc := (chain_core hr (k + 1) (by unfold moons; exact hk)).1
  rw [← hu] at hc
  have f1 : u.LunarSeason = (tab (fa y) (fv cfg y) (k + 1)).LunarSeason := by
    have := congrArg UposathaMoon.LunarSeason hc; exact this
  have f2 : u.S_Number = (tab (fa y) (fv cfg y) (k + 1)).S_Number := by
    have := congrArg UposathaMoon.S_Number hc; exact this
  have f3 : u.S_Total = (tab (fa y) (fv cfg y) (k + 1)).S_Total := by
    have := congrArg UposathaMoon.S_Total hc; exact this
  have f4 : u.LunarYear = (tab (fa y) (fv cfg y) (k + 1)).LunarYear + (y + 542) := by
    have := congrArg UposathaMoon.LunarYear hc; exact this
  have table : ∀ a v : Bool, (a && v) = false → ∀ k : Fin 26, k.val < (if a = true then 26 else 24) →
      ((tab a v (k + 1)).LunarSeason, (tab a v (k + 1)).S_Number, (tab a v (k + 1)).S_Total) =
        seasonOf (if a = true then 10 else 8) k ∧ (tab a v (k + 1)).LunarYear = 1 := by decide +kernel
  have hk26 : k < 26 := by split at hk <;> omega
  have := table (fa y) (fv cfg y) hr.excl ⟨k, hk26⟩ hk
  rw [f1, f2, f3, f4, this.2]
  exact ⟨this.1, by omega⟩

/-- C19: the tenth full moon of Gimhāna is the 18th uposatha of the lunar year of 2015. -/
example : let u := (fun u : UposathaMoon => u.nextUposatha .default)^[17 + 1] (kattikaSeed .default 2015)
    (u.LunarSeason, u.S_Number, u.S_Total) = (2, 10, 10) ∧ u.LunarYear = 2015 + 543 :=
  c19_seasons_steady .default 631 4116 (shipped_steady (Or.inl rfl)) 2015 (by decide) (by decide) 17 (by decide +kernel)

/-- C19: the seasons of the shipped settings. -/
theorem c19_seasons (cfg : Config) (hs : Shipped cfg) (y : Int) (h1 : 631 ≤ y) (h2 : y ≤ 4115) (k : Nat)
    (hk : k < if (SuriyaYear.init y).isAdhikamasa = true then 26 else 24) :
    let u := (fun u : UposathaMoon => u.nextUposatha cfg)^[k + 1] (kattikaSeed cfg y)
    (u.LunarSeason, u.S_Number, u.S_Total) = seasonOf (if (SuriyaYear.init y).isAdhikamasa = true then 10 else 8) k ∧
    u.LunarYear = y + 543 :=
  c19_seasons_steady cfg 631 4116 (shipped_steady hs) y h1 (by omega) k hk

/-- The two cases of C19 occur. -/
example : (SuriyaYear.init 2015).isAdhikamasa = true ∧ (SuriyaYear.init 2016).isAdhikamasa = false := by decide +kernel

theorem regular_4116 : Regular .default 4116 := by
  have w1 := window (y := 4116) (by omega) (by omega)
  exact ⟨by decide +kernel, w1.1, w1.2.1, window_4117.2⟩

/-- C19 fails at the end of the interval: the uposathas of 4116 do not reach the seed of 4117, whose lunar year
is one too high because that Kattika falls in 4117. -/
theorem c19_fails_4116 :
    let u := (fun u : UposathaMoon => u.nextUposatha .default)^[if (SuriyaYear.init 4116).isAdhikamasa = true then 26 else 24]
      (kattikaSeed .default 4116)
    u.Date = (kattikaSeed .default 4117).Date ∧ u.LunarYear = 4659 ∧ (kattikaSeed .default 4117).LunarYear = 4660 := by
  intro u
  have h : u = shift (katDay .default 4117) 4659 seed0 := by
    have := chain_last regular_4116
    rw [chain_iterate] at this
    exact this
  rw [h]
  refine ⟨?_, rfl, ?_⟩
  · unfold kattikaSeed; simp only; rw [kattika_eq]; simp [shift, seed0, Time.add]
  · unfold kattikaSeed; simp only
    have : (calculatePreviousKattika .default 4117).year = 4117 := by
      unfold Time.year
      rw [year_eq_iff]
      have w := window_4117
      have hm := daysSinceEpoch_mono (a := 4117) (b := 4117 + 1) (by omega)
      unfold katDay at w
      omega
    rw [this]; rfl

end Verif.Props
