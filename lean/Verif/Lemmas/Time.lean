import Verif.Go.Time
import Verif.Spec.Gregorian
/-
Helper lemmas: the model's date arithmetic agrees with the Gregorian leap rule.
-/
set_option autoImplicit false

namespace Verif.Lemmas
open Verif.Go Verif.Spec

theorem isLeap_iff (y : Int) : isLeap y = true ↔ LeapYear y := by
  unfold isLeap LeapYear
  simp only [Bool.and_eq_true, Bool.or_eq_true, beq_iff_eq, bne_iff_ne]
  omega

theorem daysSinceEpoch_bounds (y : Int) :
    365 * (y - 1) + (y - 1) / 4 - (y - 1) / 100 + (y - 1) / 400 = daysSinceEpoch y := by
  unfold daysSinceEpoch
  simp only
  omega

theorem daysSinceEpoch_succ (y : Int) : daysSinceEpoch (y + 1) = daysSinceEpoch y + yearDays y := by
  rw [← daysSinceEpoch_bounds, ← daysSinceEpoch_bounds]
  unfold yearDays
  by_cases h : LeapYear y
  · rw [if_pos h]; unfold LeapYear at h; omega
  · rw [if_neg h]; unfold LeapYear at h; omega

theorem jan1_iff (y d : Int) : Jan1 y d ↔ d = daysSinceEpoch y := by
  constructor
  · intro h
    induction h with
    | one => decide
    | succ h ih => rw [daysSinceEpoch_succ]; omega
    | pred h ih => rw [daysSinceEpoch_succ] at ih; omega
  · intro h
    subst h
    have up : ∀ n : Nat, Jan1 (1 + n) (daysSinceEpoch (1 + n)) := by
      intro n
      induction n with
      | zero => exact Jan1.one
      | succ n ih =>
        have := Jan1.succ ih
        rw [← daysSinceEpoch_succ] at this
        have e : (1 + (n:Int) + 1) = 1 + ((n + 1 : Nat) : Int) := by omega
        rw [e] at this; exact this
    have down : ∀ n : Nat, Jan1 (1 - n) (daysSinceEpoch (1 - n)) := by
      intro n
      induction n with
      | zero => exact Jan1.one
      | succ n ih =>
        apply Jan1.pred
        rw [← daysSinceEpoch_succ]
        have e : (1 - ((n + 1 : Nat) : Int)) + 1 = 1 - (n : Int) := by omega
        rw [e]; exact ih
    rcases Int.le_total 1 y with h | h
    · have := up (y - 1).toNat
      have e : (1 + ((y - 1).toNat : Int)) = y := by omega
      rw [e] at this; exact this
    · have := down (1 - y).toNat
      have e : (1 - ((1 - y).toNat : Int)) = y := by omega
      rw [e] at this; exact this

theorem yearYday_spec (d : Int) :
    d = daysSinceEpoch (yearYday d).1 + (yearYday d).2 ∧ 0 ≤ (yearYday d).2 ∧
      (yearYday d).2 < yearDays (yearYday d).1 := by
  unfold yearYday
  simp only
  generalize hn400 : d / 146097 = n400
  generalize hd1 : d - 146097 * n400 = d1
  have : 0 ≤ d1 ∧ d1 < 146097 := by omega
  generalize hn100 : d1 / 36524 - d1 / 36524 / 4 = n100
  have h100 : 0 ≤ n100 ∧ n100 ≤ 3 := by omega
  generalize hd2 : d1 - 36524 * n100 = d2
  have : 0 ≤ d2 ∧ (d2 < 36524 ∨ (d2 = 36524 ∧ n100 = 3)) := by omega
  generalize hn4 : d2 / 1461 = n4
  have h4 : 0 ≤ n4 ∧ n4 ≤ 24 := by omega
  generalize hd3 : d2 - 1461 * n4 = d3
  have h3 : 0 ≤ d3 ∧ d3 < 1461 := by omega
  have h3' : n4 = 24 → (d3 < 1460 ∨ n100 = 3) := by omega
  generalize hn1 : d3 / 365 - d3 / 365 / 4 = n1
  have h1 : 0 ≤ n1 ∧ n1 ≤ 3 := by omega
  generalize hd4 : d3 - 365 * n1 = d4
  have h4' : 0 ≤ d4 ∧ (d4 < 365 ∨ (d4 = 365 ∧ n1 = 3)) := by omega
  have e : 400 * n400 + 100 * n100 + 4 * n4 + n1 + 1 - 1 = 400 * n400 + 100 * n100 + 4 * n4 + n1 := by omega
  have q400 : (400 * n400 + 100 * n100 + 4 * n4 + n1) / 400 = n400 := by omega
  refine ⟨?_, h4'.1, ?_⟩
  · rw [← daysSinceEpoch_bounds, e, q400]
    have q100 : (400 * n400 + 100 * n100 + 4 * n4 + n1) / 100 = 4 * n400 + n100 := by omega
    have q4 : (400 * n400 + 100 * n100 + 4 * n4 + n1) / 4 = 100 * n400 + 25 * n100 + n4 := by omega
    rw [q100, q4]; omega
  · unfold yearDays
    split
    · omega
    · rename_i hl
      unfold LeapYear at hl
      by_cases hh : d4 < 365
      · exact hh
      · exfalso
        have a1 : n1 = 3 := by omega
        subst a1
        apply hl
        by_cases b : n4 = 24
        · have : n100 = 3 := by omega
          right; omega
        · left; constructor
          · omega
          · omega

theorem daysSinceEpoch_mono {a b : Int} (h : a ≤ b) : daysSinceEpoch a + 365 * (b - a) ≤ daysSinceEpoch b := by
  rw [← daysSinceEpoch_bounds, ← daysSinceEpoch_bounds]; omega

theorem yearDays_bounds (y : Int) : 365 ≤ yearDays y ∧ yearDays y ≤ 366 := by
  unfold yearDays; split <;> omega

/-- The year of a day is the unique year whose span contains the day. -/
theorem year_eq_iff (d y : Int) :
    (yearYday d).1 = y ↔ (daysSinceEpoch y ≤ d ∧ d < daysSinceEpoch (y + 1)) := by
  have hs := yearYday_spec d
  have hsucc := daysSinceEpoch_succ (yearYday d).1
  constructor
  · intro h; subst h; omega
  · rintro ⟨h1, h2⟩
    rcases Int.lt_trichotomy (yearYday d).1 y with h | h | h
    · have := daysSinceEpoch_mono (a := (yearYday d).1 + 1) (b := y) (by omega); omega
    · exact h
    · have := daysSinceEpoch_mono (a := y + 1) (b := (yearYday d).1) (by omega); omega

theorem year_le_iff (d y : Int) : (yearYday d).1 ≤ y ↔ d < daysSinceEpoch (y + 1) := by
  have hs := yearYday_spec d
  have hsucc := daysSinceEpoch_succ (yearYday d).1
  constructor
  · intro h
    have := daysSinceEpoch_mono (a := (yearYday d).1 + 1) (b := y + 1) (by omega); omega
  · intro h
    rcases Int.lt_or_le y (yearYday d).1 with h' | h'
    · have := daysSinceEpoch_mono (a := y + 1) (b := (yearYday d).1) (by omega); omega
    · exact h'

/-- First day of a month, closed form used by Go's `Date`. -/
def monthStart (y m : Int) : Int :=
  daysSinceEpoch y + daysBefore (m - 1) + (if isLeap y && decide (m ≥ 3) then 1 else 0)

theorem date_eq (y m d c o : Int) :
    date y m d c o = { nanos := (monthStart y m + (d - 1)) * nsPerDay + c - o * nsPerSec, offset := o } := by
  unfold date monthStart
  simp only
  split <;> simp

theorem monthStart_succ {y m : Int} (h1 : 1 ≤ m) (h2 : m < 12) :
    monthStart y (m + 1) = monthStart y m + monthDays y m := by
  unfold monthStart monthDays daysBefore
  have hl := isLeap_iff y
  rcases hb : isLeap y with _ | _
  · have : ¬ LeapYear y := by rw [← hl]; simp [hb]
    simp only [Bool.false_and, this, if_false]
    have : m = 1 ∨ m = 2 ∨ m = 3 ∨ m = 4 ∨ m = 5 ∨ m = 6 ∨ m = 7 ∨ m = 8 ∨ m = 9 ∨ m = 10 ∨ m = 11 := by omega
    rcases this with h | h | h | h | h | h | h | h | h | h | h <;> subst h <;> simp <;> omega
  · have : LeapYear y := by rw [← hl]; exact hb
    simp only [Bool.true_and, this, if_true]
    have : m = 1 ∨ m = 2 ∨ m = 3 ∨ m = 4 ∨ m = 5 ∨ m = 6 ∨ m = 7 ∨ m = 8 ∨ m = 9 ∨ m = 10 ∨ m = 11 := by omega
    rcases this with h | h | h | h | h | h | h | h | h | h | h <;> subst h <;> simp <;> omega

theorem monthStart_iff {y m d : Int} : MonthStart y m d ↔ (1 ≤ m ∧ m ≤ 12 ∧ d = monthStart y m) := by
  constructor
  · intro h
    induction h with
    | jan h =>
      rw [jan1_iff] at h
      simp [monthStart, daysBefore, h]
    | succ h1 h2 _ ih =>
      refine ⟨by omega, by omega, ?_⟩
      rw [monthStart_succ h1 h2, ih.2.2]
  · rintro ⟨h1, h2, rfl⟩
    have base : MonthStart y 1 (monthStart y 1) := by
      have : monthStart y 1 = daysSinceEpoch y := by simp [monthStart, daysBefore]
      rw [this]; exact .jan ((jan1_iff _ _).2 rfl)
    have key : ∀ n : Nat, n < 12 → MonthStart y (1 + n) (monthStart y (1 + n)) := by
      intro n
      induction n with
      | zero => intro _; exact base
      | succ n ih =>
        intro hn
        have := MonthStart.succ (by omega) (by omega) (ih (by omega))
        rw [← monthStart_succ (by omega) (by omega)] at this
        have e : (1 + (n:Int) + 1) = 1 + ((n + 1 : Nat) : Int) := by omega
        rw [e] at this; exact this
    have := key (m - 1).toNat (by omega)
    have e : (1 + ((m - 1).toNat : Int)) = m := by omega
    rw [e] at this; exact this

/-- The month table, checked on every day of a common year. -/
theorem monthTable : ∀ k : Fin 365, let day : Int := (k : Nat)
      let month := day / 31
      let stop := daysBefore (month + 1)
      let r := if day ≥ stop then (month + 2, day - stop + 1) else (month + 1, day - daysBefore month + 1)
      1 ≤ r.1 ∧ r.1 ≤ 12 ∧ 1 ≤ r.2 ∧ day = daysBefore (r.1 - 1) + (r.2 - 1) ∧
        r.2 ≤ daysBefore r.1 - daysBefore (r.1 - 1) := by
  decide +kernel

theorem monthDay_spec (y yday : Int) (h0 : 0 ≤ yday) (h1 : yday < yearDays y) :
    1 ≤ (monthDay y yday).1 ∧ (monthDay y yday).1 ≤ 12 ∧ 1 ≤ (monthDay y yday).2 ∧
    (monthDay y yday).2 ≤ monthDays y (monthDay y yday).1 ∧
    daysSinceEpoch y + yday = monthStart y (monthDay y yday).1 + ((monthDay y yday).2 - 1) := by
  have hl := isLeap_iff y
  have key : ∀ day : Int, 0 ≤ day → day < 365 →
      let month := day / 31
      let stop := daysBefore (month + 1)
      let r := if day ≥ stop then (month + 2, day - stop + 1) else (month + 1, day - daysBefore month + 1)
      1 ≤ r.1 ∧ r.1 ≤ 12 ∧ 1 ≤ r.2 ∧ day = daysBefore (r.1 - 1) + (r.2 - 1) ∧
        r.2 ≤ daysBefore r.1 - daysBefore (r.1 - 1) := by
    intro day d0 d1
    have := monthTable ⟨day.toNat, by omega⟩
    simp only at this
    have e : (day.toNat : Int) = day := by omega
    rw [e] at this
    exact this
  unfold monthDay
  rcases hb : isLeap y with _ | _
  · have hn : ¬ LeapYear y := by rw [← hl]; simp [hb]
    simp only [yearDays, hn, if_false] at h1
    have := key yday h0 h1
    simp only [Bool.false_and, Bool.false_eq_true, if_false] at *
    generalize (if yday ≥ daysBefore (yday / 31 + 1) then (yday / 31 + 2, yday - daysBefore (yday / 31 + 1) + 1)
      else (yday / 31 + 1, yday - daysBefore (yday / 31) + 1)) = r at *
    obtain ⟨a1, a2, a3, a4, a5⟩ := this
    refine ⟨a1, a2, a3, ?_, ?_⟩
    · refine Int.le_trans a5 ?_
      have hc : r.1 = 1 ∨ r.1 = 2 ∨ r.1 = 3 ∨ r.1 = 4 ∨ r.1 = 5 ∨ r.1 = 6 ∨ r.1 = 7 ∨ r.1 = 8 ∨ r.1 = 9 ∨
        r.1 = 10 ∨ r.1 = 11 ∨ r.1 = 12 := by omega
      rcases hc with h | h | h | h | h | h | h | h | h | h | h | h <;> simp [h, daysBefore, monthDays, hn]
    · unfold monthStart; simp only [hb, Bool.false_and, Bool.false_eq_true, if_false]; omega
  · have hn : LeapYear y := by rw [← hl]; exact hb
    simp only [yearDays, hn, if_true] at h1
    simp only [Bool.true_and]
    by_cases h59 : yday = 59
    · subst h59
      simp [monthDays, hn, monthStart, daysBefore]; omega
    · have hne : (yday == 59) = false := by simp [h59]
      simp only [hne, Bool.false_eq_true, if_false]
      generalize hd : (if decide (yday > 59) = true then yday - 1 else yday) = day
      have hday : 0 ≤ day ∧ day < 365 := by
        split at hd <;> simp at * <;> omega
      have := key day hday.1 hday.2
      simp only at this
      generalize hr : (if day ≥ daysBefore (day / 31 + 1) then (day / 31 + 2, day - daysBefore (day / 31 + 1) + 1)
        else (day / 31 + 1, day - daysBefore (day / 31) + 1)) = r at *
      obtain ⟨a1, a2, a3, a4, a5⟩ := this
      refine ⟨a1, a2, a3, ?_, ?_⟩
      · refine Int.le_trans a5 ?_
        have hc : r.1 = 1 ∨ r.1 = 2 ∨ r.1 = 3 ∨ r.1 = 4 ∨ r.1 = 5 ∨ r.1 = 6 ∨ r.1 = 7 ∨ r.1 = 8 ∨ r.1 = 9 ∨
          r.1 = 10 ∨ r.1 = 11 ∨ r.1 = 12 := by omega
        rcases hc with h | h | h | h | h | h | h | h | h | h | h | h <;> simp [h, daysBefore, monthDays, hn]
      · unfold monthStart
        simp only [hb, Bool.true_and]
        have hc : r.1 = 1 ∨ r.1 = 2 ∨ r.1 = 3 ∨ r.1 = 4 ∨ r.1 = 5 ∨ r.1 = 6 ∨ r.1 = 7 ∨ r.1 = 8 ∨ r.1 = 9 ∨
          r.1 = 10 ∨ r.1 = 11 ∨ r.1 = 12 := by omega
        rcases hc with h | h | h | h | h | h | h | h | h | h | h | h <;> simp [h, daysBefore] at a4 a5 ⊢ <;>
          (split at hd <;> simp at * <;> omega)

/-- `Year`, `Month`, `Day` return the civil date of the local day. -/
theorem civil_spec (t : Time) : IsDate t.day t.year t.month t.dayOfMonth := by
  have hs := yearYday_spec t.day
  have hm := monthDay_spec (yearYday t.day).1 (yearYday t.day).2 hs.2.1 hs.2.2
  refine ⟨monthStart t.year t.month, monthStart_iff.2 ⟨hm.1, hm.2.1, rfl⟩, ?_, hm.2.2.1, hm.2.2.2.1, hm.1, hm.2.1⟩
  have h5 := hm.2.2.2.2
  rw [← hs.1] at h5
  exact h5

theorem day_eq (t : Time) : t.day = monthStart t.year t.month + (t.dayOfMonth - 1) := by
  have hs := yearYday_spec t.day
  have hm := monthDay_spec (yearYday t.day).1 (yearYday t.day).2 hs.2.1 hs.2.2
  have h5 := hm.2.2.2.2
  rw [← hs.1] at h5
  exact h5

theorem nanos_eq (t : Time) : t.nanos = t.day * nsPerDay + t.sinceMidnight - t.offset * nsPerSec := by
  unfold Time.day Time.sinceMidnight nsPerDay; omega

/-- `AddDate(0,0,n)` in a fixed-offset location is adding `n` times 24 hours. -/
theorem addDays_eq (t : Time) (n : Int) : t.addDays n = t.add (n * nsPerDay) := by
  unfold Time.addDays Time.add
  rw [date_eq]
  have h1 := day_eq t
  have h2 := nanos_eq t
  have e : monthStart t.year t.month + (t.dayOfMonth + n - 1) = t.day + n := by omega
  rw [e, h2]
  congr 1
  unfold nsPerDay; omega

theorem day_add (t : Time) (n : Int) : (t.add (n * nsPerDay)).day = t.day + n := by
  unfold Time.day Time.add nsPerDay; simp only; omega

/-- The midnight computed by `time.Date(d.Year(), d.Month(), d.Day(), 0, …)`. -/
theorem date_midnight (t : Time) :
    date t.year t.month t.dayOfMonth 0 t.offset =
      { nanos := t.day * nsPerDay - t.offset * nsPerSec, offset := t.offset } := by
  rw [date_eq, ← day_eq]; simp

end Verif.Lemmas
