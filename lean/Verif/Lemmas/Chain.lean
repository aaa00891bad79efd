import Verif.Lemmas.Window
import Verif.Model.CalDay
/-
Helper lemmas: symbolic execution of `NextUposatha` from the Kattika seed.
-/
set_option autoImplicit false

namespace Verif.Lemmas
open Verif.Go Verif.Model

/-- `NextUposatha` with the two year flags given. -/
def step (a v : Bool) (lu : UposathaMoon) : UposathaMoon :=
  let nu := if lu.Phase = "new" then nextFull lu a else nextNew lu a v
  { nu with Date := lu.Date.add (nu.U_Days * nsPerDay) }

theorem next_eq_step (cfg : Config) (lu : UposathaMoon) :
    lu.nextUposatha cfg =
      step (SuriyaYear.init lu.Date.year).isAdhikamasa ((SuriyaYear.init lu.Date.year).isAdhikavara cfg) lu := rfl

/-- Move a moon by `d` days and `ly` lunar years. -/
def shift (d ly : Int) (u : UposathaMoon) : UposathaMoon :=
  { u with Date := u.Date.add (d * nsPerDay), LunarYear := u.LunarYear + ly }

/-- Forget the event. -/
def core (u : UposathaMoon) : UposathaMoon := { u with Event := "" }

theorem step_core (a v : Bool) (u : UposathaMoon) : step a v (core u) = step a v u := rfl

theorem step_shift (a v : Bool) (d ly : Int) (u : UposathaMoon) :
    step a v (shift d ly u) = shift d ly (step a v u) := by
  unfold step shift
  simp only
  by_cases h : u.Phase = "new"
  · simp only [h, if_true, nextFull, Time.add, UposathaMoon.mk.injEq, Time.mk.injEq, and_true]
    unfold nsPerDay; omega
  · simp only [h, if_false, nextNew, Time.add, UposathaMoon.mk.injEq, Time.mk.injEq, and_true, true_and]
    refine ⟨by unfold nsPerDay; omega, ?_⟩
    split
    · rfl
    · split <;> omega

theorem core_shift (d ly : Int) (u : UposathaMoon) : core (shift d ly u) = shift d ly (core u) := rfl

/-- The seed at day 0, lunar year 0. -/
def seed0 : UposathaMoon :=
  { Date := ⟨0, 0⟩, Calendar := 0, Phase := "full", S_Number := 8, S_Total := 8, U_Days := 15,
    M_Days := 29, LunarMonth := 12, LunarSeason := 3, LunarYear := 0 }

/-- The moons of a lunar year with flags `a`, `v`, counted from the seed. -/
def tab (a v : Bool) : Nat → UposathaMoon
  | 0 => seed0
  | k + 1 => step a v (tab a v k)

/-- Number of uposathas of a lunar year. -/
def moons (a : Bool) : Nat := if a then 26 else 24
/-- Length of a lunar year in days. -/
def len (a v : Bool) : Int := if a then 384 else if v then 355 else 354

theorem tab_close : ∀ a v : Bool, (a && v) = false → tab a v (moons a) = shift (len a v) 1 seed0 := by
  decide +kernel

/-- Day offset of a table entry. -/
def off (a v : Bool) (k : Nat) : Int := (tab a v k).Date.day

/-- Everything needed about the table, checked for the three kinds of year. -/
theorem tab_facts : ∀ a v : Bool, (a && v) = false → ∀ k : Fin 26, k.val < moons a →
    ((tab a v k).Date = ⟨off a v k * nsPerDay, 0⟩ ∧ 0 ≤ off a v k ∧ off a v k ≤ len a v - 14 ∧
    (off a v k < 118 → ∀ a' v' : Bool, core (step a' v' (tab a v k)) = core (tab a v (k + 1))) ∧
    (off a v k < 74 → ∀ a' v' : Bool, step a' v' (tab a v k) = tab a v (k + 1))) := by
  decide +kernel

/-- The moons following the Kattika seed of year `y`. -/
def chain (cfg : Config) (y : Int) : Nat → UposathaMoon
  | 0 => kattikaSeed cfg y
  | k + 1 => (chain cfg y k).nextUposatha cfg

/-- The conditions on a year under which the chain is regular. -/
structure Regular (cfg : Config) (y : Int) : Prop where
  excl : ((SuriyaYear.init y).isAdhikamasa && (SuriyaYear.init y).isAdhikavara cfg) = false
  lo : daysSinceEpoch y - 118 ≤ katDay cfg y
  hi : katDay cfg y < daysSinceEpoch y
  next_hi : katDay cfg (y + 1) < daysSinceEpoch (y + 1) + 14

abbrev fa (y : Int) : Bool := (SuriyaYear.init y).isAdhikamasa
abbrev fv (cfg : Config) (y : Int) : Bool := (SuriyaYear.init y).isAdhikavara cfg

theorem len_eq (cfg : Config) (y : Int) : (SuriyaYear.init y).yearLength cfg = len (fa y) (fv cfg y) := by
  unfold SuriyaYear.yearLength len; simp

theorem katDay_year {cfg : Config} {y : Int} (h1 : daysSinceEpoch y - 118 ≤ katDay cfg y)
    (h2 : katDay cfg y < daysSinceEpoch y) : (calculatePreviousKattika cfg y).year = y - 1 := by
  unfold Time.year
  rw [year_eq_iff]
  have hs := daysSinceEpoch_succ (y - 1)
  have hb := yearDays_bounds (y - 1)
  have e : y - 1 + 1 = y := by omega
  rw [e] at hs ⊢
  unfold katDay at *; omega

theorem seed_eq {cfg : Config} {y : Int} (h1 : daysSinceEpoch y - 118 ≤ katDay cfg y)
    (h2 : katDay cfg y < daysSinceEpoch y) :
    kattikaSeed cfg y = shift (katDay cfg y) (y + 542) seed0 := by
  unfold kattikaSeed
  simp only
  rw [katDay_year h1 h2, kattika_eq]
  unfold shift seed0 Time.add BEdiff
  simp only [UposathaMoon.mk.injEq, Time.mk.injEq, and_true, true_and]
  omega

theorem day_shift (d ly : Int) (u : UposathaMoon) : (shift d ly u).Date.day = u.Date.day + d := by
  unfold shift; simp only; exact day_add _ _

theorem chain_core {cfg : Config} {y : Int} (h : Regular cfg y) : ∀ k : Nat, k ≤ moons (fa y) →
    core (chain cfg y k) = core (shift (katDay cfg y) (y + 542) (tab (fa y) (fv cfg y) k)) ∧
    (∀ j, k = j + 1 → 118 ≤ off (fa y) (fv cfg y) j →
      chain cfg y k = shift (katDay cfg y) (y + 542) (tab (fa y) (fv cfg y) k)) := by
  intro k
  induction k with
  | zero => intro _; exact ⟨by rw [chain, seed_eq h.lo h.hi]; rfl, fun j hj => by omega⟩
  | succ k ih =>
    intro hk
    have ihk := (ih (by omega)).1
    have hm26 : moons (fa y) ≤ 26 := by unfold moons; split <;> omega
    have ht := tab_facts (fa y) (fv cfg y) h.excl ⟨k, by omega⟩ (by show k < _; omega)
    simp only at ht
    obtain ⟨-, ho1, ho2, hc, -⟩ := ht
    have hdate : (chain cfg y k).Date = (shift (katDay cfg y) (y + 542) (tab (fa y) (fv cfg y) k)).Date := by
      have := congrArg UposathaMoon.Date ihk
      exact this
    have hstep : ∀ a v, step a v (chain cfg y k) =
        shift (katDay cfg y) (y + 542) (step a v (tab (fa y) (fv cfg y) k)) := by
      intro a v
      rw [← step_core, ihk, step_core, step_shift]
    have hexact : 118 ≤ off (fa y) (fv cfg y) k →
        chain cfg y (k + 1) = shift (katDay cfg y) (y + 542) (tab (fa y) (fv cfg y) (k + 1)) := by
      intro ho
      have hyear : (chain cfg y k).Date.year = y := by
        unfold Time.year
        rw [year_eq_iff, hdate, day_shift]
        have h1 := katDay_succ cfg y
        rw [len_eq] at h1
        have h2 := h.lo
        have h3 := h.next_hi
        change _ ≤ off _ _ k + _ ∧ off _ _ k + _ < _
        omega
      rw [chain, next_eq_step, hyear, hstep]; rfl
    refine ⟨?_, fun j hj ho => ?_⟩
    · rcases Int.lt_or_le (off (fa y) (fv cfg y) k) 118 with ho | ho
      · rw [chain, next_eq_step, hstep, core_shift, hc ho, ← core_shift]
      · rw [hexact ho]
    · have : j = k := by omega
      subst this
      exact hexact ho

theorem chain_last {cfg : Config} {y : Int} (h : Regular cfg y) :
    chain cfg y (moons (fa y)) = shift (katDay cfg (y + 1)) (y + 543) seed0 := by
  have hlast : 118 ≤ off (fa y) (fv cfg y) (moons (fa y) - 1) := by
    have : ∀ a v : Bool, (a && v) = false → 118 ≤ off a v (moons a - 1) := by decide +kernel
    exact this _ _ h.excl
  have hm : moons (fa y) = moons (fa y) - 1 + 1 := by unfold moons; split <;> omega
  rw [(chain_core h (moons (fa y)) (by omega)).2 _ hm hlast, tab_close _ _ h.excl, katDay_succ, len_eq]
  unfold shift seed0 Time.add
  simp only [UposathaMoon.mk.injEq, Time.mk.injEq, and_true, true_and]
  generalize len _ _ = L
  unfold nsPerDay; omega

/-- One lunar year closes on the seed of the next. -/
theorem chain_close {cfg : Config} {y : Int} (h : Regular cfg y)
    (h' : daysSinceEpoch (y + 1) - 118 ≤ katDay cfg (y + 1)) (h'' : katDay cfg (y + 1) < daysSinceEpoch (y + 1)) :
    chain cfg y (moons (fa y)) = kattikaSeed cfg (y + 1) := by
  rw [chain_last h, seed_eq h' h'']
  have e : y + 1 + 542 = y + 543 := by omega
  rw [e]

theorem chain_add (cfg : Config) (y : Int) (n : Nat) (z : Int) (h : chain cfg y n = kattikaSeed cfg z) (k : Nat) :
    chain cfg y (n + k) = chain cfg z k := by
  induction k with
  | zero => exact h
  | succ k ih => rw [← Nat.add_assoc, chain, ih, chain]

end Verif.Lemmas
