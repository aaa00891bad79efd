import Verif.Model.Kattika
import Verif.Lemmas.Time
import Verif.Lemmas.Year
/-
Helper lemmas on the stepping loop of `CalculatePreviousKattika`.
-/
set_option autoImplicit false

namespace Verif.Lemmas
open Verif.Go Verif.Model

theorem epoch_year : kattikaEpoch.year = 2015 := by decide

/-- The number of days the loop steps over for one year is `YearLength`. -/
theorem step_len (cfg : Config) (su : SuriyaYear) :
    (if su.isAdhikamasa = true then (6 * 29 + 6 * 30 : Int) + 30
     else if su.isAdhikavara cfg = true then (6 * 29 + 6 * 30 : Int) + 1 else 6 * 29 + 6 * 30) = su.yearLength cfg := by
  unfold SuriyaYear.yearLength; simp

theorem loop_fwd (cfg : Config) (n : Nat) : ∀ (y : Int) (d : Time),
    kattikaLoop cfg (y + n + 1) 1 (n + 1) y d =
      (kattikaLoop cfg (y + n) 1 n y d).map
        (fun d => d.add ((SuriyaYear.init (y + n + 1)).yearLength cfg * nsPerDay)) := by
  induction n with
  | zero =>
    intro y d
    have e : ¬ (y = y + ((0:Nat):Int) + 1) := by omega
    simp only [kattikaLoop, if_neg e, step_len]
    simp
  | succ n ih =>
    intro y d
    have e1 : ¬ (y = y + ((n + 1 : Nat) : Int) + 1) := by omega
    have e2 : ¬ (y = y + ((n + 1 : Nat) : Int)) := by omega
    rw [kattikaLoop, if_neg e1]
    conv => rhs; rw [kattikaLoop, if_neg e2]
    simp only [if_true, step_len]
    have := ih (y + 1) (d.add ((SuriyaYear.init (y + 1)).yearLength cfg * 1 * nsPerDay))
    have e3 : y + 1 + (n : Int) + 1 = y + ((n + 1 : Nat) : Int) + 1 := by omega
    have e4 : y + 1 + (n : Int) = y + ((n + 1 : Nat) : Int) := by omega
    rw [e3, e4] at this
    exact this

theorem loop_fwd_some (cfg : Config) (n : Nat) : ∀ (y : Int) (d : Time),
    ∃ r, kattikaLoop cfg (y + n) 1 n y d = some r ∧ r.offset = d.offset ∧ (d.nanos % nsPerDay = 0 → r.nanos % nsPerDay = 0) := by
  induction n with
  | zero => intro y d; exact ⟨d, by simp [kattikaLoop], rfl, id⟩
  | succ n ih =>
    intro y d
    obtain ⟨r, h1, h2, h3⟩ := ih y d
    have := loop_fwd cfg n y d
    rw [h1] at this
    refine ⟨r.add ((SuriyaYear.init (y + n + 1)).yearLength cfg * nsPerDay), ?_, ?_, ?_⟩
    · have e : y + ((n + 1 : Nat) : Int) = y + n + 1 := by omega
      rw [e, this]; rfl
    · exact h2
    · intro h; have := h3 h; simp only [Time.add]; unfold nsPerDay at *; omega

theorem loop_bwd (cfg : Config) (n : Nat) : ∀ (y : Int) (d : Time),
    kattikaLoop cfg (y - n - 1) (-1) (n + 1) y d =
      (kattikaLoop cfg (y - n) (-1) n y d).map
        (fun d => d.add (-(SuriyaYear.init (y - n)).yearLength cfg * nsPerDay)) := by
  induction n with
  | zero =>
    intro y d
    have e : ¬ (y = y - ((0:Nat):Int) - 1) := by omega
    have e1 : ¬ ((-1 : Int) = 1) := by omega
    simp only [kattikaLoop, if_neg e, if_neg e1, step_len]
    simp [Int.sub_eq_add_neg]
  | succ n ih =>
    intro y d
    have e1 : ¬ (y = y - ((n + 1 : Nat) : Int) - 1) := by omega
    have e2 : ¬ (y = y - ((n + 1 : Nat) : Int)) := by omega
    have e0 : ¬ ((-1 : Int) = 1) := by omega
    rw [kattikaLoop, if_neg e1]
    conv => rhs; rw [kattikaLoop, if_neg e2]
    simp only [if_neg e0, step_len]
    have := ih (y + -1) (d.add ((SuriyaYear.init y).yearLength cfg * -1 * nsPerDay))
    have e3 : y + -1 - (n : Int) - 1 = y - ((n + 1 : Nat) : Int) - 1 := by omega
    have e4 : y + -1 - (n : Int) = y - ((n + 1 : Nat) : Int) := by omega
    rw [e3, e4] at this
    exact this

theorem loop_bwd_some (cfg : Config) (n : Nat) : ∀ (y : Int) (d : Time),
    ∃ r, kattikaLoop cfg (y - n) (-1) n y d = some r ∧ r.offset = d.offset ∧ (d.nanos % nsPerDay = 0 → r.nanos % nsPerDay = 0) := by
  induction n with
  | zero => intro y d; exact ⟨d, by simp [kattikaLoop], rfl, id⟩
  | succ n ih =>
    intro y d
    obtain ⟨r, h1, h2, h3⟩ := ih y d
    have := loop_bwd cfg n y d
    rw [h1] at this
    refine ⟨r.add (-(SuriyaYear.init (y - n)).yearLength cfg * nsPerDay), ?_, ?_, ?_⟩
    · have e : y - ((n + 1 : Nat) : Int) = y - n - 1 := by omega
      rw [e, this]; rfl
    · exact h2
    · intro h; have := h3 h; simp only [Time.add]; unfold nsPerDay at *; omega

theorem kattika?_fwd (cfg : Config) (n : Nat) :
    calculatePreviousKattika? cfg (2016 + n) = kattikaLoop cfg (2015 + n) 1 n 2015 kattikaEpoch := by
  unfold calculatePreviousKattika? kattikaDirection
  rw [epoch_year]
  have e1 : (2016 + (n:Int) - 1) = 2015 + n := by omega
  have e2 : (2015 + (n:Int) - 2015).natAbs = n := by omega
  rw [e1, e2]
  rcases Nat.eq_zero_or_pos n with h | h
  · subst h; simp [kattikaLoop]
  · rw [if_pos (by omega)]

theorem kattika?_bwd (cfg : Config) (n : Nat) :
    calculatePreviousKattika? cfg (2016 - n) = kattikaLoop cfg (2015 - n) (-1) n 2015 kattikaEpoch := by
  unfold calculatePreviousKattika? kattikaDirection
  rw [epoch_year]
  have e1 : (2016 - (n:Int) - 1) = 2015 - n := by omega
  have e2 : (2015 - (n:Int) - 2015).natAbs = n := by omega
  rw [e1, e2]
  rcases Nat.eq_zero_or_pos n with h | h
  · subst h; simp [kattikaLoop]
  · rw [if_neg (by omega), if_pos (by omega)]

theorem epoch_mid : kattikaEpoch.nanos % nsPerDay = 0 ∧ kattikaEpoch.offset = 0 := by decide

theorem kattika?_isSome (cfg : Config) (y : Int) :
    ∃ r, calculatePreviousKattika? cfg y = some r ∧ r.offset = 0 ∧ r.nanos % nsPerDay = 0 := by
  rcases Int.le_total 2016 y with h | h
  · obtain ⟨r, h1, h2, h3⟩ := loop_fwd_some cfg (y - 2016).toNat 2015 kattikaEpoch
    refine ⟨r, ?_, ?_, h3 epoch_mid.1⟩
    · rw [← kattika?_fwd] at h1
      have e : (2016 + ((y - 2016).toNat : Int)) = y := by omega
      rw [e] at h1; exact h1
    · rw [h2]; exact epoch_mid.2
  · obtain ⟨r, h1, h2, h3⟩ := loop_bwd_some cfg (2016 - y).toNat 2015 kattikaEpoch
    refine ⟨r, ?_, ?_, h3 epoch_mid.1⟩
    · rw [← kattika?_bwd] at h1
      have e : (2016 - ((2016 - y).toNat : Int)) = y := by omega
      rw [e] at h1; exact h1
    · rw [h2]; exact epoch_mid.2

theorem kattika_epoch (cfg : Config) : calculatePreviousKattika cfg 2016 = kattikaEpoch := by
  have := kattika?_fwd cfg 0
  unfold calculatePreviousKattika
  have e : (2016 + ((0:Nat) : Int)) = 2016 := by omega
  rw [e] at this; rw [this]; rfl

/-- One recurrence for both loops. -/
theorem kattika_succ (cfg : Config) (y : Int) :
    calculatePreviousKattika cfg (y + 1) =
      (calculatePreviousKattika cfg y).add ((SuriyaYear.init y).yearLength cfg * nsPerDay) := by
  unfold calculatePreviousKattika
  rcases Int.lt_or_le y 2016 with h | h
  rotate_left
  · obtain ⟨n, hn⟩ : ∃ n : Nat, y = 2016 + n := ⟨(y - 2016).toNat, by omega⟩
    subst hn
    have e : (2016 + (n:Int) + 1) = 2016 + ((n + 1 : Nat) : Int) := by omega
    rw [e, kattika?_fwd, kattika?_fwd]
    have e2 : (2015 + ((n + 1 : Nat) : Int)) = 2015 + n + 1 := by omega
    rw [e2, loop_fwd]
    obtain ⟨r, h1, -, -⟩ := loop_fwd_some cfg n 2015 kattikaEpoch
    rw [h1]
    have e3 : (2015 + (n:Int) + 1) = 2016 + n := by omega
    rw [e3]; rfl
  · obtain ⟨n, hn⟩ : ∃ n : Nat, y = 2015 - n := ⟨(2015 - y).toNat, by omega⟩
    subst hn
    have e : (2015 - (n:Int) + 1) = 2016 - n := by omega
    rw [e, kattika?_bwd]
    have e2 : (2015 - (n:Int)) = 2016 - ((n + 1 : Nat) : Int) := by omega
    conv => rhs; rw [e2, kattika?_bwd]
    have e3 : (2015 - ((n + 1 : Nat) : Int)) = 2015 - n - 1 := by omega
    rw [e3, loop_bwd, ← e2]
    obtain ⟨r, h1, -, -⟩ := loop_bwd_some cfg n 2015 kattikaEpoch
    rw [h1]
    simp only [Option.map_some, Option.getD_some, Time.add]
    generalize SuriyaYear.yearLength cfg (SuriyaYear.init (2015 - (n:Int))) = L
    cases r
    simp only [Time.mk.injEq, and_true]
    rw [Int.neg_mul]; omega

/-- Day number of the Kattika full moon before year `y`. -/
def katDay (cfg : Config) (y : Int) : Int := (calculatePreviousKattika cfg y).day

theorem kattika_eq (cfg : Config) (y : Int) :
    calculatePreviousKattika cfg y = { nanos := katDay cfg y * nsPerDay, offset := 0 } := by
  obtain ⟨r, h1, h2, h3⟩ := kattika?_isSome cfg y
  unfold katDay calculatePreviousKattika
  rw [h1]
  simp only [Option.getD_some]
  have := nanos_eq r
  cases r with
  | mk n o =>
    simp only at h2 h3
    subst h2
    simp only [Time.day, Time.mk.injEq, and_true]
    unfold nsPerDay nsPerSec at *; omega

theorem katDay_succ (cfg : Config) (y : Int) :
    katDay cfg (y + 1) = katDay cfg y + (SuriyaYear.init y).yearLength cfg := by
  unfold katDay; rw [kattika_succ, day_add]

theorem katDay_epoch (cfg : Config) : katDay cfg 2016 = 735926 := by
  unfold katDay; rw [kattika_epoch]; decide

end Verif.Lemmas
