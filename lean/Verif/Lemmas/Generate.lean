import Verif.Lemmas.Chain
/-
Helper lemmas: `GenerateSolarYear` as a list comprehension over the chain of moons.
-/
set_option autoImplicit false

namespace Verif.Lemmas
open Verif.Go Verif.Model

theorem next_days (cfg : Config) (u : UposathaMoon) :
    (u.nextUposatha cfg).Date = u.Date.add ((u.nextUposatha cfg).U_Days * nsPerDay) ∧
    ((u.nextUposatha cfg).U_Days = 14 ∨ (u.nextUposatha cfg).U_Days = 15) := by
  rw [next_eq_step]
  generalize (SuriyaYear.init u.Date.year).isAdhikamasa = a
  generalize (SuriyaYear.init u.Date.year).isAdhikavara cfg = v
  unfold step
  simp only
  refine ⟨trivial, ?_⟩
  by_cases h : u.Phase = "new"
  · simp only [h, if_true, nextFull]; simp
  · simp only [h, if_false, nextNew]; split
    · simp
    · simp; omega

theorem chain_day_succ (cfg : Config) (y : Int) (k : Nat) :
    (chain cfg y (k + 1)).Date.day = (chain cfg y k).Date.day + (chain cfg y (k + 1)).U_Days ∧
    ((chain cfg y (k + 1)).U_Days = 14 ∨ (chain cfg y (k + 1)).U_Days = 15) := by
  have h := next_days cfg (chain cfg y k)
  refine ⟨?_, h.2⟩
  rw [chain, h.1, day_add]

theorem chain_midnight (cfg : Config) (y : Int) (k : Nat) :
    (chain cfg y k).Date = ⟨(chain cfg y k).Date.day * nsPerDay, 0⟩ := by
  induction k with
  | zero =>
    have h : (chain cfg y 0).Date = calculatePreviousKattika cfg y := rfl
    rw [h, kattika_eq]
    have := day_add ⟨0, 0⟩ (katDay cfg y)
    unfold Time.add at this
    simp only [Int.zero_add] at this
    rw [this]
    simp [Time.day]
  | succ k ih =>
    have h := next_days cfg (chain cfg y k)
    rw [chain, h.1, day_add, ih]
    simp only [Time.add, Time.mk.injEq, and_true]
    have e : (⟨(chain cfg y k).Date.day * nsPerDay, 0⟩ : Time).day = (chain cfg y k).Date.day := by
      unfold Time.day nsPerDay; simp only; omega
    rw [e]
    generalize (chain cfg y k).Date.day = d
    generalize ((chain cfg y k).nextUposatha cfg).U_Days = u
    unfold nsPerDay; omega

theorem chain_day_mono (cfg : Config) (y : Int) {j k : Nat} (h : j ≤ k) :
    (chain cfg y j).Date.day + 14 * ((k : Int) - j) ≤ (chain cfg y k).Date.day ∧
    (chain cfg y k).Date.day ≤ (chain cfg y j).Date.day + 15 * ((k : Int) - j) := by
  induction k with
  | zero => have : j = 0 := by omega
            subst this; omega
  | succ k ih =>
    by_cases e : j = k + 1
    · subst e; omega
    · have h1 := ih (by omega)
      have h2 := chain_day_succ cfg y k
      omega

theorem chain_year_mono (cfg : Config) (y : Int) {j k : Nat} (h : j ≤ k) :
    (chain cfg y j).Date.year ≤ (chain cfg y k).Date.year := by
  have h1 := chain_day_mono cfg y h
  unfold Time.year
  rw [year_le_iff]
  have := (year_le_iff (chain cfg y k).Date.day (yearYday (chain cfg y k).Date.day).1).1 (Int.le_refl _)
  omega

/-- A moon with the status set by `GenerateSolarYear`. -/
def confirmed (u : UposathaMoon) : UposathaMoon := { u with Status := 2 }

/-- The events of iterations `k, …, k+n-1`. -/
def emitted (cfg : Config) (y : Int) (k n : Nat) : List CalendarEvent :=
  (List.range n).flatMap fun i => iterationEvents y (confirmed (chain cfg y (k + i + 1)))

theorem emitted_succ (cfg : Config) (y : Int) (k n : Nat) :
    emitted cfg y k (n + 1) = iterationEvents y (confirmed (chain cfg y (k + 1))) ++ emitted cfg y (k + 1) n := by
  unfold emitted
  rw [List.range_succ_eq_map, List.flatMap_cons, List.flatMap_map]
  have : ∀ i, k + Nat.succ i + 1 = k + 1 + i + 1 := by intro i; omega
  simp only [this, Nat.add_zero]

theorem loop_emits (cfg : Config) (y : Int) (fuel : Nat) : ∀ (k : Nat) (evs : List CalendarEvent),
    (daysSinceEpoch (y + 1) - (chain cfg y k).Date.day).toNat ≤ fuel →
    ∃ n, generateLoop cfg y fuel (chain cfg y k) evs = some (evs ++ emitted cfg y k n) ∧
      (∀ j, k ≤ j → j < k + n → (chain cfg y j).Date.year ≤ y) ∧ y < (chain cfg y (k + n)).Date.year := by
  induction fuel with
  | zero =>
    intro k evs h
    have : ¬ (chain cfg y k).Date.year ≤ y := by
      unfold Time.year; rw [year_le_iff]; omega
    refine ⟨0, ?_, by intro j h1 h2; omega, by show y < (chain cfg y k).Date.year; omega⟩
    unfold generateLoop
    rw [if_neg this]; simp [emitted]
  | succ fuel ih =>
    intro k evs h
    unfold generateLoop
    by_cases hy : (chain cfg y k).Date.year ≤ y
    · rw [if_pos hy]
      have hd := chain_day_succ cfg y k
      have hy' := hy
      unfold Time.year at hy'
      rw [year_le_iff] at hy'
      obtain ⟨n, h1, h2, h3⟩ := ih (k + 1) (evs ++ iterationEvents y (confirmed (chain cfg y (k + 1)))) (by omega)
      refine ⟨n + 1, ?_, ?_, ?_⟩
      · rw [emitted_succ, ← List.append_assoc]; exact h1
      · intro j hj1 hj2
        by_cases e : j = k
        · subst e; exact hy
        · exact h2 j (by omega) (by omega)
      · have e : k + (n + 1) = k + 1 + n := by omega
        rw [e]; exact h3
    · rw [if_neg hy]
      refine ⟨0, by simp [emitted], by intro j h1 h2; omega, by show y < (chain cfg y k).Date.year; omega⟩

/-- The loop terminates and emits, in order, the events of the chain moons up to the first one after the year. -/
theorem generate_spec (cfg : Config) (y : Int) : ∃ n,
    generateSolarYear? cfg y = some (emitted cfg y 0 n) ∧ generateSolarYear cfg y = emitted cfg y 0 n ∧
    (∀ j, j < n → (chain cfg y j).Date.year ≤ y) ∧ y < (chain cfg y n).Date.year := by
  obtain ⟨n, h1, h2, h3⟩ := loop_emits cfg y (generateFuel cfg y) 0 [] (by
    unfold generateFuel; show _ ≤ (daysSinceEpoch (y + 1) - (kattikaSeed cfg y).Date.day).toNat + 1
    show (daysSinceEpoch (y + 1) - (kattikaSeed cfg y).Date.day).toNat ≤ _; omega)
  have e : generateSolarYear? cfg y = some (emitted cfg y 0 n) := by
    unfold generateSolarYear?; rw [List.nil_append] at h1; exact h1
  refine ⟨n, e, ?_, fun j hj => h2 j (by omega) (by omega), by rw [Nat.zero_add] at h3; exact h3⟩
  unfold generateSolarYear; rw [e]; rfl

end Verif.Lemmas
