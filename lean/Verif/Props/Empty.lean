import Verif.Props.Generate
import Verif.Lemmas.Empty
/-
C25: exactly which years have no events.
-/
set_option autoImplicit false

namespace Verif.Props
open Verif.Go Verif.Model Verif.Spec Verif.Lemmas

/-- C25: whatever the settings, the list of a year is empty exactly if the Kattika falls in the last 15 days of the year or later. -/
theorem c25_iff (cfg : Config) (y : Int) : generateSolarYear cfg y = [] ↔ daysSinceEpoch (y + 1) ≤ (calculatePreviousKattika cfg y).day + 15 := by
  have h0 : (chain cfg y 0).Date.day = (calculatePreviousKattika cfg y).day := rfl
  have h1 : (chain cfg y 1).Date.day = (calculatePreviousKattika cfg y).day + 15 := by
    rw [(chain_day_succ cfg y 0).1, h0]
    congr 1
    rw [chain, next_eq_step]
    generalize (SuriyaYear.init (chain cfg y 0).Date.year).isAdhikamasa = a
    generalize (SuriyaYear.init (chain cfg y 0).Date.year).isAdhikavara cfg = v
    cases a <;> cases v <;> rfl
  constructor
  · intro he
    by_contra hlt
    have hex : ∃ n, daysSinceEpoch (y + 1) ≤ (chain cfg y n).Date.day := by
      refine ⟨(daysSinceEpoch (y + 1) - (chain cfg y 0).Date.day).toNat, ?_⟩
      have := (chain_day_mono cfg y (j := 0) (k := (daysSinceEpoch (y + 1) - (chain cfg y 0).Date.day).toNat) (by omega)).1
      omega
    classical
    let n := Nat.find hex
    have hn : daysSinceEpoch (y + 1) ≤ (chain cfg y n).Date.day := Nat.find_spec hex
    have hmin : ∀ m, m < n → (chain cfg y m).Date.day < daysSinceEpoch (y + 1) := fun m hm => by
      have := Nat.find_min hex hm; omega
    have h2 : 2 ≤ n := by
      rcases Nat.lt_or_ge n 2 with hc | hc
      · have : n = 0 ∨ n = 1 := by omega
        rcases this with e | e <;> rw [e] at hn <;> omega
      · exact hc
    have hs := chain_day_succ cfg y (n - 1)
    rw [show n - 1 + 1 = n by omega] at hs
    have hl := hmin (n - 1) (by omega)
    have hy := daysSinceEpoch_succ y
    have hb := yearDays_bounds y
    have hyear : (chain cfg y (n - 1)).Date.year = y := by
      unfold Time.year; rw [year_eq_iff]; omega
    have := (c22_uposatha_iff cfg y (published (moonAfterKattika cfg y (n - 1)))).2 ⟨n - 1, by omega, rfl, by
      rw [moon_eq]; exact hyear⟩
    rw [he] at this
    simp at this
  · intro hle
    have late : ∀ k, 1 ≤ k → ∀ t : Time, (chain cfg y k).Date.day ≤ t.day → t.year ≠ y := by
      intro k hk t ht hy
      have hm := (chain_day_mono cfg y (j := 1) (k := k) hk).1
      unfold Time.year at hy; rw [year_eq_iff] at hy
      omega
    rw [List.eq_nil_iff_forall_not_mem]
    intro e he
    cases e with
    | uposatha u =>
      obtain ⟨k, hk, rfl, hy⟩ := (c22_uposatha_iff cfg y u).1 he
      exact late k hk _ (by rw [moon_eq]; exact Int.le_refl _) hy
    | half m =>
      obtain ⟨k, hk, hd, hy, -⟩ := (c23_half_iff cfg y m).1 he
      refine late k hk _ ?_ hy
      rw [hd, moon_eq, addDays_eq, day_add]; omega
    | major m =>
      obtain ⟨k, hk, hy, -⟩ := (c22_major_iff cfg y m).1 he
      exact late k hk _ (by rw [moon_eq]) hy
    | astro m => exact (c22_in_year cfg y _ he).2.1 m rfl
    | event m => exact (c22_in_year cfg y _ he).2.2 m rfl

/-- C25: the Kattika before 2016 lies in 2015, so the year 2016 has events. -/
example : generateSolarYear .official 2016 ≠ [] := by
  intro h
  have := (c25_iff .official 2016).1 h
  revert this
  decide +kernel

/-- C25: with the settings as shipped, the years 630 to 25329 have events, 25330 is the first that has none, 26992 is the last that has
one, and from 26993 on no year has any. -/
theorem c25_years (cfg : Config) (hs : Shipped cfg) :
    (∀ y, 630 ≤ y → y ≤ 25329 → generateSolarYear cfg y ≠ []) ∧ generateSolarYear cfg 25330 = [] ∧
    generateSolarYear cfg 26992 ≠ [] ∧ ∀ y, 26993 ≤ y → generateSolarYear cfg y = [] := by
  have hoff : ∀ y : Int, (calculatePreviousKattika cfg y).day = katDay .default y ∨
      (y = 1995 ∨ y = 1996 ∨ y = 1997) ∧ (calculatePreviousKattika cfg y).day = katDay .default y - 1 := by
    intro y
    rcases hs with rfl | rfl
    · exact .inl rfl
    · have h := katDay_official y
      change (calculatePreviousKattika .official y).day = _ at h
      by_cases hc : y = 1995 ∨ y = 1996 ∨ y = 1997
      · right; refine ⟨hc, ?_⟩; rw [h]; rcases hc with rfl | rfl | rfl <;> rfl
      · left; rw [h]; simp only [not_or] at hc; omega
  refine ⟨?_, ?_, ?_, ?_⟩
  · intro y h1 h2 he
    rw [c25_iff] at he
    have := (kat_end y (by omega)).1 h2
    have := hoff y
    omega
  · rw [c25_iff]
    have := (kat_end 25330 (by omega)).2.1 rfl
    have := hoff 25330
    omega
  · intro he
    rw [c25_iff] at he
    have := (kat_end 26992 (by omega)).2.2.1 rfl
    have := hoff 26992
    omega
  · intro y h
    rw [c25_iff]
    have := hoff y
    have := (kat_end y (by omega)).2.2.2 h
    omega

/-- C25: the year 25328 has events, 25330 has none. -/
example : generateSolarYear .official 25328 ≠ [] ∧ generateSolarYear .official 25330 = [] :=
  ⟨(c25_years _ (.inr rfl)).1 _ (by decide) (by decide), (c25_years _ (.inr rfl)).2.1⟩

end Verif.Props
