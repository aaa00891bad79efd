import Verif.Props.Empty
/-
C25: the stretch in which years with and without events are mixed.
-/
set_option autoImplicit false

namespace Verif.Props
open Verif.Go Verif.Model Verif.Spec Verif.Lemmas

/-- No event in `y`, for `y` in the stretch. -/
def emptyAt (y : Int) : Bool :=
  decide (daysSinceEpoch (y + 1) ≤ hor y - age y - carry y + 232608 + tieAdh (y - 1) + (if y ≤ 25675 then 5 else 6) + 15)

theorem emptyAt_count : ((List.range 1663).filter fun i : Nat => emptyAt (25330 + (i : Int))).length = 836 := by decide +kernel

theorem emptyAt_iff {cfg : Config} (hs : Shipped cfg) {y : Int} (h1 : 25155 ≤ y) (h2 : y ≤ 27001) :
    (generateSolarYear cfg y).isEmpty = emptyAt y := by
  have hk : (calculatePreviousKattika cfg y).day = katDay .default y := by
    rcases hs with rfl | rfl
    · rfl
    · have h := katDay_official y
      change (calculatePreviousKattika .official y).day = _ at h
      rw [h]; omega
  have hc := katDay_closed (y := y) (by omega)
  have hsur : surplus y = if y ≤ 25675 then 5 else 6 := by
    have := surplus_years (y - 638).toNat (by omega)
    rw [show (638 : Int) + ((y - 638).toNat : Int) = y by omega] at this
    rw [this]
    (repeat' split) <;> omega
  rw [Bool.eq_iff_iff, List.isEmpty_iff, c25_iff, hk]
  unfold emptyAt
  rw [decide_eq_true_eq, ← hsur]
  have : katDay .default y = hor y - age y - carry y + 232608 + tieAdh (y - 1) + surplus y := by omega
  rw [this]

theorem count_congr {p q : Nat → Bool} {n m : Nat} (h : ∀ i, i < n → p i = q i) (hq : ((List.range n).filter q).length = m) :
    ((List.range n).filter p).length = m := by
  rw [List.filter_congr (q := q) fun i hi => h i (List.mem_range.1 hi)]
  exact hq

/-- C25: with the settings as shipped, exactly 836 of the 1663 years from 25330 to 26992 have no event. -/
theorem c25_mixed (cfg : Config) (hs : Shipped cfg) :
    ((List.range 1663).filter fun i : Nat => (generateSolarYear cfg (25330 + (i : Int))).isEmpty).length = 836 := by
  exact count_congr (fun i hi => emptyAt_iff hs (by omega) (by omega)) emptyAt_count

/-- C25: 25330 is one of them; the next is 25349. -/
example : generateSolarYear .default 25349 = [] ∧ ∀ y, 25331 ≤ y → y ≤ 25348 → generateSolarYear .default y ≠ [] := by
  refine ⟨List.isEmpty_iff.1 ((emptyAt_iff (.inl rfl) (by decide) (by decide)).trans (by decide +kernel)), ?_⟩
  intro y h1 h2 he
  have h := emptyAt_iff (.inl rfl : Shipped .default) (y := y) (by omega) (by omega)
  rw [he] at h
  have : scanAll (fun y => !emptyAt y) 18 25331 = true := by decide +kernel
  have := scanAll_spec this y h1 (by omega)
  rw [← h] at this
  cases this

end Verif.Props
