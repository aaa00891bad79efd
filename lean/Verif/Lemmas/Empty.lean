import Verif.Lemmas.Window
/-
Helper lemmas: the boundary years up to 27000, and the Kattika days against the end of the solar year.
-/
set_option autoImplicit false

namespace Verif.Lemmas
open Verif.Go Verif.Model

/-- The first `n` years since 638 are no boundary years, except those listed. -/
def tieScan : Nat → Bool := Nat.rec true fun n ih =>
  bif Nat.ble 593 ((292207 * n + 373) % 800) && Nat.beq ((11 * ((292207 * n + 373) / 800 + 1) + 650) % 692) 126 then
    (Nat.beq n 2939 || Nat.beq n 3460 || Nat.beq n 6622 || Nat.beq n 10305 || Nat.beq n 13988 || Nat.beq n 17671 ||
      Nat.beq n 21354 || Nat.beq n 24516 || Nat.beq n 25037) && ih
  else ih

theorem tieScan_all : tieScan 26400 = true := by decide +kernel

theorem tieScan_spec : ∀ (m : Nat), tieScan m = true → ∀ n : Nat, n < m → 593 ≤ (292207 * n + 373) % 800 →
    (11 * ((292207 * n + 373) / 800 + 1) + 650) % 692 = 126 →
    n = 2939 ∨ n = 3460 ∨ n = 6622 ∨ n = 10305 ∨ n = 13988 ∨ n = 17671 ∨ n = 21354 ∨ n = 24516 ∨ n = 25037 := by
  intro m
  induction m with
  | zero => intro _ n hn; omega
  | succ m ih =>
    intro hs n hn h1 h2
    have hs' : (bif Nat.ble 593 ((292207 * m + 373) % 800) && Nat.beq ((11 * ((292207 * m + 373) / 800 + 1) + 650) % 692) 126 then
        (Nat.beq m 2939 || Nat.beq m 3460 || Nat.beq m 6622 || Nat.beq m 10305 || Nat.beq m 13988 || Nat.beq m 17671 ||
          Nat.beq m 21354 || Nat.beq m 24516 || Nat.beq m 25037) && tieScan m
        else tieScan m) = true := hs
    rcases Nat.lt_or_ge n m with hlt | hge
    · refine ih ?_ n hlt h1 h2
      revert hs'
      cases (Nat.ble 593 ((292207 * m + 373) % 800) && Nat.beq ((11 * ((292207 * m + 373) / 800 + 1) + 650) % 692) 126)
      · exact id
      · intro h; exact (Bool.and_eq_true_iff.1 h).2
    · have : n = m := by omega
      subst this
      have hc : (Nat.ble 593 ((292207 * n + 373) % 800) && Nat.beq ((11 * ((292207 * n + 373) / 800 + 1) + 650) % 692) 126) = true := by
        rw [Bool.and_eq_true_iff]; exact ⟨Nat.ble_eq_true_of_le h1, by rw [h2]; rfl⟩
      rw [hc, cond_true, Bool.and_eq_true_iff] at hs'
      have := hs'.1
      simp only [Bool.or_eq_true, Nat.beq_eq] at this
      omega

/-- The boundary years up to 27000. -/
theorem tie_years {y : Int} (h1 : 638 ≤ y) (h2 : y ≤ 27000) (ht : tie y = true) :
    y = 3577 ∨ y = 4098 ∨ y = 7260 ∨ y = 10943 ∨ y = 14626 ∨ y = 18309 ∨ y = 21992 ∨ y = 25154 ∨ y = 25675 := by
  rw [tie_iff h1] at ht
  obtain ⟨n, hn⟩ : ∃ n : Nat, y = 638 + (n : Int) := ⟨(y - 638).toNat, by omega⟩
  subst hn
  unfold avo hor eraNum at ht
  obtain ⟨e, he⟩ : ∃ e : Nat, e = 292207 * n + 373 := ⟨_, rfl⟩
  rw [show (292207 * (638 + (n : Int) - 638) + 373) = (e : Int) by omega] at ht
  have := tieScan_spec 26400 tieScan_all n (by omega) (by rw [← he]; omega) (by rw [← he]; omega)
  omega

theorem ties_only : tieOnly 3577 = 0 ∧ tieOnly 4098 = 1 ∧ tieOnly 7260 = 1 ∧ tieOnly 10943 = 0 ∧ tieOnly 14626 = 1 ∧
    tieOnly 18309 = 1 ∧ tieOnly 21992 = 0 ∧ tieOnly 25154 = 1 ∧ tieOnly 25675 = 1 := by decide +kernel

theorem tieOnly_years {y : Int} (h1 : 638 ≤ y) (h2 : y ≤ 27000) :
    tieOnly y = if y = 4098 ∨ y = 7260 ∨ y = 14626 ∨ y = 18309 ∨ y = 25154 ∨ y = 25675 then 1 else 0 := by
  obtain ⟨t1, t2, t3, t4, t5, t6, t7, t8, t9⟩ := ties_only
  rcases ht : tie y with _ | _
  · have h0 : tieOnly y = 0 := by unfold tieOnly; rw [ht]; rfl
    rw [if_neg, h0]
    rintro (rfl | rfl | rfl | rfl | rfl | rfl) <;> omega
  · rcases tie_years h1 h2 ht with rfl | rfl | rfl | rfl | rfl | rfl | rfl | rfl | rfl
    all_goals first | (rw [if_pos (by decide)]; assumption) | (rw [if_neg (by decide)]; assumption)

/-- The surplus days up to 27001. -/
theorem surplus_years (n : Nat) (h : n ≤ 26363) : surplus (638 + n) =
    (if (638 : Int) + n ≤ 4098 then 0 else if (638 : Int) + n ≤ 7260 then 1 else if (638 : Int) + n ≤ 14626 then 2 else
      if (638 : Int) + n ≤ 18309 then 3 else if (638 : Int) + n ≤ 25154 then 4 else if (638 : Int) + n ≤ 25675 then 5 else 6) := by
  induction n with
  | zero => exact surplus_before (by omega)
  | succ n ih =>
    have hs := surplus_succ (y := 638 + (n : Int)) (by omega)
    rw [show (638 : Int) + (n : Int) + 1 = 638 + ((n + 1 : Nat) : Int) by omega] at hs
    rw [hs, ih (by omega), tieOnly_years (by omega) (by omega)]
    (repeat' split) <;> omega

theorem surplus_add {y : Int} (h : 638 ≤ y) (n : Nat) : surplus y ≤ surplus (y + n) := by
  induction n with
  | zero => simp
  | succ n ih =>
    have hs := surplus_succ (y := y + (n : Int)) (by omega)
    rw [show y + (n : Int) + 1 = y + ((n + 1 : Nat) : Int) by omega] at hs
    have : 0 ≤ tieOnly (y + n) := by unfold tieOnly; split <;> omega
    omega

theorem edge_low : scanAll (fun y => decide (hor y - age y - carry y + 232608 + tieAdh (y - 1) + 5 + 15 < daysSinceEpoch (y + 1))) 175 25155 = true := by
  decide +kernel
theorem edge_mid : daysSinceEpoch 25331 ≤ hor 25330 - age 25330 - carry 25330 + 232608 + tieAdh 25329 + 5 + 15 ∧
    hor 26992 - age 26992 - carry 26992 + 232608 + tieAdh 26991 + 6 + 15 < daysSinceEpoch 26993 := by decide +kernel
theorem edge_high : scanAll (fun y => decide (daysSinceEpoch (y + 1) ≤ hor y - age y - carry y + 232608 + tieAdh (y - 1) + 6 + 15)) 107 26993 = true := by
  decide +kernel
theorem early : scanKat (fun y k => decide (k + 15 < daysSinceEpoch (y + 1))) 8 630 229738 = true := by decide +kernel

/-- The Kattika day against the last 15 days of the solar year. -/
theorem kat_end (y : Int) (h : 630 ≤ y) : (y ≤ 25329 → katDay .default y + 15 < daysSinceEpoch (y + 1)) ∧
    (y = 25330 → daysSinceEpoch (y + 1) ≤ katDay .default y + 15) ∧ (y = 26992 → katDay .default y + 15 < daysSinceEpoch (y + 1)) ∧
    (26993 ≤ y → daysSinceEpoch (y + 1) ≤ katDay .default y + 15) := by
  rcases Int.lt_or_le y 638 with he | he
  · have := scanKat_spec katDay_630 early y h (by omega)
    rw [decide_eq_true_eq] at this
    omega
  have hk := katDay_closed he
  have ha := age_range y
  have hc := carry_range y
  have ht := tieAdh_range (y - 1)
  have hb := daysSinceEpoch_bounds (y + 1)
  have hs : y ≤ 27001 → surplus y = (if y ≤ 4098 then 0 else if y ≤ 7260 then 1 else if y ≤ 14626 then 2 else
      if y ≤ 18309 then 3 else if y ≤ 25154 then 4 else if y ≤ 25675 then 5 else 6) := fun hh => by
    have := surplus_years (y - 638).toNat (by omega)
    rw [show (638 : Int) + ((y - 638).toNat : Int) = y by omega] at this
    exact this
  refine ⟨?_, ?_, ?_, ?_⟩
  · intro hy
    have hs := hs (by omega)
    rcases Int.lt_or_le y 25155 with hl | hl
    · have : surplus y ≤ 4 := by rw [hs]; (repeat' split) <;> omega
      unfold hor eraNum at hk
      omega
    · have := scanAll_spec edge_low y hl (by omega)
      rw [decide_eq_true_eq] at this
      have : surplus y = 5 := by rw [hs]; (repeat' split) <;> omega
      omega
  · rintro rfl
    have hs := hs (by omega)
    have := edge_mid.1
    have hs' : surplus 25330 = 5 := hs
    rw [show (25330 : Int) - 1 = 25329 by rfl] at hk
    rw [show (25330 : Int) + 1 = 25331 by rfl]
    omega
  · rintro rfl
    have hs := hs (by omega)
    have := edge_mid.2
    have hs' : surplus 26992 = 6 := hs
    rw [show (26992 : Int) - 1 = 26991 by rfl] at hk
    rw [show (26992 : Int) + 1 = 26993 by rfl]
    omega
  · intro hy
    have h6 : 6 ≤ surplus y := by
      have h1 := surplus_add (y := 26993) (by omega) (y - 26993).toNat
      rw [show (26993 : Int) + ((y - 26993).toNat : Int) = y by omega] at h1
      have h2 : surplus 26993 = 6 := surplus_years 26355 (by omega)
      omega
    rcases Int.lt_or_le y 27100 with hl | hl
    · have := scanAll_spec edge_high y hy (by omega)
      rw [decide_eq_true_eq] at this
      omega
    · unfold hor eraNum at hk
      omega

end Verif.Lemmas
