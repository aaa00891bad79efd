import Verif.Props.Empty
import Verif.Props.Uposatha
import Verif.Props.Festivals
/-
C25 and C43 before the era and at its beginning.
-/
set_option autoImplicit false

namespace Verif.Props
open Verif.Go Verif.Model Verif.Spec Verif.Lemmas

/-- Elapsed tithis at the New Year of a year before the era. -/
private def elapsed (y : Int) : Int :=
  let h := ((y - 638) * 292207 + 373).tdiv 800 + 1
  (h * 11 + 650).fdiv 692 + h

private theorem elapsed_succ (y : Int) (h : y ≤ 636) : 370 ≤ elapsed (y + 1) - elapsed y ∧ elapsed (y + 1) - elapsed y ≤ 372 := by
  have e : ∀ z, z ≤ 637 → ((z - 638) * 292207 + 373).tdiv 800 = -((-((z - 638) * 292207 + 373)) / 800) := by
    intro z hz
    rw [← Int.tdiv_eq_ediv_of_nonneg (by omega), Int.neg_tdiv, Int.neg_neg]
  have f : ∀ x : Int, x.fdiv 692 = x / 692 := fun x => Int.fdiv_eq_ediv_of_nonneg _ (by omega)
  simp only [elapsed, f]
  rw [e y (by omega), e (y + 1) (by omega)]
  generalize hp : -((-((y - 638) * 292207 + 373)) / 800) = p
  generalize hq : -((-((y + 1 - 638) * 292207 + 373)) / 800) = q
  have h1 : q - p = 365 ∨ q - p = 366 := by omega
  clear hp hq
  rcases h1 with h1 | h1
  · obtain rfl : q = p + 365 := by omega
    omega
  · obtain rfl : q = p + 366 := by omega
    omega

private theorem elapsed_nonpos (y : Int) (h : y ≤ 637) : elapsed y < 0 := by
  have e : ((y - 638) * 292207 + 373).tdiv 800 = -((-((y - 638) * 292207 + 373)) / 800) := by
    rw [← Int.tdiv_eq_ediv_of_nonneg (by omega), Int.neg_tdiv, Int.neg_neg]
  have f : ∀ x : Int, x.fdiv 692 = x / 692 := fun x => Int.fdiv_eq_ediv_of_nonneg _ (by omega)
  simp only [elapsed, f]
  rw [e]
  omega

private theorem adhikamasa_early (y : Int) (h : y ≤ 637) (ha : (SuriyaYear.init y).isAdhikamasa = true) : elapsed y % 30 = 0 := by
  have hw : (SuriyaYear.init y).wouldBeAdhikamasa = true := by
    unfold SuriyaYear.isAdhikamasa at ha; simp only [Bool.and_eq_true] at ha; exact ha.2
  have ht : (SuriyaYear.init y).Tithi = (elapsed y).tmod 30 := rfl
  have hn := elapsed_nonpos y h
  have hm : (elapsed y).tmod 30 = -((-elapsed y) % 30) := by
    rw [← Int.tmod_eq_emod_of_nonneg (by omega), Int.neg_tmod, Int.neg_neg]
  unfold SuriyaYear.wouldBeAdhikamasa at hw
  simp only [ht, hm, Bool.or_eq_true, Bool.and_eq_true, decide_eq_true_eq] at hw
  omega

/-- Before the era no two of three consecutive years are adhikamāsa. -/
private theorem adhikamasa_apart (y d : Int) (h : y + d ≤ 637) (hd : d = 1 ∨ d = 2) (ha : (SuriyaYear.init y).isAdhikamasa = true) :
    (SuriyaYear.init (y + d)).isAdhikamasa = false := by
  by_contra hb
  simp only [Bool.not_eq_false] at hb
  have h1 := adhikamasa_early y (by omega) ha
  have h2 := adhikamasa_early (y + d) h hb
  have s1 := elapsed_succ y (by omega)
  rcases hd with rfl | rfl
  · omega
  · have s2 := elapsed_succ (y + 1) (by omega)
    rw [show y + 1 + 1 = y + 2 by omega] at s2
    omega

private theorem length_cases (cfg : Config) (y : Int) :
    ((SuriyaYear.init y).isAdhikamasa = true ∧ (SuriyaYear.init y).yearLength cfg = 384) ∨
    ((SuriyaYear.init y).isAdhikamasa = false ∧ (SuriyaYear.init y).yearLength cfg ≤ 355) := by
  unfold SuriyaYear.yearLength
  rcases (SuriyaYear.init y).isAdhikamasa with _ | _
  · right; refine ⟨rfl, ?_⟩; simp only [Bool.false_eq_true, if_false]; split <;> omega
  · left; simp

theorem late_before (cfg : Config) (h0 : daysSinceEpoch 591 + 371 ≤ katDay cfg 591) (n : Nat) :
    let y : Int := 591 - n
    daysSinceEpoch y + 351 + (if (SuriyaYear.init y).isAdhikamasa = true then 0
      else if (SuriyaYear.init (y + 1)).isAdhikamasa = true then 10 else 20) ≤ katDay cfg y := by
  induction n with
  | zero =>
    have : (591 - ((0 : Nat) : Int)) = 591 := rfl
    simp only [this]
    split
    · omega
    · split <;> omega
  | succ n ih =>
    simp only at ih ⊢
    generalize hz : (591 - ((n + 1 : Nat) : Int)) = z
    rw [show (591 - (n : Int)) = z + 1 by omega] at ih
    have hk := katDay_succ cfg z
    have hs := daysSinceEpoch_succ z
    have hb := yearDays_bounds z
    rcases length_cases cfg z with ⟨ha, hl⟩ | ⟨ha, hl⟩
    · have a1 := adhikamasa_apart z 1 (by omega) (Or.inl rfl) ha
      have a2 := adhikamasa_apart z 2 (by omega) (Or.inr rfl) ha
      rw [show z + 1 + 1 = z + 2 by omega, a1, a2] at ih
      rw [ha]
      simp only [Bool.false_eq_true, if_false, if_true] at ih ⊢
      omega
    · rw [ha]
      rcases ha1 : (SuriyaYear.init (z + 1)).isAdhikamasa with _ | _
      · rw [ha1] at ih
        simp only [Bool.false_eq_true, if_false] at ih ⊢
        split at ih <;> omega
      · rw [ha1] at ih
        simp only [Bool.false_eq_true, if_false, if_true] at ih ⊢
        omega

/-- Going down `n` years from 638. -/
private theorem katDay_back : ∀ n : Nat, ∀ k : Int,
    (List.range n).foldl (fun k (i : Nat) => k - (SuriyaYear.init (637 - (i : Int))).yearLength .default) 232578 = k →
    katDay .default (638 - n) = k := by
  intro n
  induction n with
  | zero => intro k h; simp at h; rw [← h]; exact katDay_638
  | succ n ih =>
    intro k h
    rw [List.range_succ, List.foldl_append] at h
    have h1 := ih _ rfl
    simp only [List.foldl_cons, List.foldl_nil] at h
    have h2 := katDay_succ .default (638 - ((n + 1 : Nat) : Int))
    have e : 638 - ((n + 1 : Nat) : Int) + 1 = 638 - n := by omega
    have e' : 638 - ((n + 1 : Nat) : Int) = 637 - n := by omega
    rw [e] at h2
    rw [e'] at h2 ⊢
    omega

theorem katDay_591 : katDay .default 591 = 215864 := katDay_back 47 215864 (by decide +kernel)

theorem early_scan : scanKat (fun y k => decide (
    (y = 591 → daysSinceEpoch y + 371 ≤ k) ∧ daysSinceEpoch y ≤ k ∧ (daysSinceEpoch (y + 1) ≤ k + 15 ↔ y ≤ 593))) 40 591 215864 = true := by
  decide +kernel

/-- C25: with the settings as shipped, no year up to 593 has any event, and 594 to 629 have some. -/
theorem c25_early (cfg : Config) (hs : Shipped cfg) :
    (∀ y, y ≤ 593 → generateSolarYear cfg y = []) ∧ ∀ y, 594 ≤ y → y ≤ 629 → generateSolarYear cfg y ≠ [] := by
  have e : ∀ y, y ≤ 630 → katDay cfg y = katDay .default y := by
    intro y hy
    rcases hs with rfl | rfl
    · rfl
    · rw [katDay_official, if_neg (by omega)]; omega
  have c : ∀ y, (calculatePreviousKattika cfg y).day = katDay cfg y := fun _ => rfl
  refine ⟨fun y hy => ?_, fun y h1 h2 => ?_⟩
  · rw [c25_iff, c]
    by_cases h : y ≤ 591
    · have h0 : daysSinceEpoch 591 + 371 ≤ katDay cfg 591 := by
        rw [e 591 (by decide)]
        have := scanKat_spec katDay_591 early_scan 591 (by omega) (by omega)
        rw [decide_eq_true_eq] at this
        exact this.1 rfl
      have := late_before cfg h0 (591 - y).toNat
      rw [show (591 - ((591 - y).toNat : Int)) = y by omega] at this
      simp only at this
      have hs := daysSinceEpoch_succ y
      have hb := yearDays_bounds y
      split at this
      · omega
      · split at this <;> omega
    · rw [e y (by omega)]
      have := scanKat_spec katDay_591 early_scan y (by omega) (by omega)
      rw [decide_eq_true_eq] at this
      exact this.2.2.2 hy
  · rw [Ne, c25_iff, c, e y (by omega)]
    have := scanKat_spec katDay_591 early_scan y (by omega) (by omega)
    rw [decide_eq_true_eq] at this
    rw [this.2.2]
    omega

/-- C25: 594 has events, 593 and 1 none. -/
example : generateSolarYear .default 594 ≠ [] ∧ generateSolarYear .default 593 = [] ∧ generateSolarYear .official 1 = [] :=
  ⟨(c25_early .default (Or.inl rfl)).2 594 (by decide) (by decide), (c25_early .default (Or.inl rfl)).1 593 (by decide),
    (c25_early .official (Or.inr rfl)).1 1 (by decide)⟩

/-- The Kattika full moon before 630, as `kattikaSeed` has it. -/
private def seed630 : UposathaMoon :=
  { Date := ⟨229738 * nsPerDay, 0⟩, Calendar := 0, Phase := "full", S_Number := 8, S_Total := 8, U_Days := 15,
    M_Days := 29, LunarMonth := 12, LunarSeason := 3, LunarYear := 1173 }

private theorem seed_630 (cfg : Config) (h : katDay cfg 630 = 229738) : kattikaSeed cfg 630 = seed630 := by
  have hd : calculatePreviousKattika cfg 630 = ⟨229738 * nsPerDay, 0⟩ := by
    rw [kattika_eq, h]
  have hy : (⟨229738 * nsPerDay, 0⟩ : Time).year + BEdiff = 1173 := by decide +kernel
  unfold kattikaSeed
  simp only [hd, hy]
  rfl

/-- C43: the half moon after the Kattika full moon before 631 is returned for 630. -/
theorem c43_half_moon_631 (cfg : Config) (hs : Shipped cfg) :
    .half { Date := (calculatePreviousKattika cfg 631).addDays 8, Phase := "waning" } ∈ generateSolarYear cfg 630 := by
  have e : ∀ y, y ≤ 631 → katDay cfg y = katDay .default y := by
    intro y hy
    rcases hs with rfl | rfl
    · rfl
    · rw [katDay_official, if_neg (by omega)]; omega
  have hd : calculatePreviousKattika cfg 631 = ⟨230093 * nsPerDay, 0⟩ := by
    rw [kattika_eq, e 631 (by decide), katDay_631]
  have hm : moonAfterKattika cfg 630 24 = (fun u : UposathaMoon => u.nextUposatha cfg)^[24] seed630 := by
    unfold moonAfterKattika
    rw [seed_630 cfg (by rw [e 630 (by decide), katDay_630])]
  have hf : (fun u : UposathaMoon => u.nextUposatha cfg)^[24] seed630 =
      { seed630 with Date := ⟨230093 * nsPerDay, 0⟩, LunarYear := 1174 } := by
    rcases hs with rfl | rfl <;> decide +kernel
  rw [c23_half_iff]
  refine ⟨24, by decide, ?_, ?_, Or.inr ⟨?_, rfl⟩⟩
  · rw [hm, hf, hd]
  · show ((calculatePreviousKattika cfg 631).addDays 8).year = 630
    rw [hd]; decide +kernel
  · rw [hm, hf]; rfl

end Verif.Props
