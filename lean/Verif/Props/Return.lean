import Verif.Props.Drift
/-
Property C82: the date of Asalha Puja after nineteen years.
-/
set_option autoImplicit false

namespace Verif.Props
open Verif.Go Verif.Model Verif.Spec Verif.Lemmas

/-- How a carried day and a boundary year show in the Avoman of the next New Year. -/
theorem carry_cases {y : Int} (h : 638 ≤ y) : (carry (y + 1) = 0 ∧ tieAdh y = 0) ∨
    (carry (y + 1) = 1 ∧ tieAdh y = 0 ∧ 555 ≤ avo (y + 1) ∧ age (y + 1) ≤ 23) ∨ (carry (y + 1) = 1 ∧ tieAdh y = 1) := by
  have hc := carried_iff (y + 1)
  rw [show y + 1 - 1 = y by omega] at hc
  have t1 := wv_of_tie h
  unfold carry tieAdh
  by_cases hcc : (SuriyaYear.init (y + 1)).hasCarriedAdhikavara = true
  · right
    rw [if_pos hcc]
    have hh := hc.1 hcc
    by_cases t : tie y = true
    · right
      exact ⟨rfl, by simp [t, hh.1]⟩
    · left
      have hsucc := avo_succ y
      have hr := avo_range y
      have hw := (wv_iff h).1 hh.2
      have ht : ¬ (593 ≤ eraNum y % 800 ∧ avo y = 126) := by rw [← tie_iff h]; exact t
      have hn : (SuriyaYear.init (y + 1)).wouldBeAdhikamasa = false := by
        have := (Bool.and_eq_true_iff.1 hh.1).1
        rwa [Bool.not_eq_true'] at this
      have hT := wouldBe_iff (y := y + 1) (by omega)
      rw [hn] at hT
      have hT : ¬ (24 ≤ rawTithi (y + 1) % 30 ∨ rawTithi (y + 1) % 30 ≤ 5) := fun x => by simpa using hT.2 x
      refine ⟨rfl, by simp [t], ?_, ?_⟩
      · split at hsucc <;> omega
      · unfold age; omega
  · left
    rw [if_neg hcc]
    refine ⟨rfl, if_neg fun hx => ?_⟩
    rw [Bool.and_eq_true] at hx
    exact hcc (hc.2 ⟨hx.2, (t1 hx.1).1⟩)

/-- Two boundary years are at least nineteen years apart. -/
theorem ties_apart {y : Int} (h : 638 ≤ y) (d : Int) (h1 : 1 ≤ d) (h2 : d ≤ 18) (ht : tie y = true) : tie (y + d) = false := by
  rw [← Bool.not_eq_true, tie_iff (by omega)]
  rw [tie_iff h] at ht
  rintro ⟨-, h3⟩
  have h4 := ht.2
  unfold avo hor eraNum at h3 h4
  have h5 : 292207 * (y + d - 638) + 373 = 292207 * (y - 638) + 373 + 292207 * d := by omega
  rw [h5] at h3
  generalize 292207 * (y - 638) + 373 = E at h3 h4
  have hd : d = 1 ∨ d = 2 ∨ d = 3 ∨ d = 4 ∨ d = 5 ∨ d = 6 ∨ d = 7 ∨ d = 8 ∨ d = 9 ∨ d = 10 ∨ d = 11 ∨ d = 12 ∨ d = 13 ∨ d = 14 ∨ d = 15 ∨
      d = 16 ∨ d = 17 ∨ d = 18 := by omega
  clear h h1 h2 h5 ht
  rcases hd with rfl | rfl | rfl | rfl | rfl | rfl | rfl | rfl | rfl | rfl | rfl | rfl | rfl | rfl | rfl | rfl | rfl | rfl <;> omega

theorem surplus_nineteen {y : Int} (h : 638 ≤ y) : surplus y ≤ surplus (y + 19) ∧ surplus (y + 19) ≤ surplus y + 1 := by
  have key : ∀ n : Nat, n ≤ 19 → surplus (y + n) = surplus y ∨
      surplus (y + n) = surplus y + 1 ∧ ∃ i : Nat, i < n ∧ tie (y + i) = true := by
    intro n
    induction n with
    | zero => intro _; left; simp
    | succ n ih =>
      intro hn
      have hs := surplus_succ (y := y + n) (by omega)
      rw [show y + ((n + 1 : Nat) : Int) = y + n + 1 by omega, hs]
      have htn : tieOnly (y + n) = 0 ∨ tieOnly (y + n) = 1 ∧ tie (y + n) = true := by
        unfold tieOnly
        split
        · exact .inr ⟨rfl, (Bool.and_eq_true_iff.1 (by assumption)).1⟩
        · exact .inl rfl
      rcases ih (by omega) with h1 | ⟨h1, i, hi, ht⟩
      · rcases htn with h2 | ⟨h2, h3⟩
        · left; omega
        · right; exact ⟨by omega, n, by omega, h3⟩
      · right
        rcases htn with h2 | ⟨-, h3⟩
        · exact ⟨by omega, i, by omega, ht⟩
        · have := ties_apart (y := y + i) (by omega) (n - i : Int) (by omega) (by omega) ht
          rw [show y + (i : Int) + (n - i : Int) = y + n by omega, h3] at this
          cases this
  rcases key 19 (by omega) with h1 | ⟨h1, -⟩ <;> simp only [Nat.cast_ofNat] at h1 <;> omega

theorem age_years {y : Int} (h : 638 ≤ y) (n : Nat) : age (y + n) = age y + (rawTithi (y + n) - rawTithi y) - 360 * n -
    30 * (countYears (fun z => (SuriyaYear.init z).isAdhikamasa) y n : Int) := by
  induction n with
  | zero => simp [countYears_zero]
  | succ n ih =>
    rw [countYears_succ, show y + ((n + 1 : Nat) : Int) = y + n + 1 by omega, age_succ (by omega), ih]
    split <;> simp_all <;> omega

theorem div_step {x d : Int} (hd : d = 76329 ∨ d = 76340) : ((x + d) / 692 = x / 692 + 110 ∧ x % 692 < 555) ∨
    ((x + d) / 692 = x / 692 + 111 ∧ (x + d) % 692 < 555) := by
  rcases hd with rfl | rfl <;> omega

theorem wraps_nineteen {y z : Int} (h : hor z = hor y + 6939 ∨ hor z = hor y + 6940) :
    (wraps z = wraps y + 110 ∧ avo y < 555) ∨ (wraps z = wraps y + 111 ∧ avo z < 555) := by
  unfold wraps avo
  rcases h with h | h <;> rw [h]
  · rw [show 11 * (hor y + 6939) + 650 = 11 * hor y + 650 + 76329 by omega]; exact div_step (.inl rfl)
  · rw [show 11 * (hor y + 6940) + 650 = 11 * hor y + 650 + 76340 by omega]; exact div_step (.inr rfl)

theorem nineteen_sum {G H1 H2 W1 W2 V1 V2 S1 S2 A1 A2 C1 C2 T1 T2 shift : Int} {m : Nat}
    (hG : G = 6938 ∨ G = 6939 ∨ G = 6940) (hH : H2 = H1 + 6939 ∨ H2 = H1 + 6940)
    (hW : (W2 = W1 + 110 ∧ V1 < 555) ∨ (W2 = W1 + 111 ∧ V2 < 555)) (hs : S1 ≤ S2 ∧ S2 ≤ S1 + 1)
    (ha : A2 = A1 + (H2 + W2 - (H1 + W1)) - 360 * 19 - 30 * (m : Int)) (r1 : 6 ≤ A1 ∧ A1 ≤ 35) (r2 : 6 ≤ A2 ∧ A2 ≤ 35)
    (c1 : C1 - T1 = 0 ∨ C1 - T1 = 1 ∧ 555 ≤ V1 ∧ A1 ≤ 23) (c2 : C2 - T2 = 0 ∨ C2 - T2 = 1 ∧ 555 ≤ V2 ∧ A2 ≤ 23)
    (hshift : shift = (H2 - A2 - (C2 - T2) + S2) - (H1 - A1 - (C1 - T1) + S1) - G) :
    (m = 7 ∧ -1 ≤ shift ∧ shift ≤ 3) ∨ (m = 6 ∧ -30 ≤ shift ∧ shift ≤ -27) ∨ (m = 8 ∧ 29 ≤ shift ∧ shift ≤ 32) := by
  generalize C1 - T1 = c at *
  generalize C2 - T2 = e at *
  have hM : m = 6 ∨ m = 7 ∨ m = 8 := by omega
  rcases hM with rfl | rfl | rfl <;> rcases hW with ⟨rfl, w⟩ | ⟨rfl, w⟩ <;> rcases c1 with rfl | ⟨rfl, c1⟩ <;>
    rcases c2 with rfl | ⟨rfl, c2⟩ <;> rcases hH with rfl | rfl <;> omega

/-- C82: nineteen years later Asalha Puja is on the same Gregorian date, up to a day earlier or three days later, if there are seven
adhikamāsa years in between, the end of the stretch included; it is four weeks earlier if there are six and four weeks later if there are
eight. Other counts do not occur. -/
theorem c82_nineteen (y : Int) (h : 638 ≤ y) (j k : Int) (hj : Jan1 y j) (hk : Jan1 (y + 19) k) :
    let shift := (((SuriyaYear.init (y + 19)).asalhaPuja .default).day - k) - (((SuriyaYear.init y).asalhaPuja .default).day - j)
    let months := countYears (fun z => (SuriyaYear.init z).isAdhikamasa) (y + 1) 19
    (months = 7 ∧ -1 ≤ shift ∧ shift ≤ 3) ∨ (months = 6 ∧ -30 ≤ shift ∧ shift ≤ -27) ∨ (months = 8 ∧ 29 ≤ shift ∧ shift ≤ 32) := by
  rw [jan1_iff] at hj hk
  intro shift months
  have hG : k - j = 6938 ∨ k - j = 6939 ∨ k - j = 6940 := by
    rw [hj, hk]; dsimp only [daysSinceEpoch]; omega
  have hd1 : ((SuriyaYear.init y).asalhaPuja .default).day = katDay .default (y + 1) - 118 := asalha_day y .default
  have hd2 : ((SuriyaYear.init (y + 19)).asalhaPuja .default).day = katDay .default (y + 19 + 1) - 118 := asalha_day (y + 19) .default
  have k1 := katDay_closed (y := y + 1) (by omega)
  have k2 := katDay_closed (y := y + 19 + 1) (by omega)
  rw [show y + 1 - 1 = y by omega] at k1
  rw [show y + 19 + 1 - 1 = y + 19 by omega] at k2
  have c1 : carry (y + 1) - tieAdh y = 0 ∨ carry (y + 1) - tieAdh y = 1 ∧ 555 ≤ avo (y + 1) ∧ age (y + 1) ≤ 23 := by
    have := carry_cases h; omega
  have c2 : carry (y + 19 + 1) - tieAdh (y + 19) = 0 ∨
      carry (y + 19 + 1) - tieAdh (y + 19) = 1 ∧ 555 ≤ avo (y + 19 + 1) ∧ age (y + 19 + 1) ≤ 23 := by
    have := carry_cases (y := y + 19) (by omega); omega
  have hs := surplus_nineteen (y := y + 1) (by omega)
  have ha := age_years (y := y + 1) (by omega) 19
  have hm : countYears (fun z => (SuriyaYear.init z).isAdhikamasa) (y + 1) 19 = months := rfl
  rw [hm] at ha
  simp only [Nat.cast_ofNat] at ha
  rw [show y + 1 + 19 = y + 19 + 1 by omega] at ha hs
  have r1 := age_range (y + 1)
  have r2 := age_range (y + 19 + 1)
  have hH : hor (y + 19 + 1) = hor (y + 1) + 6939 ∨ hor (y + 19 + 1) = hor (y + 1) + 6940 := by unfold hor eraNum; omega
  have hshift : shift = (katDay .default (y + 19 + 1) - katDay .default (y + 1)) - (k - j) := by simp only [shift]; omega
  rw [k1, k2] at hshift
  have t1 : rawTithi (y + 1) = hor (y + 1) + wraps (y + 1) := rfl
  have t2 : rawTithi (y + 19 + 1) = hor (y + 19 + 1) + wraps (y + 19 + 1) := rfl
  rw [t1, t2] at ha
  have hW := wraps_nineteen hH
  exact nineteen_sum hG hH hW hs ha r1 r2 c1 c2 (by omega)

theorem surplus_sum {y : Int} (h : 638 ≤ y) (n : Nat) : surplus (y + n) = surplus y + ((List.range n).map fun i : Nat => tieOnly (y + i)).sum := by
  induction n with
  | zero => simp
  | succ n ih =>
    rw [show y + ((n + 1 : Nat) : Int) = y + n + 1 by omega, surplus_succ (by omega), ih, List.range_succ, List.map_append, List.sum_append]
    simp; omega

/-- The shift by whole numbers. -/
def shiftAt (y : Int) : Int :=
  asalhaAt (y + 19) - asalhaAt y + ((List.range 19).map fun i : Nat => tieOnly (y + 1 + i)).sum - (daysSinceEpoch (y + 19) - daysSinceEpoch y)

theorem shiftAt_eq {y : Int} (h : 638 ≤ y) {j k : Int} (hj : Jan1 y j) (hk : Jan1 (y + 19) k) :
    (((SuriyaYear.init (y + 19)).asalhaPuja .default).day - k) - (((SuriyaYear.init y).asalhaPuja .default).day - j) = shiftAt y := by
  rw [jan1_iff] at hj hk
  rw [asalha_day, asalha_day, katDay_closed (y := y + 1) (by omega), katDay_closed (y := y + 19 + 1) (by omega), hj, hk,
    show y + 1 - 1 = y by omega, show y + 19 + 1 - 1 = y + 19 by omega]
  have := surplus_sum (y := y + 1) (by omega) 19
  rw [show y + 1 + ((19 : Nat) : Int) = y + 19 + 1 by omega] at this
  rw [this]
  unfold shiftAt asalhaAt
  omega

/-- C82: the same with the official exceptions. -/
theorem c82_shipped (cfg : Config) (hs : Shipped cfg) (y : Int) (h : 638 ≤ y) (j k : Int) (hj : Jan1 y j) (hk : Jan1 (y + 19) k) :
    let shift := (((SuriyaYear.init (y + 19)).asalhaPuja cfg).day - k) - (((SuriyaYear.init y).asalhaPuja cfg).day - j)
    let months := countYears (fun z => (SuriyaYear.init z).isAdhikamasa) (y + 1) 19
    (months = 7 ∧ -1 ≤ shift ∧ shift ≤ 3) ∨ (months = 6 ∧ -30 ≤ shift ∧ shift ≤ -27) ∨ (months = 8 ∧ 29 ≤ shift ∧ shift ≤ 32) := by
  have hd := c82_nineteen y h j k hj hk
  rcases hs with rfl | rfl
  · exact hd
  · have he := shiftAt_eq h hj hk
    have k1 := katDay_official (y + 1)
    have k2 := katDay_official (y + 19 + 1)
    have a1 := asalha_day y .default
    have a2 := asalha_day (y + 19) .default
    have b1 := asalha_day y .official
    have b2 := asalha_day (y + 19) .official
    have key : ∀ z ∈ [(1975 : Int), 1976, 1977], 0 ≤ shiftAt z ∧ shiftAt z ≤ 3 := by decide +kernel
    have key2 : ∀ z ∈ [(1994 : Int), 1995, 1996], shiftAt z ≤ 2 ∧ -2 ≤ shiftAt z := by decide +kernel
    intro shift months
    change ((months = 7 ∧ _) ∨ (months = 6 ∧ _) ∨ (months = 8 ∧ _)) at hd
    have hsh : shift = (((SuriyaYear.init (y + 19)).asalhaPuja .official).day - k) - (((SuriyaYear.init y).asalhaPuja .official).day - j) := rfl
    by_cases h1 : y = 1994 ∨ y = 1995 ∨ y = 1996
    · have := key2 y (by rcases h1 with rfl | rfl | rfl <;> simp)
      rw [if_pos (by omega)] at k1
      rw [if_neg (by omega)] at k2
      omega
    · rw [if_neg (by omega)] at k1
      by_cases h2 : y = 1975 ∨ y = 1976 ∨ y = 1977
      · have := key y (by rcases h2 with rfl | rfl | rfl <;> simp)
        rw [if_pos (by omega)] at k2
        omega
      · rw [if_neg (by omega)] at k2
        omega

/-- C82: these bounds are the best: all thirteen shifts occur. -/
theorem c82_best : ∀ s ∈ [-30, -29, -28, -27, -1, 0, 1, 2, 3, 29, 30, 31, 32], ∃ y j k, 638 ≤ y ∧ Jan1 y j ∧ Jan1 (y + 19) k ∧
    (((SuriyaYear.init (y + 19)).asalhaPuja .default).day - k) - (((SuriyaYear.init y).asalhaPuja .default).day - j) = s := by
  have key : ∀ p ∈ [((-30 : Int), (678 : Int)), (-29, 1505), (-28, 4585), (-27, 1588585), (-1, 638), (0, 639), (1, 641), (2, 685), (3, 4085), (29, 659),
      (30, 998), (31, 3289), (32, 553489)], 638 ≤ p.2 ∧ shiftAt p.2 = p.1 := by decide +kernel
  intro s hs
  obtain ⟨y, hy⟩ : ∃ y, (s, y) ∈ [((-30 : Int), (678 : Int)), (-29, 1505), (-28, 4585), (-27, 1588585), (-1, 638), (0, 639), (1, 641), (2, 685),
      (3, 4085), (29, 659), (30, 998), (31, 3289), (32, 553489)] := by
    simp only [List.mem_cons, List.not_mem_nil, or_false] at hs
    rcases hs with rfl | rfl | rfl | rfl | rfl | rfl | rfl | rfl | rfl | rfl | rfl | rfl | rfl <;> simp
  obtain ⟨h1, h2⟩ := key _ hy
  exact ⟨y, _, _, h1, (jan1_iff _ _).2 rfl, (jan1_iff _ _).2 rfl, (shiftAt_eq h1 ((jan1_iff _ _).2 rfl) ((jan1_iff _ _).2 rfl)).trans h2⟩

/-- C82: 30 July 2015 and 30 July 2034, with seven adhikamāsa years from 2016 to 2034. -/
example : Jan1 2015 735598 ∧ Jan1 2034 742538 ∧ countYears (fun z => (SuriyaYear.init z).isAdhikamasa) 2016 19 = 7 ∧
    (((SuriyaYear.init 2034).asalhaPuja .default).day - 742538) - (((SuriyaYear.init 2015).asalhaPuja .default).day - 735598) = 0 :=
  ⟨(jan1_iff _ _).2 (by decide), (jan1_iff _ _).2 (by decide), by decide +kernel,
    (shiftAt_eq (y := 2015) (by decide) ((jan1_iff _ _).2 (by decide)) ((jan1_iff _ _).2 (by decide))).trans (by decide +kernel)⟩
end Verif.Props
