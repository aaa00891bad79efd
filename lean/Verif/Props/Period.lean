import Verif.Props.Kattika
import Mathlib.Data.Finset.Prod
import Mathlib.Data.Int.Interval
/-
C76: the year values repeat after 16608000 years; how many years of each kind there are in that time and in any stretch of years.
-/
set_option autoImplicit false

namespace Verif.Props
open Verif.Go Verif.Model Verif.Spec Verif.Lemmas

theorem hor_shift (y k : Int) : hor (y + 800 * k) = hor y + 292207 * k := by unfold hor eraNum; omega

theorem wraps_shift (y k : Int) : wraps (y + 553600 * k) = wraps y + 11 * 292207 * k := by
  have h := hor_shift y (692 * k)
  rw [show 800 * (692 * k) = 553600 * k by omega] at h
  unfold wraps
  rw [h]
  omega

theorem raw_shift (y k : Int) : rawTithi (y + 553600 * k) = rawTithi y + 205421521 * k := by
  have h := hor_shift y (692 * k)
  rw [show 800 * (692 * k) = 553600 * k by omega] at h
  unfold rawTithi
  rw [wraps_shift, h]
  omega

/-- C76: after 16608000 years all quantities that make up a year are the same again, except the two counts, which have grown by the
days and months of the period. -/
theorem c76_period (y : Int) (h : 638 ≤ y) :
    (SuriyaYear.init (y + 16608000)).Kammacubala = (SuriyaYear.init y).Kammacubala ∧
    (SuriyaYear.init (y + 16608000)).Avoman = (SuriyaYear.init y).Avoman ∧
    (SuriyaYear.init (y + 16608000)).Tithi = (SuriyaYear.init y).Tithi ∧
    (SuriyaYear.init (y + 16608000)).Horakhun = (SuriyaYear.init y).Horakhun + 6066217320 ∧
    (SuriyaYear.init (y + 16608000)).Masaken = (SuriyaYear.init y).Masaken + 205421521 := by
  have h' : 638 ≤ y + 16608000 := by omega
  rw [init_Kammacubala h, init_Kammacubala h', init_Avoman h, init_Avoman h', init_Tithi h, init_Tithi h', init_Horakhun h,
    init_Horakhun h', init_Masaken h, init_Masaken h']
  have h1 := hor_shift y 20760
  have h2 := raw_shift y 30
  rw [show y + 800 * 20760 = y + 16608000 by omega] at h1
  rw [show y + 553600 * 30 = y + 16608000 by omega] at h2
  unfold avo
  rw [h1, h2]
  refine ⟨?_, ?_, ?_, by omega, by omega⟩
  · unfold eraNum; omega
  · omega
  · omega

/-- C76: 2015 and 16610015. -/
example : (SuriyaYear.init 2015).Horakhun = 502962 ∧ (SuriyaYear.init 16610015).Horakhun = 6066720282 ∧
    (SuriyaYear.init 2015).Masaken = 17031 ∧ (SuriyaYear.init 16610015).Masaken = 205438552 := by decide

theorem c76_adhikamasa (z : Int) (hz : 638 ≤ z) :
    (SuriyaYear.init (z + 16608000)).isAdhikamasa = (SuriyaYear.init z).isAdhikamasa := by
  have hw : ∀ z, 638 ≤ z → (SuriyaYear.init (z + 16608000)).wouldBeAdhikamasa = (SuriyaYear.init z).wouldBeAdhikamasa := by
    intro z hz
    unfold SuriyaYear.wouldBeAdhikamasa
    rw [(c76_period z hz).2.2.1]
  unfold SuriyaYear.isAdhikamasa
  simp only [init_Year]
  rw [hw z hz, show z + 16608000 + 1 = z + 1 + 16608000 by omega, hw (z + 1) (by omega)]

theorem c76_wouldBe (z : Int) (hz : 638 ≤ z) :
    (SuriyaYear.init (z + 16608000)).wouldBeAdhikavara = (SuriyaYear.init z).wouldBeAdhikavara := by
  unfold SuriyaYear.wouldBeAdhikavara SuriyaYear.isSuriyaLeap
  rw [(c76_period z hz).1, (c76_period z hz).2.1]

theorem c76_carried (y : Int) (h : 639 ≤ y) :
    (SuriyaYear.init (y + 16608000)).hasCarriedAdhikavara = (SuriyaYear.init y).hasCarriedAdhikavara := by
  unfold SuriyaYear.hasCarriedAdhikavara
  simp only [init_Year]
  rw [show y + 16608000 - 1 = y - 1 + 16608000 by omega, c76_adhikamasa (y - 1) (by omega), c76_wouldBe (y - 1) (by omega)]

/-- C76: from the first years of the era on. -/
example : (SuriyaYear.init 16608640).isAdhikamasa = (SuriyaYear.init 640).isAdhikamasa ∧
    (SuriyaYear.init 16608638).wouldBeAdhikavara = (SuriyaYear.init 638).wouldBeAdhikavara ∧
    (SuriyaYear.init 16608639).hasCarriedAdhikavara = (SuriyaYear.init 639).hasCarriedAdhikavara :=
  ⟨c76_adhikamasa 640 (by decide), c76_wouldBe 638 (by decide), c76_carried 639 (by decide)⟩

/-- C76: the same for the kinds of years. -/
theorem c76_kinds (y : Int) (h : 639 ≤ y) :
    (SuriyaYear.init (y + 16608000)).isAdhikamasa = (SuriyaYear.init y).isAdhikamasa ∧
    (SuriyaYear.init (y + 16608000)).isAdhikavara .default = (SuriyaYear.init y).isAdhikavara .default ∧
    (SuriyaYear.init (y + 16608000)).isSuriyaLeap = (SuriyaYear.init y).isSuriyaLeap ∧
    (SuriyaYear.init (y + 16608000)).yearLength .default = (SuriyaYear.init y).yearLength .default := by
  have hm := c76_adhikamasa y (by omega)
  have ha : (SuriyaYear.init (y + 16608000)).isAdhikavara .default = (SuriyaYear.init y).isAdhikavara .default := by
    rw [isAdhikavara_default, isAdhikavara_default]
    unfold SuriyaYear.isAdhikavaraRule
    rw [hm, c76_wouldBe y (by omega), c76_carried y h]
  refine ⟨hm, ha, ?_, ?_⟩
  · unfold SuriyaYear.isSuriyaLeap
    rw [(c76_period y (by omega)).1]
  · unfold SuriyaYear.yearLength
    rw [hm, ha]

/-- C76: 2015 and 16610015. -/
example : (SuriyaYear.init 16610015).isAdhikamasa = true ∧ (SuriyaYear.init 16610016).yearLength .default = 355 := by decide

/-- C76: two years with the same Kammacubala, Avoman and Tithi are a multiple of 16608000 years apart. -/
theorem c76_least (y z : Int) (hy : 638 ≤ y) (hz : 638 ≤ z)
    (h1 : (SuriyaYear.init y).Kammacubala = (SuriyaYear.init z).Kammacubala) (h2 : (SuriyaYear.init y).Avoman = (SuriyaYear.init z).Avoman)
    (h3 : (SuriyaYear.init y).Tithi = (SuriyaYear.init z).Tithi) : (16608000 : Int) ∣ z - y := by
  rw [init_Kammacubala hy, init_Kammacubala hz] at h1
  rw [init_Avoman hy, init_Avoman hz] at h2
  rw [init_Tithi hy, init_Tithi hz] at h3
  obtain ⟨k, hk⟩ : ∃ k, z = y + 800 * k := by
    have : (z - y) % 800 = 0 := by unfold eraNum at h1; omega
    exact ⟨(z - y) / 800, by omega⟩
  subst hk
  unfold avo at h2
  rw [hor_shift] at h2
  obtain ⟨j, hj⟩ : ∃ j, k = 692 * j := ⟨k / 692, by omega⟩
  subst hj
  rw [show y + 800 * (692 * j) = y + 553600 * j by omega, raw_shift] at h3
  omega

/-- C76: 800 years after 2015 the Kammacubala is the same, but not the Avoman. -/
example : (SuriyaYear.init 2815).Kammacubala = (SuriyaYear.init 2015).Kammacubala ∧ (SuriyaYear.init 2015).Avoman = 0 ∧
    (SuriyaYear.init 2815).Avoman = 629 := by decide

/-! ### every combination once -/

/-- The three values that determine the kind of a year. -/
def triple (y : Int) : Int × Int × Int := ((SuriyaYear.init y).Kammacubala, (SuriyaYear.init y).Avoman, (SuriyaYear.init y).Tithi)

/-- The combinations of values within the given bounds. -/
@[irreducible] def combos (a b c d e f : Int) : Finset (Int × Int × Int) := Finset.Icc a b ×ˢ Finset.Icc c d ×ˢ Finset.Icc e f

theorem mem_combos {a b c d e f : Int} {t : Int × Int × Int} : t ∈ combos a b c d e f ↔
    (a ≤ t.1 ∧ t.1 ≤ b) ∧ (c ≤ t.2.1 ∧ t.2.1 ≤ d) ∧ (e ≤ t.2.2 ∧ t.2.2 ≤ f) := by
  unfold combos
  simp only [Finset.mem_product, Finset.mem_Icc]

theorem combos_card (a b c d e f : Int) :
    (combos a b c d e f).card = (b + 1 - a).toNat * ((d + 1 - c).toNat * (f + 1 - e).toNat) := by
  unfold combos
  rw [Finset.card_product, Finset.card_product, Int.card_Icc, Int.card_Icc, Int.card_Icc]

/-- The possible values. -/
abbrev triples : Finset (Int × Int × Int) := combos 1 800 0 691 0 29

theorem triples_card : triples.card = 16608000 := combos_card ..

theorem triple_mem {y : Int} (h : 638 ≤ y) : triple y ∈ triples := by
  unfold triple
  rw [init_Kammacubala h, init_Avoman h, init_Tithi h, mem_combos]
  unfold avo
  dsimp only
  omega

theorem triple_inj {s : Int} (h : 638 ≤ s) {N : Nat} (hN : N = 16608000) :
    Set.InjOn (fun i : Nat => triple (s + i)) (Finset.range N : Finset Nat) := by
  intro i hi j hj e
  simp only [Finset.coe_range, Set.mem_Iio] at hi hj
  simp only [triple, Prod.mk.injEq] at e
  have := c76_least (s + i) (s + j) (by omega) (by omega) e.1 e.2.1 e.2.2
  obtain ⟨c, hc⟩ := this
  omega

theorem triple_image {s : Int} (h : 638 ≤ s) {N : Nat} (hN : N = 16608000) :
    (Finset.range N).image (fun i : Nat => triple (s + i)) = triples := by
  apply Finset.eq_of_subset_of_card_le
  · rw [Finset.image_subset_iff]
    intro i _
    have hi : 638 ≤ s + (i : Int) := by omega
    exact triple_mem hi
  · have e := Finset.card_image_of_injOn (triple_inj h hN)
    rw [Finset.card_range] at e
    have := triples_card
    omega

/-- C76: in any 16608000 consecutive years every possible combination of Kammacubala, Avoman and Tithi occurs exactly once. -/
theorem c76_all (s : Int) (h : 638 ≤ s) (k a t : Int) (hk : 1 ≤ k ∧ k ≤ 800) (ha : 0 ≤ a ∧ a < 692) (ht : 0 ≤ t ∧ t < 30) :
    ∃! y, (s ≤ y ∧ y < s + 16608000) ∧ (SuriyaYear.init y).Kammacubala = k ∧ (SuriyaYear.init y).Avoman = a ∧
      (SuriyaYear.init y).Tithi = t := by
  have hm : (k, a, t) ∈ triples := by
    rw [mem_combos]
    dsimp only
    omega
  obtain ⟨N, hN⟩ : ∃ N : Nat, N = 16608000 := ⟨_, rfl⟩
  rw [← triple_image h hN] at hm
  obtain ⟨i, hi, e⟩ := Finset.mem_image.1 hm
  rw [Finset.mem_range] at hi
  simp only [triple, Prod.mk.injEq] at e
  refine ⟨s + i, ⟨⟨by omega, by omega⟩, e⟩, ?_⟩
  rintro y ⟨⟨h1, h2⟩, g1, g2, g3⟩
  obtain ⟨c, hc⟩ := c76_least (s + i) y (by omega) (by omega) (e.1.trans g1.symm) (e.2.1.trans g2.symm) (e.2.2.trans g3.symm)
  omega

/-- C76: the values of 2015 in the period from 1000000. -/
example : ∃! y, ((1000000 : Int) ≤ y ∧ y < 1000000 + 16608000) ∧ (SuriyaYear.init y).Kammacubala = 188 ∧ (SuriyaYear.init y).Avoman = 0 ∧
    (SuriyaYear.init y).Tithi = 28 :=
  c76_all 1000000 (by decide) 188 0 28 (by decide) (by decide) (by decide)

/-- Counting years by counting combinations. -/
theorem count_triples {s : Int} (h : 638 ≤ s) {N : Nat} (hN : N = 16608000) (p : Int → Bool) (q : Int × Int × Int → Prop) [DecidablePred q]
    (hpq : ∀ y, 638 ≤ y → (p y = true ↔ q (triple y))) : countYears p s N = (triples.filter q).card := by
  have e : countYears p s N = ((Finset.range N).filter fun i : Nat => q (triple (s + i))).card := by
    unfold countYears
    rw [Finset.card_def, Finset.filter_val, Finset.range_val, Multiset.range, Multiset.filter_coe, Multiset.coe_card]
    congr 1
    apply List.filter_congr
    intro i _
    have := hpq (s + i) (by omega)
    cases hp : p (s + i) with
    | true => simp [this.1 hp]
    | false =>
      have hn : ¬ q (triple (s + i)) := fun hq => by rw [this.2 hq] at hp; cases hp
      simp [hn]
  rw [e, ← triple_image h hN, Finset.filter_image, Finset.card_image_of_injOn]
  exact (triple_inj h hN).mono (by
    intro i hi
    exact Finset.mem_coe.2 (Finset.mem_filter.1 (Finset.mem_coe.1 hi)).1)

theorem countYears_add (p : Int → Bool) (s : Int) (m n : Nat) : countYears p s (m + n) = countYears p s m + countYears p (s + m) n := by
  induction n with
  | zero => rw [countYears_zero]; rfl
  | succ n ih =>
    rw [show m + (n + 1) = m + n + 1 by omega, countYears_succ, countYears_succ, ih,
      show s + ((m + n : Nat) : Int) = s + m + n by omega]
    omega

/-- The boundary years that are not adhikamāsa, by their values. -/
theorem surplus_triple {y : Int} (h : 638 ≤ y) : isSurplus y = true ↔
    (triple y).1 ≤ 207 ∧ (triple y).2.1 = 126 ∧ 6 ≤ (triple y).2.2 ∧ (triple y).2.2 ≤ 23 := by
  unfold isSurplus triple
  rw [Bool.and_eq_true, Bool.not_eq_true', tie_iff h, not_isAdhikamasa_iff h, init_Kammacubala h, init_Avoman h, init_Tithi h]
  dsimp only
  have e1 := hor_succ y
  have e2 := wraps_succ y
  constructor
  · rintro ⟨⟨h1, h2⟩, h3⟩
    rw [if_pos h1] at e1
    refine ⟨by omega, h2, ?_⟩
    unfold rawTithi at *
    split at e2 <;> omega
  · rintro ⟨h1, h2, h3⟩
    have h1' : 593 ≤ eraNum y % 800 := by omega
    rw [if_pos h1'] at e1
    refine ⟨⟨h1', h2⟩, ?_⟩
    unfold rawTithi at *
    split at e2 <;> omega

theorem surplus_count {s : Int} (h : 638 ≤ s) {N : Nat} (hN : N = 16608000) : countYears isSurplus s N = 3726 := by
  rw [count_triples h hN isSurplus (fun t => t.1 ≤ 207 ∧ t.2.1 = 126 ∧ 6 ≤ t.2.2 ∧ t.2.2 ≤ 23) fun y hy => surplus_triple hy]
  have : triples.filter (fun t => t.1 ≤ 207 ∧ t.2.1 = 126 ∧ 6 ≤ t.2.2 ∧ t.2.2 ≤ 23) = combos 1 207 126 126 6 23 := by
    ext ⟨k, a, t⟩
    rw [Finset.mem_filter, mem_combos, mem_combos]
    dsimp only
    omega
  rw [this, combos_card]
  rfl

/-- C76: in each such period the calendar falls a further 3726 days behind its own moon. -/
theorem c76_slip (y : Int) (h : 638 ≤ y) : surplusDays (y + 16608000) = surplusDays y + 3726 := by
  obtain ⟨N, hN⟩ : ∃ N : Nat, N = 16608000 := ⟨_, rfl⟩
  have hc := surplus_count h hN
  show surplus (y + 16608000) = surplus y + 3726
  unfold surplus
  rw [show (y + 16608000 - 638).toNat = (y - 638).toNat + N by omega, countYears_add,
    show (638 : Int) + ((y - 638).toNat : Int) = y by omega, hc]
  omega

/-- C76: from no surplus day in 4098 to 3726. -/
example : surplusDays 4098 = 0 ∧ surplusDays 16612098 = 3726 := by
  have h := c76_slip 4098 (by decide)
  rw [(c11_no_surplus_until_4098).1 4098 (by decide)] at h
  exact ⟨(c11_no_surplus_until_4098).1 4098 (by decide), h⟩

theorem adh_count {y : Int} (h : 638 ≤ y) {N : Nat} (hN : N = 16608000) :
    countYears (fun z => (SuriyaYear.init z).isAdhikamasa) y N = 6125521 := by
  have e := c07_month_count_exact y h N
  have hp := c76_period y h
  rw [show y + (N : Int) = y + 16608000 by omega, hp.2.2.1, hp.2.2.2.2] at e
  omega

theorem leap_count {s : Int} (h : 638 ≤ s) {N : Nat} (hN : N = 16608000) :
    countYears (fun z => (SuriyaYear.init z).isSuriyaLeap) s N = 4297320 := by
  rw [count_triples h hN _ (fun t => t.1 ≤ 207) fun y hy => by
    rw [leap_iff hy]; unfold triple; rw [init_Kammacubala hy]; dsimp only; omega]
  have : triples.filter (fun t => t.1 ≤ 207) = combos 1 207 0 691 0 29 := by
    ext ⟨k, a, t⟩
    rw [Finset.mem_filter, mem_combos, mem_combos]
    dsimp only
    omega
  rw [this, combos_card]
  rfl

/-- The days of `n` years. -/
theorem days_of_years (y : Int) (n : Nat) : katDay .default (y + n) - katDay .default y =
    354 * n + 30 * countYears (fun z => (SuriyaYear.init z).isAdhikamasa) y n +
      countYears (fun z => (SuriyaYear.init z).isAdhikavara .default) y n := by
  induction n with
  | zero => simp [countYears_zero]
  | succ n ih =>
    rw [countYears_succ, countYears_succ, show y + ((n + 1 : Nat) : Int) = y + n + 1 by omega, katDay_succ]
    have hx := c08_exclusive_default (SuriyaYear.init (y + n))
    unfold SuriyaYear.yearLength
    cases h1 : (SuriyaYear.init (y + n)).isAdhikamasa <;> cases h2 : (SuriyaYear.init (y + n)).isAdhikavara .default <;>
      simp_all <;> omega

/-- C76: any 16608000 consecutive years have 6125521 adhikamāsa years, 3223416 adhikavāra years and 4297320 leap years of the sun,
and are 3726 days longer than the solar count of days. -/
theorem c76_months (y : Int) (h : 639 ≤ y) :
    countYears (fun z => (SuriyaYear.init z).isAdhikamasa) y 16608000 = 6125521 ∧
    countYears (fun z => (SuriyaYear.init z).isAdhikavara .default) y 16608000 = 3223416 ∧
    countYears (fun z => (SuriyaYear.init z).isSuriyaLeap) y 16608000 = 4297320 ∧
    (calculatePreviousKattika .default (y + 16608000)).day - (calculatePreviousKattika .default y).day = 6066217320 + 3726 := by
  obtain ⟨N, hN⟩ : ∃ N : Nat, N = 16608000 := ⟨_, rfl⟩
  rw [← hN]
  have hk : katDay .default (y + 16608000) - katDay .default y = 6066217320 + 3726 := by
    rw [katDay_closed (by omega), katDay_closed (y := y) (by omega)]
    have h1 := hor_shift y 20760
    have h2 := raw_shift y 30
    rw [show y + 800 * 20760 = y + 16608000 by omega] at h1
    rw [show y + 553600 * 30 = y + 16608000 by omega] at h2
    have hs : surplus (y + 16608000) = surplus y + 3726 := c76_slip y (by omega)
    have hc : carry (y + 16608000) = carry y := by
      unfold carry
      rw [(c76_carried y h)]
    have ht : tieAdh (y + 16608000 - 1) = tieAdh (y - 1) := by
      rw [show y + 16608000 - 1 = y - 1 + 16608000 by omega]
      unfold tieAdh tie SuriyaYear.isSuriyaLeap
      rw [(c76_period (y - 1) (by omega)).1, (c76_period (y - 1) (by omega)).2.1, c76_adhikamasa (y - 1) (by omega)]
    unfold age
    rw [h1, h2, hs, hc, ht]
    omega
  have hd := days_of_years y N
  rw [adh_count (by omega) hN, show y + (N : Int) = y + 16608000 by omega, hk] at hd
  exact ⟨adh_count (by omega) hN, by omega, leap_count (by omega) hN, hk⟩

/-- C76: the period from 2000 on. -/
example : countYears (fun z => (SuriyaYear.init z).isAdhikamasa) 2000 16608000 = 6125521 := (c76_months 2000 (by decide)).1

/-- C76: the share of adhikamāsa years is 6125521/16608000: over any number of years the count differs from it by less than 1.07. -/
theorem c76_rate (y : Int) (h : 638 ≤ y) (n : Nat) :
    100 * (16608000 * (countYears (fun z => (SuriyaYear.init z).isAdhikamasa) y n : Int) - 6125521 * n).natAbs < 107 * 16608000 := by
  have e := c07_month_count_exact y h n
  rw [init_Masaken h, init_Tithi h, init_Masaken (by omega), init_Tithi (by omega)] at e
  unfold rawTithi wraps hor eraNum at e
  omega

/-- C76: the thousand years from 1000 have 369 adhikamāsa years; 1000 · 6125521/16608000 is 368.8. -/
example : countYears (fun z => (SuriyaYear.init z).isAdhikamasa) 1000 1000 = 369 := by decide +kernel

/-- C76: any nineteen years have six, seven or eight adhikamāsa years. -/
theorem c76_nineteen (y : Int) (h : 638 ≤ y) : 6 ≤ countYears (fun z => (SuriyaYear.init z).isAdhikamasa) y 19 ∧
    countYears (fun z => (SuriyaYear.init z).isAdhikamasa) y 19 ≤ 8 := by
  have := c76_rate y h 19
  omega

/-- C76: all three occur; the rule of seven adhikamāsa years in nineteen does not always hold. -/
example : countYears (fun z => (SuriyaYear.init z).isAdhikamasa) 638 19 = 7 ∧
    countYears (fun z => (SuriyaYear.init z).isAdhikamasa) 660 19 = 8 ∧
    countYears (fun z => (SuriyaYear.init z).isAdhikamasa) 679 19 = 6 := by decide +kernel

end Verif.Props
