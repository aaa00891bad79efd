import Verif.Lemmas.AstroReverse
import Verif.Props.AstroData
/-
C54: the calculated calendar compared with the embedded astronomical data.
-/
set_option autoImplicit false

namespace Verif.Props
open Verif.Go Verif.Model Verif.Spec Verif.Lemmas

theorem shipped_eight {cfg : Config} (hs : Shipped cfg) {y : Int} (h1 : 631 ≤ y) (h2 : y ≤ 3571) :
    katDay cfg y < daysSinceEpoch y - 8 := by
  have w := window h1 (y := y) (by omega)
  have := w.2.2.2.2.1 h2
  rcases hs with rfl | rfl
  · exact this
  · rw [katDay_official]; split <;> omega

/-- An uposatha after a Kattika, and its half moon, are generated for the years in which they fall. -/
theorem generated {cfg : Config} (hs : Shipped cfg) {y : Int} (h1 : 632 ≤ y) (h2 : y ≤ 3570) (k : Nat) (hk : 1 ≤ k)
    (hk2 : k ≤ moons (fa y) + 8) (n : Int) (hn0 : 0 ≤ n) (hn8 : n ≤ 8) :
    ∃ z j, 1 ≤ j ∧ chain cfg z j = chain cfg y k ∧ z = (yearYday ((chain cfg y k).Date.day + n)).1 := by
  have hr := shipped_regular hs (y := y) (by omega) (by omega)
  have hd := chain_day_ext hr k hk2
  have e8 := shipped_eight hs (y := y + 1) (by omega) (by omega)
  have e8' := shipped_eight hs (y := y) (by omega) (by omega)
  have w' := (shipped_window hs (y := y + 1) (by omega) (by omega)).1
  have w := (shipped_window hs (y := y) (by omega) (by omega)).1
  have d1 := daysSinceEpoch_succ y
  have d2 := daysSinceEpoch_succ (y + 1)
  have d0 := daysSinceEpoch_succ (y - 1)
  have b0 := yearDays_bounds (y - 1)
  have b2 := yearDays_bounds (y + 1)
  have e : y - 1 + 1 = y := by omega
  rw [e] at d0
  have hks := katDay_succ cfg y
  rw [len_eq] at hks
  have hpos : 0 ≤ eoff (fa y) (fv cfg y) k ∧ eoff (fa y) (fv cfg y) k ≤ len (fa y) (fv cfg y) + 118 ∧
      (k ≤ moons (fa y) → eoff (fa y) (fv cfg y) k ≤ len (fa y) (fv cfg y)) := by
    have : ∀ a v : Bool, (a && v) = false → ∀ k : Fin 35, k.val ≤ moons a + 8 →
        0 ≤ eoff a v k ∧ eoff a v k ≤ len a v + 118 ∧ (k.val ≤ moons a → eoff a v k ≤ len a v) := by decide +kernel
    have hm26 : moons (fa y) ≤ 26 := by unfold moons; split <;> omega
    exact this _ _ hr.excl ⟨k, by omega⟩ hk2
  generalize eoff (fa y) (fv cfg y) k = o at *
  generalize len (fa y) (fv cfg y) = L at *
  rcases lt_or_ge (katDay cfg y + o + n) (daysSinceEpoch y) with c | c
  · refine ⟨y - 1, moons (fa (y - 1)) + k, by omega, chain_prev hs h1 (by omega) k, ?_⟩
    symm
    rw [year_eq_iff, hd, e]
    omega
  · rcases lt_or_ge (katDay cfg y + o + n) (daysSinceEpoch (y + 1)) with c' | c'
    · refine ⟨y, k, hk, rfl, ?_⟩
      symm
      rw [year_eq_iff, hd]
      omega
    · have hkm : moons (fa y) < k := by
        by_contra hc
        have := hpos.2.2 (by omega)
        omega
      have hp := chain_prev hs (y := y + 1) (by omega) (by omega) (k - moons (fa y))
      have e' : y + 1 - 1 = y := by omega
      rw [e'] at hp
      rw [show moons (fa y) + (k - moons (fa y)) = k by omega] at hp
      refine ⟨y + 1, k - moons (fa y), by omega, hp.symm, ?_⟩
      symm
      rw [year_eq_iff, hd]
      omega

theorem embedded_row {m : AstroMoon} (hm : m ∈ embeddedMoons) : ∃ y n, 1902 ≤ y ∧ y ≤ 2040 ∧ n ∈ rowsOf y ∧ m = moonOf n ∧
    rowOk n = true ∧ n % 10 < 4 ∧ m.Date.year = y := by
  unfold embeddedMoons at hm
  obtain ⟨e, he, hm⟩ := List.mem_flatMap.1 hm
  obtain ⟨n, hn, rfl⟩ := List.mem_map.1 hm
  have hr := table_row he hn
  have hy := table_year he
  refine ⟨e.1, n, ?_, hy.2, ?_, rfl, hr.1, hr.2.1, hr.2.2⟩
  · by_contra hc
    have : embeddedTable.all (fun e => decide (1902 ≤ e.1) || e.2.isNone) = true := by decide +kernel
    rw [List.all_eq_true] at this
    have := this e he
    simp only [Bool.or_eq_true, decide_eq_true_eq, hc, false_or, Option.isNone_iff_eq_none] at this
    rw [this] at hn
    simp at hn
  · unfold rowsOf
    rw [table_find he]
    obtain ⟨y, o⟩ := e
    cases o with
    | none => simp at hn
    | some rows => exact hn

theorem moonOf_phase {n : Nat} (h : n % 10 < 4) : (moonOf n).Phase =
    if n % 10 = 0 then "new" else if n % 10 = 1 then "waxing" else if n % 10 = 2 then "full" else "waning" := by
  have : ∀ k : Fin 4, (phases[k.val]?).getD "" =
    if k.val = 0 then "new" else if k.val = 1 then "waxing" else if k.val = 2 then "full" else "waning" := by decide
  exact this ⟨n % 10, h⟩

/-- The uposatha or half moon belonging to an embedded moon. -/
theorem moon_chain {cfg : Config} (hs : Shipped cfg) {m : AstroMoon} (hm : m ∈ embeddedMoons) :
    ∃ y k, 1902 ≤ y ∧ y ≤ 2040 ∧ 1 ≤ k ∧ k ≤ moons (fa y) + 8 ∧
      ((m.Phase = "new" ∨ m.Phase = "waxing") ↔ k % 2 = 1) ∧
      ((m.Phase = "new" ∨ m.Phase = "full") → (chain cfg y k).Date.day - 1 ≤ m.Date.day ∧
        m.Date.day ≤ (chain cfg y k).Date.day + 2) ∧
      ((m.Phase = "waxing" ∨ m.Phase = "waning") → (chain cfg y k).Date.day + 6 ≤ m.Date.day ∧
        m.Date.day ≤ (chain cfg y k).Date.day + 10) := by
  obtain ⟨y, n, h1, h2, hn, rfl, hok, hc, -⟩ := embedded_row hm
  have hcov := covered hs h1 h2
  unfold moonsCovered at hcov
  obtain ⟨i, o, hio, hp, ha, hb⟩ := go_spec hcov n hn hc
  have hr := shipped_regular hs (y := y) (by omega) (by omega)
  obtain ⟨hi, he⟩ := offsN_get hr.excl hio
  have hi : i < moons (fa y) + 8 := hi
  have hd := chain_day_ext hr (i + 1) (by omega)
  rw [he] at hd
  have hk0 : 0 ≤ katDay cfg y := by
    have w := (shipped_window hs (y := y) (by omega) (by omega)).1
    have := daysSinceEpoch_mono (a := 1) (b := y) (by omega)
    have e : daysSinceEpoch 1 = 0 := by decide
    omega
  have hk : ((katDay cfg y).toNat : Int) = katDay cfg y := by omega
  have hph := moonOf_phase hc
  refine ⟨y, i + 1, h1, h2, by omega, by omega, ?_, ?_, ?_⟩
  · rw [hph]
    have : n % 10 = 0 ∨ n % 10 = 1 ∨ n % 10 = 2 ∨ n % 10 = 3 := by omega
    rcases this with h | h | h | h <;> simp [h] <;> omega
  · intro hpp
    rw [hph] at hpp
    have : n % 2 = 0 := by
      have : n % 10 = 0 ∨ n % 10 = 1 ∨ n % 10 = 2 ∨ n % 10 = 3 := by omega
      rcases this with h | h | h | h
      · omega
      · simp [h] at hpp
      · omega
      · simp [h] at hpp
    have := ha this
    rw [day_of_row hok, hd]
    omega
  · intro hpp
    rw [hph] at hpp
    have : n % 2 = 1 := by
      have : n % 10 = 0 ∨ n % 10 = 1 ∨ n % 10 = 2 ∨ n % 10 = 3 := by omega
      rcases this with h | h | h | h
      · simp [h] at hpp
      · omega
      · simp [h] at hpp
      · omega
    have := hb this
    rw [day_of_row hok, hd]
    omega

theorem rowsOf_embedded {y : Int} {n : Nat} (h : n ∈ rowsOf y) :
    moonOf n ∈ embeddedMoons ∧ rowOk n = true ∧ n % 10 < 4 := by
  obtain ⟨e, he, -, hn⟩ := rowsOf_mem h
  have hr := table_row he hn
  refine ⟨?_, hr.1, hr.2.1⟩
  unfold embeddedMoons
  exact List.mem_flatMap.2 ⟨e, he, List.mem_map.2 ⟨n, hn, rfl⟩⟩

/-- C54: every new and full moon of the embedded data has a calculated uposatha of its phase: it falls on a day from one
day before to two days after the uposatha. -/
theorem c54_moon_uposatha (cfg : Config) (hs : Shipped cfg) (m : AstroMoon) (hm : m ∈ embeddedMoons)
    (hp : m.Phase = "new" ∨ m.Phase = "full") :
    ∃ y u, .uposatha u ∈ generateSolarYear cfg y ∧ u.Phase = m.Phase ∧ DaysAfter (-1) 2 u.Date m := by
  obtain ⟨y, k, h1, h2, hk1, hk2, hpar, hd, -⟩ := moon_chain hs hm
  obtain ⟨z, j, hj, hc, hz⟩ := generated hs (y := y) (by omega) (by omega) k hk1 hk2 0 (by omega) (by omega)
  refine ⟨z, published (chain cfg z j), (c22_uposatha_iff _ _ _).2 ⟨j, hj, by rw [moon_eq], ?_⟩, ?_, ?_⟩
  · rw [Int.add_zero, ← hc] at hz
    exact hz.symm
  · show (chain cfg z j).Phase = _
    rw [hc, chain_phase]
    rcases hp with hp | hp
    · rw [hp] at hpar ⊢
      rw [if_pos (hpar.1 (by simp))]
    · rw [hp] at hpar ⊢
      rw [if_neg fun h => absurd (hpar.2 h) (by decide)]
  · have := hd hp
    unfold DaysAfter
    show (chain cfg z j).Date.day + _ ≤ _ ∧ _ ≤ (chain cfg z j).Date.day + _
    rw [hc]; omega

/-- C54: the full moon of 25 November 2015 is in the data. -/
example : { Phase := "full", Date := date 2015 11 25 (81890 * nsPerSec) 0 } ∈ embeddedMoons := by
  have h : moonOf 2015_11_25_22_44_50_0_2 ∈ embeddedMoons := (rowsOf_embedded (y := 2015) (by decide +kernel)).1
  have e : moonOf 2015_11_25_22_44_50_0_2 = { Phase := "full", Date := date 2015 11 25 (81890 * nsPerSec) 0 } := by decide +kernel
  rw [← e]; exact h

/-- C54: every first and last quarter of the embedded data has a calculated half moon at most two days away. -/
theorem c54_quarter_half (cfg : Config) (hs : Shipped cfg) (m : AstroMoon) (hm : m ∈ embeddedMoons)
    (hp : m.Phase = "waxing" ∨ m.Phase = "waning") :
    ∃ y u, .half u ∈ generateSolarYear cfg y ∧ u.Phase = m.Phase ∧ DaysAfter (-2) 2 u.Date m := by
  obtain ⟨y, k, h1, h2, hk1, hk2, hpar, -, hd⟩ := moon_chain hs hm
  obtain ⟨z, j, hj, hc, hz⟩ := generated hs (y := y) (by omega) (by omega) k hk1 hk2 8 (by omega) (by omega)
  have hday : ((chain cfg z j).Date.addDays 8).day = (chain cfg y k).Date.day + 8 := by
    rw [hc, addDays_eq, day_add]
  refine ⟨z, { Date := (chain cfg z j).Date.addDays 8, Phase := m.Phase }, (c23_half_iff _ _ _).2
    ⟨j, hj, by rw [moon_eq], ?_, ?_⟩, rfl, ?_⟩
  · show (yearYday ((chain cfg z j).Date.addDays 8).day).1 = _
    rw [hday, hz]
  · rw [moon_eq, hc, chain_phase]
    rcases hp with hp | hp
    · left; rw [hp] at hpar; rw [if_pos (hpar.1 (by simp))]; exact ⟨rfl, hp⟩
    · right; rw [hp] at hpar; rw [if_neg fun h => absurd (hpar.2 h) (by decide)]; exact ⟨rfl, hp⟩
  · have := hd hp
    unfold DaysAfter
    show ((chain cfg z j).Date.addDays 8).day + _ ≤ _ ∧ _ ≤ ((chain cfg z j).Date.addDays 8).day + _
    rw [hday]; omega

/-- C54: a quarter of 1902 is in the data. -/
example : { Phase := "waning", Date := date 1902 1 1 (58116 * nsPerSec) 0 } ∈ embeddedMoons := by
  have h : moonOf 1902_01_01_16_08_36_0_3 ∈ embeddedMoons := (rowsOf_embedded (y := 1902) (by decide +kernel)).1
  have e : moonOf 1902_01_01_16_08_36_0_3 = { Phase := "waning", Date := date 1902 1 1 (58116 * nsPerSec) 0 } := by decide +kernel
  rw [← e]; exact h

/-- C54: every uposatha calculated for 1902..2032 except 1970 has its moon in the embedded data, on a day from one day
before to two days after, except eleven uposathas at the end of December, for which the data lacks the moon. -/
theorem c54_uposatha_moon (cfg : Config) (hs : Shipped cfg) (y : Int) (h1 : 1902 ≤ y) (h2 : y ≤ 2032) (h3 : y ≠ 1970)
    (u : UposathaMoon) (hu : .uposatha u ∈ generateSolarYear cfg y) :
    (∃ m ∈ embeddedMoons, m.Phase = u.Phase ∧ DaysAfter (-1) 2 u.Date m) ↔ u.Date ∉ uncovered := by
  obtain ⟨k, hk1, hku, hyear⟩ := (c22_uposatha_iff _ _ _).1 hu
  rw [moon_eq] at hku
  have hr := shipped_regular hs (y := y) (by omega) (by omega)
  have hdate : u.Date = ⟨u.Date.day * nsPerDay, 0⟩ := by
    have := chain_midnight cfg y k
    have hd : u.Date = (chain cfg y k).Date := by rw [hku]; rfl
    rw [hd]; exact this
  have hmem : u.Date ∈ uncovered ↔ ∃ d ∈ uncoveredDays, (d : Int) = u.Date.day := by
    rw [uncovered_eq, List.mem_map]
    constructor
    · rintro ⟨d, hd, h⟩
      refine ⟨d, hd, ?_⟩
      rw [← h]
      unfold Time.day nsPerDay; simp only; omega
    · rintro ⟨d, hd, h⟩
      exact ⟨d, hd, by rw [h]; exact hdate.symm⟩
  have hphase : u.Phase = if k % 2 = 1 then "new" else "full" := by rw [hku]; exact chain_phase cfg y k
  constructor
  · rintro ⟨m, hm, hp, hd⟩ hc
    obtain ⟨d, hdu, hdd⟩ := hmem.1 hc
    obtain ⟨z, n, hz1, hz2, hn, rfl, hok, hc4, hzy⟩ := embedded_row hm
    have hall := List.all_eq_true.1 uncovered_none d hdu
    rw [hdd] at hall
    have hyd : (yearYday u.Date.day).1 = y := hyear
    rw [hyd, List.all_eq_true] at hall
    unfold DaysAfter at hd
    have hdn := day_of_row hok
    have hu1 := (year_eq_iff u.Date.day y).1 hyd
    have hz := (year_eq_iff (moonOf n).Date.day z).1 hzy
    have hsucc := daysSinceEpoch_succ (y + 1)
    have hb := yearDays_bounds (y + 1)
    have hdec : ∀ d ∈ uncoveredDays, daysSinceEpoch (yearYday d).1 + 300 ≤ d := by decide +kernel
    have hdec := hdec d hdu
    rw [hdd, hyd] at hdec
    have hzz : z = y ∨ z = y + 1 := by
      have a1 : y ≤ z := by
        by_contra hlt
        have := daysSinceEpoch_mono (a := z + 1) (b := y) (by omega)
        omega
      have a2 : z ≤ y + 1 := by
        by_contra hlt
        have := daysSinceEpoch_mono (a := y + 2) (b := z) (by omega)
        have e : y + 1 + 1 = y + 2 := by omega
        rw [e] at hsucc
        omega
      omega
    have hin : n ∈ rowsOf y ++ rowsOf (y + 1) := by
      rw [List.mem_append]
      rcases hzz with rfl | rfl
      · exact Or.inl hn
      · exact Or.inr hn
    have := hall n hin
    simp only [Bool.or_eq_true, Nat.beq_eq, Nat.ble_eq] at this
    have hpar : n % 2 = 0 := by
      rw [moonOf_phase hc4, hphase] at hp
      have : n % 10 = 0 ∨ n % 10 = 1 ∨ n % 10 = 2 ∨ n % 10 = 3 := by omega
      rcases this with h | h | h | h
      · omega
      · rw [h] at hp; rcases Nat.mod_two_eq_zero_or_one k with hk | hk <;> rw [hk] at hp <;> exact absurd hp (by decide)
      · omega
      · rw [h] at hp; rcases Nat.mod_two_eq_zero_or_one k with hk | hk <;> rw [hk] at hp <;> exact absurd hp (by decide)
    omega
  · intro hc
    have hk2 : k ≤ moons (fa y) + 8 := by
      by_contra hlt
      have hm := chain_year_mono cfg y (j := moons (fa y) + 8) (k := k) (by omega)
      have hd := chain_day_ext hr (moons (fa y) + 8) (Nat.le_refl _)
      have hl : ∀ a v : Bool, (a && v) = false → eoff a v (moons a + 8) = len a v + 118 := by decide +kernel
      rw [hl _ _ hr.excl] at hd
      have hks := katDay_succ cfg y
      rw [len_eq] at hks
      have hlo := hr.lo'
      have : ¬ (chain cfg y (moons (fa y) + 8)).Date.year ≤ y := by
        unfold Time.year
        rw [year_le_iff]
        generalize len _ _ = L at *
        omega
      have hy' : (chain cfg y k).Date.year = y := by rw [hku] at hyear; exact hyear
      omega
    obtain ⟨i, rfl⟩ : ∃ i, k = i + 1 := ⟨k - 1, by omega⟩
    have hos : ∃ o, (offsN (fa y) (fv cfg y))[i]? = some o ∧ eoff (fa y) (fv cfg y) (i + 1) = o := by
      have hlen : (offsN (fa y) (fv cfg y)).length = moons (fa y) + 8 := by
        have : ∀ a v : Bool, (offsN a v).length = moons a + 8 := by decide
        exact this _ _
      have hi : i < (offsN (fa y) (fv cfg y)).length := by rw [hlen]; omega
      exact ⟨_, List.getElem?_eq_getElem hi, (offsN_get hr.excl (List.getElem?_eq_getElem hi)).2⟩
    obtain ⟨o, ho, heo⟩ := hos
    have hd := chain_day_ext hr (i + 1) hk2
    rw [heo] at hd
    have hud : u.Date.day = katDay cfg y + o := by rw [hku]; exact hd
    have hk0 : 0 ≤ katDay cfg y := by
      have w := (shipped_window hs (y := y) (by omega) (by omega)).1
      have := daysSinceEpoch_mono (a := 1) (b := y) (by omega)
      have e : daysSinceEpoch 1 = 0 := by decide
      omega
    have hyy := (year_eq_iff u.Date.day y).1 hyear
    have y1 := yearN_eq y.toNat (by omega)
    have y2 := yearN_eq (y.toNat + 1) (by omega)
    have e1 : ((y.toNat : Nat) : Int) = y := by omega
    push_cast at y2
    rw [e1] at y1 y2
    rcases reverse_go (reverse hs h1 h2 h3) i o ho (by omega) (by omega) with h | ⟨n, hn, hcode, hl, hh⟩
    · exact absurd (hmem.2 ⟨_, h, by push_cast; omega⟩) hc
    · have hn' : ∃ z, n ∈ rowsOf z := by
        simp only [List.mem_append] at hn
        rcases hn with h | h | h <;> exact ⟨_, h⟩
      obtain ⟨z, hz⟩ := hn'
      have he := rowsOf_embedded hz
      refine ⟨moonOf n, he.1, ?_, ?_⟩
      · rw [moonOf_phase he.2.2, hphase, hcode]
        rcases Nat.mod_two_eq_zero_or_one i with hi | hi
        · have : (i + 1) % 2 = 1 := by omega
          simp [hi, this]
        · have : (i + 1) % 2 = 0 := by omega
          simp [hi, this]
      · unfold DaysAfter
        rw [day_of_row he.2.1, hud]
        omega

/-- C54: the full moon uposatha of 31 December 2009 is one of the exceptions; the one of 25 November 2015 has its moon on
the same day. -/
example : (date 2009 12 31 0 0 ∈ (uposathasOf (generateSolarYear .default 2009)).map (·.Date)) ∧
    date 2009 12 31 0 0 ∈ uncovered ∧
    (date 2015 11 25 0 0 ∈ (uposathasOf (generateSolarYear .default 2015)).map (·.Date)) ∧
    { Phase := "full", Date := date 2015 11 25 (81890 * nsPerSec) 0 } ∈ embeddedMoons := by
  refine ⟨by decide +kernel, by decide +kernel, by decide +kernel, ?_⟩
  have : moonOf 2015_11_25_22_44_50_0_2 ∈ embeddedMoons := (rowsOf_embedded (y := 2015) (by decide +kernel)).1
  have e : moonOf 2015_11_25_22_44_50_0_2 = { Phase := "full", Date := date 2015 11 25 (81890 * nsPerSec) 0 } := by
    decide +kernel
  rw [← e]; exact this

end Verif.Props
