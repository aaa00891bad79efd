import Verif.Props.Festivals
/-
Property C20 beyond 4116: what is lost at the turn of a year when the Kattika full moon falls into the year that is
generated from it.
-/
set_option autoImplicit false

namespace Verif.Props
open Verif.Go Verif.Model Verif.Spec Verif.Lemmas

/-- C20, any settings: the Kattika full moon from which a year is generated is returned for no year if it falls into
that year. -/
theorem c20_lost (cfg : Config) (y : Int) (hy : (calculatePreviousKattika cfg y).year = y) (z : Int) (u : UposathaMoon)
    (hu : .uposatha u ∈ generateSolarYear cfg z) : u.Date ≠ calculatePreviousKattika cfg y := by
  intro hd
  obtain ⟨k, hk, h1, h2⟩ := (c22_uposatha_iff _ _ _).1 hu
  rw [hd, hy] at h2
  subst h2
  rw [h1, moon_eq] at hd
  have hm := chain_day_mono cfg y (j := 1) (k := k) (by omega)
  have h3 : (chain cfg y k).Date.day = katDay cfg y := by
    unfold katDay; rw [← hd]; unfold published; rfl
  obtain ⟨ly, h0⟩ := seed_shift cfg y
  have h4 := core_date ((chain_from h0 1).1 (by omega))
  have h5 : (chain cfg y 1).Date.day = off false false 1 + katDay cfg y := by
    rw [show (1 : Nat) = 0 + 1 from rfl, h4, day_shift]; rfl
  have h6 : off false false 1 = 15 := by decide +kernel
  omega

/-- C20: the Kattika of 4117 is one. -/
example : (calculatePreviousKattika .default 4117).year = 4117 := c20_lost_4117.1

theorem off_last : ∀ a v : Bool, (a && v) = false → off a v (moons a) = len a v ∧ off a v (moons a - 1) = len a v - 15 ∧
    off a v (moons a - 2) = len a v - 29 ∧ 24 ≤ moons a := by decide +kernel

/-- C19, any settings: after the 24 or 26 uposathas of a lunar year comes the Kattika full moon of the next, even if that
falls into the first 29 days of the next year. -/
theorem c19_date {cfg : Config} {y : Int}
    (hex : ¬ ((SuriyaYear.init y).isAdhikamasa = true ∧ (SuriyaYear.init y).isAdhikavara cfg = true))
    (hlo : daysSinceEpoch y - 88 ≤ (calculatePreviousKattika cfg y).day)
    (hhi : (calculatePreviousKattika cfg (y + 1)).day < daysSinceEpoch (y + 1) + 29) :
    (moonAfterKattika cfg y (if (SuriyaYear.init y).isAdhikamasa = true then 26 else 24)).Date =
      calculatePreviousKattika cfg (y + 1) := by
  have hex' : (fa y && fv cfg y) = false := by
    rcases a : (SuriyaYear.init y).isAdhikamasa <;> rcases b : (SuriyaYear.init y).isAdhikavara cfg <;> simp_all
  obtain ⟨ly, h0⟩ := seed_shift cfg y
  have h := core_date (lunar_year hex' hlo hhi h0 _ (Nat.le_refl _)).1
  have e : moons (fa y) = if (SuriyaYear.init y).isAdhikamasa = true then 26 else 24 := rfl
  rw [moon_eq, ← e, h, tab_close _ _ hex', kattika_eq, katDay_succ, len_eq]
  unfold shift seed0 Time.add
  simp only [Time.mk.injEq, and_true]
  generalize len _ _ = L
  unfold nsPerDay; omega

/-- C19: the year 4116, whose next Kattika is in 4117. -/
example : ¬ ((SuriyaYear.init 4116).isAdhikamasa = true ∧ (SuriyaYear.init 4116).isAdhikavara .default = true) ∧
    daysSinceEpoch 4116 - 88 ≤ (calculatePreviousKattika .default 4116).day ∧
    (calculatePreviousKattika .default (4116 + 1)).day < daysSinceEpoch (4116 + 1) + 29 := by
  have w := window (y := 4116) (by omega) (by omega)
  have w' := window_4117
  exact ⟨c08_exclusive_default _, by change _ ≤ katDay _ _; omega, by change katDay _ 4117 < daysSinceEpoch 4117 + 29; omega⟩

theorem getLast_filter {f : Nat → UposathaMoon} {p : Nat → Bool} {n r : Nat} (hn : p n = true) (hr : ∀ j, n < j → j < n + 1 + r → p j = false) :
    (((List.range (n + 1 + r)).filter p).map f).getLast? = some (f n) := by
  rw [List.range_add, List.filter_append]
  have : (List.map (fun x => n + 1 + x) (List.range r)).filter p = [] := by
    rw [List.filter_eq_nil_iff]
    intro a ha
    obtain ⟨x, hx, rfl⟩ := List.mem_map.1 ha
    have := List.mem_range.1 hx
    rw [hr _ (by omega) (by omega)]; simp
  rw [this, List.append_nil, List.range_succ, List.filter_append, List.filter_singleton, hn]
  simp

section
variable {cfg : Config} {y : Int}
  (hex : ¬ ((SuriyaYear.init y).isAdhikamasa = true ∧ (SuriyaYear.init y).isAdhikavara cfg = true))
  (hlo : daysSinceEpoch y - 88 ≤ (calculatePreviousKattika cfg y).day)
  (hlo' : daysSinceEpoch (y + 1) ≤ (calculatePreviousKattika cfg (y + 1)).day)
  (hhi : (calculatePreviousKattika cfg (y + 1)).day < daysSinceEpoch (y + 1) + 29)
include hex hlo hlo' hhi

/-- C20, any settings: if the Kattika full moon from which a year is generated falls on one of its first 29 days, the gap
between the last uposatha of the year before and the first of the year is 30 or 44 days: the Kattika full moon is lost, and
from the sixteenth day on also the new moon before it. -/
theorem c20_gap :
    let kattika := calculatePreviousKattika cfg (y + 1)
    ((uposathasOf (generateSolarYear cfg y)).getLast?.map (·.Date)) =
      some (kattika.addDays (if kattika.day < daysSinceEpoch (y + 1) + 15 then -15 else -29)) ∧
    ((uposathasOf (generateSolarYear cfg (y + 1))).head?.map (·.Date)) = some (kattika.addDays 15) := by
  intro kattika
  have hex' : (fa y && fv cfg y) = false := by
    rcases a : (SuriyaYear.init y).isAdhikamasa <;> rcases b : (SuriyaYear.init y).isAdhikavara cfg <;> simp_all
  change daysSinceEpoch (y + 1) ≤ katDay cfg (y + 1) at hlo'
  change katDay cfg (y + 1) < _ at hhi
  change _ ≤ katDay cfg y at hlo
  have hkat : ∀ n, kattika.addDays n = ⟨(katDay cfg (y + 1) + n) * nsPerDay, 0⟩ := by
    intro n
    have hk : kattika = ⟨katDay cfg (y + 1) * nsPerDay, 0⟩ := kattika_eq cfg (y + 1)
    rw [hk, addDays_eq]; unfold Time.add; simp only [Time.mk.injEq, and_true]
    unfold nsPerDay; omega
  constructor
  · obtain ⟨ly, h0⟩ := seed_shift cfg y
    have L := lunar_year hex' hlo hhi h0
    have hK := katDay_succ cfg y
    rw [len_eq] at hK
    obtain ⟨o1, o2, o3, hm24⟩ := off_last _ _ hex'
    have hday : ∀ k, k ≤ moons (fa y) → (chain cfg y k).Date.day = off (fa y) (fv cfg y) k + katDay cfg y := by
      intro k hk
      rw [core_date (L k hk).1, day_shift]; rfl
    have hdate : ∀ k, k < moons (fa y) → (published (chain cfg y k)).Date =
        ⟨(off (fa y) (fv cfg y) k + katDay cfg y) * nsPerDay, 0⟩ := by
      intro k hk
      change (chain cfg y k).Date = _
      rw [core_date (L k (by omega)).1]
      have hm26 : moons (fa y) ≤ 26 := by unfold moons; split <;> omega
      have ht := (tab_facts (fa y) (fv cfg y) hex' ⟨k, by omega⟩ hk).1
      simp only at ht
      unfold shift Time.add
      simp only [ht, Time.mk.injEq, and_true]
      unfold nsPerDay; omega
    have hb : y < (chain cfg y (moons (fa y))).Date.year := by
      have : ¬ (chain cfg y (moons (fa y))).Date.year ≤ y := by
        unfold Time.year; rw [year_le_iff, hday _ (Nat.le_refl _), o1]; generalize len _ _ = n at *; omega
      omega
    have hbey := hb
    rw [generate_eq hb, uposathas_emitted]
    have hyear : ∀ k, k ≤ moons (fa y) → 89 ≤ off (fa y) (fv cfg y) k → ((chain cfg y k).Date.year = y ↔
        off (fa y) (fv cfg y) k + katDay cfg y < daysSinceEpoch (y + 1)) := by
      intro k hk ho
      unfold Time.year
      rw [year_eq_iff, hday k hk]
      omega
    have hL : 354 ≤ len (fa y) (fv cfg y) := by unfold len; split <;> [omega; split <;> omega]
    have y1 := hyear (moons (fa y) - 1) (by omega) (by rw [o2]; omega)
    have y2 := hyear (moons (fa y) - 2) (by omega) (by rw [o3]; omega)
    have d1 := hdate (moons (fa y) - 1) (by omega)
    have d2 := hdate (moons (fa y) - 2) (by omega)
    rw [o2] at y1 d1
    rw [o3] at y2 d2
    clear L hyear hdate hday hb
    have hkd : kattika.day = katDay cfg (y + 1) := rfl
    generalize hM : moons (fa y) = M at *
    generalize len (fa y) (fv cfg y) = n at *
    have e1 : M - 2 + 1 = M - 1 := by omega
    have e2 : M - 3 + 1 = M - 2 := by omega
    have e0 : M - 1 + 1 = M := by omega
    by_cases h15 : kattika.day < daysSinceEpoch (y + 1) + 15
    · rw [if_pos h15]
      have e : M = M - 2 + 1 + 1 := by omega
      have hl := getLast_filter (f := fun i => published (chain cfg y (0 + i + 1)))
        (p := fun i => decide ((chain cfg y (0 + i + 1)).Date.year = y)) (n := M - 2) (r := 1)
        (by rw [Nat.zero_add, e1]; exact decide_eq_true (y1.2 (by omega)))
        (fun j h1 h2 => by
          have : j = M - 1 := by omega
          rw [Nat.zero_add, this, e0]; exact decide_eq_false (by omega))
      rw [← e] at hl
      rw [hl, Option.map_some, Nat.zero_add, e1, d1, hkat]
      congr 3; omega
    · rw [if_neg h15]
      have e : M = M - 3 + 1 + 2 := by omega
      have hl := getLast_filter (f := fun i => published (chain cfg y (0 + i + 1)))
        (p := fun i => decide ((chain cfg y (0 + i + 1)).Date.year = y)) (n := M - 3) (r := 2)
        (by rw [Nat.zero_add, e2]; exact decide_eq_true (y2.2 (by omega)))
        (fun j h1 h2 => by
          have : j = M - 1 ∨ j = M - 2 := by omega
          rcases this with h | h
          · rw [Nat.zero_add, h, e0]; exact decide_eq_false (by omega)
          · rw [Nat.zero_add, h, e1]; exact decide_eq_false (fun h => by have := y1.1 h; omega))
      rw [← e] at hl
      rw [hl, Option.map_some, Nat.zero_add, e2, d2, hkat]
      congr 3; omega
  · obtain ⟨m, hm⟩ := exists_beyond cfg (y + 1)
    rw [generate_eq (hm (m + 1) (by omega)), uposathas_emitted, List.range_succ_eq_map]
    obtain ⟨ly, h0⟩ := seed_shift cfg (y + 1)
    have h1 := core_date ((chain_from h0 1).1 (by omega))
    have o1 : (tab false false 1).Date = ⟨15 * nsPerDay, 0⟩ := by decide +kernel
    have hd : (chain cfg (y + 1) (0 + 0 + 1)).Date = kattika.addDays 15 := by
      rw [show 0 + 0 + 1 = 0 + 1 from rfl, h1, hkat]
      unfold shift Time.add
      simp only [o1, Time.mk.injEq, and_true]
      unfold nsPerDay; omega
    have hy : (chain cfg (y + 1) (0 + 0 + 1)).Date.year = y + 1 := by
      rw [hd, hkat]
      unfold Time.year
      rw [year_eq_iff]
      have hs := daysSinceEpoch_succ (y + 1)
      have hb := yearDays_bounds (y + 1)
      have e : (⟨(katDay cfg (y + 1) + 15) * nsPerDay, 0⟩ : Time).day = katDay cfg (y + 1) + 15 := by
        unfold Time.day nsPerDay; simp
      rw [e]; omega
    rw [List.filter_cons_of_pos (by exact decide_eq_true hy)]
    simp only [List.map_cons, List.head?_cons, Option.map_some]
    exact congrArg some hd

end

/-- C20: with the shipped settings this describes every turn of the year from 631/632 to 5834/5835 at which the Kattika full
moon falls into the new year. -/
theorem c20_gap_shipped (cfg : Config) (hs : Shipped cfg) (y : Int) (h1 : 631 ≤ y) (h2 : y ≤ 5834) :
    let kattika := calculatePreviousKattika cfg (y + 1)
    kattika.year = y + 1 →
    ((uposathasOf (generateSolarYear cfg y)).getLast?.map (·.Date)) =
      some (kattika.addDays (if kattika.day < daysSinceEpoch (y + 1) + 15 then -15 else -29)) ∧
    ((uposathasOf (generateSolarYear cfg (y + 1))).head?.map (·.Date)) = some (kattika.addDays 15) := by
  intro kattika hk
  have w := festival_window hs (y := y) h1 (by omega)
  have w' := festival_window hs (y := y + 1) (by omega) (by omega)
  have hex := shipped_excl hs y
  have hx : ¬ ((SuriyaYear.init y).isAdhikamasa = true ∧ (SuriyaYear.init y).isAdhikavara cfg = true) := by
    rintro ⟨a, b⟩; rw [a, b] at hex; cases hex
  refine c20_gap hx (by change _ ≤ katDay cfg y; omega) ?_ w'.2.2
  unfold Time.year at hk
  rw [year_eq_iff] at hk
  exact hk.1

/-- C20: the first such turn of the year, from 4116 to 4117. -/
example : (calculatePreviousKattika .default (4116 + 1)).year = 4116 + 1 ∧
    ((uposathasOf (generateSolarYear .default 4116)).getLast?.map (·.Date)) = some (date 4116 12 18 0 0) ∧
    ((uposathasOf (generateSolarYear .default (4116 + 1))).head?.map (·.Date)) = some (date 4117 1 17 0 0) :=
  ⟨c20_lost_4117.1, by decide +kernel, by decide +kernel⟩

end Verif.Props
