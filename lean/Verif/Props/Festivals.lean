import Verif.Props.Generate
/-
Properties C21 beyond the years 1290..4115: the major events of a year from the position of two Kattika full moons, the
doubled Māgha Pūjās of the years before and the first year in which a festival is lost.
-/
set_option autoImplicit false

namespace Verif.Props
open Verif.Go Verif.Model Verif.Spec Verif.Lemmas

/-- The moons after a Kattika full moon, whatever the years they fall into. -/
theorem chain_from {cfg : Config} {y d ly : Int} {n : Nat} (h : chain cfg y n = shift d ly seed0) : ∀ j : Nat,
    (j ≤ 8 → core (chain cfg y (n + j)) = core (shift d ly (tab false false j))) ∧
    (j ≤ 5 → chain cfg y (n + j) = shift d ly (tab false false j)) := by
  intro j
  induction j with
  | zero => exact ⟨fun _ => by rw [Nat.add_zero, h]; rfl, fun _ => h⟩
  | succ j ih =>
    have small : ∀ j : Fin 8, off false false j < 118 ∧ (j.val < 5 → off false false j < 74) := by decide +kernel
    have key : j < 8 → ∀ a v, step a v (chain cfg y (n + j)) = shift d ly (step a v (tab false false j)) := by
      intro hj a v
      rw [← step_core, ih.1 (by omega), step_core, step_shift]
    constructor
    · intro hj
      have ht := tab_facts false false rfl ⟨j, by omega⟩ (by show j < 24; omega)
      simp only at ht
      rw [← Nat.add_assoc, chain, next_eq_step, key (by omega), core_shift, ht.2.2.2.1 (small ⟨j, by omega⟩).1, ← core_shift]
    · intro hj
      have ht := tab_facts false false rfl ⟨j, by omega⟩ (by show j < 24; omega)
      simp only at ht
      rw [← Nat.add_assoc, chain, next_eq_step, key (by omega), ht.2.2.2.2 ((small ⟨j, by omega⟩).2 (by show j < 5; omega))]

theorem core_date {u w : UposathaMoon} (h : core u = core w) : u.Date = w.Date := by
  have := congrArg UposathaMoon.Date h; exact this

/-- The seed is the table's at the day of the Kattika. -/
theorem seed_shift (cfg : Config) (y : Int) : ∃ ly, chain cfg y 0 = shift (katDay cfg y) ly seed0 := by
  refine ⟨(calculatePreviousKattika cfg y).year + BEdiff, ?_⟩
  rw [chain]
  unfold kattikaSeed
  simp only
  generalize (calculatePreviousKattika cfg y).year = z
  rw [kattika_eq]
  unfold shift seed0 Time.add
  simp only [UposathaMoon.mk.injEq, Time.mk.injEq, and_true, true_and]
  omega

/-- The solar year whose adhikamāsa decides whether the full moon of the third month is Māgha Pūjā. -/
def maghaYear (cfg : Config) (y : Int) : Int := if katDay cfg y < daysSinceEpoch y - 74 then y - 1 else y

/-- What the induction over the lunar year needs of the table. -/
theorem tab_late : ∀ a v : Bool, (a && v) = false → ∀ k : Fin 26, k.val < moons a →
    (k.val < 5 → off a v k < 74) ∧ (k.val = 5 → off a v k = 74) ∧ (5 < k.val → 89 ≤ off a v k) ∧
    (k.val + 2 ≤ moons a → off a v k ≤ len a v - 29) ∧ (k.val + 1 = moons a → off a v k = len a v - 15 ∧
      ∀ a' v' : Bool, core (step a' v' (tab a v k)) = core (tab a v (k + 1))) := by
  decide +kernel

section
variable {cfg : Config} {y : Int} (hex : (fa y && fv cfg y) = false) (hlo : daysSinceEpoch y - 88 ≤ katDay cfg y)
  (hhi : katDay cfg (y + 1) < daysSinceEpoch (y + 1) + 29)
include hex hlo hhi

theorem lunar_year {ly : Int} (h0 : chain cfg y 0 = shift (katDay cfg y) ly seed0) : ∀ k : Nat, k ≤ moons (fa y) →
    core (chain cfg y k) = core (shift (katDay cfg y) ly (tab (fa y) (fv cfg y) k)) ∧
    (k < moons (fa y) → k ≠ 6 → chain cfg y k = shift (katDay cfg y) ly (tab (fa y) (fv cfg y) k)) ∧
    (katDay cfg (y + 1) < daysSinceEpoch (y + 1) → k = moons (fa y) →
      chain cfg y k = shift (katDay cfg y) ly (tab (fa y) (fv cfg y) k)) ∧
    (k = 6 → chain cfg y k = shift (katDay cfg y) ly
      (step (fa (maghaYear cfg y)) (fv cfg (maghaYear cfg y)) (tab (fa y) (fv cfg y) 5))) := by
  intro k
  induction k with
  | zero => intro _; exact ⟨by rw [h0]; rfl, fun _ _ => h0, fun _ h => by unfold moons at h; split at h <;> omega, fun h => by omega⟩
  | succ k ih =>
    intro hk
    have ihk := (ih (by omega)).1
    have hm26 : moons (fa y) ≤ 26 := by unfold moons; split <;> omega
    have hm24 : 24 ≤ moons (fa y) := by unfold moons; split <;> omega
    have ht := tab_facts (fa y) (fv cfg y) hex ⟨k, by omega⟩ (by show k < _; omega)
    have hl := tab_late (fa y) (fv cfg y) hex ⟨k, by omega⟩ (by show k < _; omega)
    simp only at ht hl
    obtain ⟨-, ho1, ho2, hc, hc'⟩ := ht
    obtain ⟨l1, l2, l3, l4, l5⟩ := hl
    have hdate : (chain cfg y k).Date = (shift (katDay cfg y) ly (tab (fa y) (fv cfg y) k)).Date :=
      core_date ihk
    have hday : (chain cfg y k).Date.day = off (fa y) (fv cfg y) k + katDay cfg y := by
      rw [hdate, day_shift]; rfl
    have hstep : ∀ a v, step a v (chain cfg y k) = shift (katDay cfg y) ly (step a v (tab (fa y) (fv cfg y) k)) := by
      intro a v
      rw [← step_core, ihk, step_core, step_shift]
    have hK := katDay_succ cfg y
    rw [len_eq] at hK
    have hyear : 5 < k → (k + 2 ≤ moons (fa y) ∨ katDay cfg (y + 1) < daysSinceEpoch (y + 1)) → (chain cfg y k).Date.year = y := by
      intro h5 hor
      have a1 := l3 h5
      unfold Time.year
      rw [year_eq_iff, hday]
      by_cases hk2 : k + 2 ≤ moons (fa y)
      · have a2 := l4 hk2; generalize off _ _ _ = o at *; generalize len _ _ = L at *; omega
      · have a2 := (l5 (by omega)).1; generalize off _ _ _ = o at *; generalize len _ _ = L at *; omega
    have hexact : 5 < k → (k + 2 ≤ moons (fa y) ∨ katDay cfg (y + 1) < daysSinceEpoch (y + 1)) →
        chain cfg y (k + 1) = shift (katDay cfg y) ly (tab (fa y) (fv cfg y) (k + 1)) := by
      intro h5 hor
      rw [chain, next_eq_step, hyear h5 hor, hstep]; rfl
    refine ⟨?_, ?_, ?_, ?_⟩
    · by_cases h5 : 5 < k
      · by_cases hk2 : k + 2 ≤ moons (fa y)
        · rw [hexact h5 (Or.inl hk2)]
        · rw [chain, next_eq_step, hstep, core_shift, (l5 (by omega)).2, ← core_shift]
      · rw [chain, next_eq_step, hstep, core_shift, hc (by
          by_cases h : k = 5
          · have := l2 h; omega
          · have := l1 (by omega); omega), ← core_shift]
    · intro h1 h2
      by_cases h5 : 5 < k
      · exact hexact h5 (Or.inl (by omega))
      · rw [chain, next_eq_step, hstep, hc' (l1 (by omega))]
    · intro h1 h2
      exact hexact (by omega) (Or.inr h1)
    · intro h6
      have h5 : k = 5 := by omega
      subst h5
      have hy : (chain cfg y 5).Date.year = maghaYear cfg y := by
        have e := l2 rfl
        rw [e] at hday
        unfold Time.year maghaYear
        rw [year_eq_iff, hday]
        have hs := daysSinceEpoch_succ (y - 1)
        have hb := yearDays_bounds (y - 1)
        have hs' := daysSinceEpoch_succ y
        have hb' := yearDays_bounds y
        have e : y - 1 + 1 = y := by omega
        have hL : len (fa y) (fv cfg y) ≥ 354 := by unfold len; split <;> [omega; split <;> omega]
        rw [e] at hs
        split
        · rw [e]; omega
        · generalize len _ _ = L at *; omega
      rw [chain, next_eq_step, hy, hstep]

end

theorem rest_table : ∀ a v : Bool, (a && v) = false →
    (List.range (moons a - 7)).flatMap (fun i => majorsOf (majorEventsOf (tab a v (i + 7)))) =
      (if a = true then [major0 118 "Māgha Pūjā"] else []) ++
      [major0 (vesakhaOff a) "Vesākha Pūjā", major0 (len a v - 118) "Āsāḷha Pūjā", major0 (len a v - 117) "First day of Vassa",
       major0 (len a v - 29) "Pavāraṇā Day", major0 (len a v - 29) "Last day of Vassa"] := by
  decide +kernel

theorem rest_days : ∀ a v : Bool, (a && v) = false → ∀ i : Fin 20, i.val < moons a - 7 →
    majorsOf (majorEventsOf (tab a v (i + 7))) ≠ [] → 89 ≤ off a v (i + 7) ∧ off a v (i + 7) ≤ len a v - 29 := by
  decide +kernel

theorem first_table : (∀ a v : Bool, (a && v) = false → ∀ i : Fin 5, majorsOf (majorEventsOf (tab a v (i + 1))) = []) ∧
    (∀ i : Fin 6, majorsOf (majorEventsOf (tab false false i)) = []) ∧
    (∀ a v, (a && v) = false → off a v 6 = 89 ∧ off a v (moons a) = len a v) ∧ off false false 6 = 89 ∧
    ∀ a v a' v' : Bool, (a && v) = false → majorsOf (majorEventsOf (step a' v' (tab a v 5))) =
      if a' = true then [] else [major0 89 "Māgha Pūjā"] := by
  decide +kernel

/-- Nothing follows after the last new moon of the lunar year. -/
theorem majors_end {cfg : Config} {y ly : Int} (hex : (fa y && fv cfg y) = false) (hlo : daysSinceEpoch y - 88 ≤ katDay cfg y)
    (hlo' : daysSinceEpoch (y + 1) - 88 ≤ katDay cfg (y + 1)) (hhi : katDay cfg (y + 1) < daysSinceEpoch (y + 1) + 29)
    (h0 : chain cfg y 0 = shift (katDay cfg y) ly seed0) :
    ∃ r, y < (chain cfg y (moons (fa y) - 1 + r)).Date.year ∧ ∀ j, j < r →
      (chain cfg y (moons (fa y) - 1 + j + 1)).Date.year ≠ y ∨
      majorsOf (majorEventsOf (chain cfg y (moons (fa y) - 1 + j + 1))) = [] := by
  obtain ⟨-, t2, t3, t4, -⟩ := first_table
  have hLast := lunar_year hex hlo hhi h0 _ (Nat.le_refl _)
  have hK := katDay_succ cfg y
  rw [len_eq] at hK
  have hm24 : 24 ≤ moons (fa y) := by unfold moons; split <;> omega
  have hd := core_date hLast.1
  have hlast : (chain cfg y (moons (fa y))).Date.day = len (fa y) (fv cfg y) + katDay cfg y := by
    rw [hd, day_shift, ← (t3 _ _ hex).2]; rfl
  clear hd
  have hcl := tab_close _ _ hex
  clear t3
  by_cases hneg : katDay cfg (y + 1) < daysSinceEpoch (y + 1)
  · have hc : chain cfg y (moons (fa y)) = shift (katDay cfg (y + 1)) (1 + ly) seed0 := by
      rw [hLast.2.2.1 hneg rfl, hcl, hK]
      unfold shift seed0 Time.add
      simp only [UposathaMoon.mk.injEq, Time.mk.injEq, and_true, true_and]
      generalize len _ _ = L
      unfold nsPerDay; omega
    have F := chain_from hc
    generalize moons (fa y) = m at *
    have hbey : y < (chain cfg y (m + 6)).Date.year := by
      have hd : (chain cfg y (m + 6)).Date.day = off false false 6 + katDay cfg (y + 1) := by
        rw [core_date ((F 6).1 (by omega)), day_shift]; rfl
      rw [t4] at hd
      have : ¬ (chain cfg y (m + 6)).Date.year ≤ y := by
        unfold Time.year; rw [year_le_iff, hd]; clear hLast hc F t2; omega
      omega
    refine ⟨7, ?_, ?_⟩
    · have e : m - 1 + 7 = m + 6 := by omega
      rw [e]; exact hbey
    · intro j hj
      have e : m - 1 + j + 1 = m + j := by omega
      rw [e]
      by_cases h6 : j = 6
      · subst h6; left; exact fun h => by rw [h] at hbey; exact absurd hbey (by omega)
      · right
        rw [(F j).2 (by omega), majors_shift, t2 ⟨j, by omega⟩]; rfl
  · have hb : y < (chain cfg y (moons (fa y))).Date.year := by
      have : ¬ (chain cfg y (moons (fa y))).Date.year ≤ y := by
        unfold Time.year; rw [year_le_iff, hlast]; generalize len _ _ = L at *; clear hLast t2; omega
      omega
    clear hLast hcl
    generalize moons (fa y) = m at *
    refine ⟨1, ?_, ?_⟩
    · have e : m - 1 + 1 = m := by omega
      rw [e]; exact hb
    · intro j hj
      left
      have e : m - 1 + j + 1 = m := by omega
      rw [e]; exact fun h => by rw [h] at hb; exact absurd hb (by omega)

/-- The major events of a year. -/
theorem majors_any {cfg : Config} {y : Int} (hex : (fa y && fv cfg y) = false) (hlo : daysSinceEpoch y - 88 ≤ katDay cfg y)
    (hlo' : daysSinceEpoch (y + 1) - 88 ≤ katDay cfg (y + 1)) (hhi : katDay cfg (y + 1) < daysSinceEpoch (y + 1) + 29) :
    majorsOf (generateSolarYear cfg y) =
      ((if fa (maghaYear cfg y) = true then [] else [major0 89 "Māgha Pūjā"]) ++
       ((if fa y = true then [major0 118 "Māgha Pūjā"] else []) ++
       [major0 (vesakhaOff (fa y)) "Vesākha Pūjā", major0 (len (fa y) (fv cfg y) - 118) "Āsāḷha Pūjā",
        major0 (len (fa y) (fv cfg y) - 117) "First day of Vassa", major0 (len (fa y) (fv cfg y) - 29) "Pavāraṇā Day",
        major0 (len (fa y) (fv cfg y) - 29) "Last day of Vassa"])).map (shiftE (katDay cfg y)) := by
  obtain ⟨ly, h0⟩ := seed_shift cfg y
  obtain ⟨r, hb, hr⟩ := majors_end hex hlo hlo' hhi h0
  have L := lunar_year hex hlo hhi h0
  have hK := katDay_succ cfg y
  rw [len_eq] at hK
  have hm26 : moons (fa y) ≤ 26 := by unfold moons; split <;> omega
  have hm24 : 24 ≤ moons (fa y) := by unfold moons; split <;> omega
  obtain ⟨t1, -, t3, -, t5⟩ := first_table
  rw [generate_eq hb, majors_emitted]
  have e : moons (fa y) - 1 + r = 6 + ((moons (fa y) - 7) + r) := by omega
  have e6 : List.range 6 = List.range 5 ++ [5] := rfl
  rw [e, List.range_add, List.range_add, e6]
  clear hb e e6
  generalize hM : moons (fa y) = M at *
  simp only [List.flatMap_append, List.flatMap_map, List.map_append, List.flatMap_singleton]
  rw [← List.map_append, ← rest_table _ _ hex, hM]
  have p1 : (List.range 5).flatMap (fun i => if (chain cfg y (i + 1)).Date.year = y then
      majorsOf (majorEventsOf (chain cfg y (i + 1))) else []) = [] := by
    rw [List.flatMap_eq_nil_iff]
    intro i hi
    have := List.mem_range.1 hi
    rw [(L (i + 1) (by omega)).2.1 (by omega) (by omega), majors_shift, t1 _ _ hex ⟨i, this⟩]
    simp
  have p2 : (chain cfg y (5 + 1)).Date.year = y := by
    unfold Time.year
    rw [core_date (L 6 (by omega)).1, year_eq_iff, day_shift]
    have h6 := (t3 _ _ hex).1
    unfold off at h6
    rw [h6]
    have hL : len (fa y) (fv cfg y) ≥ 354 := by unfold len; split <;> [omega; split <;> omega]
    generalize len _ _ = L at *
    omega
  have p3 : (List.range r).flatMap (fun j => if (chain cfg y (6 + ((M - 7) + j) + 1)).Date.year = y then
      majorsOf (majorEventsOf (chain cfg y (6 + ((M - 7) + j) + 1))) else []) = [] := by
    rw [List.flatMap_eq_nil_iff]
    intro j hj
    have h := hr j (List.mem_range.1 hj)
    have e : M - 1 + j + 1 = 6 + ((M - 7) + j) + 1 := by omega
    rw [e] at h
    rcases h with h | h
    · rw [if_neg h]
    · rw [h]; simp
  rw [p1, if_pos p2, (L 6 (by omega)).2.2.2 rfl, majors_shift, t5 _ _ _ _ hex, p3, List.nil_append, List.append_nil,
    List.map_flatMap, List.flatMap_def, List.flatMap_def]
  refine congrArg (fun l => _ ++ List.flatten l) (List.map_congr_left ?_)
  intro i hi
  have hi' := List.mem_range.1 hi
  have e : 6 + i + 1 = i + 7 := by omega
  rw [e, (L (i + 7) (by omega)).2.1 (by omega) (by omega), majors_shift]
  by_cases he : majorsOf (majorEventsOf (tab (fa y) (fv cfg y) (i + 7))) = []
  · rw [he]; simp
  · rw [if_pos]
    have ht := rest_days (fa y) (fv cfg y) hex ⟨i, by omega⟩ (hM ▸ hi') he
    simp only at ht
    unfold Time.year
    rw [year_eq_iff, day_shift]
    change _ ≤ off _ _ _ + _ ∧ off _ _ _ + _ < _
    generalize off _ _ _ = o at *
    generalize len _ _ = L at *
    omega

section
variable {cfg : Config} {y : Int}
  (hex : ¬ ((SuriyaYear.init y).isAdhikamasa = true ∧ (SuriyaYear.init y).isAdhikavara cfg = true))
  (hlo : daysSinceEpoch y - 88 ≤ (calculatePreviousKattika cfg y).day)
  (hlo' : daysSinceEpoch (y + 1) - 88 ≤ (calculatePreviousKattika cfg (y + 1)).day)
  (hhi : (calculatePreviousKattika cfg (y + 1)).day < daysSinceEpoch (y + 1) + 29)
include hex hlo hlo' hhi

/-- C21, for any settings: the major events of a year, if the Kattika full moons before and after it are at most 88 days
early and the second at most 28 days late. Each festival comes once, but Māgha Pūjā depends on two answers: the full moon of
the third month asks the year before if the Kattika is more than 74 days early, that of the fourth month always this year. -/
theorem c21_festivals :
    let su := SuriyaYear.init y
    let A := su.asalhaPuja cfg
    let kattika := calculatePreviousKattika cfg y
    let asked := if kattika.day < daysSinceEpoch y - 74 then y - 1 else y
    let vesakha : Int := if su.isAdhikamasa = false ∧ su.isAdhikavara cfg = true then -60 else -59
    majorsOf (generateSolarYear cfg y) =
      (if (SuriyaYear.init asked).isAdhikamasa = true then [] else [majorOn (kattika.addDays 89) "Māgha Pūjā"]) ++
      ((if su.isAdhikamasa = true then [majorOn (kattika.addDays 118) "Māgha Pūjā"] else []) ++
      [majorOn (A.addDays vesakha) "Vesākha Pūjā",
       majorOn A "Āsāḷha Pūjā", majorOn (A.addDays 1) "First day of Vassa",
       majorOn (A.addDays 89) "Pavāraṇā Day", majorOn (A.addDays 89) "Last day of Vassa"]) := by
  intro su A kattika asked vesakha
  have hex' : (fa y && fv cfg y) = false := by
    rcases a : (SuriyaYear.init y).isAdhikamasa <;> rcases b : (SuriyaYear.init y).isAdhikavara cfg <;> simp_all
  have hA : A = ⟨(katDay cfg y + (len (fa y) (fv cfg y) - 118)) * nsPerDay, 0⟩ := by
    have h := (c14_position cfg y).1
    rw [kattika_eq, katDay_succ, len_eq] at h
    have h' : A.add (118 * nsPerDay) = _ := h
    generalize len _ _ = L at *
    cases hA' : A
    rw [hA'] at h'
    simp only [Time.add, Time.mk.injEq] at h' ⊢
    unfold nsPerDay at *
    omega
  have hadd : ∀ n, A.addDays n = ⟨(katDay cfg y + (len (fa y) (fv cfg y) - 118) + n) * nsPerDay, 0⟩ := by
    intro n
    rw [hA, addDays_eq]; unfold Time.add; simp only [Time.mk.injEq, and_true]
    generalize len _ _ = L
    unfold nsPerDay; omega
  have hkadd : ∀ n, kattika.addDays n = ⟨(katDay cfg y + n) * nsPerDay, 0⟩ := by
    intro n
    have hk : kattika = ⟨katDay cfg y * nsPerDay, 0⟩ := kattika_eq cfg y
    rw [hk, addDays_eq]; unfold Time.add; simp only [Time.mk.injEq, and_true]
    unfold nsPerDay; omega
  rw [majors_any hex' hlo hlo' hhi]
  have hs0 : ∀ n name, shiftE (katDay cfg y) (major0 n name) = majorOn ⟨(katDay cfg y + n) * nsPerDay, 0⟩ name := by
    intro n name
    unfold shiftE major0 majorOn Time.add
    simp only [Event.mk.injEq, Time.mk.injEq, and_true]
    unfold nsPerDay; omega
  have hm : asked = maghaYear cfg y := rfl
  have key : ∀ p q name, p = q → majorOn ⟨p * nsPerDay, 0⟩ name = majorOn ⟨q * nsPerDay, 0⟩ name := by
    intro p q name h; rw [h]
  have hv : vesakhaOff (fa y) = len (fa y) (fv cfg y) - 118 + vesakha := by
    have t : ∀ a b : Bool, (a && b) = false →
        vesakhaOff a = len a b - 118 + (if a = false ∧ b = true then (-60 : Int) else -59) := by
      decide
    exact t _ _ hex'
  have hif : ∀ (c : Prop) [Decidable c] (l l' : List MajorEvent) (f : MajorEvent → MajorEvent),
      (if c then l else l').map f = if c then l.map f else l'.map f := by intro c _ l l' f; split <;> rfl
  rw [hm]
  simp only [List.map_append, hif, List.map_cons, List.map_nil, hs0, hadd, hkadd]
  rw [hA, key _ _ _ (by rw [hv]; omega : katDay cfg y + vesakhaOff (fa y) = katDay cfg y + (len (fa y) (fv cfg y) - 118) + vesakha)]
  generalize len _ _ = L
  rw [key _ _ "First day of Vassa" (by omega : katDay cfg y + (L - 117) = katDay cfg y + (L - 118) + 1),
    key _ _ "Pavāraṇā Day" (by omega : katDay cfg y + (L - 29) = katDay cfg y + (L - 118) + 89),
    key _ _ "Last day of Vassa" (by omega : katDay cfg y + (L - 29) = katDay cfg y + (L - 118) + 89)]

end

theorem katDay_631 : katDay .default 631 = 230093 := by
  have := katDay_succ .default 630
  have e : (630 : Int) + 1 = 631 := rfl
  rw [e] at this
  rw [this, katDay_630]; decide +kernel

/-- Position of the Kattika day relative to January 1 of the year, before 1290 and after 4115. -/
theorem festival_scan : scanKat (fun y k => decide (
    daysSinceEpoch y - 85 ≤ k ∧ (1290 ≤ y → daysSinceEpoch y - 74 ≤ k) ∧ (y ≤ 5835 → k < daysSinceEpoch y + 29) ∧
    (y = 5836 → k = daysSinceEpoch y + 29))) 5206 631 230093 = true := by
  decide +kernel

theorem festival_window {cfg : Config} (hs : Shipped cfg) {y : Int} (h1 : 631 ≤ y) (h2 : y ≤ 5835) :
    daysSinceEpoch y - 86 ≤ katDay cfg y ∧ (1290 ≤ y → daysSinceEpoch y - 74 ≤ katDay cfg y) ∧
    katDay cfg y < daysSinceEpoch y + 29 := by
  have := scanKat_spec katDay_631 festival_scan y (by omega) (by omega)
  rw [decide_eq_true_eq] at this
  rcases hs with rfl | rfl
  · omega
  · rw [katDay_official]
    have w : (y = 1995 ∨ y = 1996 ∨ y = 1997) → daysSinceEpoch y - 73 ≤ katDay .default y := by
      intro h
      have := window (y := y) (by omega) (by omega)
      omega
    split
    · rename_i h; have := w h; omega
    · omega

/-- C21: the hypotheses of `c21_festivals` in 638, the first year with two Māgha Pūjās. -/
example : ¬ ((SuriyaYear.init 638).isAdhikamasa = true ∧ (SuriyaYear.init 638).isAdhikavara .default = true) ∧
    daysSinceEpoch 638 - 88 ≤ (calculatePreviousKattika .default 638).day ∧
    daysSinceEpoch (638 + 1) - 88 ≤ (calculatePreviousKattika .default (638 + 1)).day ∧
    (calculatePreviousKattika .default (638 + 1)).day < daysSinceEpoch (638 + 1) + 29 ∧
    (majorsOf (generateSolarYear .default 638)).map (·.Summary) =
      ["Māgha Pūjā", "Māgha Pūjā", "Vesākha Pūjā", "Āsāḷha Pūjā", "First day of Vassa", "Pavāraṇā Day", "Last day of Vassa"] := by
  have w := festival_window (Or.inl rfl) (y := 638) (by omega) (by omega)
  have w' := festival_window (Or.inl rfl) (y := 638 + 1) (by omega) (by omega)
  exact ⟨c08_exclusive_default _, by change _ ≤ katDay _ _; omega, by change _ ≤ katDay _ _; omega, w'.2.2, by decide +kernel⟩

theorem festival_first (cfg : Config) (hs : Shipped cfg) : daysSinceEpoch 631 - 74 ≤ katDay cfg 631 := by
  have e : katDay cfg 631 = katDay .default 631 := by
    rcases hs with rfl | rfl
    · rfl
    · rw [katDay_official, if_neg (by omega), Int.add_zero]
  rw [e, katDay_631]; decide +kernel

/-- Māgha Pūjā counted from Āsāḷha Pūjā. -/
theorem kattika_asalha (cfg : Config) (y n : Int) : (calculatePreviousKattika cfg y).addDays n =
    ((SuriyaYear.init y).asalhaPuja cfg).addDays (n + 118 - len (fa y) (fv cfg y)) := by
  have h := (c14_position cfg y).1
  rw [kattika_eq, katDay_succ, len_eq] at h
  generalize (SuriyaYear.init y).asalhaPuja cfg = A at *
  have h' : A.add (118 * nsPerDay) = _ := h
  rw [kattika_eq, addDays_eq, addDays_eq]
  generalize len _ _ = L at *
  cases A
  simp only [Time.add, Time.mk.injEq] at h' ⊢
  unfold nsPerDay at *
  omega

/-- C21: for every year from 631 to 5834 the major events are these six, in this order; `A` is the value of `AsalhaPuja`.
Before them an adhikamāsa year with its Kattika full moon more than 74 days before it has another Māgha Pūjā. -/
theorem c21_majors (cfg : Config) (hs : Shipped cfg) (y : Int) (h1 : 631 ≤ y) (h2 : y ≤ 5834) :
    let su := SuriyaYear.init y
    let A := su.asalhaPuja cfg
    let kattika := calculatePreviousKattika cfg y
    let vesakha : Int := if su.isAdhikamasa = false ∧ su.isAdhikavara cfg = true then -60 else -59
    let magha : Int := vesakha - (if su.isAdhikamasa = true then 89 else 88)
    majorsOf (generateSolarYear cfg y) =
      (if su.isAdhikamasa = true ∧ kattika.day < daysSinceEpoch y - 74 then [majorOn (kattika.addDays 89) "Māgha Pūjā"] else []) ++
      [majorOn (A.addDays magha) "Māgha Pūjā", majorOn (A.addDays vesakha) "Vesākha Pūjā",
       majorOn A "Āsāḷha Pūjā", majorOn (A.addDays 1) "First day of Vassa",
       majorOn (A.addDays 89) "Pavāraṇā Day", majorOn (A.addDays 89) "Last day of Vassa"] := by
  intro su A kattika vesakha magha
  have w := festival_window hs (y := y) h1 (by omega)
  have w' := festival_window hs (y := y + 1) (by omega) (by omega)
  have hex := shipped_excl hs y
  have hx : ¬ ((SuriyaYear.init y).isAdhikamasa = true ∧ (SuriyaYear.init y).isAdhikavara cfg = true) := by
    rintro ⟨a, b⟩; rw [a, b] at hex; cases hex
  have hf : majorsOf (generateSolarYear cfg y) =
      (if (SuriyaYear.init (if kattika.day < daysSinceEpoch y - 74 then y - 1 else y)).isAdhikamasa = true then []
        else [majorOn (kattika.addDays 89) "Māgha Pūjā"]) ++
      ((if su.isAdhikamasa = true then [majorOn (kattika.addDays 118) "Māgha Pūjā"] else []) ++
      [majorOn (A.addDays vesakha) "Vesākha Pūjā",
       majorOn A "Āsāḷha Pūjā", majorOn (A.addDays 1) "First day of Vassa",
       majorOn (A.addDays 89) "Pavāraṇā Day", majorOn (A.addDays 89) "Last day of Vassa"]) :=
    c21_festivals hx (by change _ ≤ katDay cfg y; omega) (by change _ ≤ katDay cfg (y + 1); omega) w'.2.2
  have hprev : kattika.day < daysSinceEpoch y - 74 → (SuriyaYear.init (y - 1)).isAdhikamasa = false := by
    intro hk
    change katDay cfg y < _ at hk
    cases hfa : (SuriyaYear.init (y - 1)).isAdhikamasa
    · rfl
    · exfalso
      have hs := daysSinceEpoch_succ (y - 1)
      have hb := yearDays_bounds (y - 1)
      have hK := katDay_succ cfg (y - 1)
      have e : y - 1 + 1 = y := by omega
      have hL : (SuriyaYear.init (y - 1)).yearLength cfg = 384 := by rw [len_eq]; unfold len; rw [if_pos hfa]
      rw [e] at hs hK
      by_cases h : y = 631
      · subst h
        have w := festival_first cfg ‹_›
        omega
      · have w0 := festival_window ‹Shipped cfg› (y := y - 1) (by omega) (by omega)
        omega
  have hmag : ∀ n, n = len (fa y) (fv cfg y) - 118 + magha → kattika.addDays n = A.addDays magha := by
    intro n hn
    rw [show kattika.addDays n = _ from kattika_asalha cfg y n, hn]
    congr 1; omega
  have hn : (if (SuriyaYear.init y).isAdhikamasa = true then (118 : Int) else 89) = len (fa y) (fv cfg y) - 118 + magha := by
    have t : ∀ a b : Bool, (a && b) = false →
        (if a = true then (118 : Int) else 89) =
          len a b - 118 + ((if a = false ∧ b = true then (-60 : Int) else -59) - (if a = true then 89 else 88)) := by
      decide
    exact t _ _ hex
  rw [hf, ← hmag _ hn]
  generalize majorOn (A.addDays vesakha) _ = V
  change (if (SuriyaYear.init (if kattika.day < daysSinceEpoch y - 74 then y - 1 else y)).isAdhikamasa = true then _ else _) ++
    ((if (SuriyaYear.init y).isAdhikamasa = true then _ else _) ++ _) =
    (if (SuriyaYear.init y).isAdhikamasa = true ∧ _ then _ else _) ++ _
  generalize majorOn A _ = V1, majorOn (A.addDays 1) _ = V2, majorOn (A.addDays 89) "Pavāraṇā Day" = V3,
    majorOn (A.addDays 89) _ = V4
  by_cases hk : kattika.day < daysSinceEpoch y - 74
  · simp only [hk, if_true, hprev hk, and_true]
    cases (SuriyaYear.init y).isAdhikamasa <;> rfl
  · simp only [hk, if_false, and_false]
    cases (SuriyaYear.init y).isAdhikamasa <;> rfl

/-- C21: in 2012, after the first of the two adhikamāsa years 2010 and 2012, there is one Māgha Pūjā. -/
example : Shipped .official ∧ (SuriyaYear.init 2012).isAdhikamasa = true ∧ (majorsOf (generateSolarYear .official 2012)).map (·.Summary) =
    ["Māgha Pūjā", "Vesākha Pūjā", "Āsāḷha Pūjā", "First day of Vassa", "Pavāraṇā Day", "Last day of Vassa"] :=
  ⟨Or.inr rfl, by decide +kernel, by decide +kernel⟩

/-- C21: the same without the other Māgha Pūjā, for every year from 1290 to 5834. -/
theorem c21_six (cfg : Config) (hs : Shipped cfg) (y : Int) (h1 : 1290 ≤ y) (h2 : y ≤ 5834) :
    let su := SuriyaYear.init y
    let A := su.asalhaPuja cfg
    let vesakha : Int := if su.isAdhikamasa = false ∧ su.isAdhikavara cfg = true then -60 else -59
    let magha : Int := vesakha - (if su.isAdhikamasa = true then 89 else 88)
    majorsOf (generateSolarYear cfg y) =
      [majorOn (A.addDays magha) "Māgha Pūjā", majorOn (A.addDays vesakha) "Vesākha Pūjā",
       majorOn A "Āsāḷha Pūjā", majorOn (A.addDays 1) "First day of Vassa",
       majorOn (A.addDays 89) "Pavāraṇā Day", majorOn (A.addDays 89) "Last day of Vassa"] := by
  have h := c21_majors cfg hs y (by omega) h2
  have w := (festival_window hs (y := y) (by omega) (by omega)).2.1 h1
  have hk : ¬ ((SuriyaYear.init y).isAdhikamasa = true ∧ (calculatePreviousKattika cfg y).day < daysSinceEpoch y - 74) := by
    rintro ⟨-, h⟩; change katDay cfg y < _ at h; omega
  simp only [if_neg hk, List.nil_append] at h
  exact h

/-- C21: the last year of the range. -/
example : (majorsOf (generateSolarYear .default 5834)).map (·.Summary) =
    ["Māgha Pūjā", "Vesākha Pūjā", "Āsāḷha Pūjā", "First day of Vassa", "Pavāraṇā Day", "Last day of Vassa"] := by
  decide +kernel

/-- C21 fails just before: 1289 has two Māgha Pūjās, because the adhikamāsa rule is looked up by solar year. -/
theorem c21_two_maghas_1289 : (majorsOf (generateSolarYear .default 1289)).map (·.Summary) =
    ["Māgha Pūjā", "Māgha Pūjā", "Vesākha Pūjā", "Āsāḷha Pūjā", "First day of Vassa", "Pavāraṇā Day",
     "Last day of Vassa"] := by decide +kernel

/-- C21 fails just after: in 5835 the end of Vassa is lost, because it falls on 1 January 5836, and 5836 begins with the
Kattika full moon after it. -/
theorem c21_lost_5835 : (majorsOf (generateSolarYear .default 5835)).map (·.Summary) =
      ["Māgha Pūjā", "Vesākha Pūjā", "Āsāḷha Pūjā", "First day of Vassa"] ∧
    ((SuriyaYear.init 5835).asalhaPuja .default).addDays 89 = date 5836 1 1 0 0 ∧
    calculatePreviousKattika .default 5836 = date 5836 1 30 0 0 := by
  have hk : calculatePreviousKattika .default 5836 = date 5836 1 30 0 0 := by
    have := scanKat_spec katDay_631 festival_scan 5836 (by omega) (by omega)
    rw [decide_eq_true_eq] at this
    rw [kattika_eq, this.2.2.2 rfl]; decide +kernel
  refine ⟨by decide +kernel, ?_, hk⟩
  have h := (c14_position .default 5835).1
  rw [show (5835 : Int) + 1 = 5836 from rfl, hk] at h
  rw [addDays_eq]
  generalize (SuriyaYear.init 5835).asalhaPuja .default = A at *
  cases A
  have e1 : date 5836 1 30 0 0 = ⟨2131218 * nsPerDay, 0⟩ := by decide +kernel
  have e2 : date 5836 1 1 0 0 = ⟨2131189 * nsPerDay, 0⟩ := by decide +kernel
  rw [e1] at h
  rw [e2]
  simp only [Time.add, Time.mk.injEq] at h ⊢
  unfold nsPerDay at *
  omega

end Verif.Props
