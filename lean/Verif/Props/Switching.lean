import Verif.Lemmas.Switching
import Verif.Props.Uposatha
/-
C71: calculations during which the settings change.
-/
set_option autoImplicit false

namespace Verif.Props
open Verif.Go Verif.Model Verif.Spec Verif.Lemmas

/-- C71: without changes the results are those of the other models. -/
theorem c71_fixed (cfg : Config) (k : Nat) (y : Int) (files : Int → AstroFile) (fromDate toDate : Time) :
    (Switching.calculatePreviousKattika (fun _ => cfg) k y).1 = calculatePreviousKattika cfg y ∧
    (Switching.asalhaPuja (fun _ => cfg) k (SuriyaYear.init y)).1 = (SuriyaYear.init y).asalhaPuja cfg ∧
    (Switching.generateSolarYear (fun _ => cfg) k y).1 = generateSolarYear cfg y ∧
    (Switching.getCalDays (fun _ => cfg) k files fromDate toDate).map (·.1) = getCalDays cfg files fromDate toDate :=
  ⟨Lemmas.Switching.kattika_const cfg k y, Lemmas.Switching.asalha_const cfg k _, Lemmas.Switching.generate_const cfg k y,
    Lemmas.Switching.getCalDays_eq _ cfg k files fromDate toDate fun k z _ _ => Lemmas.Switching.generate_const cfg k z⟩

/-- C71: however the settings change, `GenerateSolarYear` ends. -/
theorem c71_terminates (reads : Nat → Config) (k : Nat) (y : Int) :
    (Switching.generateSolarYear? reads k y).isSome = true :=
  Lemmas.Switching.loop_some reads y _ _ _ [] (by omega)

/-- C71: `CalculatePreviousKattika` asks about each year once, so its result is that of one fixed table, made of answers
that the changing settings gave. -/
theorem c71_kattika (reads : Nat → Config) (k : Nat) (y : Int) : ∃ f : Int → Bool, (∀ z, Seen reads z (f z)) ∧
    (Switching.calculatePreviousKattika reads k y).1 = calculatePreviousKattika (answers f) y :=
  Lemmas.Switching.kattika_seen reads k y

/-- C71: `AsalhaPuja` asks about its own year twice. -/
theorem c71_asalha (reads : Nat → Config) (k : Nat) (y : Int) : ∃ (b : Bool) (f : Int → Bool),
    Seen reads y b ∧ (∀ z, Seen reads z (f z)) ∧
    (Switching.asalhaPuja reads k (SuriyaYear.init y)).1 = (calculatePreviousKattika (answers f) y).addDays
      (if (SuriyaYear.init y).isAdhikamasa = true then 266 else if b = true then 237 else 236) := by
  by_cases ha : (SuriyaYear.init y).isAdhikamasa = true
  · obtain ⟨f, hf, e⟩ := c71_kattika reads k y
    refine ⟨_, f, Lemmas.Switching.seen reads 0 y, hf, ?_⟩
    unfold Switching.asalhaPuja
    simp only [ha, if_true]
    have hy : (SuriyaYear.init y).Year = y := rfl
    rw [hy, e, addDays_eq]; rfl
  · obtain ⟨f, hf, e⟩ := c71_kattika reads (Switching.isAdhikavara reads k (SuriyaYear.init y)).2 y
    refine ⟨_, f, Lemmas.Switching.seen reads k y, hf, ?_⟩
    have hy : (SuriyaYear.init y).Year = y := rfl
    have ha' : (SuriyaYear.init y).isAdhikamasa = false := by simpa using ha
    unfold Switching.asalhaPuja
    simp only [ha', Bool.false_eq_true, if_false, hy, addDays_eq]
    rw [e]
    cases (Switching.isAdhikavara reads k (SuriyaYear.init y)).1 <;> rfl

/-- C71: the events of a year are those of a fixed answer for that year, generated from the Kattika found. -/
theorem c71_generate (reads : Nat → Config) (k : Nat) (y : Int)
    (h : daysSinceEpoch y - 150 ≤ (Switching.calculatePreviousKattika reads k y).1.day) :
    ∃ b, Seen reads y b ∧ (Switching.generateSolarYear reads k y).1 =
      eventsFrom (answers fun _ => b) y (kattikaMoon (Switching.calculatePreviousKattika reads k y).1) :=
  Lemmas.Switching.generate_eq reads k y h

/-! ### Which years are affected -/

theorem length_answers (f : Int → Bool) (z : Int) (h : f z = (SuriyaYear.init z).isAdhikavaraRule) :
    (SuriyaYear.init z).yearLength (answers f) = (SuriyaYear.init z).yearLength .default := by
  unfold SuriyaYear.yearLength
  rw [Lemmas.Switching.answers_value, h]; rfl

/-- Kattika days from settings that follow the rule from the year `Y` on. -/
theorem katDay_settled (f : Int → Bool) (Y : Int) (hY : Y ≤ 2016)
    (h : ∀ z, Y ≤ z → f z = (SuriyaYear.init z).isAdhikavaraRule) (y : Int) (hy : Y ≤ y) :
    katDay (answers f) y = katDay .default y := by
  have up : ∀ n : Nat, katDay (answers f) (2016 + n) = katDay .default (2016 + n) := by
    intro n
    induction n with
    | zero => simp only [Int.natCast_zero, Int.add_zero, katDay_epoch]
    | succ n ih =>
      have e : (2016 + ((n + 1 : Nat) : Int)) = 2016 + n + 1 := by omega
      rw [e, katDay_succ, katDay_succ, ih, length_answers f _ (h _ (by omega))]
  have down : ∀ n : Nat, Y ≤ 2016 - n → katDay (answers f) (2016 - n) = katDay .default (2016 - n) := by
    intro n
    induction n with
    | zero => intro _; simp only [Int.natCast_zero, Int.sub_zero, katDay_epoch]
    | succ n ih =>
      intro hn
      have ih := ih (by omega)
      have e : (2016 - (n : Int)) = 2016 - ((n + 1 : Nat) : Int) + 1 := by omega
      rw [e, katDay_succ, katDay_succ, length_answers f _ (h _ (by omega))] at ih
      omega
  rcases Int.le_total 2016 y with h2 | h2
  · have := up (y - 2016).toNat
    have e : (2016 + ((y - 2016).toNat : Int)) = y := by omega
    rw [e] at this; exact this
  · have := down (2016 - y).toNat (by omega)
    have e : (2016 - ((2016 - y).toNat : Int)) = y := by omega
    rw [e] at this; exact this

/-- An answer about a year that no table lists. -/
theorem seen_none {reads : Nat → Config} {z : Int} (h : ∀ j, (reads j).exceptions z = none) {b : Bool}
    (hb : Seen reads z b) : b = (SuriyaYear.init z).isAdhikavaraRule := by
  cases hb with
  | rule j hj => rfl
  | entry i j b h1 h2 => rw [h j] at h2; cases h2
  | lost i j k h1 h2 h3 => exact absurd (h j) h2

/-- C71: if the tables list only years before `Y`, no change of the settings affects the years from `Y` on. -/
theorem c71_settled_year (reads : Nat → Config) (Y : Int) (hY : Y ≤ 2016)
    (h : ∀ j z, Y ≤ z → (reads j).exceptions z = none) (k : Nat) (y : Int) (hy : Y ≤ y) (h1 : 631 ≤ y) (h2 : y ≤ 4116) :
    (Switching.calculatePreviousKattika reads k y).1 = calculatePreviousKattika .default y ∧
    (Switching.generateSolarYear reads k y).1 = generateSolarYear .default y := by
  have hk : (Switching.calculatePreviousKattika reads k y).1 = calculatePreviousKattika .default y := by
    obtain ⟨f, hf, e⟩ := c71_kattika reads k y
    rw [e, kattika_eq, kattika_eq, katDay_settled f Y hY (fun z hz => seen_none (fun j => h j z hz) (hf z)) y hy]
  refine ⟨hk, ?_⟩
  have hw := (window h1 h2).1
  unfold katDay at hw
  obtain ⟨b, hb, e⟩ := c71_generate reads k y (by rw [hk]; omega)
  obtain ⟨b', hb', e'⟩ := c71_generate (fun _ => .default) k y (by rw [(c71_fixed .default k y (fun _ => .missing) default default).1]; omega)
  rw [(c71_fixed .default k y (fun _ => .missing) default default).1,
    (c71_fixed .default k y (fun _ => .missing) default default).2.2.1] at e'
  have hb1 := seen_none (fun j => h j y hy) hb
  have hb2 : b' = (SuriyaYear.init y).isAdhikavaraRule := by
    cases hb' with
    | rule j hj => rfl
    | entry i j b h1 h2 => cases h1
    | lost i j k h1 h2 h3 => cases h1
  rw [e, hk, e', hb1, hb2]

/-- C71: the same for the days of a range. -/
theorem c71_settled (reads : Nat → Config) (Y : Int) (hY : Y ≤ 2016)
    (h : ∀ j z, Y ≤ z → (reads j).exceptions z = none) (k : Nat) (files : Int → AstroFile) (fromDate toDate : Time)
    (h1 : Y ≤ fromDate.year) (h2 : 631 ≤ fromDate.year) (h3 : toDate.year ≤ 4116) :
    (Switching.getCalDays reads k files fromDate toDate).map (·.1) = getCalDays .default files fromDate toDate :=
  Lemmas.Switching.getCalDays_eq _ _ k files fromDate toDate fun k z h4 h5 =>
    (c71_settled_year reads Y hY h k z (by omega) (by omega) (by omega)).2

/-! ### The shipped table -/

/-- C71: switching `UseExceptions` on and off, with the shipped table, at any moment of the calculation has no effect on a
range that begins in 1998 or later. -/
theorem c71_from_1998 (reads : Nat → Config) (hs : ∀ j, Shipped (reads j)) (k : Nat) (files : Int → AstroFile)
    (fromDate toDate : Time) (h1 : 1998 ≤ fromDate.year) (h2 : toDate.year ≤ 4116) :
    (Switching.getCalDays reads k files fromDate toDate).map (·.1) = getCalDays .default files fromDate toDate := by
  refine c71_settled reads 1998 (by decide) ?_ k files fromDate toDate h1 (by omega) h2
  intro j z hz
  have : shippedExceptions z = none := by
    unfold shippedExceptions; rw [if_neg (by omega), if_neg (by omega)]
  rcases hs j with e | e <;> rw [e] <;> exact this

theorem seen_shipped {reads : Nat → Config} (hs : ∀ j, Shipped (reads j)) {z : Int} (hz : z ≠ 1994) (hz' : z ≠ 1997) {b : Bool}
    (hb : Seen reads z b) : b = (SuriyaYear.init z).isAdhikavaraRule := by
  refine seen_none (fun j => ?_) hb
  have : shippedExceptions z = none := by unfold shippedExceptions; rw [if_neg hz, if_neg hz']
  rcases hs j with e | e <;> rw [e] <;> exact this

/-- C71: in earlier years the Kattika moves by at most one day: not later for 1995 to 1997, either way before. -/
theorem c71_one_day (reads : Nat → Config) (hs : ∀ j, Shipped (reads j)) (k : Nat) (y : Int) :
    ∃ d : Int, (Switching.calculatePreviousKattika reads k y).1 = (calculatePreviousKattika .default y).addDays d ∧
      -1 ≤ d ∧ d ≤ 1 ∧ (1995 ≤ y → d ≤ 0) ∧ (1998 ≤ y → d = 0) := by
  obtain ⟨f, hf, e⟩ := c71_kattika reads k y
  have hr : ∀ z, z ≠ 1994 → z ≠ 1997 → f z = (SuriyaYear.init z).isAdhikavaraRule :=
    fun z h1 h2 => seen_shipped hs h1 h2 (hf z)
  suffices hd : -1 ≤ katDay (answers f) y - katDay .default y ∧ katDay (answers f) y - katDay .default y ≤ 1 ∧
      (1995 ≤ y → katDay (answers f) y - katDay .default y ≤ 0) ∧
      (1998 ≤ y → katDay (answers f) y - katDay .default y = 0) by
    refine ⟨katDay (answers f) y - katDay .default y, ?_, hd⟩
    rw [e, kattika_eq, kattika_eq .default, addDays_eq]
    unfold Time.add
    simp only [Time.mk.injEq, and_true]
    unfold nsPerDay; omega
  have late : ∀ z, 1998 ≤ z → katDay (answers f) z = katDay .default z :=
    katDay_settled f 1998 (by decide) fun z hz => hr z (by omega) (by omega)
  have l97 : (SuriyaYear.init 1997).yearLength .default = 354 := by decide
  have l94 : (SuriyaYear.init 1994).yearLength .default = 355 := by decide
  have b97 : (SuriyaYear.init 1997).yearLength (answers f) = 354 ∨ (SuriyaYear.init 1997).yearLength (answers f) = 355 := by
    have a : (SuriyaYear.init 1997).isAdhikamasa = false := by decide
    unfold SuriyaYear.yearLength; rw [a]; simp only [Bool.false_eq_true, if_false]; split <;> simp
  have b94 : (SuriyaYear.init 1994).yearLength (answers f) = 354 ∨ (SuriyaYear.init 1994).yearLength (answers f) = 355 := by
    have a : (SuriyaYear.init 1994).isAdhikamasa = false := by decide
    unfold SuriyaYear.yearLength; rw [a]; simp only [Bool.false_eq_true, if_false]; split <;> simp
  have s := late 1998 (by decide)
  have e97 := katDay_succ (answers f) 1997
  have d97 := katDay_succ .default 1997
  have e96 := katDay_succ (answers f) 1996
  have d96 := katDay_succ .default 1996
  have e95 := katDay_succ (answers f) 1995
  have d95 := katDay_succ .default 1995
  have e94 := katDay_succ (answers f) 1994
  have d94 := katDay_succ .default 1994
  rw [length_answers f 1996 (hr _ (by decide) (by decide))] at e96
  rw [length_answers f 1995 (hr _ (by decide) (by decide))] at e95
  simp only [Int.reduceAdd] at e97 d97 e96 d96 e95 d95 e94 d94
  have early : ∀ n : Nat, katDay (answers f) (1994 - n) - katDay .default (1994 - n) =
      katDay (answers f) 1994 - katDay .default 1994 := by
    intro n
    induction n with
    | zero => simp
    | succ n ih =>
      have e : (1994 - (n : Int)) = 1994 - ((n + 1 : Nat) : Int) + 1 := by omega
      rw [e, katDay_succ, katDay_succ, length_answers f _ (hr _ (by omega) (by omega))] at ih
      omega
  rcases Int.lt_or_le y 1998 with h | h
  · rcases Int.lt_or_le y 1995 with h' | h'
    · have := early (1994 - y).toNat
      have e : (1994 - ((1994 - y).toNat : Int)) = y := by omega
      rw [e] at this
      omega
    · have : y = 1995 ∨ y = 1996 ∨ y = 1997 := by omega
      rcases this with rfl | rfl | rfl <;> omega
  · have := late y h
    omega

/-- C71: the events of a year under any switching of the shipped settings. -/
theorem c71_shipped_year (reads : Nat → Config) (hs : ∀ j, Shipped (reads j)) (k : Nat) (y : Int) (h1 : 631 ≤ y)
    (h2 : y ≤ 4116) : ∃ (d : Int) (b : Bool), -1 ≤ d ∧ d ≤ 1 ∧
      (y ≠ 1994 → y ≠ 1997 → b = (SuriyaYear.init y).isAdhikavaraRule) ∧
      (Switching.generateSolarYear reads k y).1 =
        eventsFrom (answers fun _ => b) y (kattikaMoon ((calculatePreviousKattika .default y).addDays d)) := by
  obtain ⟨d, hd, hd1, hd2, -⟩ := c71_one_day reads hs k y
  have hw := (window h1 h2).1
  unfold katDay at hw
  have hday : (Switching.calculatePreviousKattika reads k y).1.day = (calculatePreviousKattika .default y).day + d := by
    rw [hd, addDays_eq, day_add]
  obtain ⟨b, hb, e⟩ := c71_generate reads k y (by rw [hday]; omega)
  rw [hd] at e
  exact ⟨d, b, hd1, hd2, fun hz hz' => seen_shipped hs hz hz' hb, e⟩

/-- The switch off for the first `n` reads and on afterwards. -/
def switchedOn (n : Nat) : Nat → Config := fun i => if i < n then .default else .official

theorem switchedOn_shipped (n j : Nat) : Shipped (switchedOn n j) := by
  unfold switchedOn Shipped; split <;> simp

/-- C71 (finding): a program that sets `UseExceptions = true` while another goroutine calculates can get a Kattika before
1994 on a day that neither setting gives, here the 29th instead of the 28th of November 1993. All dates of the year
1994 before Āsāḷha move with it. -/
theorem c71_mixed :
    calculatePreviousKattika .default 1994 = date 1993 11 28 0 0 ∧
    calculatePreviousKattika .official 1994 = date 1993 11 28 0 0 ∧
    (Switching.calculatePreviousKattika (switchedOn 12) 0 1994).1 = date 1993 11 29 0 0 := by
  decide +kernel

/-- C71 (finding): the same assignment between two years of one `GetCalDays` call breaks the row of the moons: the full moon of 25
December 1996 is followed by a new moon 13 days later; with either setting it is 14 days. -/
theorem c71_gap : (Switching.getCalDays (switchedOn 41) 0 (fun _ => .missing) (date 1996 12 20 0 0) (date 1997 1 10 0 0)).map
      (fun r => r.1.flatMap fun d => d.UposathaMoon.map fun u => (u.Date, u.Phase)) =
        some [(date 1996 12 25 0 0, "full"), (date 1997 1 7 0 0, "new")] ∧
    (getCalDays .default (fun _ => .missing) (date 1996 12 20 0 0) (date 1997 1 10 0 0)).map
      (fun r => r.flatMap fun d => d.UposathaMoon.map fun u => (u.Date, u.Phase)) =
        some [(date 1996 12 25 0 0, "full"), (date 1997 1 8 0 0, "new")] ∧
    (getCalDays .official (fun _ => .missing) (date 1996 12 20 0 0) (date 1997 1 10 0 0)).map
      (fun r => r.flatMap fun d => d.UposathaMoon.map fun u => (u.Date, u.Phase)) =
        some [(date 1996 12 24 0 0, "full"), (date 1997 1 7 0 0, "new")] := by
  have fixed : ∀ cfg (ds : List CalDay), unsortedCalDays cfg (fun _ => .missing) (date 1996 12 20 0 0) (date 1997 1 10 0 0) = some ds →
      ds.Pairwise (fun a b => (!calDayLess b a) = true) →
      getCalDays cfg (fun _ => .missing) (date 1996 12 20 0 0) (date 1997 1 10 0 0) = some ds := by
    intro cfg ds h hp
    unfold getCalDays
    rw [h, Option.map_some, List.mergeSort_of_pairwise hp]
  refine ⟨?_, ?_, ?_⟩
  · have e : ∀ r, Switching.eventYears (switchedOn 41) (date 1996 12 20 0 0) (date 1997 1 10 0 0) 2 0 1996 [] = r →
        Switching.getCalDays (switchedOn 41) 0 (fun _ => .missing) (date 1996 12 20 0 0) (date 1997 1 10 0 0) =
          some (r.1.mergeSort (fun a b => !calDayLess b a), r.2) := by rintro r rfl; rfl
    rw [e _ rfl, List.mergeSort_of_pairwise (by decide +kernel)]
    decide +kernel
  · rw [fixed .default _ rfl (by decide +kernel)]
    decide +kernel
  · rw [fixed .official _ rfl (by decide +kernel)]
    decide +kernel

/-- C71 (finding): replacing the table by another one between the two lookups of `Is_Adhikavara` makes a year that both
tables and the rule call adhikavāra a common year. -/
theorem c71_torn : ∃ a b : Config,
    (SuriyaYear.init 1994).isAdhikavara a = true ∧ (SuriyaYear.init 1994).isAdhikavara b = true ∧
    (SuriyaYear.init 1994).isAdhikavaraRule = true ∧
    (Switching.isAdhikavara (fun i => if i < 2 then a else b) 0 (SuriyaYear.init 1994)).1 = false :=
  ⟨⟨true, fun _ => some true⟩, ⟨true, fun _ => none⟩, by decide, by decide, by decide, by decide⟩

/-! ### Concrete cases -/

/-- C71: a year whose Kattika is near enough, with settings switched on in the middle. -/
example : ∃ b, Seen (switchedOn 12) 1994 b ∧ (Switching.generateSolarYear (switchedOn 12) 0 1994).1 =
    eventsFrom (answers fun _ => b) 1994 (kattikaMoon (date 1993 11 29 0 0)) := by
  have h := c71_generate (switchedOn 12) 0 1994 (by rw [c71_mixed.2.2]; decide +kernel)
  rw [c71_mixed.2.2] at h; exact h

/-- C71: with the switch of `switchedOn 12` the Kattika before 1994 is a day off, that before 2015 is not. -/
example : (∃ d : Int, (Switching.calculatePreviousKattika (switchedOn 12) 0 1994).1 = (calculatePreviousKattika .default 1994).addDays d ∧
      -1 ≤ d ∧ d ≤ 1) ∧ (Switching.calculatePreviousKattika (switchedOn 12) 0 2015).1 = calculatePreviousKattika .default 2015 := by
  obtain ⟨d, h1, h2, h3, -⟩ := c71_one_day (switchedOn 12) (switchedOn_shipped 12) 0 1994
  refine ⟨⟨d, h1, h2, h3⟩, ?_⟩
  obtain ⟨d, h1, -, -, -, h4⟩ := c71_one_day (switchedOn 12) (switchedOn_shipped 12) 0 2015
  rw [h1, h4 (by decide)]
  decide +kernel

/-- C71: the settings of `switchedOn` list no year after 1997. -/
example : (Switching.generateSolarYear (switchedOn 100) 7 2015).1 = generateSolarYear .default 2015 :=
  (c71_settled_year (switchedOn 100) 1998 (by decide) (fun j z hz => by
    have : shippedExceptions z = none := by unfold shippedExceptions; rw [if_neg (by omega), if_neg (by omega)]
    rcases switchedOn_shipped 100 j with e | e <;> rw [e] <;> exact this) 7 2015 (by decide) (by decide) (by decide)).2

/-- C71: a range from 1998 to 2040. -/
example (files : Int → AstroFile) :
    (Switching.getCalDays (switchedOn 100) 0 files (date 1998 1 1 0 0) (date 2040 12 31 0 0)).map (·.1) =
      getCalDays .default files (date 1998 1 1 0 0) (date 2040 12 31 0 0) :=
  c71_from_1998 _ (switchedOn_shipped 100) 0 files _ _ (by decide +kernel) (by decide +kernel)

/-- C71: the bound of one day is reached later (`c71_mixed`) and earlier. -/
example : (Switching.calculatePreviousKattika (fun i => if i < 24 then .official else .default) 0 1994).1 =
    date 1993 11 27 0 0 := by decide +kernel

/-- C71: the events of 1997 with a switch in the middle. -/
example := c71_shipped_year (switchedOn 40) (switchedOn_shipped 40) 0 1997 (by decide) (by decide)

/-- C71: a year in which `AsalhaPuja` and the Kattika loop get different answers. -/
example : (Switching.asalhaPuja (switchedOn 1) 0 (SuriyaYear.init 1994)).1 = date 1994 7 23 0 0 ∧
    (SuriyaYear.init 1994).asalhaPuja .default = date 1994 7 23 0 0 := by decide +kernel

end Verif.Props
