import Verif.Props.Range
import Verif.Props.IcalText
import Verif.Props.Text
import Verif.Lemmas.Table
import Verif.Spec.Table
/-
C63: exception tables set up by the caller.
-/
set_option autoImplicit false

namespace Verif.Props
open Verif.Go Verif.Model Verif.Spec Verif.Lemmas

theorem listed_between (years : List Int) (y : Int) : listed years y 2016 + listed years 2016 y =
    (years.filter fun z => decide ((y ≤ z ∧ z < 2016) ∨ (2016 ≤ z ∧ z < y))).length := by
  rw [← List.countP_eq_length_filter]
  unfold listed
  induction years with
  | nil => rfl
  | cons z l ih =>
    simp only [List.countP_cons, ← ih]
    by_cases h1 : y ≤ z ∧ z < 2016
    · have h2 : ¬ (2016 ≤ z ∧ z < y) := by omega
      simp only [← Bool.decide_and, h1, h2, and_self, decide_true, decide_false, true_or, if_true]
      simp; omega
    · by_cases h2 : 2016 ≤ z ∧ z < y
      · simp only [← Bool.decide_and, h1, h2, decide_true, decide_false]
        simp; omega
      · simp only [← Bool.decide_and, h1, h2, decide_false, or_self]
        simp

/-- C63: an exception table moves the Kattika full moon of a year by at most one day per entry, counting only the
entries between that year and 2016, where the calculation starts. -/
theorem c63_kattika (cfg : Config) (years : List Int) (hy : ∀ y, cfg.exceptions y ≠ none → y ∈ years) (y : Int) :
    ∃ d : Int, calculatePreviousKattika cfg y = (calculatePreviousKattika .default y).addDays d ∧
      |d| ≤ (years.filter fun z => decide ((y ≤ z ∧ z < 2016) ∨ (2016 ≤ z ∧ z < y))).length := by
  refine ⟨katDay cfg y - katDay .default y, ?_, ?_⟩
  · rw [addDays_eq, kattika_eq cfg, kattika_eq .default]
    unfold Time.add
    simp only [Time.mk.injEq, and_true]
    unfold nsPerDay; omega
  · have h := katDay_table hy y
    rw [← listed_between, abs_le]
    omega

/-- For the concrete cases: a table with one entry, which makes 2019 an adhikavāra year. -/
def oneEntry : Config := { useExceptions := true, exceptions := fun y => if y = 2019 then some true else none }

theorem oneEntry_small (n : Nat) : SmallTable oneEntry (n + 1) where
  few := ⟨[2019], by simp, by intro y h; simp only [oneEntry] at h; split at h <;> simp_all⟩
  sound := by
    intro y h
    simp only [oneEntry] at h
    split at h
    · rename_i he; rw [he]; decide +kernel
    · simp at h

/-- C63: the Kattika before 2020 moves by one day, the one before 2019 stays. -/
example : calculatePreviousKattika oneEntry 2020 = (calculatePreviousKattika .default 2020).addDays 1 ∧
    calculatePreviousKattika oneEntry 2019 = calculatePreviousKattika .default 2019 := by decide +kernel

/-- C63: one entry, for 2019, moves the Kattika full moon before 2100 by at most one day and that before 2018 not at all. -/
example : (∃ d : Int, calculatePreviousKattika oneEntry 2100 = (calculatePreviousKattika .default 2100).addDays d ∧ |d| ≤ 1) ∧
    ∃ d : Int, calculatePreviousKattika oneEntry 2018 = (calculatePreviousKattika .default 2018).addDays d ∧ |d| ≤ 0 := by
  have h : ∀ y, oneEntry.exceptions y ≠ none → y ∈ [(2019 : Int)] := by
    intro y hy
    by_cases e : y = 2019
    · simp [e]
    · exact absurd (by simp [oneEntry, e]) hy
  exact ⟨c63_kattika oneEntry [2019] h 2100, c63_kattika oneEntry [2019] h 2018⟩

/-- Distance of the computed Kattika from both ends of the window, by number of days. -/
theorem slack_scan : scanKat (fun y k => decide (
    (632 ≤ y → y ≤ 3411 → daysSinceEpoch y - 108 ≤ k ∧ k < daysSinceEpoch y - 10) ∧
    (634 ≤ y → y ≤ 2256 → daysSinceEpoch y - 88 ≤ k ∧ k < daysSinceEpoch y - 30) ∧
    (1610 ≤ y → y ≤ 3807 → daysSinceEpoch y - 69 ≤ k ∧ k < daysSinceEpoch y - 5))) 3488 630 229738 = true := by
  decide +kernel

theorem slack {y : Int} (h1 : 630 ≤ y) (h2 : y ≤ 4117) :
    (632 ≤ y → y ≤ 3411 → daysSinceEpoch y - 108 ≤ katDay .default y ∧ katDay .default y < daysSinceEpoch y - 10) ∧
    (634 ≤ y → y ≤ 2256 → daysSinceEpoch y - 88 ≤ katDay .default y ∧ katDay .default y < daysSinceEpoch y - 30) ∧
    (1610 ≤ y → y ≤ 3807 → daysSinceEpoch y - 69 ≤ katDay .default y ∧ katDay .default y < daysSinceEpoch y - 5) := by
  have := scanKat_spec katDay_630 slack_scan y (by omega) (by omega)
  exact of_decide_eq_true this

theorem small_exclusive {cfg : Config} {n : Nat} (h : SmallTable cfg n) (y : Int) :
    ¬ ((SuriyaYear.init y).isAdhikamasa = true ∧ (SuriyaYear.init y).isAdhikavara cfg = true) := by
  rintro ⟨h1, h2⟩
  have hr := c08_exclusive_default (SuriyaYear.init y)
  have d : (SuriyaYear.init y).isAdhikavara .default = (SuriyaYear.init y).isAdhikavaraRule := rfl
  rw [d] at hr
  have hy : (SuriyaYear.init y).Year = y := rfl
  unfold SuriyaYear.isAdhikavara at h2
  rw [hy] at h2
  split at h2
  · cases e : cfg.exceptions y with
    | none => rw [e] at h2; exact hr ⟨h1, h2⟩
    | some b =>
      rw [e] at h2
      simp only at h2
      subst h2
      rw [h.sound y e] at h1
      exact absurd h1 (by decide)
  · exact hr ⟨h1, h2⟩

/-- The first and last year, and the days before the year, for which a table of the given size is covered. -/
theorem small_moved {cfg : Config} {n : Nat} (h : SmallTable cfg n) (y : Int) :
    katDay .default y - n ≤ katDay cfg y ∧ katDay cfg y ≤ katDay .default y + n := by
  obtain ⟨years, hl, hy⟩ := h.few
  obtain ⟨d, h1, h2⟩ := c63_kattika cfg years hy y
  have hk : katDay cfg y = katDay .default y + d := by
    unfold katDay; rw [h1, addDays_eq, day_add]
  have := List.length_filter_le (fun z => decide ((y ≤ z ∧ z < 2016) ∨ (2016 ≤ z ∧ z < y))) years
  rw [abs_le] at h2
  omega

/-- C63: with a table of at most ten entries, from 632 to 3411, and with one of at most thirty, from 634 to 2256, no year
is both adhikamāsa and adhikavāra and every year is generated from a Kattika full moon in the last 118 days before it. -/
theorem c63_steady (cfg : Config) (n : Nat) (h : SmallTable cfg n) :
    (n ≤ 10 → Steady cfg 118 632 3411) ∧ (n ≤ 30 → Steady cfg 118 634 2256) ∧ (n ≤ 5 → Steady cfg 74 1610 3807) := by
  refine ⟨fun hn => ⟨fun y _ _ => small_exclusive h y, fun y h1 h2 => ?_, fun y h1 h2 => ?_⟩,
    fun hn => ⟨fun y _ _ => small_exclusive h y, fun y h1 h2 => ?_, fun y h1 h2 => ?_⟩,
    fun hn => ⟨fun y _ _ => small_exclusive h y, fun y h1 h2 => ?_, fun y h1 h2 => ?_⟩⟩ <;>
  · have hm := small_moved h y
    have hs := slack (y := y) (by omega) (by omega)
    first
      | show _ ≤ katDay cfg y
      | show katDay cfg y < _
    first
      | have := hs.1 h1 h2; omega
      | have := hs.2.1 h1 h2; omega
      | have := hs.2.2 h1 h2; omega

/-- C63: the table of one entry is small enough for all three. -/
example : Steady oneEntry 118 632 3411 ∧ Steady oneEntry 118 634 2256 ∧ Steady oneEntry 74 1610 3807 :=
  have h := c63_steady _ _ (oneEntry_small 0)
  ⟨h.1 (by decide), h.2.1 (by decide), h.2.2 (by decide)⟩

/-! ### What this gives for the calendar -/

/-- C63: with at most ten entries the uposathas of a year end exactly at the Kattika full moon from which the next year is
generated. -/
theorem c63_closes (cfg : Config) (h : SmallTable cfg 10) (y : Int) (h1 : 632 ≤ y) (h2 : y ≤ 3410) :
    moonAfterKattika cfg y (if (SuriyaYear.init y).isAdhikamasa = true then 26 else 24) = kattikaSeed cfg (y + 1) :=
  c19_closes_steady cfg 632 3411 ((c63_steady cfg 10 h).1 (by omega)) y h1 (by omega)

/-- C63: the lunar year of 2019 with that entry. -/
example : moonAfterKattika oneEntry 2019 24 = kattikaSeed oneEntry 2020 :=
  c63_closes _ (oneEntry_small 9) 2019 (by decide) (by decide)

/-- C63: with at most ten entries the uposathas of consecutive years form one unbroken chain. -/
theorem c63_continuity (cfg : Config) (h : SmallTable cfg 10) (y : Int) (n : Nat) (h1 : 632 ≤ y) (h2 : y + n ≤ 3412) :
    ((List.range n).flatMap fun i : Nat => uposathasOf (generateSolarYear cfg (y + (i : Int)))).IsChain
      (fun a b => b = published (a.nextUposatha cfg)) :=
  c20_continuity_steady cfg 632 3411 ((c63_steady cfg 10 h).1 (by omega)) y n h1 (by omega)

/-- C63: the three years around the entry. -/
example : ((List.range 3).flatMap fun i : Nat => uposathasOf (generateSolarYear oneEntry (2018 + (i : Int)))).IsChain
    (fun a b => b = published (a.nextUposatha oneEntry)) := c63_continuity _ (oneEntry_small 9) 2018 3 (by decide) (by decide)

/-- C63: with at most ten entries a year has 24 or 25 uposathas and 24 or 25 half moons, everything generated for it is
dated in it, and the texts of its uposathas are well formed. -/
theorem c63_year (cfg : Config) (h : SmallTable cfg 10) (y : Int) (h1 : 632 ≤ y) (h2 : y ≤ 3410) :
    ((uposathasOf (generateSolarYear cfg y)).length = 24 ∨ (uposathasOf (generateSolarYear cfg y)).length = 25) ∧
    ((halvesOf (generateSolarYear cfg y)).length = 24 ∨ (halvesOf (generateSolarYear cfg y)).length = 25) ∧
    (∀ e ∈ generateSolarYear cfg y, e.getDate.year = y) ∧
    ∀ u, .uposatha u ∈ generateSolarYear cfg y →
      ∃ p ∈ ["New", "Full"], ∃ d ∈ ["14", "15"], ∃ s ∈ ["Hemanta", "Gimha", "Vassāna"], ∃ t ∈ ["8", "10"],
        ∃ n ∈ ["1", "2", "3", "4", "5", "6", "7", "8", "9", "10"],
        u.string = p ++ " Moon - " ++ d ++ " day " ++ s ++ " " ++ n ++ "/" ++ t := by
  have hs := (c63_steady cfg 10 h).1 (by omega)
  have hc := c24_counts_steady cfg 632 3411 hs y h1 (by omega)
  refine ⟨hc.1, hc.2, fun e he => c55_in_year_steady cfg 632 3411 hs y h1 (by omega) e he, fun u hu => ?_⟩
  obtain ⟨p, hp, d, hd, s, hs, t, ht, n, hn, -, -, -, e⟩ := c44_uposatha_text_orderly cfg y (hs.orderly h1 (by omega)) u hu
  exact ⟨p, hp, d, hd, s, hs, t, ht, n, hn, e⟩

/-- C63: the events of 2019 with that entry. -/
example : ∀ e ∈ generateSolarYear oneEntry 2019, e.getDate.year = 2019 :=
  (c63_year _ (oneEntry_small 9) 2019 (by decide) (by decide)).2.2.1

/-- C63: with at most five entries the major events of the years 1610 to 3806 are the usual six. -/
theorem c63_majors (cfg : Config) (h : SmallTable cfg 5) (y : Int) (h1 : 1610 ≤ y) (h2 : y ≤ 3806) :
    let su := SuriyaYear.init y
    let A := su.asalhaPuja cfg
    let vesakha : Int := if su.isAdhikamasa = false ∧ su.isAdhikavara cfg = true then -60 else -59
    let magha : Int := vesakha - (if su.isAdhikamasa = true then 89 else 88)
    majorsOf (generateSolarYear cfg y) =
      [majorOn (A.addDays magha) "Māgha Pūjā", majorOn (A.addDays vesakha) "Vesākha Pūjā",
       majorOn A "Āsāḷha Pūjā", majorOn (A.addDays 1) "First day of Vassa",
       majorOn (A.addDays 89) "Pavāraṇā Day", majorOn (A.addDays 89) "Last day of Vassa"] :=
  c21_majors_steady cfg 1610 3807 ((c63_steady cfg 5 h).2.2 (by omega)) y h1 (by omega)

/-- C63: the major days of 2019 with that entry and without. -/
example : (majorsOf (generateSolarYear oneEntry 2019)).map (·.Date) =
    [date 2019 2 19 0 0, date 2019 5 18 0 0, date 2019 7 17 0 0, date 2019 7 18 0 0, date 2019 10 14 0 0, date 2019 10 14 0 0] ∧
    (SuriyaYear.init 2019).asalhaPuja oneEntry = ((SuriyaYear.init 2019).asalhaPuja .default).addDays 1 := by decide +kernel

/-- C63: with at most ten entries a range of days from 1900 to 3410 may be cut at any midnight. -/
theorem c63_split (cfg : Config) (hc : SmallTable cfg 10) (fromDate toDate : Time) (h : UtcRange fromDate toDate)
    (h3 : toDate.year ≤ 3410) (d : Int)
    (h1 : fromDate.nanos ≤ d * nsPerDay) (h2 : d * nsPerDay ≤ toDate.nanos) (l : List CalDay)
    (hl : getCalDays cfg embeddedFiles fromDate toDate = some l) :
    ∃ l1 l2, getCalDays cfg embeddedFiles fromDate ⟨d * nsPerDay - 1, 0⟩ = some l1 ∧
      getCalDays cfg embeddedFiles ⟨d * nsPerDay, 0⟩ toDate = some l2 ∧ l = l1 ++ l2 :=
  c55_split_dated cfg 3410 (fun y _ _ e he => c55_in_year_steady cfg 632 3411 ((c63_steady cfg 10 hc).1 (by omega)) y (by omega) (by omega) e he)
    fromDate toDate h d h3 h1 h2 l hl

/-- C63: a range across the entry, cut on 1 January 2020. -/
example : UtcRange (date 2019 6 1 0 0) (date 2020 6 1 0 0) ∧ (date 2019 6 1 0 0).nanos ≤ (date 2020 1 1 0 0).day * nsPerDay ∧
    (date 2020 1 1 0 0).day * nsPerDay ≤ (date 2020 6 1 0 0).nanos :=
  ⟨⟨by decide, by decide, by decide⟩, by decide, by decide⟩

/-- C63: setting entries in the shipped table gives a table with that many entries more. -/
theorem c63_edit (entries : List (Int × Bool))
    (hs : ∀ e ∈ entries, e.2 = true → (SuriyaYear.init e.1).isAdhikamasa = false) :
    SmallTable (withEntries .official entries) (entries.length + 2) := by
  have look : ∀ (l : List (Int × Bool)) (y : Int) (b : Bool), l.lookup y = some b → (y, b) ∈ l := by
    intro l y b
    induction l with
    | nil => intro h; exact absurd h (by simp)
    | cons p l ih =>
      intro h
      rw [List.lookup_cons] at h
      split at h
      · rename_i e
        have := Option.some.inj h
        have e := eq_of_beq e
        subst this; subst e
        exact List.mem_cons_self
      · exact List.mem_cons_of_mem _ (ih h)
  have off : ∀ y b, Config.official.exceptions y = some b → (y = 1994 ∨ y = 1997) ∧
      (b = true → (SuriyaYear.init y).isAdhikamasa = false) := by
    intro y b h
    have h : shippedExceptions y = some b := h
    unfold shippedExceptions at h
    split at h
    · rename_i e
      subst e
      refine ⟨Or.inl rfl, fun hb => ?_⟩
      rw [← Option.some.inj h] at hb
      exact absurd hb (by decide)
    · split at h
      · rename_i e
        subst e
        exact ⟨Or.inr rfl, fun _ => by decide +kernel⟩
      · exact absurd h (by simp)
  refine ⟨⟨1994 :: 1997 :: entries.map Prod.fst, by simp, ?_⟩, ?_⟩
  · intro y h
    unfold withEntries at h
    simp only at h
    cases e : entries.lookup y with
    | some b =>
      have := look _ _ _ e
      simp only [List.mem_cons, List.mem_map]
      exact Or.inr (Or.inr ⟨_, this, rfl⟩)
    | none =>
      rw [e] at h
      cases e2 : Config.official.exceptions y with
      | none => exact absurd e2 h
      | some b => rcases (off y b e2).1 with rfl | rfl <;> simp
  · intro y h
    unfold withEntries at h
    simp only at h
    cases e : entries.lookup y with
    | some b =>
      rw [e] at h
      have hb : b = true := Option.some.inj h
      exact hs (y, b) (look _ _ _ e) hb
    | none =>
      rw [e] at h
      have := (off y true h).2
      exact this rfl

/-- C63: a caller who adds two entries to the shipped table. -/
example : SmallTable (withEntries .official [(2019, true), (2020, false)]) 4 :=
  c63_edit [(2019, true), (2020, false)] (by decide +kernel)

/-- C63: the entries have an effect: 2019 becomes a year of 355 days, and the Kattika of 2020 is a day later. -/
example : (SuriyaYear.init 2019).yearLength .official = 354 ∧
    (SuriyaYear.init 2019).yearLength (withEntries .official [(2019, true)]) = 355 ∧
    calculatePreviousKattika (withEntries .official [(2019, true)]) 2020 =
      (calculatePreviousKattika .official 2020).addDays 1 := by decide +kernel

/-- C63: an entry that marks an adhikamāsa year as adhikavāra is not harmless. The year 2015 keeps its 384 days, but its
uposathas end a day after the Kattika from which 2016 is generated. -/
theorem c63_unsound :
    let cfg := withEntries .official [(2015, true)]
    (SuriyaYear.init 2015).yearLength cfg = 384 ∧
    (moonAfterKattika cfg 2015 26).Date = (kattikaSeed cfg 2016).Date.addDays 1 := by decide +kernel

end Verif.Props
