import Verif.Props.Table
import Verif.Props.AlmanacRun
import Verif.Props.Switching
import Verif.Model.YearsCsv
/-
C77: the recorded dates of Asalha 1970 to 2016 and the tables of exceptions that give them.
-/
set_option autoImplicit false

namespace Verif.Props
open Verif.Go Verif.Model Verif.Spec Verif.Lemmas

/-- With these settings `AsalhaPuja` gives the dates recorded in utils/years-csv.go from printed calendars. -/
def GivesRecorded (cfg : Config) : Prop :=
  ∀ p ∈ testYears, ∃ y m d : Nat, y ≤ 9999 ∧ p.2.Asalha = isoDate y m d ∧ IsDate ((SuriyaYear.init p.1).asalhaPuja cfg).day y m d

/-- The shipped table with six more entries. -/
def repaired : Config :=
  withEntries .official [(1978, false), (1979, true), (1984, false), (1987, true), (1989, false), (1990, true)]

/-- C77: with six more entries in the table all recorded dates are given. -/
theorem c77_repaired : GivesRecorded repaired := by
  have h : ∀ p ∈ testYears, parseDate p.2.Asalha = some ((SuriyaYear.init p.1).asalhaPuja repaired) := by decide +kernel
  intro p hp
  obtain ⟨y, m, d, h1, -, -, -, -, h2, h3, -⟩ := (c42_parse _ _).1 (h p hp)
  exact ⟨y, m, d, h1, h2, h3⟩

/-- C77: 1978 and 1985, two of the years that fail with the shipped table. -/
example : (SuriyaYear.init 1978).asalhaPuja repaired = date 1978 7 19 0 0 ∧ (SuriyaYear.init 1978).asalhaPuja .official = date 1978 7 20 0 0 ∧
    (SuriyaYear.init 1985).asalhaPuja repaired = date 1985 7 31 0 0 ∧ (SuriyaYear.init 1985).asalhaPuja .official = date 1985 8 1 0 0 := by
  decide +kernel

theorem testYears_mem {y : Int} (h1 : 1970 ≤ y) (h2 : y ≤ 2016) : ∃ p ∈ testYears, p.1 = y := by
  have h : ∀ i : Fin 47, ∃ p ∈ testYears, p.1 = 1970 + (i : Int) := by decide +kernel
  obtain ⟨p, hp, e⟩ := h ⟨(y - 1970).toNat, by omega⟩
  exact ⟨p, hp, by rw [e]; simp only; omega⟩

theorem testYears_range : ∀ p ∈ testYears, 1970 ≤ p.1 ∧ p.1 ≤ 2016 := by decide +kernel

/-- Two settings that give the recorded dates have the same Kattika full moons. -/
theorem recorded_kattika {cfg cfg' : Config} (h : GivesRecorded cfg) (h' : GivesRecorded cfg') (y : Int) (h1 : 1970 ≤ y) (h2 : y ≤ 2016) :
    katDay cfg (y + 1) = katDay cfg' (y + 1) := by
  obtain ⟨p, hp, rfl⟩ := testYears_mem h1 h2
  obtain ⟨y1, m1, d1, k1, e1, i1⟩ := h p hp
  obtain ⟨y2, m2, d2, k2, e2, i2⟩ := h' p hp
  have q1 := (parse_isoDate k1 i1).1
  have q2 := (parse_isoDate k2 i2).1
  rw [← e1] at q1
  rw [← e2, q1] at q2
  simp only [Option.some.injEq, Time.mk.injEq, and_true] at q2
  rw [asalha_day, asalha_day] at q2
  unfold nsPerDay at q2
  omega

theorem recorded_of_kattika {cfg cfg' : Config} (h : GivesRecorded cfg)
    (e : ∀ y, 1970 ≤ y → y ≤ 2016 → katDay cfg (y + 1) = katDay cfg' (y + 1)) : GivesRecorded cfg' := by
  intro p hp
  obtain ⟨y, m, d, k, e1, i1⟩ := h p hp
  refine ⟨y, m, d, k, e1, ?_⟩
  have := e p.1 (testYears_range p hp).1 (testYears_range p hp).2
  rw [asalha_day] at i1 ⊢
  rw [← this]
  exact i1

/-- C77: settings give the recorded dates exactly if they have these adhikavāra years from 1971 to 2016 (the answer in adhikamāsa years,
and before 1971, does not matter). -/
theorem c77_iff (cfg : Config) : GivesRecorded cfg ↔ ∀ y, 1971 ≤ y → y ≤ 2016 → (SuriyaYear.init y).isAdhikamasa = false →
    ((SuriyaYear.init y).isAdhikavara cfg = true ↔ y ∈ [1973, 1979, 1987, 1990, 1997, 2000, 2005, 2009, 2016]) := by
  have hr : ∀ y, 1971 ≤ y → y ≤ 2016 → (SuriyaYear.init y).isAdhikamasa = false →
      ((SuriyaYear.init y).isAdhikavara repaired = true ↔ y ∈ [1973, 1979, 1987, 1990, 1997, 2000, 2005, 2009, 2016]) := by
    have h : ∀ i : Fin 46, (SuriyaYear.init (1971 + (i : Int))).isAdhikamasa = false →
        ((SuriyaYear.init (1971 + (i : Int))).isAdhikavara repaired = true ↔
          1971 + (i : Int) ∈ [1973, 1979, 1987, 1990, 1997, 2000, 2005, 2009, 2016]) := by decide +kernel
    intro y h1 h2
    have := h ⟨(y - 1971).toNat, by omega⟩
    simp only at this
    rwa [show (1971 : Int) + ((y - 1971).toNat : Int) = y by omega] at this
  constructor
  · intro h y h1 h2 hm
    rw [← hr y h1 h2 hm]
    have e1 := recorded_kattika h c77_repaired y (by omega) h2
    have e2 := recorded_kattika h c77_repaired (y - 1) (by omega) (by omega)
    rw [show y - 1 + 1 = y by omega] at e2
    rw [katDay_succ, katDay_succ, e2] at e1
    unfold SuriyaYear.yearLength at e1
    cases h3 : (SuriyaYear.init y).isAdhikavara cfg <;> cases h4 : (SuriyaYear.init y).isAdhikavara repaired <;>
      simp [hm, h3, h4] at e1 ⊢
  · intro h
    have len : ∀ y, 1971 ≤ y → y ≤ 2016 → (SuriyaYear.init y).yearLength repaired = (SuriyaYear.init y).yearLength cfg := by
      intro y h1 h2
      unfold SuriyaYear.yearLength
      cases hm : (SuriyaYear.init y).isAdhikamasa with
      | true => rfl
      | false =>
        have e : (SuriyaYear.init y).isAdhikavara repaired = (SuriyaYear.init y).isAdhikavara cfg := by
          rw [Bool.eq_iff_iff, hr y h1 h2 hm, h y h1 h2 hm]
        rw [e]
    refine recorded_of_kattika c77_repaired fun y h1 h2 => ?_
    have back : ∀ n : Nat, n ≤ 45 → katDay repaired (2016 - n) = katDay cfg (2016 - n) := by
      intro n
      induction n with
      | zero => intro; rw [show (2016 - ((0 : Nat) : Int)) = 2016 by omega, katDay_epoch, katDay_epoch]
      | succ n ih =>
        intro hn
        have := ih (by omega)
        have s1 := katDay_succ repaired (2016 - ((n + 1 : Nat) : Int))
        have s2 := katDay_succ cfg (2016 - ((n + 1 : Nat) : Int))
        rw [show 2016 - ((n + 1 : Nat) : Int) + 1 = 2016 - n by omega] at s1 s2
        have := len (2016 - ((n + 1 : Nat) : Int)) (by omega) (by omega)
        omega
    by_cases hy : y = 2016
    · subst hy
      rw [katDay_succ, katDay_succ, katDay_epoch, katDay_epoch, len 2016 (by decide) (by decide)]
    · have := back (2015 - y).toNat (by omega)
      rwa [show 2016 - (((2015 - y).toNat : Nat) : Int) = y + 1 by omega] at this

/-- C77: the shipped table does not give the recorded date of 1978. -/
example : ¬ GivesRecorded .official := by
  rw [c77_iff]
  intro h
  exact absurd ((h 1979 (by decide) (by decide) (by decide)).2 (by decide)) (by decide)

/-- C77: no table gives the recorded dates without entries for these eight years, with these values. -/
theorem c77_needed (cfg : Config) (h : GivesRecorded cfg) : cfg.useExceptions = true ∧
    ∀ e ∈ [((1978 : Int), false), (1979, true), (1984, false), (1987, true), (1989, false), (1990, true), (1994, false), (1997, true)],
      cfg.exceptions e.1 = some e.2 := by
  rw [c77_iff] at h
  have key : ∀ e ∈ [((1978 : Int), false), (1979, true), (1984, false), (1987, true), (1989, false), (1990, true), (1994, false), (1997, true)],
      1971 ≤ e.1 ∧ e.1 ≤ 2016 ∧ (SuriyaYear.init e.1).isAdhikamasa = false ∧ (SuriyaYear.init e.1).isAdhikavaraRule = !e.2 ∧
      (e.1 ∈ [1973, 1979, 1987, 1990, 1997, 2000, 2005, 2009, 2016] ↔ e.2 = true) := by decide +kernel
  have both : ∀ e ∈ [((1978 : Int), false), (1979, true), (1984, false), (1987, true), (1989, false), (1990, true), (1994, false), (1997, true)],
      cfg.useExceptions = true ∧ cfg.exceptions e.1 = some e.2 := by
    intro e he
    obtain ⟨k1, k2, k3, k4, k5⟩ := key e he
    have := h e.1 k1 k2 k3
    rw [k5, ← Bool.eq_iff_iff] at this
    unfold SuriyaYear.isAdhikavara at this
    rw [init_Year, k4] at this
    cases hu : cfg.useExceptions with
    | false => rw [hu] at this; exfalso; revert this; cases e.2 <;> simp
    | true =>
      rw [hu] at this
      refine ⟨rfl, ?_⟩
      cases hx : cfg.exceptions e.1 with
      | none => rw [hx] at this; exfalso; revert this; cases e.2 <;> simp
      | some b => rw [hx] at this; simp at this; rw [this]
  exact ⟨(both (1978, false) (by simp)).1, fun e he => (both e he).2⟩

/-- C77: the eight entries of the repaired table. -/
example : repaired.exceptions 1987 = some true ∧ repaired.exceptions 1994 = some false ∧ repaired.exceptions 1985 = none := by decide

theorem repaired_small : SmallTable repaired 8 := c63_edit _ (by decide)

/-- C77: with the repaired table the uposathas of all years from 632 to 3410 still form one chain. -/
theorem c77_chain (y : Int) (n : Nat) (h1 : 632 ≤ y) (h2 : y + n ≤ 3412) :
    ((List.range n).flatMap fun i : Nat => uposathasOf (generateSolarYear repaired (y + (i : Int)))).IsChain
      (fun a b => b = published (a.nextUposatha repaired)) := by
  obtain ⟨years, h3, h4⟩ := repaired_small.few
  exact c63_continuity _ ⟨⟨years, by omega, h4⟩, repaired_small.sound⟩ y n h1 h2

/-- C77: the years 1970 to 2016. -/
example : ((List.range 47).flatMap fun i : Nat => uposathasOf (generateSolarYear repaired (1970 + (i : Int)))).IsChain
    (fun a b => b = published (a.nextUposatha repaired)) := c77_chain 1970 47 (by decide) (by decide)

/-- C77: the six entries change nothing from 1998 on. -/
theorem c77_later (files : Int → AstroFile) (fromDate toDate : Time) (h1 : 1998 ≤ fromDate.year) (h2 : toDate.year ≤ 4116) :
    getCalDays repaired files fromDate toDate = getCalDays .default files fromDate toDate := by
  rw [← c71_settled (fun _ => repaired) 1998 (by decide) ?_ 0 files fromDate toDate h1 (by omega) h2,
    (c71_fixed repaired 0 1998 files fromDate toDate).2.2.2]
  intro _ z hz
  have e : ∀ n : Int, n < 1998 → (z == n) = false := by intro n hn; simp; omega
  have h : List.lookup z [((1978 : Int), false), (1979, true), (1984, false), (1987, true), (1989, false), (1990, true)] = none := by
    simp only [List.lookup, e 1978 (by decide), e 1979 (by decide), e 1984 (by decide), e 1987 (by decide), e 1989 (by decide),
      e 1990 (by decide)]
  simp only [repaired, withEntries, h, Config.official, shippedExceptions]
  rw [if_neg (by omega), if_neg (by omega)]

/-- C77: a range of today. -/
example (files : Int → AstroFile) : getCalDays repaired files (date 2020 1 1 0 0) (date 2025 12 31 0 0) =
    getCalDays .default files (date 2020 1 1 0 0) (date 2025 12 31 0 0) := c77_later files _ _ (by decide +kernel) (by decide +kernel)

end Verif.Props
