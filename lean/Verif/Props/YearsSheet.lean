import Verif.Spec.YearsSheet
import Verif.Props.YearsMain
import Verif.Props.Published
/-
C75: the table of the committed spreadsheet, and which settings give the two committed tables.
-/
set_option autoImplicit false

namespace Verif.Props
open Verif.Go Verif.Model Verif.Spec Verif.Lemmas

/-- The spreadsheet as the text of a table. -/
def sheetText : List Char := csvLine sheetHeader ++ sheetRows.flatMap csvLine

/-- Each row of the sheet is the row of its year. -/
theorem sheet_row : ∀ i : Fin 72, csvFields .official (1970 + (i.val : Int)) = some (sheetRows.getD i.val []) := by
  decide +kernel

/-- C75: the spreadsheet utils/years-1970-2041.xlsx is the same table, made with the shipped exceptions. -/
theorem c75_sheet : yearsCsv .official 1970 2041 = some sheetText := by
  have h := mapM_lines (csvFields .official) csvLine (fun y => csvLine (sheetRows.getD (y - 1970).toNat []))
    ((List.range 72).map fun (i : Nat) => (1970 : Int) + (i : Int)) (by
      intro y hy
      obtain ⟨i, hi, rfl⟩ := List.mem_map.1 hy
      rw [show ((1970 : Int) + (i : Int) - 1970).toNat = i by omega, sheet_row ⟨i, List.mem_range.1 hi⟩]
      rfl)
  unfold yearsCsv
  rw [show ((2041 : Int) - 1970 + 1).toNat = 72 from rfl]
  rw [Option.map_eq_some_iff] at h ⊢
  obtain ⟨rows, h1, h2⟩ := h
  refine ⟨rows, h1, ?_⟩
  rw [h2]
  rfl

/-! ### The settings behind a table -/

/-- Same answers, same Kattika full moons. -/
theorem kattika_answers {cfg cfg' : Config}
    (h : ∀ y, 1970 ≤ y → y ≤ 2041 → (SuriyaYear.init y).isAdhikavara cfg = (SuriyaYear.init y).isAdhikavara cfg') (n : Nat) :
    (n ≤ 46 → katDay cfg (2016 - n) = katDay cfg' (2016 - n)) ∧ (n ≤ 26 → katDay cfg (2016 + n) = katDay cfg' (2016 + n)) := by
  have hl : ∀ y, 1970 ≤ y → y ≤ 2041 → (SuriyaYear.init y).yearLength cfg = (SuriyaYear.init y).yearLength cfg' := by
    intro y h1 h2
    unfold SuriyaYear.yearLength
    rw [h y h1 h2]
  induction n with
  | zero => exact ⟨fun _ => by rw [show (2016 : Int) - ((0 : Nat) : Int) = 2016 by omega, katDay_epoch, katDay_epoch],
      fun _ => by rw [show (2016 : Int) + ((0 : Nat) : Int) = 2016 by omega, katDay_epoch, katDay_epoch]⟩
  | succ n ih =>
    constructor
    · intro hn
      have i := ih.1 (by omega)
      have e := hl (2016 - ((n + 1 : Nat) : Int)) (by omega) (by omega)
      have k1 := katDay_succ cfg (2016 - ((n + 1 : Nat) : Int))
      have k2 := katDay_succ cfg' (2016 - ((n + 1 : Nat) : Int))
      rw [show (2016 : Int) - ((n + 1 : Nat) : Int) + 1 = 2016 - (n : Int) by omega] at k1 k2
      omega
    · intro hn
      have i := ih.2 (by omega)
      have e := hl (2016 + (n : Int)) (by omega) (by omega)
      have k1 := katDay_succ cfg (2016 + (n : Int))
      have k2 := katDay_succ cfg' (2016 + (n : Int))
      rw [show (2016 : Int) + ((n + 1 : Nat) : Int) = 2016 + (n : Int) + 1 by omega]
      omega

/-- The shipped settings: every adhikavāra year of the table has the one before it in 1968 or later. -/
theorem shipped_delta {cfg : Config} (h : Shipped cfg) : ∀ i : Fin 72, (SuriyaYear.init (1970 + (i.val : Int))).isAdhikavara cfg = true →
    ∃ d ∈ List.range 73, (SuriyaYear.init (1970 + (i.val : Int))).deltaAdhikavara cfg = some (d : Int) ∧ (d : Int) ≤ 2 + i.val := by
  rcases h with rfl | rfl
  · decide +kernel
  · decide +kernel

/-- C75: settings of any kind give the same table as shipped ones exactly if they give the same answers in the years 1968 to 2041. -/
theorem c75_settings {cfg' : Config} (hs : Shipped cfg') (cfg : Config) : yearsCsv cfg 1970 2041 = yearsCsv cfg' 1970 2041 ↔
    ∀ y, 1968 ≤ y → y ≤ 2041 → (SuriyaYear.init y).isAdhikavara cfg = (SuriyaYear.init y).isAdhikavara cfg' := by
  constructor
  · intro he
    obtain ⟨text, rows, h1, h2, h3, h4⟩ := c68_table cfg 1970 2041
    obtain ⟨text', rows', h1', h2', -, h4'⟩ := c68_table cfg' 1970 2041
    rw [h1, h1', Option.some.injEq] at he
    rw [he, h2'] at h2
    simp only [Option.some.injEq, List.cons.injEq, true_and] at h2
    subst h2
    have same : ∀ {c c' : Config} {row : List String} {y : Int}, IsCsvRow c row y → IsCsvRow c' row y → (SuriyaYear.init y).isAdhikavara c = true →
        (SuriyaYear.init y).isAdhikavara c' = true := by
      intro c c' row y r r' ht
      by_contra hf
      rw [Bool.not_eq_true] at hf
      obtain ⟨q, hq, -⟩ := r.adhikavara ht
      have := r'.notAdhikavara hf
      have hx : readInt "x".toList = none ∧ readInt "".toList = none := by decide +kernel
      unfold column at hq
      rw [this] at hq
      cases hw : (SuriyaYear.init y).wouldBeAdhikavara with
      | true => simp only [hw, if_true, hx.1] at hq; cases hq
      | false => simp only [hw, Bool.false_eq_true, if_false, hx.2] at hq; cases hq
    have late : ∀ y, 1970 ≤ y → y ≤ 2041 → (SuriyaYear.init y).isAdhikavara cfg = (SuriyaYear.init y).isAdhikavara cfg' := by
      intro y k1 k2
      have hi : (y - 1970).toNat < rows'.length := by rw [h3]; omega
      have r := h4 _ hi
      have r' := h4' _ hi
      rw [show (1970 : Int) + ((y - 1970).toNat : Int) = y by omega] at r r'
      rw [Bool.eq_iff_iff]
      exact ⟨same r r', same r' r⟩
    have r := h4 3 (by rw [h3]; decide)
    have r' := h4' 3 (by rw [h3]; decide)
    have t' : (SuriyaYear.init 1973).isAdhikavara cfg' = true := by rcases hs with rfl | rfl <;> decide +kernel
    have t : (SuriyaYear.init 1973).isAdhikavara cfg = true := (late 1973 (by omega) (by omega)).trans t'
    obtain ⟨q, hq, hd⟩ := r.adhikavara t
    obtain ⟨q', hq', hd'⟩ := r'.adhikavara t'
    have : q = q' := by rw [hq] at hq'; exact Option.some.inj hq'
    subst this
    have a8 : (SuriyaYear.init 1968).isAdhikavara cfg' = true := by rcases hs with rfl | rfl <;> decide +kernel
    have a9 : (SuriyaYear.init 1969).isAdhikavara cfg' = false := by rcases hs with rfl | rfl <;> decide +kernel
    have b0 : (SuriyaYear.init 1970).isAdhikavara cfg' = false := by rcases hs with rfl | rfl <;> decide +kernel
    have b1 : (SuriyaYear.init 1971).isAdhikavara cfg' = false := by rcases hs with rfl | rfl <;> decide +kernel
    have b2 : (SuriyaYear.init 1972).isAdhikavara cfg' = false := by rcases hs with rfl | rfl <;> decide +kernel
    have q5 : q = 5 := by
      rcases hd' with ⟨-, e1, e2, e3⟩ | ⟨-, e⟩
      · by_contra hne
        rcases Int.lt_or_le q 5 with hlt | hge
        · have : q = 1 ∨ q = 2 ∨ q = 3 ∨ q = 4 := by omega
          rcases this with rfl | rfl | rfl | rfl
          · exact absurd (e2.symm.trans b2) (by decide)
          · exact absurd (e2.symm.trans b1) (by decide)
          · exact absurd (e2.symm.trans b0) (by decide)
          · exact absurd (e2.symm.trans a9) (by decide)
        · exact absurd ((e3 5 (by omega) (by omega)).symm.trans a8) (by decide)
      · exact absurd ((e 5 (by omega) (by omega)).symm.trans a8) (by decide)
    subst q5
    rcases hd with ⟨-, -, e2, e3⟩ | ⟨e, -⟩
    · intro y k1 k2
      rcases Int.lt_or_le y 1970 with hy | hy
      · have : y = 1968 ∨ y = 1969 := by omega
        rcases this with rfl | rfl
        · exact e2.trans a8.symm
        · exact (e3 4 (by omega) (by omega)).trans a9.symm
      · exact late y hy k2
    · omega
  · intro h
    unfold yearsCsv
    congr 1
    have hrow : ∀ y ∈ ((List.range ((2041 : Int) - 1970 + 1).toNat).map fun (i : Nat) => (1970 : Int) + (i : Int)), csvFields cfg y = csvFields cfg' y := by
      intro y hy
      obtain ⟨i, hi, rfl⟩ := List.mem_map.1 hy
      have hi : i < 72 := List.mem_range.1 hi
      have ha := h (1970 + (i : Int)) (by omega) (by omega)
      have hk : katDay cfg (1970 + (i : Int)) = katDay cfg' (1970 + (i : Int)) := by
        rcases Nat.lt_or_ge i 46 with hlt | hge
        · have := (kattika_answers (fun y h1 h2 => h y (by omega) h2) (46 - i)).1 (by omega)
          rw [show (2016 : Int) - ((46 - i : Nat) : Int) = 1970 + i by omega] at this
          exact this
        · have := (kattika_answers (fun y h1 h2 => h y (by omega) h2) (i - 46)).2 (by omega)
          rw [show (2016 : Int) + ((i - 46 : Nat) : Int) = 1970 + i by omega] at this
          exact this
      have hp : (SuriyaYear.init (1970 + (i : Int))).asalhaPuja cfg = (SuriyaYear.init (1970 + (i : Int))).asalhaPuja cfg' := by
        unfold SuriyaYear.asalhaPuja
        simp only [init_Year, ha, kattika_eq, hk]
      have hv : csvDV cfg (SuriyaYear.init (1970 + (i : Int))) = csvDV cfg' (SuriyaYear.init (1970 + (i : Int))) := by
        unfold csvDV
        rw [ha]
        cases hadv : (SuriyaYear.init (1970 + (i : Int))).isAdhikavara cfg' with
        | false => rfl
        | true =>
          obtain ⟨d, hd, he, hle⟩ := shipped_delta hs ⟨i, hi⟩ hadv
          simp only at he hle
          obtain ⟨r, g1, g2, -⟩ := c34_adhikavara cfg (1970 + (i : Int))
          obtain ⟨r', g1', g2', -⟩ := c34_adhikavara cfg' (1970 + (i : Int))
          rw [he, Option.some.injEq] at g1'
          subst g1'
          obtain ⟨m1, m2, m3, m4⟩ := (g2' (d : Int) (by omega)).1 rfl
          have : r = d := by
            refine (g2 (d : Int) (by omega)).2 ⟨m1, m2, ?_, ?_⟩
            · exact (h _ (by omega) (by omega)).trans m3
            · intro e k1 k2
              exact (h _ (by omega) (by omega)).trans (m4 e k1 k2)
          rw [g1, he, this]
      unfold csvFields
      simp only [hv, hp]
    generalize ((List.range ((2041 : Int) - 1970 + 1).toNat).map fun (i : Nat) => (1970 : Int) + (i : Int)) = l at hrow
    induction l with
    | nil => rfl
    | cons y l ih => rw [List.mapM_cons, List.mapM_cons, hrow y (by simp), ih fun z hz => hrow z (by simp [hz])]

/-- C75: the settings that give the spreadsheet: those with the answers of the shipped exceptions in the years 1968 to 2041. The text file
is given by those with the answers of the rule. No settings give both. -/
theorem c75_which (cfg : Config) :
    (yearsCsv cfg 1970 2041 = some sheetText ↔
      ∀ y, 1968 ≤ y → y ≤ 2041 → (SuriyaYear.init y).isAdhikavara cfg = (SuriyaYear.init y).isAdhikavara .official) ∧
    (yearsCsv cfg 1970 2041 = some yearsFile ↔
      ∀ y, 1968 ≤ y → y ≤ 2041 → (SuriyaYear.init y).isAdhikavara cfg = (SuriyaYear.init y).isAdhikavaraRule) := by
  rw [← c75_sheet, ← c75_text]
  exact ⟨c75_settings (.inr rfl) cfg, c75_settings (.inl rfl) cfg⟩

/-- The row of 1994, which the exception changes, and the one of 2000, whose distance it changes. -/
example : csvFields .official 1994 = some ["1994", "2537", "535", "54", "6", "11", "", "11", "x", "1994-07-22", "1994-07-22", "OK",
      "thaiorc.com, myhora.com", "calendar is missing adhikavāra, passing with exception"] ∧
    (csvFields .official 2000).map (fun r => r.getD 8 "") = some "3" ∧ (csvFields .default 2000).map (fun r => r.getD 8 "") = some "6" := by
  decide +kernel

/-- Settings other than the shipped ones that give the spreadsheet, and some that do not. -/
example : yearsCsv (withEntries .official [(1800, true), (2016, true)]) 1970 2041 = some sheetText ∧
    yearsCsv (withEntries .official [(2015, true)]) 1970 2041 ≠ some sheetText := by
  rw [ne_eq, (c75_which _).1, (c75_which _).1]
  constructor
  · intro y h1 h2
    have h : ∀ i : Fin 74, (SuriyaYear.init (1968 + (i.val : Int))).isAdhikavara (withEntries .official [(1800, true), (2016, true)]) =
        (SuriyaYear.init (1968 + (i.val : Int))).isAdhikavara .official := by decide +kernel
    have := h ⟨(y - 1968).toNat, by omega⟩
    rw [show (1968 : Int) + ((y - 1968).toNat : Int) = y by omega] at this
    exact this
  · intro h
    have := h 2015 (by omega) (by omega)
    revert this
    decide +kernel

end Verif.Props
