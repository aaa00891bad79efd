import Verif.Props.Early
import Verif.Props.Text
import Verif.Props.IcalText
/-
C44, C49 and C58 with the settings as shipped: every year is orderly.
-/
set_option autoImplicit false

namespace Verif.Props
open Verif.Go Verif.Model Verif.Spec Verif.Lemmas

/-- C44: with the settings as shipped every year is orderly. -/
theorem c44_orderly (cfg : Config) (hs : Shipped cfg) (y : Int) : Orderly cfg y := by
  have hx : ¬ ((SuriyaYear.init y).isAdhikamasa = true ∧ (SuriyaYear.init y).isAdhikavara cfg = true) := by
    rcases hs with rfl | rfl
    · exact c08_exclusive_default _
    · exact c08_exclusive_official y
  refine ⟨hx, ?_⟩
  change _ ≤ katDay cfg y
  have hoff : y < 631 ∨ 4116 < y → katDay cfg y = katDay .default y := by
    intro hy
    rcases hs with rfl | rfl
    · rfl
    · rw [katDay_official, if_neg (by omega)]; omega
  rcases Int.lt_or_le y 631 with h | h
  · rcases Int.lt_or_le y 591 with h' | h'
    · have h0 : daysSinceEpoch 591 + 371 ≤ katDay .default 591 := by
        have := scanKat_spec katDay_591 early_scan 591 (by omega) (by omega)
        rw [decide_eq_true_eq] at this
        exact this.1 rfl
      have := late_before .default h0 (591 - y).toNat
      rw [show (591 - ((591 - y).toNat : Int)) = y by omega] at this
      simp only at this
      rw [hoff (.inl h)]
      split at this
      · omega
      · split at this <;> omega
    · have := scanKat_spec katDay_591 early_scan y (by omega) (by omega)
      rw [decide_eq_true_eq] at this
      rw [hoff (.inl h)]
      have := this.2.1
      omega
  · rcases Int.lt_or_le 4116 y with h' | h'
    · rw [hoff (.inr h'), katDay_closed (by omega)]
      have ha := age_range y
      have hc := carry_range y
      have ht := tieAdh_range (y - 1)
      have hb := daysSinceEpoch_bounds y
      have h1 := surplus_add (y := 638) (by omega) (y - 638).toNat
      rw [show (638 : Int) + ((y - 638).toNat : Int) = y by omega] at h1
      have h2 : surplus 638 = 0 := surplus_before (by omega)
      unfold hor eraNum
      omega
    · exact (shipped_window hs h h').1

/-- C44: the summary text of every uposatha of any year with the shipped settings. -/
theorem c44_uposatha_text (cfg : Config) (hs : Shipped cfg) (y : Int) (u : UposathaMoon)
    (hu : .uposatha u ∈ generateSolarYear cfg y) :
    ∃ p ∈ ["New", "Full"], ∃ d ∈ ["14", "15"], ∃ s ∈ ["Hemanta", "Gimha", "Vassāna"], ∃ t ∈ ["8", "10"],
      ∃ n ∈ ["1", "2", "3", "4", "5", "6", "7", "8", "9", "10"],
      (p = "Full" → d = "15") ∧ (t = "10" → s = "Gimha") ∧ (t = "8" → n ≠ "9" ∧ n ≠ "10") ∧
      u.string = p ++ " Moon - " ++ d ++ " day " ++ s ++ " " ++ n ++ "/" ++ t :=
  c44_uposatha_text_orderly cfg y (c44_orderly cfg hs y) u hu

/-- C44: the year 20000 has events. -/
example : ∃ e, e ∈ generateSolarYear .official 20000 :=
  List.exists_mem_of_ne_nil _ ((c25_years _ (.inr rfl)).1 20000 (by decide) (by decide))

/-- C49: the text of a day with the shipped settings, for any range. -/
theorem c49_day_text (cfg : Config) (hs : Shipped cfg) (files : Int → AstroFile) (fromDate toDate : Time) (l : List CalDay)
    (h : getCalDays cfg files fromDate toDate = some l)
    (c : CalDay) (hc : c ∈ l) : ∃ u a m : String, c.string = u ++ ", " ++ a ++ ", " ++ m ∧
      (u = "" ↔ c.UposathaMoon = []) ∧ (a = "" ↔ c.AstroMoon = []) ∧ (m = "" ↔ c.HalfMoon = []) ∧
      (∀ x ∈ c.UposathaMoon, u = x.string) ∧ (∀ x ∈ c.AstroMoon, a = x.string) ∧ (∀ x ∈ c.HalfMoon, m = x.string) ∧
      c.string.toList.count ',' = 2 :=
  c49_day_text_orderly cfg files fromDate toDate (fun y _ _ => c44_orderly cfg hs y) l h c hc

/-- C49: a calendar to which it applies. -/
example : getCalDays .official (fun _ => .missing) (date 4990 1 1 0 0) (date 5010 12 31 0 0) ≠ none := by
  rw [ne_eq, c52_calendar]; decide +kernel

/-- C58: with the shipped settings no line of the text is longer than the 75 octets after which RFC 5545 asks to fold. -/
theorem c58_short (cfg : Config) (hs : Shipped cfg) (files : Int → AstroFile) (stamps : Nat → Stamp)
    (hst : ∀ i, GoodStamp (stamps i)) (nowFrom nowTo : Int) (f t : String) (a b : Time)
    (hi : cliInit nowFrom nowTo f t = some (a, b)) (h0 : 0 ≤ a.year) (h9 : b.year ≤ 9998) (text : List Char)
    (ht : icalText cfg files stamps nowFrom nowTo f t = some text) (lines : List (List Char))
    (hl : readLines text = some lines) : ∀ l ∈ lines, octets l ≤ 75 :=
  c58_short_orderly cfg files stamps hst nowFrom nowTo f t a b hi h0 h9 (fun y _ _ => c44_orderly cfg hs y) text ht lines hl

/-- C58: the lines of the file of C58. -/
example (text : List Char) (ht : icalText .official asalhaFiles demoStamps 0 0 "2015-07-22" "2015-08-09" = some text)
    (lines : List (List Char)) (hl : readLines text = some lines) : ∀ l ∈ lines, octets l ≤ 75 :=
  c58_short .official (.inr rfl) asalhaFiles demoStamps demoStamps_good 0 0 _ _ _ _ asalha_range (by decide) (by decide) text ht lines hl

end Verif.Props
