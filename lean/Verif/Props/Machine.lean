import Verif.Model.YearMachine
import Verif.Model.Horakhun
import Verif.Lemmas.Num
/-
Properties C02 (machine arithmetic of `Init`) and C16 (`HorakhunToDate`). The statements about 32-bit platforms are collected in
Props/Platform.lean (C73).
-/
set_option autoImplicit false

namespace Verif.Props
open Verif.Go Verif.Model Verif.Lemmas

theorem toFloat_small {n : Int} (h : n.natAbs ≤ 2 ^ 53) : toFloat n = (n : ℚ) := by
  unfold toFloat; apply fl_int; rw [abs_le]; omega

theorem intFloor_int {s : IntSize} {n : Int} (h : (n.natAbs : Int) < s.half) : intFloor s (n : ℚ) = n := by
  unfold intFloor; rw [Int.floor_intCast]; exact wrapInt_id h

/-! ### C02 -/

/-- The years for which the product in suriya_year.go:63 is an `int` of the size `s`. -/
def Fits (s : IntSize) (y : Int) : Prop := (((y - 638) * 292207).natAbs : Int) + 373 < s.half ∧ y.natAbs ≤ 10 ^ 12

theorem fits64 {y : Int} (h : y.natAbs ≤ 10 ^ 12) : Fits .bits64 y := by
  refine ⟨?_, h⟩
  show _ < (9223372036854775808 : Int)
  omega

theorem fits32 {y : Int} (h1 : -6711 ≤ y) (h2 : y ≤ 7987) : Fits .bits32 y := by
  refine ⟨?_, by omega⟩
  show _ < (2147483648 : Int)
  omega

theorem Fits.between {s : IntSize} {a b y : Int} (ha : Fits s a) (hb : Fits s b) (h1 : a ≤ y) (h2 : y ≤ b) : Fits s y := by
  unfold Fits at *
  omega

/-- On machine numbers `Init` computes exactly the unbounded integer values, if the first product fits. -/
theorem init_machine {s : IntSize} {y : Int} (h : Fits s y) : SuriyaYear.initMachine s y = SuriyaYear.init y := by
  obtain ⟨h1, h2⟩ := h
  have hg := half_ge s
  have hcs : wrapInt s (y - CSdiff) = y - CSdiff := wrapInt_id (by unfold CSdiff; omega)
  have hbe : wrapInt s (y + BEdiff) = y + BEdiff := wrapInt_id (by unfold BEdiff; omega)
  have ha1 : wrapInt s ((y - CSdiff) * EraDays) = (y - CSdiff) * EraDays := wrapInt_id (by unfold CSdiff EraDays; omega)
  have ha : wrapInt s ((y - CSdiff) * EraDays + EraHorakhun) = (y - CSdiff) * EraDays + EraHorakhun :=
    wrapInt_id (by unfold CSdiff EraDays EraHorakhun; omega)
  unfold SuriyaYear.initMachine SuriyaYear.init
  simp only [hcs, hbe, ha1, ha]
  generalize hA : (y - CSdiff) * EraDays + EraHorakhun = A
  have hAb : A.natAbs ≤ 292207 * (10 ^ 12 + 1000) := by
    unfold CSdiff EraDays EraHorakhun at hA; omega
  have hAs : (A.natAbs : Int) < s.half := by
    unfold CSdiff EraDays EraHorakhun at hA; omega
  have hdiv : 800 * (A.tdiv 800).natAbs ≤ A.natAbs := by
    rw [Int.natAbs_tdiv]; show 800 * (A.natAbs / 800) ≤ _; omega
  have hmod : (A.tmod 800).natAbs < 800 := by
    rw [Int.natAbs_tmod]; exact Nat.mod_lt _ (by decide)
  have w1 : wrapInt s (A.tdiv 800 + 1) = A.tdiv 800 + 1 := wrapInt_id (by omega)
  have f1 : intFloor s (toFloat (A.tdiv 800 + 1)) = A.tdiv 800 + 1 := by
    rw [toFloat_small (by omega), intFloor_int (by omega)]
  have w2 : wrapInt s (800 - A.tmod 800) = 800 - A.tmod 800 := wrapInt_id (by omega)
  simp only [w1, f1, w2]
  generalize hH : A.tdiv 800 + 1 = H
  have hHb : H.natAbs ≤ 366 * 10 ^ 12 + 1 := by omega
  have hHs : 800 * (H.natAbs : Int) < s.half + 800 := by omega
  have w3 : wrapInt s (H + EraUccabala) = H + EraUccabala := wrapInt_id (by unfold EraUccabala; omega)
  have w4 : wrapInt s (H * CycleDaily) = H * CycleDaily := wrapInt_id (by unfold CycleDaily; omega)
  have w5 : wrapInt s (H * CycleDaily + EraAvoman) = H * CycleDaily + EraAvoman :=
    wrapInt_id (by unfold CycleDaily EraAvoman; omega)
  simp only [w3, w4, w5]
  generalize hB : H * CycleDaily + EraAvoman = B
  have hBb : B.natAbs ≤ 4027 * 10 ^ 12 := by unfold CycleDaily EraAvoman at hB; omega
  have hBs : 60 * (B.natAbs : Int) < s.half := by unfold CycleDaily EraAvoman at hB; omega
  have f2 : intFloor s (fl (toFloat B / CycleSolar)) = B.fdiv CycleSolar := by
    rw [toFloat_small (by omega)]
    unfold intFloor
    have e : ((CycleSolar : Int) : ℚ) = ((692 : Int) : ℚ) := rfl
    have hf := floor_fl_div (a := B) (d := 692) (by decide) (by rw [abs_lt]; omega)
    rw [hf, Int.fdiv_eq_ediv_of_nonneg _ (by decide)]
    exact wrapInt_id (by omega)
  rw [f2]
  have hfd : B.fdiv CycleSolar = B / 692 := Int.fdiv_eq_ediv_of_nonneg _ (by decide)
  have hQ : (B.fdiv CycleSolar).natAbs ≤ 6 * 10 ^ 12 := by rw [hfd]; omega
  have hQs : ((B.fdiv CycleSolar).natAbs : Int) ≤ B.natAbs := by rw [hfd]; omega
  generalize B.fdiv CycleSolar = Q at *
  have w6 : wrapInt s (Q + EraMasaken) = Q + EraMasaken := wrapInt_id (by unfold EraMasaken; omega)
  have w7 : wrapInt s (Q + EraMasaken + H) = Q + EraMasaken + H := wrapInt_id (by unfold EraMasaken; omega)
  have w8 : wrapInt s (Q + H) = Q + H := wrapInt_id (by omega)
  have hM : ((Q + EraMasaken + H).tdiv 30).natAbs ≤ 13 * 10 ^ 12 := by
    rw [Int.natAbs_tdiv]; show (Q + 0 + H).natAbs / 30 ≤ _; omega
  have hMs : (((Q + EraMasaken + H).tdiv 30).natAbs : Int) < s.half := by
    rw [Int.natAbs_tdiv]; show (((Q + 0 + H).natAbs / 30 : Nat) : Int) < _; omega
  have f3 : intFloor s (toFloat ((Q + EraMasaken + H).tdiv 30)) = (Q + EraMasaken + H).tdiv 30 := by
    rw [toFloat_small (by omega), intFloor_int hMs]
  simp only [w6, w7, w8, f3]

/-- C02: on machine numbers `Init` computes exactly the unbounded integer values for |year| ≤ 10^12. -/
theorem c02_init_machine (y : Int) (h : y.natAbs ≤ 10 ^ 12) :
    SuriyaYear.initMachine .bits64 y = SuriyaYear.init y := init_machine (fits64 h)

/-- C02: the values of a year far in the future do not wrap. -/
example : SuriyaYear.initMachine .bits64 1000000000000 = SuriyaYear.init 1000000000000 ∧
    (SuriyaYear.init 1000000000000).Horakhun = 365258749766966 := ⟨c02_init_machine _ (by decide), by decide⟩

/-- The float round trip of the cycle positions is exact. -/
theorem cycle_pos_machine {s : IntSize} {y : Int} (h : Fits s y) :
    cyclePosMachine s (1984 - 57 * 10) 57 y = (SuriyaYear.init y).adhikavaraCyclePos ∧
    cyclePosMachine s (1984 - 19 * 10) 19 y = (SuriyaYear.init y).adhikamasaCyclePos := by
  obtain ⟨h1, h2⟩ := h
  have hg := half_ge s
  have key : ∀ base : Int, base.natAbs ≤ 10000 →
      intFloor s |toFloat (wrapInt s (base - y))| = ((base - y).natAbs : Int) := by
    intro base hb
    rw [wrapInt_id (by omega), toFloat_small (by omega)]
    have : |((base - y : Int) : ℚ)| = (((base - y).natAbs : Int) : ℚ) := by
      rw [← Int.cast_abs]; congr 1; exact Int.abs_eq_natAbs _
    rw [this, intFloor_int (by omega)]
  unfold cyclePosMachine SuriyaYear.adhikavaraCyclePos SuriyaYear.adhikamasaCyclePos
  rw [key _ (by decide), key _ (by decide)]
  exact ⟨rfl, rfl⟩

/-- C02 for the cycle positions: the float round trip is exact. -/
theorem c02_cycle_pos_machine (y : Int) (h : y.natAbs ≤ 10 ^ 12) :
    cyclePosMachine .bits64 (1984 - 57 * 10) 57 y = (SuriyaYear.init y).adhikavaraCyclePos ∧
    cyclePosMachine .bits64 (1984 - 19 * 10) 19 y = (SuriyaYear.init y).adhikamasaCyclePos := cycle_pos_machine (fits64 h)

/-- C02: the positions of 2015. -/
example : cyclePosMachine .bits64 (1984 - 57 * 10) 57 2015 = 32 ∧ cyclePosMachine .bits64 (1984 - 19 * 10) 19 2015 = 13 := by decide +kernel

/-- The bound matters: at some larger year the product `CS_Year * EraDays` overflows and the two differ. -/
theorem c02_overflow_witness : SuriyaYear.initMachine .bits64 (10 ^ 14) ≠ SuriyaYear.init (10 ^ 14) := by
  intro h
  have h1 := congrArg SuriyaYear.Kammacubala h
  have e1 : (SuriyaYear.initMachine .bits64 (10 ^ 14)).Kammacubala = 800 - (wrapInt .bits64 (wrapInt .bits64
    (wrapInt .bits64 (10 ^ 14 - 638) * 292207) + 373)).tmod 800 := by
    show wrapInt .bits64 _ = _
    decide
  rw [e1] at h1
  revert h1
  decide

/-! ### C16 -/

/-- The float comparison of the loop decides the integer comparison. -/
theorem abs_fl_gt (n : Int) : |fl (n : ℚ)| > ((stepDays : Int) : ℚ) ↔ n.natAbs > 103240 := by
  have key : ∀ m : Int, 0 ≤ m → (fl (m : ℚ) > ((stepDays : Int) : ℚ) ↔ m > 103240) := by
    intro m hm
    have hs : ((stepDays : Int) : ℚ) = 103240 := by norm_num [stepDays]
    rw [hs]
    constructor
    · intro h
      by_contra hc
      have := fl_int m (by rw [abs_le]; omega)
      rw [this] at h
      have : ((103240 : Int) : ℚ) < (m : ℚ) := by simpa using h
      have : (103240 : Int) < m := by exact_mod_cast this
      omega
    · intro h
      have h1 : ((103241 : Int) : ℚ) ≤ (m : ℚ) := by exact_mod_cast h
      have h2 := le_fl_of_int (k := 103241) (by norm_num) h1
      push_cast at h2; linarith
  rcases Int.le_total 0 n with h | h
  · have : 0 ≤ fl (n : ℚ) := by
      have := fl_mono (p := 0) (q := (n : ℚ)) (by exact_mod_cast h)
      rwa [fl_zero] at this
    rw [abs_of_nonneg this, key n h]; omega
  · have h2 : fl ((-n : Int) : ℚ) = -fl (n : ℚ) := by push_cast; exact fl_neg _
    have h3 : fl (n : ℚ) ≤ 0 := by
      have := fl_mono (p := (n : ℚ)) (q := 0) (by exact_mod_cast h)
      rwa [fl_zero] at this
    rw [abs_of_nonpos h3, ← h2, key (-n) (by omega)]; omega

theorem daysDuration_exact {n : Int} (h : n.natAbs ≤ 103240) : daysDuration n = n * nsPerDay := by
  unfold daysDuration nsPerDay
  rw [wrap64_id (n := n * 3600000000000) (by omega) (by omega), wrap64_id (by omega) (by omega)]
  omega

theorem horakhunLoop_spec (s : IntSize) (fuel : Nat) : ∀ (direction delta : Int) (t : Time),
    (direction = 1 ∧ 0 ≤ delta ∨ direction = -1 ∧ delta ≤ 0) → (delta.natAbs : Int) < s.half → delta.natAbs < fuel →
    horakhunLoop s direction fuel delta t = some (t.add (delta * nsPerDay)) := by
  induction fuel with
  | zero => intro _ _ _ _ _ h; omega
  | succ fuel ih =>
    intro direction delta t hd hb hf
    unfold horakhunLoop
    by_cases h : delta.natAbs > 103240
    · rw [if_pos ((abs_fl_gt delta).2 h)]
      have hstep : daysDuration (wrapInt s (direction * stepDays)) = direction * stepDays * nsPerDay := by
        rcases hd with ⟨rfl, _⟩ | ⟨rfl, _⟩ <;> cases s <;> decide
      have hdel : wrapInt s (delta + wrapInt s (wrapInt s (direction * -1) * stepDays)) = delta - direction * 103240 := by
        have : wrapInt s (wrapInt s (direction * -1) * stepDays) = - direction * 103240 := by
          rcases hd with ⟨rfl, _⟩ | ⟨rfl, _⟩ <;> cases s <;> decide
        rw [this]
        rcases hd with ⟨rfl, _⟩ | ⟨rfl, _⟩ <;> rw [wrapInt_id (by omega)] <;> omega
      rw [hstep, hdel, ih]
      · unfold Time.add stepDays nsPerDay
        simp only [Option.some.injEq, Time.mk.injEq, and_true]
        rcases hd with ⟨rfl, _⟩ | ⟨rfl, _⟩ <;> omega
      · rcases hd with ⟨rfl, _⟩ | ⟨rfl, _⟩
        · left; omega
        · right; omega
      · rcases hd with ⟨rfl, _⟩ | ⟨rfl, _⟩ <;> omega
      · rcases hd with ⟨rfl, _⟩ | ⟨rfl, _⟩ <;> omega
    · rw [if_neg (fun hc => h ((abs_fl_gt delta).1 hc)), daysDuration_exact (by omega)]

/-- The loop of `HorakhunToDate` terminates and the result is the reference time moved by exactly the day difference. -/
theorem horakhun_terminates {s : IntSize} {h : Int} (hb : ((h - 484049).natAbs : Int) < s.half) :
    horakhunToDate? s h = some (horakhunRefTime.add ((h - 484049) * nsPerDay)) := by
  unfold horakhunToDate?
  simp only [horakhunRef]
  rw [wrapInt_id (by omega)]
  apply horakhunLoop_spec
  · split
    · right; omega
    · left; omega
  · omega
  · omega

/-- C16: the loop terminates and the result is the reference time moved by exactly the day difference. -/
theorem c16_terminates (h : Int) (hb : h.natAbs ≤ 10 ^ 12) :
    horakhunToDate? .bits64 h = some (horakhunRefTime.add ((h - 484049) * nsPerDay)) :=
  horakhun_terminates (by show _ < (9223372036854775808 : Int); omega)

/-- C16: a day of 1963 and one far before the era. -/
example : horakhunToDate? .bits64 484049 = some horakhunRefTime ∧ (horakhunToDate? .bits64 (-1000000000000)).isSome = true := by
  constructor
  · rw [c16_terminates 484049 (by decide)]; decide
  · rw [c16_terminates (-1000000000000) (by decide)]; rfl

/-- C16: `HorakhunToDate(h)` is 1963-07-05 23:59:59 UTC plus exactly `h - 484049` days. -/
theorem c16_day_for_day (h : Int) (hb : h.natAbs ≤ 10 ^ 12) :
    horakhunToDate .bits64 h = { nanos := (horakhunToDate .bits64 484049).nanos + (h - 484049) * nsPerDay, offset := 0 } ∧
    (horakhunToDate .bits64 484049).year = 1963 ∧ (horakhunToDate .bits64 484049).month = 7 ∧
    (horakhunToDate .bits64 484049).dayOfMonth = 5 ∧
    (horakhunToDate .bits64 484049).sinceMidnight = (23 * 3600 + 59 * 60 + 59) * nsPerSec := by
  have e1 : horakhunToDate .bits64 484049 = horakhunRefTime.add ((484049 - 484049) * nsPerDay) := by
    unfold horakhunToDate; rw [c16_terminates _ (by decide)]; rfl
  have e2 : horakhunToDate .bits64 h = horakhunRefTime.add ((h - 484049) * nsPerDay) := by
    unfold horakhunToDate; rw [c16_terminates _ hb]; rfl
  rw [e1, e2]
  refine ⟨?_, by decide, by decide, by decide, by decide⟩
  unfold Time.add
  simp only [Time.mk.injEq]
  refine ⟨by omega, by decide⟩

/-- C16: Horakhun 0 is 24 March 638 of the proleptic Gregorian calendar. -/
example : horakhunToDate .bits64 0 = date 638 3 24 ((23 * 3600 + 59 * 60 + 59) * nsPerSec) 0 := by
  rw [(c16_day_for_day 0 (by decide)).1]; decide +kernel

/-- C16: successive horakhuns are successive calendar days; distinct horakhuns are distinct days. -/
theorem c16_day (h : Int) (hb : h.natAbs ≤ 10 ^ 12) : (horakhunToDate .bits64 h).day = h + 232741 := by
  rw [(c16_day_for_day h hb).1]
  have e1 : horakhunToDate .bits64 484049 = horakhunRefTime.add ((484049 - 484049) * nsPerDay) := by
    unfold horakhunToDate; rw [c16_terminates _ (by decide)]; rfl
  rw [e1]
  have : (horakhunRefTime.add ((484049 - 484049) * nsPerDay)).nanos = 61930742399000000000 := by decide
  rw [this]
  unfold Time.day nsPerDay; simp only; omega

/-- C16: the day after it. -/
example : (horakhunToDate .bits64 1).day = 1 + 232741 := c16_day 1 (by decide)

end Verif.Props
