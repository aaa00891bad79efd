import Verif.Model.Machine
import Verif.Props.Machine
import Verif.Lemmas.Generate
/-
C65: the calendar on machine numbers.
-/
set_option autoImplicit false

namespace Verif.Props
open Verif.Go Verif.Model Verif.Lemmas

theorem init_year (y : Int) : (SuriyaYear.init y).Year = y := rfl

/-- A year that fits is an `int`. -/
theorem Fits.wrap {s : IntSize} {y : Int} (h : Fits s y) : wrapInt s y = y := by
  have := half_ge s
  unfold Fits at h
  exact wrapInt_id (by omega)

/-- `Time.Add` is exact as long as the seconds fit. -/
theorem addMachine_exact {t : Time} {d : Int} (h : (t.nanos + d).natAbs ≤ 10 ^ 18 * 10 ^ 9) : addMachine t d = t.add d := by
  unfold addMachine Time.add
  rw [wrap64_id (by unfold nsPerSec; omega) (by unfold nsPerSec; omega)]
  congr 1
  unfold nsPerSec
  omega

/-! ### Years -/

theorem adhikamasa_machine {s : IntSize} {y : Int} (h : Fits s (y + 1)) :
    (SuriyaYear.init y).isAdhikamasaM s = (SuriyaYear.init y).isAdhikamasa := by
  unfold SuriyaYear.isAdhikamasaM SuriyaYear.isAdhikamasa
  simp only [init_year]
  rw [h.wrap, init_machine h]

theorem carried_machine {s : IntSize} {y : Int} (h : Fits s (y - 1)) (h' : Fits s y) :
    (SuriyaYear.init y).hasCarriedAdhikavaraM s = (SuriyaYear.init y).hasCarriedAdhikavara := by
  unfold SuriyaYear.hasCarriedAdhikavaraM SuriyaYear.hasCarriedAdhikavara
  simp only [init_year]
  rw [h.wrap, init_machine h, adhikamasa_machine (by rw [Int.sub_add_cancel]; exact h')]

theorem adhikavara_machine (cfg : Config) {s : IntSize} {y : Int} (h : Fits s (y - 1)) (h' : Fits s (y + 1)) :
    (SuriyaYear.init y).isAdhikavaraM s cfg = (SuriyaYear.init y).isAdhikavara cfg := by
  unfold SuriyaYear.isAdhikavaraM SuriyaYear.isAdhikavara SuriyaYear.isAdhikavaraRuleM SuriyaYear.isAdhikavaraRule
  rw [adhikamasa_machine h', carried_machine h (h.between h' (by omega) (by omega))]
  rfl

theorem yearLength_machine (cfg : Config) {s : IntSize} {y : Int} (h : Fits s (y - 1)) (h' : Fits s (y + 1)) :
    (SuriyaYear.init y).yearLengthM s cfg = (SuriyaYear.init y).yearLength cfg := by
  unfold SuriyaYear.yearLengthM SuriyaYear.yearLength
  have e1 : wrapInt s ((6 * (30 + 29) : Int) + 30) = 6 * (30 + 29) + 30 := by cases s <;> rfl
  have e2 : wrapInt s ((6 * (30 + 29) : Int) + 1) = 6 * (30 + 29) + 1 := by cases s <;> rfl
  simp only
  rw [adhikamasa_machine h', adhikavara_machine cfg h h', e1, e2]

theorem deltaLoop_machine {test testM : SuriyaYear → Bool} (s : IntSize) (limit suYear : Int) (hs : Fits s suYear)
    (ht : ∀ y : Int, Fits s (y - 1) → Fits s (y + 1) → testM (SuriyaYear.init y) = test (SuriyaYear.init y)) (fuel : Nat) :
    ∀ y : Int, Fits s (y - fuel) → Fits s (y + 1) →
    SuriyaYear.deltaLoopM s testM limit suYear fuel y = SuriyaYear.deltaLoop test limit suYear fuel y := by
  induction fuel with
  | zero => intros; rfl
  | succ fuel ih =>
    intro y h h'
    have hy : Fits s y := h.between h' (by omega) (by omega)
    have hy' : Fits s (y - 1) := h.between h' (by omega) (by omega)
    have hw : wrapInt s (suYear - y) = suYear - y := by
      have := half_ge s
      unfold Fits at hs hy
      exact wrapInt_id (by omega)
    unfold SuriyaYear.deltaLoopM SuriyaYear.deltaLoop
    simp only
    rw [init_machine hy, init_year, ht _ hy' h', hw, hy'.wrap,
      ih _ (by convert h using 1; omega) (by convert hy using 1; omega)]

/-- The predicates and distances of a year on machine numbers. -/
theorem year_machine (cfg : Config) {s : IntSize} {y : Int} (h : Fits s (y - 101)) (h' : Fits s (y + 1)) :
    let su := SuriyaYear.initMachine s y
    let exact := SuriyaYear.init y
    su = exact ∧ su.isAdhikamasaM s = exact.isAdhikamasa ∧ su.isAdhikavaraM s cfg = exact.isAdhikavara cfg ∧
    su.yearLengthM s cfg = exact.yearLength cfg ∧ su.deltaAdhikamasaM s = exact.deltaAdhikamasa ∧
    su.deltaAdhikavaraM s cfg = exact.deltaAdhikavara cfg := by
  have hy : Fits s y := h.between h' (by omega) (by omega)
  have hy' : Fits s (y - 1) := h.between h' (by omega) (by omega)
  simp only
  rw [init_machine hy]
  refine ⟨rfl, adhikamasa_machine h', adhikavara_machine cfg hy' h', yearLength_machine cfg hy' h', ?_, ?_⟩
  · unfold SuriyaYear.deltaAdhikamasaM SuriyaYear.deltaAdhikamasa
    rw [init_year, hy'.wrap]
    exact deltaLoop_machine s _ _ hy (fun y _ h => adhikamasa_machine h) _ _ (by convert h using 1; omega) (by convert hy using 1; omega)
  · unfold SuriyaYear.deltaAdhikavaraM SuriyaYear.deltaAdhikavara
    rw [init_year, hy'.wrap]
    exact deltaLoop_machine s _ _ hy (fun y h h' => adhikavara_machine cfg h h') _ _ (by convert h using 1; omega)
      (by convert hy using 1; omega)

/-- C65: the predicates and distances of a year, computed with wrapping ints and rounded floats, are the unbounded ones. -/
theorem c65_year (cfg : Config) (y : Int) (h : y.natAbs ≤ 10 ^ 11) :
    let su := SuriyaYear.initMachine .bits64 y
    let exact := SuriyaYear.init y
    su = exact ∧ su.isAdhikamasaM .bits64 = exact.isAdhikamasa ∧ su.isAdhikavaraM .bits64 cfg = exact.isAdhikavara cfg ∧
    su.yearLengthM .bits64 cfg = exact.yearLength cfg ∧ su.deltaAdhikamasaM .bits64 = exact.deltaAdhikamasa ∧
    su.deltaAdhikavaraM .bits64 cfg = exact.deltaAdhikavara cfg :=
  year_machine cfg (fits64 (by omega)) (fits64 (by omega))

/-- C65: the year 99999999999. -/
example : (SuriyaYear.initMachine .bits64 99999999999).yearLengthM .bits64 .default = (SuriyaYear.init 99999999999).yearLength .default :=
  (c65_year .default 99999999999 (by decide)).2.2.2.1

/-! ### Kattika -/

theorem step_machine (cfg : Config) {s : IntSize} {y : Int} (h : Fits s (y - 1)) (h' : Fits s (y + 1)) :
    (if (SuriyaYear.init y).isAdhikamasaM s then wrapInt s ((6 * 29 + 6 * 30 : Int) + 30)
      else if (SuriyaYear.init y).isAdhikavaraM s cfg then wrapInt s ((6 * 29 + 6 * 30 : Int) + 1) else 6 * 29 + 6 * 30) =
    (if (SuriyaYear.init y).isAdhikamasa then (6 * 29 + 6 * 30 : Int) + 30
      else if (SuriyaYear.init y).isAdhikavara cfg then (6 * 29 + 6 * 30 : Int) + 1 else 6 * 29 + 6 * 30) := by
  have e1 : wrapInt s ((6 * 29 + 6 * 30 : Int) + 30) = 6 * 29 + 6 * 30 + 30 := by cases s <;> rfl
  have e2 : wrapInt s ((6 * 29 + 6 * 30 : Int) + 1) = 6 * 29 + 6 * 30 + 1 := by cases s <;> rfl
  rw [adhikamasa_machine h', adhikavara_machine cfg h h', e1, e2]

theorem kattikaLoop_machine (cfg : Config) {s : IntSize} {a b : Int} (ha : Fits s a) (hb : Fits s b) (target direction : Int) (fuel : Nat) :
    ∀ (y : Int) (t : Time),
    direction = 1 ∧ a ≤ y ∧ y + fuel + 1 ≤ b ∨ direction = -1 ∧ a ≤ y - fuel ∧ y + 1 ≤ b →
    t.nanos.natAbs + fuel * (384 * 86400000000000) ≤ 10 ^ 27 →
    kattikaLoopM s cfg target direction fuel y t = kattikaLoop cfg target direction fuel y t := by
  induction fuel with
  | zero => intros; rfl
  | succ fuel ih =>
    intro y t hd ht
    have hg := half_ge s
    have hf : ∀ z, a ≤ z → z ≤ b → Fits s z := fun z h1 h2 => ha.between hb h1 h2
    unfold kattikaLoopM kattikaLoop
    by_cases e : y = target
    · rw [if_pos e, if_pos e]
    rw [if_neg e, if_neg e]
    simp only
    obtain ⟨z, hz, hz', h1, h2⟩ : ∃ z : Int, (if direction = 1 then SuriyaYear.init (y + 1) else SuriyaYear.init y) = SuriyaYear.init z ∧
        (if direction = 1 then SuriyaYear.initMachine s (wrapInt s (y + 1)) else SuriyaYear.initMachine s y) = SuriyaYear.init z ∧
        Fits s (z - 1) ∧ Fits s (z + 1) := by
      rcases hd with ⟨rfl, h1, h2⟩ | ⟨rfl, h1, h2⟩
      · have hy := hf (y + 1) (by omega) (by omega)
        refine ⟨y + 1, rfl, ?_, hf _ (by omega) (by omega), hf _ (by omega) (by omega)⟩
        rw [if_pos rfl, hy.wrap, init_machine hy]
      · refine ⟨y, rfl, ?_, hf _ (by omega) (by omega), hf _ (by omega) (by omega)⟩
        rw [if_neg (by decide), init_machine (hf y (by omega) (by omega))]
    rw [hz, hz', step_machine cfg h1 h2]
    have hn : ∀ a b : Bool, 354 ≤ (if a then (6 * 29 + 6 * 30 : Int) + 30 else if b then (6 * 29 + 6 * 30 : Int) + 1 else 6 * 29 + 6 * 30) ∧
        (if a then (6 * 29 + 6 * 30 : Int) + 30 else if b then (6 * 29 + 6 * 30 : Int) + 1 else 6 * 29 + 6 * 30) ≤ 384 := by decide
    have hn := hn (SuriyaYear.init z).isAdhikamasa ((SuriyaYear.init z).isAdhikavara cfg)
    generalize (if (SuriyaYear.init z).isAdhikamasa then (6 * 29 + 6 * 30 : Int) + 30
      else if (SuriyaYear.init z).isAdhikavara cfg then (6 * 29 + 6 * 30 : Int) + 1 else 6 * 29 + 6 * 30) = n at hn ⊢
    have hm : (n * direction).natAbs ≤ 384 := by rcases hd with ⟨rfl, -⟩ | ⟨rfl, -⟩ <;> omega
    have hy : Fits s (y + direction) := by rcases hd with ⟨rfl, h1, h2⟩ | ⟨rfl, h1, h2⟩ <;> exact hf _ (by omega) (by omega)
    rw [wrapInt_id (n := n * direction) (by omega), daysDuration_exact (by omega), hy.wrap]
    generalize n * direction = m at hm ⊢
    rw [addMachine_exact (by unfold nsPerDay; omega)]
    refine ih _ _ (by rcases hd with ⟨rfl, h1, h2⟩ | ⟨rfl, h1, h2⟩ <;> omega) ?_
    unfold Time.add nsPerDay
    simp only
    omega

theorem direction_cases (y : Int) : kattikaDirection y = 1 ∧ 2016 < y ∨ kattikaDirection y = -1 ∧ y < 2016 ∨ y - 1 = kattikaEpoch.year := by
  have := epoch_year
  unfold kattikaDirection
  by_cases h1 : kattikaEpoch.year < y - 1
  · exact .inl ⟨if_pos h1, by omega⟩
  · by_cases h2 : kattikaEpoch.year > y - 1
    · exact .inr (.inl ⟨by rw [if_neg h1, if_pos h2], by omega⟩)
    · exact .inr (.inr (by omega))

theorem fits_now (s : IntSize) : Fits s 2015 ∧ Fits s 2016 := by cases s <;> (unfold Fits; decide)

/-- `CalculatePreviousKattika` on machine numbers. -/
theorem kattika_machine (cfg : Config) {s : IntSize} {y : Int} (h : y.natAbs ≤ 10 ^ 9) (h1 : Fits s (y - 1)) (h2 : Fits s y) :
    calculatePreviousKattikaM? s cfg y = calculatePreviousKattika? cfg y ∧
    calculatePreviousKattikaM s cfg y = calculatePreviousKattika cfg y := by
  have h1 : calculatePreviousKattikaM? s cfg y = calculatePreviousKattika? cfg y := by
    unfold calculatePreviousKattikaM? calculatePreviousKattika?
    have hd : kattikaDirectionM s y = kattikaDirection y := by
      unfold kattikaDirectionM kattikaDirection; rw [h1.wrap]
    have he : kattikaEpoch.nanos = 63584006400 * 10 ^ 9 := by decide
    obtain ⟨n1, n2⟩ := fits_now s
    rw [hd, h1.wrap]
    rcases direction_cases y with ⟨hd, hy⟩ | ⟨hd, hy⟩ | hd
    · exact kattikaLoop_machine cfg n1 h2 _ _ _ _ _ (.inl ⟨hd, by rw [epoch_year], by rw [epoch_year]; omega⟩) (by
        rw [epoch_year, he]; omega)
    · exact kattikaLoop_machine cfg h1 n2 _ _ _ _ _ (.inr ⟨hd, by rw [epoch_year]; omega, by rw [epoch_year]; decide⟩) (by
        rw [epoch_year, he]; omega)
    · rw [hd]
      simp [kattikaLoopM, kattikaLoop]
  exact ⟨h1, by unfold calculatePreviousKattikaM calculatePreviousKattika; rw [h1]⟩

/-- C65: `CalculatePreviousKattika` on machine numbers. -/
theorem c65_kattika (cfg : Config) (y : Int) (h : y.natAbs ≤ 10 ^ 9) :
    calculatePreviousKattikaM? .bits64 cfg y = calculatePreviousKattika? cfg y ∧
    calculatePreviousKattikaM .bits64 cfg y = calculatePreviousKattika cfg y :=
  kattika_machine cfg h (fits64 (by omega)) (fits64 (by omega))

/-- C65: a year in the far future. -/
example : calculatePreviousKattikaM .bits64 .official 1000000 = calculatePreviousKattika .official 1000000 := (c65_kattika .official 1000000 (by decide)).2

/-- The Kattika is at most 384 days per year away from the epoch. -/
theorem katDay_bound (cfg : Config) (y : Int) : (katDay cfg y - 735926).natAbs ≤ 384 * (y - 2016).natAbs := by
  have hl : ∀ z, 354 ≤ (SuriyaYear.init z).yearLength cfg ∧ (SuriyaYear.init z).yearLength cfg ≤ 384 := by
    intro z
    unfold SuriyaYear.yearLength
    generalize (SuriyaYear.init z).isAdhikamasa = a
    generalize (SuriyaYear.init z).isAdhikavara cfg = b
    revert a b
    decide
  have up : ∀ n : Nat, (katDay cfg (2016 + n) - 735926).natAbs ≤ 384 * n := by
    intro n
    induction n with
    | zero => simp [katDay_epoch]
    | succ n ih =>
      have := katDay_succ cfg (2016 + n)
      have := hl (2016 + n)
      push_cast
      rw [← Int.add_assoc]
      omega
  have down : ∀ n : Nat, (katDay cfg (2016 - n) - 735926).natAbs ≤ 384 * n := by
    intro n
    induction n with
    | zero => simp [katDay_epoch]
    | succ n ih =>
      have h1 := katDay_succ cfg (2016 - (n + 1))
      have := hl (2016 - (n + 1))
      have e : (2016 : Int) - (n + 1) + 1 = 2016 - n := by omega
      rw [e] at h1
      push_cast
      omega
  rcases Int.le_total 2016 y with h | h
  · have := up (y - 2016).toNat
    rw [show (2016 : Int) + ((y - 2016).toNat : Int) = y by omega] at this
    omega
  · have := down (2016 - y).toNat
    rw [show (2016 : Int) - ((2016 - y).toNat : Int) = y by omega] at this
    omega

/-- `AsalhaPuja` on machine numbers. -/
theorem asalha_machine (cfg : Config) {s : IntSize} {y : Int} (h : y.natAbs ≤ 10 ^ 9) (h1 : Fits s (y - 1)) (h2 : Fits s (y + 1)) :
    (SuriyaYear.initMachine s y).asalhaPujaM s cfg = (SuriyaYear.init y).asalhaPuja cfg := by
  have hy : Fits s y := h1.between h2 (by omega) (by omega)
  rw [init_machine hy]
  unfold SuriyaYear.asalhaPujaM SuriyaYear.asalhaPuja
  simp only
  rw [adhikamasa_machine h2, adhikavara_machine cfg h1 h2, init_year, (kattika_machine cfg h h1 hy).2]
  have hb := katDay_bound cfg y
  have hw : ∀ a b : Bool, (if a then wrapInt s ((4 * (29 + 30) : Int) + 30) else if b then wrapInt s ((4 * (29 + 30) : Int) + 1) else 4 * (29 + 30)) =
      (if a then (4 * (29 + 30) : Int) + 30 else if b then (4 * (29 + 30) : Int) + 1 else 4 * (29 + 30)) ∧
      (if a then (4 * (29 + 30) : Int) + 30 else if b then (4 * (29 + 30) : Int) + 1 else 4 * (29 + 30)).natAbs ≤ 266 := by
    cases s <;> decide
  have hw := hw (SuriyaYear.init y).isAdhikamasa ((SuriyaYear.init y).isAdhikavara cfg)
  rw [hw.1]
  have hw := hw.2
  generalize (if (SuriyaYear.init y).isAdhikamasa then (4 * (29 + 30) : Int) + 30
    else if (SuriyaYear.init y).isAdhikavara cfg then (4 * (29 + 30) : Int) + 1 else 4 * (29 + 30)) = n at hw ⊢
  rw [daysDuration_exact (by omega), kattika_eq, addMachine_exact (by simp only; unfold nsPerDay; omega)]

/-- C65: `AsalhaPuja` on machine numbers. -/
theorem c65_asalha (cfg : Config) (y : Int) (h : y.natAbs ≤ 10 ^ 9) :
    (SuriyaYear.initMachine .bits64 y).asalhaPujaM .bits64 cfg = (SuriyaYear.init y).asalhaPuja cfg :=
  asalha_machine cfg h (fits64 (by omega)) (fits64 (by omega))

/-- C65: the Asalha Puja of 2015. -/
example : (SuriyaYear.initMachine .bits64 2015).asalhaPujaM .bits64 .default = date 2015 7 30 0 0 :=
  (c65_asalha .default 2015 (by decide)).trans (by decide +kernel)

/-! ### Moons -/

/-- `NextUposatha` on machine numbers. -/
theorem next_machine (cfg : Config) {s : IntSize} {u : UposathaMoon} (hf : Fits s (u.Date.year - 1)) (hf' : Fits s (u.Date.year + 1))
    (hd : u.Date.nanos.natAbs ≤ 10 ^ 26) (h1 : (u.S_Number.natAbs : Int) + 1 < s.half) (h2 : (u.LunarMonth.natAbs : Int) + 1 < s.half)
    (h3 : (u.LunarSeason.natAbs : Int) + 1 < s.half) (h4 : (u.LunarYear.natAbs : Int) + 1 < s.half) :
    u.nextUposathaM s cfg = u.nextUposatha cfg := by
  unfold UposathaMoon.nextUposathaM UposathaMoon.nextUposatha
  simp only
  rw [init_machine (hf.between hf' (by omega) (by omega)), adhikamasa_machine hf', adhikavara_machine cfg hf hf']
  generalize (SuriyaYear.init u.Date.year).isAdhikamasa = a
  generalize (SuriyaYear.init u.Date.year).isAdhikavara cfg = v
  have hm : nextMonthM s a u.LunarMonth = nextMonth a u.LunarMonth := by
    unfold nextMonthM nextMonth; rw [wrapInt_id (by omega)]
  have hn : (if u.Phase = "new" then nextFullM s u a else nextNewM s u a v) = if u.Phase = "new" then nextFull u a else nextNew u a v := by
    split
    · unfold nextFullM nextFull; rw [wrapInt_id (by omega)]
    · unfold nextNewM nextNew; rw [hm, wrapInt_id (by omega), wrapInt_id (by omega), wrapInt_id (by omega)]
  rw [hn]
  have hu : (if u.Phase = "new" then nextFull u a else nextNew u a v).U_Days = 14 ∨
      (if u.Phase = "new" then nextFull u a else nextNew u a v).U_Days = 15 := by
    split
    · exact .inr rfl
    · unfold nextNew; simp only; split
      · split <;> simp
      · simp; omega
  generalize (if u.Phase = "new" then nextFull u a else nextNew u a v) = nu at hu ⊢
  rw [daysDuration_exact (by omega), addMachine_exact (by unfold nsPerDay; omega)]

/-- C65: `NextUposatha` on machine numbers, for any moon whose date and counters are not absurdly large. -/
theorem c65_next (cfg : Config) (u : UposathaMoon) (hy : u.Date.year.natAbs ≤ 10 ^ 11) (hd : u.Date.nanos.natAbs ≤ 10 ^ 26)
    (h1 : u.S_Number.natAbs ≤ 10 ^ 17) (h2 : u.LunarMonth.natAbs ≤ 10 ^ 17) (h3 : u.LunarSeason.natAbs ≤ 10 ^ 17)
    (h4 : u.LunarYear.natAbs ≤ 10 ^ 17) : u.nextUposathaM .bits64 cfg = u.nextUposatha cfg := by
  have h : IntSize.bits64.half = 9223372036854775808 := rfl
  exact next_machine cfg (fits64 (by omega)) (fits64 (by omega)) hd (by omega) (by omega) (by omega) (by omega)

/-- C65: an uposatha of 2015. -/
example : let u : UposathaMoon := { Date := date 2015 7 15 0 0, Phase := "new", LunarMonth := 13, LunarSeason := 2, S_Number := 9, S_Total := 10, M_Days := 30, LunarYear := 2558 }
    u.nextUposathaM .bits64 .default = u.nextUposatha .default :=
  c65_next .default _ (by decide) (by decide) (by decide) (by decide) (by decide) (by decide)

/-- The counters of a moon are between 0 and `n`, counting the year from `y`. -/
def Counted (n : Nat) (y : Int) (u : UposathaMoon) : Prop :=
  (0 ≤ u.S_Number ∧ u.S_Number ≤ n) ∧ (0 ≤ u.LunarMonth ∧ u.LunarMonth ≤ n) ∧ (0 ≤ u.LunarSeason ∧ u.LunarSeason ≤ n) ∧
  (y ≤ u.LunarYear ∧ u.LunarYear ≤ y + n)

theorem counted_next (cfg : Config) {n : Nat} (hn : 13 ≤ n) {y : Int} {u : UposathaMoon} (h : Counted n y u) :
    Counted (n + 1) y (u.nextUposatha cfg) := by
  unfold UposathaMoon.nextUposatha
  simp only
  generalize (SuriyaYear.init u.Date.year).isAdhikamasa = a
  generalize (SuriyaYear.init u.Date.year).isAdhikavara cfg = v
  unfold Counted at *
  have hm : 0 ≤ nextMonth a u.LunarMonth ∧ nextMonth a u.LunarMonth ≤ n + 1 := by
    unfold nextMonth; split_ifs <;> omega
  split
  · unfold nextFull; simp only; push_cast; omega
  · unfold nextNew
    simp only
    push_cast
    refine ⟨?_, hm, ?_, ?_⟩ <;> split_ifs <;> omega

theorem generateLoop_machine (cfg : Config) {s : IntSize} {sy y0 lo a : Int} (hsy : sy.natAbs ≤ 10 ^ 9) (ha : Fits s a)
    (hb : Fits s (sy + 1)) (hlo : daysSinceEpoch (a + 1) ≤ lo) (hlo' : -(10 : Int) ^ 12 ≤ lo) (fuel : Nat) :
    ∀ (n : Nat) (u : UposathaMoon) (evs : List CalendarEvent), 13 ≤ n → (y0.natAbs : Int) + n + fuel < s.half → Counted n y0 u →
    lo ≤ u.Date.day → u.Date.offset = 0 →
    generateLoopM s cfg sy fuel u evs = generateLoop cfg sy fuel u evs := by
  induction fuel with
  | zero => intros; rfl
  | succ fuel ih =>
    intro n u evs h13 hn hc hd ho
    unfold generateLoopM generateLoop
    by_cases hy : u.Date.year ≤ sy
    · rw [if_pos hy, if_pos hy]
      simp only
      have hday := (year_le_iff _ _).1 hy
      have hbound := daysSinceEpoch_bounds (sy + 1)
      have hbound' := daysSinceEpoch_bounds (a + 1)
      have hnan := nanos_eq u.Date
      have hsm : 0 ≤ u.Date.sinceMidnight ∧ u.Date.sinceMidnight < nsPerDay := by
        unfold Time.sinceMidnight nsPerDay; omega
      have hlow : a + 1 ≤ u.Date.year := by
        by_contra hcon
        have := (year_le_iff _ _).1 (show u.Date.year ≤ a by omega)
        omega
      have ha' := ha.2
      have hnx : u.nextUposathaM s cfg = u.nextUposatha cfg := by
        unfold Counted at hc
        refine next_machine cfg (ha.between hb (by omega) (by omega)) (ha.between hb (by omega) (by omega)) ?_
          (by omega) (by omega) (by omega) (by omega)
        rw [hnan, ho]
        unfold nsPerDay nsPerSec at *
        omega
      rw [hnx]
      have hdays := next_days cfg u
      refine ih (n + 1) _ _ (by omega) (by omega) (counted_next cfg h13 hc) ?_ ?_
      · rw [hdays.1, day_add]; omega
      · rw [hdays.1]; exact ho
    · rw [if_neg hy, if_neg hy]

/-- `GenerateSolarYear` on machine numbers. -/
theorem generate_machine (cfg : Config) {s : IntSize} {y a : Int} (h : y.natAbs ≤ 10 ^ 9) (hs : 2000 * (y.natAbs : Int) + 10 ^ 7 < s.half)
    (ha : Fits s a) (h1 : Fits s (y - 1)) (h2 : Fits s (y + 1)) (hlo : daysSinceEpoch (a + 1) ≤ katDay cfg y) :
    generateSolarYearM? s cfg y = generateSolarYear? cfg y ∧ generateSolarYearM s cfg y = generateSolarYear cfg y := by
  have hk := kattika_eq cfg y
  have hb := katDay_bound cfg y
  have hspec := yearYday_spec (katDay cfg y)
  have hb2 := daysSinceEpoch_bounds (yearYday (katDay cfg y)).1
  have hyd := yearDays_bounds (yearYday (katDay cfg y)).1
  have hyear : (yearYday (katDay cfg y)).1 = (calculatePreviousKattika cfg y).year := rfl
  rw [hyear] at hspec hb2 hyd
  have hseed : kattikaSeedM s cfg y = kattikaSeed cfg y := by
    unfold kattikaSeedM kattikaSeed
    simp only
    rw [(kattika_machine cfg h h1 (h1.between h2 (by omega) (by omega))).2, wrapInt_id (by unfold BEdiff; omega)]
  have hfuel : generateFuel cfg y ≤ 800 * y.natAbs + 2000000 := by
    unfold generateFuel
    have : (kattikaSeed cfg y).Date.day = katDay cfg y := rfl
    rw [this]
    have := daysSinceEpoch_bounds (y + 1)
    omega
  have h1 : generateSolarYearM? s cfg y = generateSolarYear? cfg y := by
    unfold generateSolarYearM? generateSolarYear?
    rw [hseed]
    refine generateLoop_machine cfg (y0 := (calculatePreviousKattika cfg y).year + BEdiff) h ha h2 hlo (by omega) _ 13 _ _ (by omega)
      (by unfold BEdiff; omega) ?_ (Int.le_refl _) ?_
    · unfold Counted kattikaSeed; simp
    · show (calculatePreviousKattika cfg y).offset = 0
      rw [hk]
  exact ⟨h1, by unfold generateSolarYearM generateSolarYear; rw [h1]⟩

/-- C65: `GenerateSolarYear` on machine numbers. -/
theorem c65_generate (cfg : Config) (y : Int) (h : y.natAbs ≤ 10 ^ 9) :
    generateSolarYearM? .bits64 cfg y = generateSolarYear? cfg y ∧ generateSolarYearM .bits64 cfg y = generateSolarYear cfg y := by
  refine generate_machine cfg (a := -10 ^ 10) h ?_ (fits64 (by decide)) (fits64 (by omega)) (fits64 (by omega)) ?_
  · show _ < (9223372036854775808 : Int)
    omega
  · have := katDay_bound cfg y
    have := daysSinceEpoch_bounds (-10 ^ 10 + 1)
    omega

/-- C65: the years 2015 and minus one million. -/
example : generateSolarYearM .bits64 .default 2015 = generateSolarYear .default 2015 ∧
    generateSolarYearM .bits64 .default (-1000000) = generateSolarYear .default (-1000000) :=
  ⟨(c65_generate .default 2015 (by decide)).2, (c65_generate .default (-1000000) (by decide)).2⟩

/-! ### Calendar days -/

theorem astroLoop_machine (s : IntSize) (files : Int → AstroFile) (f t : Time) (n : Nat) : ∀ (y : Int) (ms : List AstroMoon),
    (y.natAbs : Int) + n < s.half → astroLoopM s files f t n y ms = astroLoop files f t n y ms := by
  induction n with
  | zero => intros; rfl
  | succ n ih =>
    intro y ms h
    have hi := fun ms => ih (y + 1) ms (by omega)
    unfold astroLoopM astroLoop
    simp only [wrapInt_id (show ((y + 1).natAbs : Int) < s.half by omega), hi]
    rfl

theorem eventYears_machine (cfg : Config) (s : IntSize) (f t : Time) (lo hi : Int) (hl : -s.half < lo) (hh : hi + 1 < s.half)
    (hg : ∀ y, lo ≤ y → y ≤ hi → generateSolarYearM s cfg y = generateSolarYear cfg y) (n : Nat) : ∀ (y : Int) (ds : List CalDay),
    lo ≤ y → y + n ≤ hi + 1 → eventYearsM s cfg f t n y ds = eventYears cfg f t n y ds := by
  induction n with
  | zero => intros; rfl
  | succ n ih =>
    intro y ds h1 h2
    unfold eventYearsM eventYears
    rw [wrapInt_id (by omega), hg y (by omega) (by omega)]
    exact ih _ _ (by omega) (by omega)

/-- `GetCalDays` on machine numbers. -/
theorem calDays_machine (cfg : Config) (s : IntSize) (files : Int → AstroFile) (f t : Time) {lo hi : Int} (hl : -s.half < 3 * lo)
    (hh : 3 * hi + 1 < s.half) (hg : ∀ y, lo ≤ y → y ≤ hi → generateSolarYearM s cfg y = generateSolarYear cfg y)
    (hf : lo ≤ f.year) (ht : t.year ≤ hi) (h0 : lo ≤ 0 ∧ 0 ≤ hi) : getCalDaysM s cfg files f t = getCalDays cfg files f t := by
  unfold getCalDaysM getCalDays unsortedCalDays getAstroMoons
  by_cases h : t.year < f.year
  · have : yearCount f t = 0 := by unfold yearCount; omega
    rw [this]
    rfl
  · have hc : (yearCount f t : Int) = t.year - f.year + 1 := by unfold yearCount; omega
    rw [astroLoop_machine s files f t _ _ _ (by omega)]
    cases astroLoop files f t (yearCount f t) f.year [] with
    | none => rfl
    | some ms =>
      simp only
      rw [eventYears_machine cfg s f t lo hi (by omega) (by omega) hg _ _ _ hf (by omega)]
      rfl

/-- C65: `GetCalDays` on machine numbers: for ranges between the years -10^9 and 10^9 the wrapping of ints, durations and
seconds and the rounding of floats change nothing, whatever the settings and the astronomical files. -/
theorem c65_calDays (cfg : Config) (files : Int → AstroFile) (f t : Time) (hf : -(10 : Int) ^ 9 ≤ f.year)
    (ht : t.year ≤ 10 ^ 9) : getCalDaysM .bits64 cfg files f t = getCalDays cfg files f t :=
  calDays_machine cfg .bits64 files f t (by decide) (by decide) (fun y h1 h2 => (c65_generate cfg y (by omega)).2) hf ht (by decide)

/-- C65: two years of a calendar. -/
example (files : Int → AstroFile) : getCalDaysM .bits64 .default files (date 2015 1 1 0 0) (date 2016 12 31 0 0) =
    getCalDays .default files (date 2015 1 1 0 0) (date 2016 12 31 0 0) := c65_calDays _ _ _ _ (by decide) (by decide)

/-! ### Days -/

/-- The integer part of `SuriyaDay.Init` on machine numbers. -/
theorem day_machine {s : IntSize} {y d : Int} (h : Fits s y) (hd : d.natAbs ≤ 10 ^ 12) (hds : 1000 * (d.natAbs : Int) < s.half) :
    SuriyaDay.initM s y d = SuriyaDay.init y d := by
  unfold SuriyaDay.initM SuriyaDay.init
  rw [init_machine h]
  have hg := half_ge s
  obtain ⟨hs, h⟩ := h
  have hA : ((y - CSdiff) * EraDays + EraHorakhun).natAbs ≤ 292207 * (10 ^ 12 + 1000) := by
    unfold CSdiff EraDays EraHorakhun; omega
  have hAs : (((y - CSdiff) * EraDays + EraHorakhun).natAbs : Int) < s.half := by
    unfold CSdiff EraDays EraHorakhun; omega
  have hHs : 800 * ((SuriyaYear.init y).Horakhun.natAbs : Int) < s.half + 800 := by
    show 800 * ((((y - CSdiff) * EraDays + EraHorakhun).tdiv 800 + 1).natAbs : Int) < _
    have : 800 * (((y - CSdiff) * EraDays + EraHorakhun).tdiv 800).natAbs ≤ ((y - CSdiff) * EraDays + EraHorakhun).natAbs := by
      rw [Int.natAbs_tdiv]; show 800 * (_ / 800) ≤ _; omega
    omega
  have hH : (SuriyaYear.init y).Horakhun.natAbs ≤ 366 * 10 ^ 12 + 1 := by
    show (((y - CSdiff) * EraDays + EraHorakhun).tdiv 800 + 1).natAbs ≤ _
    have : (((y - CSdiff) * EraDays + EraHorakhun).tdiv 800).natAbs ≤ 366 * 10 ^ 12 := by
      rw [Int.natAbs_tdiv]; show _ / 800 ≤ _; omega
    omega
  have hT : (SuriyaYear.init y).Tithi.natAbs < 30 := by
    show (Int.tmod _ 30).natAbs < 30
    rw [Int.natAbs_tmod]; exact Nat.mod_lt _ (by decide)
  simp only
  generalize (SuriyaYear.init y).Horakhun = H at hH hHs ⊢
  generalize (SuriyaYear.init y).Tithi = T at hT ⊢
  have hcs : wrapInt s (y - CSdiff) = y - CSdiff := wrapInt_id (by unfold CSdiff; omega)
  have hbe : wrapInt s (y + BEdiff) = y + BEdiff := wrapInt_id (by unfold BEdiff; omega)
  have ha1 : wrapInt s ((y - CSdiff) * EraDays) = (y - CSdiff) * EraDays := wrapInt_id (by unfold CSdiff EraDays; omega)
  have he : wrapInt s (d - T) = d - T := wrapInt_id (by omega)
  have hh : wrapInt s (H + (d - T)) = H + (d - T) := wrapInt_id (by omega)
  simp only [hcs, hbe, ha1, he, hh, wrapInt_id hAs]
  have hm : (((y - CSdiff) * EraDays + EraHorakhun).tmod EraYears).natAbs < 800 := by
    rw [Int.natAbs_tmod]; exact Nat.mod_lt _ (by decide)
  generalize ((y - CSdiff) * EraDays + EraHorakhun).tmod EraYears = M at hm ⊢
  have hk1 : wrapInt s (KammacubalaDaily - M) = KammacubalaDaily - M := wrapInt_id (by unfold KammacubalaDaily; omega)
  have hk2 : wrapInt s ((d - T) * KammacubalaDaily) = (d - T) * KammacubalaDaily := wrapInt_id (by unfold KammacubalaDaily; omega)
  have hk3 : wrapInt s (KammacubalaDaily - M + (d - T) * KammacubalaDaily) = KammacubalaDaily - M + (d - T) * KammacubalaDaily :=
    wrapInt_id (by unfold KammacubalaDaily; omega)
  simp only [hk1, hk2, hk3]
  have hG : (H + (d - T)).natAbs ≤ 368 * 10 ^ 12 := by omega
  have hGs : 400 * ((H + (d - T)).natAbs : Int) < s.half + 20000 := by
    clear hA hAs hH hs h hm hk1 hk2 hk3 hcs hbe ha1 he hh hG
    omega
  generalize H + (d - T) = G at hG hGs ⊢
  have w3 : wrapInt s (G + EraUccabala) = G + EraUccabala := wrapInt_id (by unfold EraUccabala; omega)
  have w4 : wrapInt s (G * CycleDaily) = G * CycleDaily := wrapInt_id (by unfold CycleDaily; omega)
  have w5 : wrapInt s (G * CycleDaily + EraAvoman) = G * CycleDaily + EraAvoman := wrapInt_id (by unfold CycleDaily EraAvoman; omega)
  simp only [w3, w4, w5]
  have hBb : (G * CycleDaily + EraAvoman).natAbs ≤ 4050 * 10 ^ 12 := by unfold CycleDaily EraAvoman; omega
  have hBs : 20 * ((G * CycleDaily + EraAvoman).natAbs : Int) < s.half := by unfold CycleDaily EraAvoman; omega
  generalize G * CycleDaily + EraAvoman = B at hBb hBs ⊢
  have f2 : intFloor s (fl (toFloat B / CycleSolar)) = B.fdiv CycleSolar := by
    rw [toFloat_small (by omega)]
    unfold intFloor
    have hf := floor_fl_div (a := B) (d := 692) (by decide) (by rw [abs_lt]; omega)
    have e : ((CycleSolar : Int) : ℚ) = ((692 : Int) : ℚ) := rfl
    rw [hf, Int.fdiv_eq_ediv_of_nonneg _ (by decide)]
    exact wrapInt_id (by omega)
  rw [f2]
  have hfd : B.fdiv CycleSolar = B / 692 := Int.fdiv_eq_ediv_of_nonneg _ (by decide)
  have hQ : (B.fdiv CycleSolar).natAbs ≤ 6 * 10 ^ 12 := by rw [hfd]; omega
  have hQs : ((B.fdiv CycleSolar).natAbs : Int) ≤ B.natAbs := by rw [hfd]; omega
  generalize B.fdiv CycleSolar = Q at hQ hQs ⊢
  have w6 : wrapInt s (Q + EraMasaken) = Q + EraMasaken := wrapInt_id (by unfold EraMasaken; omega)
  have w7 : wrapInt s (Q + EraMasaken + G) = Q + EraMasaken + G := wrapInt_id (by unfold EraMasaken; omega)
  have hM : ((Q + EraMasaken + G).tdiv 30).natAbs ≤ 14 * 10 ^ 12 := by
    rw [Int.natAbs_tdiv]; show (Q + 0 + G).natAbs / 30 ≤ _; omega
  have hMs : (((Q + EraMasaken + G).tdiv 30).natAbs : Int) < s.half := by
    rw [Int.natAbs_tdiv]; show (((Q + 0 + G).natAbs / 30 : Nat) : Int) < _; omega
  have f3 : intFloor s (toFloat ((Q + EraMasaken + G).tdiv 30)) = (Q + EraMasaken + G).tdiv 30 := by
    rw [toFloat_small (by omega), intFloor_int (by omega)]
  simp only [w6, w7, f3]

/-- C65: the integer part of `SuriyaDay.Init` on machine numbers. -/
theorem c65_day (y d : Int) (h : y.natAbs ≤ 10 ^ 12) (hd : d.natAbs ≤ 10 ^ 12) : SuriyaDay.initM .bits64 y d = SuriyaDay.init y d :=
  day_machine (fits64 h) hd (by show _ < (9223372036854775808 : Int); omega)

/-- C65: a day far in the future. -/
example : SuriyaDay.initM .bits64 999999999 300 = SuriyaDay.init 999999999 300 := c65_day _ _ (by decide) (by decide)

/-- The machine versions do differ from the unbounded ones somewhere: a counter at the largest int wraps. -/
example : (({ Phase := "new", S_Number := 9223372036854775807 } : UposathaMoon).nextUposathaM .bits64 .default).S_Number =
    -9223372036854775808 := by decide +kernel

end Verif.Props
