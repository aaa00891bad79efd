import Verif.Spec.AlmanacText
import Verif.Props.Range
import Verif.Props.Cli
/-
C72: the generated events are those of the almanac.
-/
set_option autoImplicit false

namespace Verif.Props
open Verif.Go Verif.Model Verif.Spec Verif.Lemmas

/-- The table of exceptions in effect. -/
def _root_.Verif.Model.Config.table (cfg : Config) (y : Int) : Option Bool := if cfg.useExceptions then cfg.exceptions y else none

/-! ### The years -/

theorem monthDue_eq {y : Int} (h : 638 ≤ y) : (SuriyaYear.init y).isAdhikamasa = Almanac.monthDue y := by
  have near : ∀ z, 638 ≤ z → (SuriyaYear.init z).wouldBeAdhikamasa = Almanac.nearNewMoon z := by
    intro z hz
    have ht := init_Tithi hz
    unfold SuriyaYear.wouldBeAdhikamasa Almanac.nearNewMoon
    have e : Almanac.moonAge z = (SuriyaYear.init z).Tithi := by rw [ht]; rfl
    rw [e]
    simp only
    have h0 : 0 ≤ (SuriyaYear.init z).Tithi ∧ (SuriyaYear.init z).Tithi < 30 := by rw [ht]; omega
    generalize (SuriyaYear.init z).Tithi = t at *
    rw [Bool.eq_iff_iff]
    simp only [Bool.or_eq_true, Bool.and_eq_true, decide_eq_true_eq]
    omega
  unfold SuriyaYear.isAdhikamasa Almanac.monthDue
  simp only [init_Year]
  rw [near y h, near (y + 1) (by omega), Bool.and_comm]

theorem dayDue_eq {y : Int} (h : 638 ≤ y) : (SuriyaYear.init y).wouldBeAdhikavara = Almanac.dayDue y := by
  have hl := c04_year_days y h
  rw [init_Horakhun h, init_Horakhun (y := y + 1) (by omega)] at hl
  have e1 : Almanac.eraDay y = hor y := rfl
  have e2 : Almanac.eraDay (y + 1) = hor (y + 1) := rfl
  have e3 : Almanac.excess y = (SuriyaYear.init y).Avoman := by rw [init_Avoman h]; rfl
  unfold SuriyaYear.wouldBeAdhikavara Almanac.dayDue
  rw [e1, e2, e3, hl]
  cases (SuriyaYear.init y).isSuriyaLeap
  · simp only [Bool.false_eq_true, if_false]
    rw [Bool.eq_iff_iff]
    simp only [decide_eq_true_eq]
    omega
  · simp

theorem dayAdded_eq (cfg : Config) {y : Int} (h : 639 ≤ y) :
    (SuriyaYear.init y).isAdhikavara cfg = Almanac.dayAdded cfg.table y := by
  have rule : (SuriyaYear.init y).isAdhikavaraRule =
      (!Almanac.monthDue y && (Almanac.dayDue y || (Almanac.monthDue (y - 1) && Almanac.dayDue (y - 1)))) := by
    have hc : (SuriyaYear.init y).hasCarriedAdhikavara = (Almanac.monthDue (y - 1) && Almanac.dayDue (y - 1)) := by
      rw [← monthDue_eq (y := y - 1) (by omega), ← dayDue_eq (y := y - 1) (by omega)]; rfl
    unfold SuriyaYear.isAdhikavaraRule
    rw [monthDue_eq (by omega), dayDue_eq (by omega), hc]
    cases Almanac.monthDue y <;> cases Almanac.monthDue (y - 1) <;> cases Almanac.dayDue y <;> cases Almanac.dayDue (y - 1) <;> rfl
  unfold SuriyaYear.isAdhikavara Almanac.dayAdded Config.table
  rw [init_Year, rule]
  by_cases hu : cfg.useExceptions = true
  · simp only [hu, if_true]
    cases cfg.exceptions y <;> rfl
  · simp only [hu, Bool.false_eq_true, if_false]

/-- The kind of a year by its two flags. -/
def kindBy (a v : Bool) : Almanac.Kind := if a then .extraMonth else if v then .extraDay else .plain

theorem kindOf_eq (cfg : Config) {y : Int} (h : 639 ≤ y) : Almanac.kindOf cfg.table y = kindBy (fa y) (fv cfg y) := by
  unfold Almanac.kindOf kindBy
  rw [← monthDue_eq (by omega), ← dayAdded_eq cfg h]

theorem kind_days : ∀ a v : Bool, ((Almanac.monthsOf (kindBy a v)).map Prod.snd).sum = len a v := by decide

/-- C72: from the second year of the era the almanac has the Kattika full moons of `CalculatePreviousKattika`. -/
theorem c72_kattika (cfg : Config) (kattika : Int → Int) (hk : Almanac.Kattikas cfg.table kattika) (y : Int) (h : 639 ≤ y) :
    kattika y = (calculatePreviousKattika cfg y).day := by
  have step : ∀ z, 639 ≤ z → kattika (z + 1) - katDay cfg (z + 1) = kattika z - katDay cfg z := by
    intro z hz
    rw [hk.step, kindOf_eq cfg hz, kind_days, katDay_succ, len_eq]
    generalize len _ _ = L
    omega
  have base : kattika 2016 - katDay cfg 2016 = 0 := by
    have h1 := isDate_day hk.anchor (date_day (y := 2015) (m := 11) (d := 25) (by decide) (by decide) (by decide) (by decide)).1
    rw [h1, katDay_epoch]
    decide
  have up : ∀ n : Nat, kattika (2016 + n) - katDay cfg (2016 + n) = 0 := by
    intro n
    induction n with
    | zero => exact base
    | succ n ih =>
      have := step (2016 + n) (by omega)
      rw [← ih, ← this]
      rfl
  have down : ∀ n : Nat, (n : Int) ≤ 2016 - 639 → kattika (2016 - n) - katDay cfg (2016 - n) = 0 := by
    intro n
    induction n with
    | zero => intro _; exact base
    | succ n ih =>
      intro hn
      have := step (2016 - (n + 1 : Nat)) (by omega)
      have e : (2016 : Int) - (n + 1 : Nat) + 1 = 2016 - n := by omega
      rw [e] at this
      rw [← this]
      exact ih (by omega)
  have key : kattika y - katDay cfg y = 0 := by
    rcases Int.le_total 2016 y with hy | hy
    · have := up (y - 2016).toNat
      have e : (2016 : Int) + ((y - 2016).toNat : Int) = y := by omega
      rwa [e] at this
    · have := down (2016 - y).toNat (by omega)
      have e : (2016 : Int) - ((2016 - y).toNat : Int) = y := by omega
      rwa [e] at this
  unfold katDay at key
  omega

/-! ### The almanac exists -/

/-- C72: for each table of exceptions there is exactly one almanac. -/
theorem c72_exists_unique (t : Int → Option Bool) : ∃ kattika, Almanac.Kattikas t kattika ∧ ∀ k', Almanac.Kattikas t k' → k' = kattika := by
  let len (y : Int) : Int := ((Almanac.monthsOf (Almanac.kindOf t y)).map Prod.snd).sum
  obtain ⟨base, hbase⟩ : ∃ d, IsDate d 2015 11 25 :=
    ⟨_, (date_day (y := 2015) (m := 11) (d := 25) (by decide) (by decide) (by decide) (by decide)).1⟩
  let up : Nat → Int := fun n => Nat.rec base (fun i x => x + len (2016 + i)) n
  let down : Nat → Int := fun n => Nat.rec base (fun i x => x - len (2015 - i)) n
  let K : Int → Int := fun y => if 2016 ≤ y then up (y - 2016).toNat else down (2016 - y).toNat
  have h0 : K 2016 = base := rfl
  have hK : Almanac.Kattikas t K := by
    refine ⟨by rw [h0]; exact hbase, ?_⟩
    intro y
    show K (y + 1) = K y + len y
    rcases Int.lt_or_le y 2016 with hy | hy
    · obtain ⟨n, hn⟩ : ∃ n : Nat, y = 2015 - n := ⟨(2015 - y).toNat, by omega⟩
      have e1 : K y = down (n + 1) := by
        show (if 2016 ≤ y then _ else down (2016 - y).toNat) = _
        have e : (2016 - y).toNat = n + 1 := by omega
        rw [if_neg (by omega), e]
      have e2 : K (y + 1) = down n := by
        show (if 2016 ≤ y + 1 then up (y + 1 - 2016).toNat else down (2016 - (y + 1)).toNat) = _
        split
        · have : n = 0 := by omega
          subst this
          have : (y + 1 - 2016).toNat = 0 := by omega
          rw [this]
          rfl
        · have e : (2016 - (y + 1)).toNat = n := by omega
          rw [e]
      have e3 : down (n + 1) = down n - len (2015 - n) := rfl
      rw [e1, e2, e3, hn]
      omega
    · obtain ⟨n, hn⟩ : ∃ n : Nat, y = 2016 + n := ⟨(y - 2016).toNat, by omega⟩
      have e1 : K y = up n := by
        show (if 2016 ≤ y then up (y - 2016).toNat else _) = _
        have e : (y - 2016).toNat = n := by omega
        rw [if_pos (by omega), e]
      have e2 : K (y + 1) = up (n + 1) := by
        show (if 2016 ≤ y + 1 then up (y + 1 - 2016).toNat else _) = _
        have e : (y + 1 - 2016).toNat = n + 1 := by omega
        rw [if_pos (by omega), e]
      have e3 : up (n + 1) = up n + len (2016 + n) := rfl
      rw [e1, e2, e3, hn]
  refine ⟨K, hK, ?_⟩
  intro k' hk'
  have hb : k' 2016 = K 2016 := isDate_day hk'.anchor hK.anchor
  have step : ∀ y, k' (y + 1) - K (y + 1) = k' y - K y := by
    intro y
    rw [hk'.step, hK.step]
    omega
  funext y
  have hup : ∀ n : Nat, k' (2016 + n) - K (2016 + n) = 0 := by
    intro n
    induction n with
    | zero => simp only [Int.natCast_zero, Int.add_zero]; omega
    | succ n ih =>
      have := step (2016 + n)
      have e : (2016 : Int) + ((n + 1 : Nat) : Int) = 2016 + n + 1 := by omega
      rw [e]; omega
  have hdown : ∀ n : Nat, k' (2016 - n) - K (2016 - n) = 0 := by
    intro n
    induction n with
    | zero => simp only [Int.natCast_zero, Int.sub_zero]; omega
    | succ n ih =>
      have := step (2016 - (n + 1 : Nat))
      have e : (2016 : Int) - ((n + 1 : Nat) : Int) + 1 = 2016 - n := by omega
      rw [e] at this; omega
  rcases Int.le_total 2016 y with hy | hy
  · have := hup (y - 2016).toNat
    have e : (2016 : Int) + ((y - 2016).toNat : Int) = y := by omega
    rw [e] at this; omega
  · have := hdown (2016 - y).toNat
    have e : (2016 : Int) - ((2016 - y).toNat : Int) = y := by omega
    rw [e] at this; omega

/-- C72: the anchor. -/
theorem kattika_2016 {t : Int → Option Bool} {kattika : Int → Int} (hk : Almanac.Kattikas t kattika) : kattika 2016 = 735926 :=
  (isDate_day hk.anchor (date_day (y := 2015) (m := 11) (d := 25) (by decide) (by decide) (by decide) (by decide)).1).trans (by decide)

/-- C72: the almanac of the default settings has its Kattika full moon of 2014 where the code has it. -/
example : ∃ kattika, Almanac.Kattikas Config.default.table kattika ∧ kattika 2015 = (date 2014 11 6 0 0).day := by
  obtain ⟨kattika, hk, -⟩ := c72_exists_unique Config.default.table
  exact ⟨kattika, hk, (c72_kattika .default kattika hk 2015 (by decide)).trans (by decide +kernel)⟩

/-- C72: with the official exceptions the lunar year up to the Kattika full moon of 2016 has an extra day and ends on
14 November 2016. -/
example : ∃ kattika, Almanac.Kattikas Config.official.table kattika ∧ Almanac.kindOf Config.official.table 2016 = .extraDay ∧
    IsDate (kattika 2017) 2016 11 14 := by
  obtain ⟨kattika, hk, -⟩ := c72_exists_unique Config.official.table
  have hkind : Almanac.kindOf Config.official.table 2016 = .extraDay := by decide +kernel
  refine ⟨kattika, hk, hkind, ?_⟩
  have h := hk.step 2016
  rw [hkind, kattika_2016 hk] at h
  have h : kattika 2017 = 736281 := h
  rw [h]
  exact (date_day (y := 2016) (m := 11) (d := 14) (by decide) (by decide) (by decide) (by decide)).1

/-! ### The uposathas -/


/-- The record of an uposatha of the almanac. -/
def record (u : Almanac.Uposatha) : UposathaMoon :=
  { Date := ⟨u.day * nsPerDay, 0⟩, Calendar := 0, Status := 2, Phase := if u.full then "full" else "new", Event := Almanac.eventName u.puja,
    S_Number := u.number, S_Total := u.total, U_Days := u.fortnight, M_Days := u.monthDays, LunarMonth := u.month,
    LunarSeason := u.season, LunarYear := u.year, HasAdhikavara := u.added, Source := "", Comments := "" }

theorem table_almanac : ∀ a v : Bool, (a && v) = false →
    (List.range (moons a)).map (fun i => published (tab a v (i + 1))) =
      (Almanac.uposathas (kindBy a v)).map fun e => record { e with year := 1 } := by
  decide +kernel

theorem record_shift (d ly : Int) (u : UposathaMoon) (e : Almanac.Uposatha) (h : published u = record { e with year := 1 }) :
    published (shift d ly u) = record { e with day := d + e.day, year := ly + 1 } := by
  have hd : u.Date = ⟨e.day * nsPerDay, 0⟩ := congrArg UposathaMoon.Date h
  have hl : u.LunarYear = 1 := congrArg UposathaMoon.LunarYear h
  have e1 : published (shift d ly u) = { published u with Date := u.Date.add (d * nsPerDay), LunarYear := u.LunarYear + ly } := rfl
  rw [e1, h, hd, hl]
  unfold record Time.add
  simp only [UposathaMoon.mk.injEq, Time.mk.injEq, and_true, true_and]
  constructor
  · unfold nsPerDay; omega
  · omega

/-- Where the uposathas of a lunar year lie in it. -/
theorem offsets : ∀ k : Almanac.Kind, ∀ e ∈ Almanac.uposathas k, 15 ≤ e.day ∧
    e.day ≤ ((Almanac.monthsOf k).map Prod.snd).sum ∧
    (e.day = ((Almanac.monthsOf k).map Prod.snd).sum ∨ e.day ≤ ((Almanac.monthsOf k).map Prod.snd).sum - 15) ∧
    (e.day = ((Almanac.monthsOf k).map Prod.snd).sum ↔ e.month = 12 ∧ e.full = true) ∧
    (e.puja = some .asalha → e.day = ((Almanac.monthsOf k).map Prod.snd).sum - 118) := by
  intro k; cases k <;> decide +kernel

theorem lengths : ∀ k : Almanac.Kind, 354 ≤ ((Almanac.monthsOf k).map Prod.snd).sum := by
  intro k; cases k <;> decide

theorem kattika_mono {t : Int → Option Bool} {kattika : Int → Int} (hk : Almanac.Kattikas t kattika) (y : Int) (n : Nat) :
    kattika y + 354 * n ≤ kattika (y + n) := by
  induction n with
  | zero => simp
  | succ n ih =>
    have h1 := hk.step (y + n)
    have h2 := lengths (Almanac.kindOf t (y + n))
    have e : y + ((n + 1 : Nat) : Int) = y + n + 1 := by omega
    rw [e, h1]
    omega

theorem kattika_mono' {t : Int → Option Bool} {kattika : Int → Int} (hk : Almanac.Kattikas t kattika) {y z : Int} (h : y ≤ z) :
    kattika y + 354 * (z - y) ≤ kattika z := by
  have := kattika_mono hk y (z - y).toNat
  have e : y + ((z - y).toNat : Int) = z := by omega
  rw [e] at this
  omega

/-- The first months of all kinds of years are alike. -/
theorem tab_alike : ∀ a v : Bool, ∀ j : Fin 6, tab a v j = tab false false j := by decide +kernel

theorem inYear_iff (day y : Int) : Almanac.InYear day y ↔ daysSinceEpoch y ≤ day ∧ day < daysSinceEpoch (y + 1) := by
  have hc := civil_spec ⟨day * nsPerDay, 0⟩
  have hd : (⟨day * nsPerDay, 0⟩ : Time).day = day := by unfold Time.day nsPerDay; simp
  rw [hd] at hc
  rw [← year_eq_iff]
  have hy : (⟨day * nsPerDay, 0⟩ : Time).year = (yearYday day).1 := by unfold Time.year; rw [hd]
  rw [hy] at hc
  constructor
  · rintro ⟨m, d, h⟩; exact (isDate_unique hc h).1
  · rintro rfl; exact ⟨_, _, hc⟩

section
variable {cfg : Config} {a b : Int} (hs : Steady cfg 74 a b) (ha : 639 ≤ a) {kattika : Int → Int}
  (hk : Almanac.Kattikas cfg.table kattika) {y : Int}
include hs ha hk

omit hs in
theorem katDay_eq (h1 : a ≤ y) : kattika y = katDay cfg y := c72_kattika cfg kattika hk y (by omega)

/-- The moons of the table are those of the almanac. -/
theorem tab_uposatha (h1 : a ≤ y) (h2 : y ≤ b) (i : Nat) (hi : i < moons (fa y)) :
    ∃ e ∈ Almanac.uposathas (Almanac.kindOf cfg.table y),
      published (shift (katDay cfg y) (y + 542) (tab (fa y) (fv cfg y) (i + 1))) =
        record { e with day := kattika y + e.day, year := y + 543 } := by
  have ht := table_almanac (fa y) (fv cfg y) (hs.excl h1 h2)
  have hm : published (tab (fa y) (fv cfg y) (i + 1)) ∈
      (List.range (moons (fa y))).map (fun i => published (tab (fa y) (fv cfg y) (i + 1))) :=
    List.mem_map.2 ⟨i, List.mem_range.2 hi, rfl⟩
  rw [ht] at hm
  obtain ⟨e, he, hr⟩ := List.mem_map.1 hm
  refine ⟨e, by rw [kindOf_eq cfg (by omega)]; exact he, ?_⟩
  rw [record_shift _ _ _ e hr.symm, katDay_eq ha hk h1]
  have : y + 542 + 1 = y + 543 := by omega
  rw [this]

theorem uposatha_tab (h1 : a ≤ y) (h2 : y ≤ b) (e : Almanac.Uposatha) (he : e ∈ Almanac.uposathas (Almanac.kindOf cfg.table y)) :
    ∃ i, i < moons (fa y) ∧ off (fa y) (fv cfg y) (i + 1) = e.day ∧
      published (shift (katDay cfg y) (y + 542) (tab (fa y) (fv cfg y) (i + 1))) =
        record { e with day := kattika y + e.day, year := y + 543 } := by
  have ht := table_almanac (fa y) (fv cfg y) (hs.excl h1 h2)
  rw [kindOf_eq cfg (by omega)] at he
  have hm : record { e with year := 1 } ∈ (Almanac.uposathas (kindBy (fa y) (fv cfg y))).map fun e => record { e with year := 1 } :=
    List.mem_map.2 ⟨e, he, rfl⟩
  rw [← ht] at hm
  obtain ⟨i, hi, hr⟩ := List.mem_map.1 hm
  refine ⟨i, List.mem_range.1 hi, ?_, ?_⟩
  · have : (tab (fa y) (fv cfg y) (i + 1)).Date = ⟨e.day * nsPerDay, 0⟩ := congrArg UposathaMoon.Date hr
    unfold off
    rw [this]
    unfold Time.day nsPerDay; simp
  · rw [record_shift _ _ _ e hr, katDay_eq ha hk h1]
    have : y + 542 + 1 = y + 543 := by omega
    rw [this]

/-- The moons generated for a year are uposathas of the almanac. -/
theorem chain_uposatha (h1 : a ≤ y) (h2 : y < b) (k : Nat) (hk1 : 1 ≤ k) (hk2 : k ≤ moons (fa y) + 5) :
    ∃ e, Almanac.IsUposatha cfg.table kattika e ∧ published (chain cfg y k) = record e := by
  have hr := hs.regular (by omega) h1 h2
  rw [chain_exact hr (hs.notEarly y h1 (by omega)) k hk2]
  unfold ext
  by_cases hc : k ≤ moons (fa y)
  · rw [if_pos hc]
    obtain ⟨i, rfl⟩ : ∃ i, k = i + 1 := ⟨k - 1, by omega⟩
    obtain ⟨e, he, hq⟩ := tab_uposatha hs ha hk h1 (by omega) i (by omega)
    exact ⟨_, ⟨y, e, he, rfl⟩, hq⟩
  · rw [if_neg hc, ← shift_next]
    obtain ⟨i, hi⟩ : ∃ i, k - moons (fa y) = i + 1 := ⟨k - moons (fa y) - 1, by omega⟩
    have hm : 5 ≤ moons (fa (y + 1)) := by unfold moons; split <;> omega
    obtain ⟨e, he, hq⟩ := tab_uposatha hs ha hk (y := y + 1) (by omega) (by omega) i (by omega)
    rw [tab_alike _ _ ⟨i + 1, by omega⟩] at hq
    rw [hi]
    exact ⟨_, ⟨y + 1, e, he, rfl⟩, hq⟩

/-- The uposathas of the almanac between the Kattika full moon and the end of the year are generated for the year. -/
theorem uposatha_chain (h1 : a ≤ y) (h2 : y < b) (u : Almanac.Uposatha) (hu : Almanac.IsUposatha cfg.table kattika u)
    (h3 : kattika y < u.day) (h4 : u.day < daysSinceEpoch (y + 1)) :
    ∃ k, 1 ≤ k ∧ k ≤ moons (fa y) + 5 ∧ published (chain cfg y k) = record u := by
  have hr := hs.regular (by omega) h1 h2
  obtain ⟨z, e, he, rfl⟩ := hu
  have ho := offsets _ e he
  have hz := hk.step z
  have hn : daysSinceEpoch (y + 1) - 74 ≤ katDay cfg (y + 1) := hs.notEarly (y + 1) (by omega) (by omega)
  have hky := katDay_eq ha hk (y := y + 1) (by omega)
  simp only at h3 h4
  have z1 : y ≤ z := by
    by_contra hlt
    have := kattika_mono' hk (y := z + 1) (z := y) (by omega)
    omega
  have z2 : z ≤ y + 1 := by
    by_contra hlt
    have := kattika_mono' hk (y := y + 1) (z := z) (by omega)
    omega
  obtain ⟨i, hi, hoff, hq⟩ := uposatha_tab hs ha hk (y := z) (by omega) (by omega) e he
  have hcases : z = y ∨ z = y + 1 := by omega
  rcases hcases with rfl | rfl
  · refine ⟨i + 1, by omega, by omega, ?_⟩
    rw [chain_exact hr (hs.notEarly z h1 (by omega)) (i + 1) (by omega)]
    unfold ext
    rw [if_pos (by omega)]
    exact hq
  · have small : ∀ a v : Bool, (a && v) = false → ∀ i : Fin 26, i.val < moons a → off a v (i + 1) < 74 → i.val < 5 := by decide +kernel
    have hm : moons (fa (y + 1)) ≤ 26 := by unfold moons; split <;> omega
    have hi5 := small (fa (y + 1)) (fv cfg (y + 1)) (hs.excl (by omega) (by omega)) ⟨i, by omega⟩ hi
      (by simp only; rw [hoff]; omega)
    simp only at hi5
    refine ⟨moons (fa y) + (i + 1), by omega, by omega, ?_⟩
    rw [chain_exact hr (hs.notEarly y h1 (by omega)) _ (by omega)]
    unfold ext
    rw [if_neg (by omega), ← shift_next, Nat.add_sub_cancel_left, ← tab_alike (fa (y + 1)) (fv cfg (y + 1)) ⟨i + 1, by omega⟩]
    exact hq

omit ha hk in
theorem beyond (h1 : a ≤ y) (h2 : y < b) (k : Nat) (hk2 : moons (fa y) + 5 ≤ k) : y < (chain cfg y k).Date.year := by
  have h := hs.regular (by omega) h1 h2
  have hkk := katDay_succ cfg y
  rw [len_eq] at hkk
  have h74' : daysSinceEpoch (y + 1) - 74 ≤ katDay cfg (y + 1) := hs.notEarly (y + 1) (by omega) (by omega)
  have hd := chain_day_ext h (moons (fa y) + 5) (by omega)
  have hl : ∀ a v : Bool, (a && v) = false → eoff a v (moons a + 5) = len a v + 74 := by decide +kernel
  rw [hl _ _ h.excl] at hd
  have h0 : ¬ (chain cfg y (moons (fa y) + 5)).Date.year ≤ y := by
    unfold Time.year
    rw [year_le_iff]
    generalize len _ _ = L at *
    omega
  have := chain_year_mono cfg y hk2
  omega

/-- C72: the uposathas generated for a year are those of the almanac in that year. -/
theorem c72_uposatha_steady (h1 : a ≤ y) (h2 : y < b) (m : UposathaMoon) : .uposatha m ∈ generateSolarYear cfg y ↔
    ∃ u, Almanac.IsUposatha cfg.table kattika u ∧ Almanac.InYear u.day y ∧ m = record u := by
  have day : ∀ u, (record u).Date.year = y ↔ Almanac.InYear u.day y := by
    intro u
    rw [inYear_iff, ← year_eq_iff]
    have hd : (record u).Date.day = u.day := by unfold record Time.day nsPerDay; simp
    unfold Time.year; rw [hd]
  rw [c22_uposatha_iff]
  constructor
  · rintro ⟨k, hk1, rfl, hy⟩
    rw [moon_eq] at hy ⊢
    have hk2 : k ≤ moons (fa y) + 5 := by
      by_contra hlt
      have := beyond hs h1 h2 k (by omega)
      have e : (published (chain cfg y k)).Date.year = (chain cfg y k).Date.year := rfl
      omega
    obtain ⟨e, he, hq⟩ := chain_uposatha hs ha hk h1 h2 k hk1 hk2
    rw [hq] at hy ⊢
    exact ⟨e, he, (day e).1 hy, rfl⟩
  · rintro ⟨u, hu, hy, rfl⟩
    have hy' := (inYear_iff _ _).1 hy
    have hlate : katDay cfg y < daysSinceEpoch y := hs.notLate y h1 (by omega)
    have hky := katDay_eq ha hk (y := y) h1
    obtain ⟨k, hk1, -, hq⟩ := uposatha_chain hs ha hk h1 h2 u hu (by omega) hy'.2
    exact ⟨k, hk1, by rw [moon_eq, hq], (day u).2 hy⟩

/-! ### Half moons -/

/-- The record of the half moon after an uposatha. -/
def _root_.Verif.Spec.Almanac.Uposatha.half (u : Almanac.Uposatha) : HalfMoon :=
  { Date := ⟨(u.day + 8) * nsPerDay, 0⟩, Phase := if u.full then "waning" else "waxing" }

/-- C72: the half moons generated for a year are those of the almanac in that year, except the one after the last full moon of the
lunar year when the civil year changes between the two. -/
theorem c72_half_steady (h1 : a ≤ y) (h2 : y < b) (m : HalfMoon) : .half m ∈ generateSolarYear cfg y ↔
    ∃ u, Almanac.IsUposatha cfg.table kattika u ∧ Almanac.InYear (u.day + 8) y ∧
      (u.month = 12 → u.full = true → Almanac.InYear u.day y) ∧ m = u.half := by
  have hlate : katDay cfg y < daysSinceEpoch y := hs.notLate y h1 (by omega)
  have hearly : daysSinceEpoch y - 74 ≤ katDay cfg y := hs.notEarly y h1 (by omega)
  have hky := katDay_eq ha hk (y := y) h1
  have hday : ∀ u : Almanac.Uposatha, u.half.Date = (record u).Date.addDays 8 := by
    intro u
    rw [addDays_eq]
    unfold record Almanac.Uposatha.half Time.add
    simp only [Time.mk.injEq, and_true]
    unfold nsPerDay; omega
  have hyear : ∀ u : Almanac.Uposatha, u.half.Date.year = y ↔ Almanac.InYear (u.day + 8) y := by
    intro u
    rw [inYear_iff, ← year_eq_iff]
    have hd : u.half.Date.day = u.day + 8 := by unfold Almanac.Uposatha.half Time.day nsPerDay; simp
    unfold Time.year; rw [hd]
  have phase : ∀ (u : Almanac.Uposatha) (p : String), ((record u).Phase = "new" ∧ p = "waxing" ∨ (record u).Phase = "full" ∧ p = "waning") ↔
      p = u.half.Phase := by
    intro u p
    unfold record Almanac.Uposatha.half
    cases u.full <;> simp
  have half_ext : ∀ m n : HalfMoon, m = n ↔ m.Date = n.Date ∧ m.Phase = n.Phase := by
    intro m n; cases m; cases n; simp
  rw [c23_half_iff]
  constructor
  · rintro ⟨k, hk1, hd, hy, hp⟩
    rw [moon_eq] at hd hp
    have hk2 : k ≤ moons (fa y) + 5 := by
      by_contra hlt
      have hb := beyond hs h1 h2 k (by omega)
      have : ¬ (chain cfg y k).Date.year ≤ y := by omega
      apply this
      unfold Time.year at *
      rw [year_le_iff]
      rw [hd, addDays_eq, day_add, year_eq_iff] at hy
      omega
    obtain ⟨u, hu, hq⟩ := chain_uposatha hs ha hk h1 h2 k hk1 hk2
    have hq1 : (chain cfg y k).Date = (record u).Date := by have := congrArg UposathaMoon.Date hq; exact this
    have hq2 : (chain cfg y k).Phase = (record u).Phase := by have := congrArg UposathaMoon.Phase hq; exact this
    have hm : m = u.half := by
      rw [half_ext, hd, hq1, hday]
      exact ⟨rfl, (phase u _).1 (by rw [← hq2]; exact hp)⟩
    subst hm
    rw [hyear] at hy
    refine ⟨u, hu, hy, ?_, rfl⟩
    intro hm12 hfull
    have hgt : kattika y < u.day := by
      have hc := chain_day_ext (hs.regular (by omega) h1 h2) k (by omega)
      have hpos : ∀ a v : Bool, (a && v) = false → ∀ k : Fin 32, 1 ≤ k.val → k.val ≤ moons a + 5 → 0 < eoff a v k := by decide +kernel
      have hm26 : moons (fa y) ≤ 26 := by unfold moons; split <;> omega
      have := hpos (fa y) (fv cfg y) (hs.excl h1 (by omega)) ⟨k, by omega⟩ hk1 hk2
      simp only at this
      have hd : (record u).Date.day = u.day := by unfold record Time.day nsPerDay; simp
      rw [hq1, hd] at hc
      omega
    obtain ⟨z, e, he, rfl⟩ := hu
    have ho := offsets _ e he
    have hz := hk.step z
    have hlast : e.day = _ := ho.2.2.2.1.2 ⟨hm12, hfull⟩
    rw [inYear_iff] at hy ⊢
    simp only at hgt hy ⊢
    have hzy : y < z + 1 := by
      by_contra hle
      have := kattika_mono' hk (y := z + 1) (z := y) (by omega)
      omega
    have := kattika_mono' hk (y := y) (z := z + 1) (by omega)
    omega
  · rintro ⟨u, hu, hy, hx, rfl⟩
    have hy' := (inYear_iff _ _).1 hy
    have hgt : kattika y < u.day := by
      by_contra hle
      obtain ⟨z, e, he, rfl⟩ := hu
      have ho := offsets _ e he
      have hz := hk.step z
      simp only at hle hy' hx
      have hzy : z < y := by
        by_contra hge
        have := kattika_mono' hk (y := y) (z := z) (by omega)
        omega
      have hz1 : z + 1 = y := by
        by_contra hne
        have := kattika_mono' hk (y := z + 1) (z := y) (by omega)
        omega
      rw [hz1] at hz
      rcases ho.2.2.1 with hl | hl
      · have h12 := ho.2.2.2.1.1 hl
        have := (inYear_iff _ _).1 (hx h12.1 h12.2)
        omega
      · omega
    obtain ⟨k, hk1, -, hq⟩ := uposatha_chain hs ha hk h1 h2 u hu hgt (by omega)
    have hq1 : (chain cfg y k).Date = (record u).Date := by have := congrArg UposathaMoon.Date hq; exact this
    have hq2 : (chain cfg y k).Phase = (record u).Phase := by have := congrArg UposathaMoon.Phase hq; exact this
    refine ⟨k, hk1, ?_, (hyear u).2 hy, ?_⟩
    · rw [moon_eq, hq1, hday]
    · rw [moon_eq, hq2, phase]

/-! ### Festivals -/

/-- C72: the major events generated for a year are the festivals of the almanac in that year. -/
theorem c72_major_steady (h1 : a ≤ y) (h2 : y < b) (m : MajorEvent) : .major m ∈ generateSolarYear cfg y ↔
    ∃ day name, Almanac.IsFestival cfg.table kattika day name ∧ Almanac.InYear day y ∧ m = majorOn ⟨day * nsPerDay, 0⟩ name := by
  have hdate : ∀ (u : Almanac.Uposatha) (n : Int), (record u).Date.addDays n = ⟨(u.day + n) * nsPerDay, 0⟩ := by
    intro u n
    rw [addDays_eq]
    unfold record Time.add
    simp only [Time.mk.injEq, and_true]
    unfold nsPerDay; omega
  have hday : ∀ u : Almanac.Uposatha, (record u).Date.year = y ↔ Almanac.InYear u.day y := by
    intro u
    rw [inYear_iff, ← year_eq_iff]
    have hd : (record u).Date.day = u.day := by unfold record Time.day nsPerDay; simp
    unfold Time.year; rw [hd]
  have hpuja : ∀ (u : Almanac.Uposatha) (day : Int) (name : String),
      ((u.puja = some .magha ∧ day = u.day ∧ name = "Māgha Pūjā" ∨
        u.puja = some .vesakha ∧ day = u.day ∧ name = "Vesākha Pūjā" ∨
        u.puja = some .asalha ∧ day = u.day ∧ name = "Āsāḷha Pūjā" ∨
        u.puja = some .asalha ∧ day = u.day + 1 ∧ name = "First day of Vassa" ∨
        u.puja = some .pavarana ∧ day = u.day ∧ name = "Pavāraṇā Day" ∨
        u.puja = some .pavarana ∧ day = u.day ∧ name = "Last day of Vassa") ↔
      ∃ p ∈ pujas (record u).Event, day = u.day + p.2 ∧ name = p.1) := by
    intro u day name
    have e : (record u).Event = Almanac.eventName u.puja := rfl
    rw [e]
    rcases u.puja with _ | (_ | _ | _ | _) <;> simp [Almanac.eventName, pujas]
  rw [c22_major_iff]
  constructor
  · rintro ⟨k, hk1, hy, p, hp, rfl⟩
    have hgen := (c22_major_iff cfg y _).2 ⟨k, hk1, hy, p, hp, rfl⟩
    rw [moon_eq] at hy hp hgen ⊢
    have hk2 : k ≤ moons (fa y) + 5 := by
      by_contra hlt
      have := beyond hs h1 h2 k (by omega)
      omega
    obtain ⟨u, hu, hq⟩ := chain_uposatha hs ha hk h1 h2 k hk1 hk2
    have hq1 : (chain cfg y k).Date = (record u).Date := by have := congrArg UposathaMoon.Date hq; exact this
    have hq2 : (chain cfg y k).Event = (record u).Event := by have := congrArg UposathaMoon.Event hq; exact this
    rw [hq1] at hy hgen ⊢
    rw [hq2] at hp
    rw [hdate] at hgen ⊢
    refine ⟨u.day + p.2, p.1, ⟨u, hu, (hpuja u _ _).2 ⟨p, hp, rfl, rfl⟩⟩, ?_, rfl⟩
    have hin := c55_in_year_steady cfg a b (hs.mono (by omega) (Int.le_refl _) (Int.le_refl _)) y h1 h2 _ hgen
    rw [inYear_iff, ← year_eq_iff, ← hin]
    show _ = (yearYday (Time.day _)).1
    congr 2
    unfold CalendarEvent.getDate majorOn Time.day nsPerDay; simp
  · rintro ⟨day, name, ⟨u, hu, hf⟩, hy, rfl⟩
    obtain ⟨p, hp, rfl, rfl⟩ := (hpuja u _ _).1 hf
    have hlate : katDay cfg y < daysSinceEpoch y := hs.notLate y h1 (by omega)
    have hearly : daysSinceEpoch y - 74 ≤ katDay cfg y := hs.notEarly y h1 (by omega)
    have hearly' : daysSinceEpoch (y + 1) - 74 ≤ katDay cfg (y + 1) := hs.notEarly (y + 1) (by omega) (by omega)
    have hky := katDay_eq ha hk (y := y) h1
    have hky' := katDay_eq ha hk (y := y + 1) (by omega)
    have hp2 : p.2 = 0 ∨ (p.2 = 1 ∧ u.puja = some .asalha) := by
      have e : (record u).Event = Almanac.eventName u.puja := rfl
      rw [e] at hp
      generalize u.puja = q at hp ⊢
      rcases q with _ | (_ | _ | _ | _) <;> simp [Almanac.eventName, pujas] at hp
      · left; rw [hp]
      · left; rw [hp]
      · rcases hp with rfl | rfl
        · left; rfl
        · right; exact ⟨rfl, rfl⟩
      · rcases hp with rfl | rfl <;> (left; rfl)
    have hu' : Almanac.InYear u.day y := by
      rcases hp2 with h0 | ⟨h0, has⟩
      · rw [h0] at hy; simpa using hy
      · rw [inYear_iff] at hy ⊢
        by_contra hn
        have hb : u.day = daysSinceEpoch y - 1 := by omega
        obtain ⟨z, e, he, rfl⟩ := hu
        have ho := (offsets _ e he).2.2.2.2 has
        have hz := hk.step z
        have hs0 := daysSinceEpoch_succ y
        have hyb := yearDays_bounds y
        simp only at hb
        rcases Int.lt_or_le y (z + 1) with hlt | hge
        · have := kattika_mono' hk (y := y + 1) (z := z + 1) (by omega)
          omega
        · have := kattika_mono' hk (y := z + 1) (z := y) (by omega)
          omega
    have hy' := (inYear_iff _ _).1 hu'
    obtain ⟨k, hk1, -, hq⟩ := uposatha_chain hs ha hk h1 h2 u hu (by omega) hy'.2
    have hq1 : (chain cfg y k).Date = (record u).Date := by have := congrArg UposathaMoon.Date hq; exact this
    have hq2 : (chain cfg y k).Event = (record u).Event := by have := congrArg UposathaMoon.Event hq; exact this
    refine ⟨k, hk1, ?_, p, ?_, ?_⟩
    · rw [moon_eq, hq1, hday]; exact hu'
    · rw [moon_eq, hq2]; exact hp
    · rw [moon_eq, hq1, hdate]

end

section
variable {cfg : Config} (hs : Shipped cfg) {kattika : Int → Int} (hk : Almanac.Kattikas cfg.table kattika) {y : Int} (h1 : 1290 ≤ y)
  (h2 : y ≤ 4115)
include hs hk h1 h2

/-- C72: with the settings as shipped, the uposathas of each year 1290..4115 are those of the almanac. -/
theorem c72_uposatha (m : UposathaMoon) : .uposatha m ∈ generateSolarYear cfg y ↔
    ∃ u, Almanac.IsUposatha cfg.table kattika u ∧ Almanac.InYear u.day y ∧ m = record u :=
  c72_uposatha_steady (shipped_steady74 hs) (by omega) hk h1 (by omega) m

/-- C72: likewise the half moons, without the one lost at the end of a year. -/
theorem c72_half (m : HalfMoon) : .half m ∈ generateSolarYear cfg y ↔
    ∃ u, Almanac.IsUposatha cfg.table kattika u ∧ Almanac.InYear (u.day + 8) y ∧
      (u.month = 12 → u.full = true → Almanac.InYear u.day y) ∧ m = u.half :=
  c72_half_steady (shipped_steady74 hs) (by omega) hk h1 (by omega) m

/-- C72: likewise the festivals. -/
theorem c72_major (m : MajorEvent) : .major m ∈ generateSolarYear cfg y ↔
    ∃ day name, Almanac.IsFestival cfg.table kattika day name ∧ Almanac.InYear day y ∧ m = majorOn ⟨day * nsPerDay, 0⟩ name :=
  c72_major_steady (shipped_steady74 hs) (by omega) hk h1 (by omega) m

end

/-- The full moon of the eighth month of 2016 in the almanac with the official exceptions. -/
def asalha2016 : Almanac.Uposatha :=
  { day := 736163, full := true, month := 8, year := 2559, fortnight := 15, monthDays := 30, season := 2, number := 8, total := 8,
    added := false, puja := some .asalha }

/-- C72: Āsāḷha Pūjā 2016 is an uposatha of the almanac, on 19 July, and its half moon follows on 27 July. -/
example {kattika : Int → Int} (hk : Almanac.Kattikas Config.official.table kattika) :
    Almanac.IsUposatha Config.official.table kattika asalha2016 ∧ IsDate asalha2016.day 2016 7 19 ∧
    Almanac.IsFestival Config.official.table kattika asalha2016.day "Āsāḷha Pūjā" ∧
    Almanac.IsHalf Config.official.table kattika (asalha2016.day + 8) false ∧
    .uposatha (record asalha2016) ∈ generateSolarYear .official 2016 ∧ .half asalha2016.half ∈ generateSolarYear .official 2016 ∧
    .major (majorOn ⟨asalha2016.day * nsPerDay, 0⟩ "Āsāḷha Pūjā") ∈ generateSolarYear .official 2016 := by
  have hu : Almanac.IsUposatha Config.official.table kattika asalha2016 := by
    have hkind : Almanac.kindOf Config.official.table 2016 = .extraDay := by decide +kernel
    refine ⟨2016, { asalha2016 with day := 237, year := 0 }, ?_, ?_⟩
    · rw [hkind]; decide +kernel
    · rw [kattika_2016 hk]; rfl
  have hd : ∀ m d : Int, 1 ≤ m → m ≤ 12 → 1 ≤ d → d ≤ monthDays 2016 m → Almanac.InYear (date 2016 m d 0 0).day 2016 :=
    fun m d a1 a2 a3 a4 => ⟨m, d, (date_day a1 a2 a3 a4).1⟩
  have hy := hd 7 19 (by decide) (by decide) (by decide) (by decide)
  have hy8 := hd 7 27 (by decide) (by decide) (by decide) (by decide)
  have hf : Almanac.IsFestival Config.official.table kattika asalha2016.day "Āsāḷha Pūjā" :=
    ⟨asalha2016, hu, .inr (.inr (.inl ⟨rfl, rfl, rfl⟩))⟩
  refine ⟨hu, (date_day (y := 2016) (m := 7) (d := 19) (by decide) (by decide) (by decide) (by decide)).1, hf,
    ⟨asalha2016, hu, rfl, rfl⟩, ?_, ?_, ?_⟩
  · exact (c72_uposatha (Or.inr rfl) hk (by decide) (by decide) _).2 ⟨asalha2016, hu, hy, rfl⟩
  · exact (c72_half (Or.inr rfl) hk (by decide) (by decide) _).2 ⟨asalha2016, hu, hy8, fun _ _ => hy, rfl⟩
  · exact (c72_major (Or.inr rfl) hk (by decide) (by decide) _).2 ⟨_, _, hf, hy, rfl⟩

end Verif.Props
