import Verif.Props.AlmanacWide
import Verif.Props.TextAll
import Verif.Spec.Feast
/-
C72: the almanac in every year from 639 on. After 5834 the Kattika full moon that starts the loop lies in the year itself or later, so
that all moons of the year belong to the lunar year after it.
-/
set_option autoImplicit false

namespace Verif.Props
open Verif.Go Verif.Model Verif.Spec Verif.Lemmas

/-- After 5834 the Kattika full moon is not before the last day of the year before. -/
theorem far_kattika {cfg : Config} (hs : Shipped cfg) {y : Int} (h : 5835 ≤ y) : daysSinceEpoch y - 2 ≤ katDay cfg y := by
  have hd : katDay cfg y = katDay .default y := by
    rcases hs with rfl | rfl
    · rfl
    · rw [katDay_official, if_neg (by omega)]; omega
  rw [hd, katDay_closed (by omega)]
  have ha := age_range y
  have hc := carry_range y
  have ht := tieAdh_range (y - 1)
  have hb := daysSinceEpoch_bounds y
  have h1 := surplus_add (y := 5835) (by omega) (y - 5835).toNat
  rw [show (5835 : Int) + ((y - 5835).toNat : Int) = y by omega] at h1
  have h2 : Lemmas.surplus 5835 = 1 := surplus_years 5197 (by decide)
  unfold hor eraNum
  omega

section
variable {cfg : Config} (hs : Shipped cfg) {kattika : Int → Int} (hk : Almanac.Kattikas cfg.table kattika) {y : Int} (h : 5835 ≤ y)
include hs h

/-- The moons of the year are those of the table with their events. -/
theorem far_chain (ly : Int) (h0 : chain cfg y 0 = shift (katDay cfg y) ly seed0) (k : Nat) (h1 : 1 ≤ k)
    (hd : (chain cfg y k).Date.day < daysSinceEpoch (y + 1)) :
    chain cfg y k = shift (katDay cfg y) ly (tab (fa y) (fv cfg y) k) := by
  have hx := shipped_fa_fv hs y
  have w := far_kattika hs h
  obtain ⟨ly', H⟩ := chain_any hx (by omega : daysSinceEpoch y - 118 ≤ katDay cfg y)
  have hz := chain_zero_day cfg y
  have hly : ly' = ly := by
    have hm := (chain_day_mono cfg y (j := 0) (k := k) (by omega)).1
    have := congrArg UposathaMoon.LunarYear (H 0 (by omega)).1
    rw [h0] at this
    have this : (0 : Int) + ly = 0 + ly' := this
    omega
  rw [hly] at H
  obtain ⟨j, rfl⟩ : ∃ j, k = j + 1 := ⟨k - 1, by omega⟩
  rcases Nat.eq_zero_or_pos j with rfl | hj
  · have ht : ∀ a v a' v' : Bool, step a' v' seed0 = tab a v (0 + 1) := by decide +kernel
    have e : chain cfg y (0 + 1) = (chain cfg y 0).nextUposatha cfg := rfl
    rw [e, next_eq_step, h0, step_shift, ht (fa y) (fv cfg y)]
  · have hm := chain_day_mono cfg y (j := 1) (k := j) (by omega)
    have h15 := chain_day_succ cfg y 0
    rw [Nat.zero_add] at h15
    exact (H (j + 1) (by omega)).2 j rfl (by omega)

/-- No moon of the year belongs to the lunar year after. -/
theorem far_moons (ly : Int) (h0 : chain cfg y 0 = shift (katDay cfg y) ly seed0) (k : Nat)
    (hd : (chain cfg y k).Date.day < daysSinceEpoch (y + 1)) : k ≤ moons (fa y) := by
  by_contra hlt
  have hx := shipped_fa_fv hs y
  have hm := chain_day_mono cfg y (j := moons (fa y) + 1) (k := k) (by omega)
  have hs1 := chain_day_succ cfg y (moons (fa y))
  have hc := far_chain hs h ly h0 (moons (fa y)) (by unfold moons; split <;> omega) (by omega)
  have hK := katDay_succ cfg y
  rw [len_eq] at hK
  have w := far_kattika hs (y := y + 1) (by omega)
  rw [tab_close _ _ hx] at hc
  have hday : (chain cfg y (moons (fa y))).Date.day = katDay cfg y + len (fa y) (fv cfg y) := by
    rw [hc, day_shift, day_shift]
    have : seed0.Date.day = 0 := by decide +kernel
    omega
  omega

include hk

theorem far_seed (h1 : katDay cfg y < daysSinceEpoch (y + 1)) :
    chain cfg y 0 = shift (katDay cfg y) (y + 542 + surplus (kattika y) y) seed0 := by
  obtain ⟨ly, h0⟩ := seed_shift cfg y
  have hl : (chain cfg y 0).LunarYear = (calculatePreviousKattika cfg y).year + BEdiff := rfl
  have hl' : (shift (katDay cfg y) ly seed0).LunarYear = 0 + ly := rfl
  rw [h0, hl'] at hl
  have hd : katDay cfg y = (calculatePreviousKattika cfg y).day := rfl
  have hK : kattika y = katDay cfg y := c72_kattika cfg kattika hk y (by omega)
  have w := far_kattika hs h
  have n1 := daysSinceEpoch_succ (y - 1)
  have b1 := yearDays_bounds (y - 1)
  have e1 : y - 1 + 1 = y := by omega
  rw [e1] at n1
  have hy : (calculatePreviousKattika cfg y).year = y - 1 + surplus (kattika y) y := by
    unfold Time.year
    rw [surplus_eq, hK, ← hd, year_eq_iff]
    split
    · have e : y - 1 + 1 = y := by omega
      rw [e]; omega
    · have e : y - 1 + 0 = y - 1 := by omega
      rw [e, e1]; omega
  have : ly = y + 542 + surplus (kattika y) y := by
    rw [hy] at hl
    unfold BEdiff at hl
    omega
  rw [h0, this]

theorem far_later : Later cfg kattika y id := by
  have hx := shipped_fa_fv hs y
  have w := far_kattika hs h
  have w' := far_kattika hs (y := y + 1) (by omega)
  have hK : kattika y = katDay cfg y := c72_kattika cfg kattika hk y (by omega)
  have hK' : kattika (y + 1) = katDay cfg (y + 1) := c72_kattika cfg kattika hk (y + 1) (by omega)
  have h0d := chain_zero_day cfg y
  have e1 : y + 542 + surplus (kattika y) y + 1 = y + 543 + surplus (kattika y) y := by omega
  constructor
  · intro k hk1 hd
    have hm := chain_day_mono cfg y (j := 0) (k := k) (by omega)
    have h0 := far_seed hs hk h (by omega)
    have hc := far_chain hs h _ h0 k hk1 hd
    have hl := far_moons hs h _ h0 k hd
    obtain ⟨i, rfl⟩ : ∃ i, k = i + 1 := ⟨k - 1, by omega⟩
    obtain ⟨e, he, hr⟩ := (table_record cfg hx (by omega)).1 i (by omega)
    refine ⟨{ e with day := kattika y + e.day, year := y + 543 }, ⟨y, e, he, rfl⟩, ?_, ?_⟩
    · have := offsets _ e he
      simp only; omega
    · rw [hc, hr, ← hK, e1]
      rfl
  · intro u hu h3 h4
    obtain ⟨z, e, he, rfl⟩ := hu
    have ho := offsets _ e he
    have hz := hk.step z
    simp only at h3 h4
    have z1 : y ≤ z := by
      by_contra hlt
      have := kattika_mono' hk (y := z + 1) (z := y) (by omega)
      omega
    have z2 : z ≤ y := by
      by_contra hlt
      have := kattika_mono' hk (y := y + 1) (z := z) (by omega)
      omega
    obtain rfl : z = y := by omega
    have h0 := far_seed hs hk h (by omega)
    obtain ⟨i, hi, hr⟩ := (table_record cfg hx (by omega)).2 e he
    have hoff : off (fa z) (fv cfg z) (i + 1) = e.day := by
      have := congrArg (fun m : UposathaMoon => m.Date.day) (hr 0 0)
      simp only [record_day] at this
      have e1 : (published (shift 0 0 (tab (fa z) (fv cfg z) (i + 1)))).Date.day =
        (shift 0 0 (tab (fa z) (fv cfg z) (i + 1))).Date.day := rfl
      rw [e1, day_shift] at this
      unfold off; omega
    have hday : (chain cfg z (i + 1)).Date.day < daysSinceEpoch (z + 1) := by
      have mono : ∀ a v : Bool, (a && v) = false → ∀ j : Fin 26, j.val < moons a → off a v j < off a v (j + 1) := by decide +kernel
      have hm26 : moons (fa z) ≤ 26 := by unfold moons; split <;> omega
      have below : ∀ d, d ≤ i → off (fa z) (fv cfg z) (i + 1 - d) ≤ e.day := by
        intro d
        induction d with
        | zero => intro _; rw [Nat.sub_zero, hoff]
        | succ d ih =>
          intro hd
          have := mono (fa z) (fv cfg z) hx ⟨i - d, by omega⟩ (by show i - d < _; omega)
          simp only at this
          rw [show i + 1 - (d + 1) = i - d by omega]
          have ih := ih (by omega)
          rw [show i + 1 - d = i - d + 1 by omega] at ih
          omega
      have climb : ∀ j, j ≤ i + 1 → (chain cfg z j).Date.day = katDay cfg z + off (fa z) (fv cfg z) j := by
        intro j
        induction j with
        | zero => intro _; rw [h0d]; have : off (fa z) (fv cfg z) 0 = 0 := rfl
                  omega
        | succ j ih =>
          intro hj
          have ih := ih (by omega)
          have hs1 := chain_day_succ cfg z j
          have hb := below (i - j) (by omega)
          rw [show i + 1 - (i - j) = j + 1 by omega] at hb
          have := mono (fa z) (fv cfg z) hx ⟨j, by omega⟩ (by show j < _; omega)
          simp only at this
          exact chain_any_day hx (by omega) (j + 1) (by omega)
      have := climb (i + 1) (Nat.le_refl _)
      omega
    refine ⟨i + 1, by omega, ?_⟩
    rw [far_chain hs h _ h0 (i + 1) (by omega) hday, hr, ← hK, e1]
    rfl

end

theorem Later.core {cfg : Config} {kattika : Int → Int} {y : Int} (hl : Later cfg kattika y id) : Later cfg kattika y Lemmas.core where
  fwd k h1 h2 := by
    obtain ⟨u, a, b, c⟩ := hl.fwd k h1 h2
    exact ⟨u, a, b, congrArg Lemmas.core c⟩
  bwd u h1 h2 h3 := by
    obtain ⟨k, a, b⟩ := hl.bwd u h1 h2 h3
    exact ⟨k, a, congrArg Lemmas.core b⟩

/-- The names of the pūjās and the feasts. -/
theorem feast_iff (u : Almanac.Uposatha) (day : Int) (name : String) :
    Almanac.FeastOf u day name ↔ ∃ p ∈ pujas (Almanac.eventName u.puja), day = u.day + p.2 ∧ name = p.1 := by
  have eq : ∀ o, pujas (Almanac.eventName o) = match o with
    | none => []
    | some .magha => [("Māgha Pūjā", 0)]
    | some .vesakha => [("Vesākha Pūjā", 0)]
    | some .asalha => [("Āsāḷha Pūjā", 0), ("First day of Vassa", 1)]
    | some .pavarana => [("Pavāraṇā Day", 0), ("Last day of Vassa", 0)] := by
    rintro (_ | _ | _ | _ | _) <;> rfl
  unfold Almanac.FeastOf
  rw [eq]
  rcases u.puja with _ | _ | _ | _ | _ <;> simp

theorem Later.major {cfg : Config} {kattika : Int → Int} {y : Int} (hl : Later cfg kattika y id) (m : MajorEvent) :
    .major m ∈ generateSolarYear cfg y ↔
    ∃ u, Almanac.IsUposatha cfg.table kattika u ∧ Almanac.InYear u.day y ∧ kattika y < u.day ∧
      ∃ day name, Almanac.FeastOf u day name ∧ m = majorOn ⟨day * nsPerDay, 0⟩ name := by
  have year : ∀ (u : Almanac.Uposatha), (record u).Date.year = y ↔ Almanac.InYear u.day y := by
    intro u
    rw [inYear_iff, ← year_eq_iff, ← record_day u]
    exact Iff.rfl
  have add : ∀ (u : Almanac.Uposatha) (n : Int), (record u).Date.addDays n = ⟨(u.day + n) * nsPerDay, 0⟩ := by
    intro u n
    rw [addDays_eq]
    unfold record Time.add
    simp only [Time.mk.injEq, and_true]
    unfold nsPerDay; omega
  have fields : ∀ {x : UposathaMoon} {u : Almanac.Uposatha} {n : Int}, id (published x) = id { record u with LunarYear := n } →
      x.Date = (record u).Date ∧ x.Event = Almanac.eventName u.puja := by
    intro x u n h
    have hd := congrArg UposathaMoon.Date h
    have hp := congrArg UposathaMoon.Event h
    exact ⟨hd, hp⟩
  rw [c22_major_iff]
  constructor
  · rintro ⟨k, hk1, hy, p, hp, rfl⟩
    rw [moon_eq] at hy hp ⊢
    obtain ⟨u, hu, hu3, hq⟩ := hl.fwd k hk1 (by unfold Time.year at hy; rw [year_eq_iff] at hy; exact hy.2)
    obtain ⟨hd, he⟩ := fields hq
    rw [hd] at hy ⊢
    rw [he] at hp
    exact ⟨u, hu, (year u).1 hy, hu3, u.day + p.2, p.1, (feast_iff _ _ _).2 ⟨p, hp, rfl, rfl⟩, by rw [add]⟩
  · rintro ⟨u, hu, hin, hu3, day, name, hf, rfl⟩
    obtain ⟨k, hk1, hc⟩ := hl.bwd u hu hu3 ((inYear_iff _ _).1 hin).2
    obtain ⟨hd, he⟩ := fields hc
    obtain ⟨p, hp, rfl, rfl⟩ := (feast_iff _ _ _).1 hf
    refine ⟨k, hk1, ?_, p, ?_, ?_⟩
    · rw [moon_eq, hd]; exact (year u).2 hin
    · rw [moon_eq, he]; exact hp
    · rw [moon_eq, hd, add]

section
variable {cfg : Config} (hs : Shipped cfg) {kattika : Int → Int} (hk : Almanac.Kattikas cfg.table kattika) {y : Int}
include hs hk

theorem later_id (h : 1290 ≤ y) : Later cfg kattika y id := by
  rcases Int.lt_or_le y 5835 with h' | h'
  · exact later_of hs hk (by omega) (by omega) (agrees_id hs hk (by omega) (by omega) h)
  · exact far_later hs hk h'

theorem later_core (h : 639 ≤ y) : Later cfg kattika y core := by
  rcases Int.lt_or_le y 5835 with h' | h'
  · exact later_of hs hk h (by omega) (agrees_core hs hk h (by omega))
  · exact (far_later hs hk h').core

/-- C72: in every year from 639 on the uposathas, without their festivals, are those of the almanac in the year after the Kattika full
moon that the loop starts with; their lunar year is one too high if that full moon is in the year itself. -/
theorem c72_uposatha_core (h : 639 ≤ y) (m : UposathaMoon) : (∃ event, .uposatha { m with Event := event } ∈ generateSolarYear cfg y) ↔
    ∃ u, Almanac.IsUposatha cfg.table kattika u ∧ Almanac.InYear u.day y ∧ kattika y < u.day ∧
      { m with Event := "" } = { record u with Event := "", LunarYear := u.year + surplus (kattika y) y } :=
  Later.uposatha_core (later_core hs hk h) m

/-- C72: in every year from 1290 on with their festivals. -/
theorem c72_uposatha_far (h : 1290 ≤ y) (m : UposathaMoon) : .uposatha m ∈ generateSolarYear cfg y ↔
    ∃ u, Almanac.IsUposatha cfg.table kattika u ∧ Almanac.InYear u.day y ∧ kattika y < u.day ∧
      m = { record u with LunarYear := u.year + surplus (kattika y) y } :=
  Later.uposatha (later_id hs hk h) m

/-- C72: in every year from 639 on the half moons are the eighth days after the uposathas of the almanac after that full moon. -/
theorem c72_half_far (h : 639 ≤ y) (m : HalfMoon) : .half m ∈ generateSolarYear cfg y ↔
    ∃ u, Almanac.IsUposatha cfg.table kattika u ∧ Almanac.InYear (u.day + 8) y ∧ kattika y < u.day ∧ m = u.half :=
  Later.half (later_core hs hk h) m

/-- C72: in every year from 1290 on the major events are the feasts of those uposathas. -/
theorem c72_major_far (h : 1290 ≤ y) (m : MajorEvent) : .major m ∈ generateSolarYear cfg y ↔
    ∃ u, Almanac.IsUposatha cfg.table kattika u ∧ Almanac.InYear u.day y ∧ kattika y < u.day ∧
      ∃ day name, Almanac.FeastOf u day name ∧ m = majorOn ⟨day * nsPerDay, 0⟩ name :=
  Later.major (later_id hs hk h) m

end

/-- Āsāḷha Pūjā of 11149 in the almanac without exceptions. -/
def asalha11149 : Almanac.Uposatha :=
  { day := 4072088 - 1, full := true, month := 13, year := 11692, fortnight := 15, monthDays := 30, season := 2, number := 10, total := 10,
    added := false, puja := some .asalha }

/-- C72: it is on 31 December. The code has it with its festival and the lunar year 11693; with it comes the first day of Vassa on
1 January 11150. -/
example {kattika : Int → Int} (hk : Almanac.Kattikas Config.default.table kattika) :
    Almanac.IsUposatha Config.default.table kattika asalha11149 ∧ IsDate asalha11149.day 11149 12 31 ∧
    .uposatha { record asalha11149 with LunarYear := 11693 } ∈ generateSolarYear .default 11149 ∧
    .major (majorOn ⟨(asalha11149.day + 1) * nsPerDay, 0⟩ "First day of Vassa") ∈ generateSolarYear .default 11149 ∧
    ¬ .half asalha11149.half ∈ generateSolarYear .default 11149 := by
  have hK : kattika 11149 = 4072088 - 267 := by
    have hc := katDay_closed (y := 11149) (by decide)
    have hs : Lemmas.surplus 11149 = 2 := surplus_years 10511 (by decide)
    rw [hs] at hc
    exact (c72_kattika .default kattika hk 11149 (by decide)).trans (hc.trans (by decide +kernel))
  have k0 : Almanac.kindOf Config.default.table 11149 = .extraMonth := by decide +kernel
  have hu : Almanac.IsUposatha Config.default.table kattika asalha11149 := by
    refine ⟨11149, { asalha11149 with day := 266, year := 0 }, ?_, ?_⟩
    · rw [k0]; decide +kernel
    · rw [hK]; rfl
  have hd := (date_day (y := 11149) (m := 12) (d := 31) (by decide) (by decide) (by decide) (by decide)).1
  have hs : surplus (kattika 11149) 11149 = 1 := by rw [surplus_eq, hK]; decide +kernel
  have hlt : kattika 11149 < asalha11149.day := by rw [hK]; decide
  refine ⟨hu, hd, ?_, ?_, ?_⟩
  · exact (c72_uposatha_far (Or.inl rfl) hk (by decide) _).2 ⟨_, hu, ⟨12, 31, hd⟩, hlt, by rw [hs]; rfl⟩
  · exact (c72_major_far (Or.inl rfl) hk (by decide) _).2
      ⟨_, hu, ⟨12, 31, hd⟩, hlt, _, _, .inr (.inr (.inr (.inl ⟨rfl, rfl, rfl⟩))), rfl⟩
  · intro h
    obtain ⟨u, -, hin, -, hq⟩ := (c72_half_far (Or.inl rfl) hk (by decide) _).1 h
    have := congrArg (fun x : HalfMoon => x.Date.day) hq
    have e : ∀ w : Almanac.Uposatha, w.half.Date.day = w.day + 8 := by
      intro w; unfold Almanac.Uposatha.half Time.day nsPerDay; simp
    simp only [e] at this
    have hin := ((inYear_iff _ _).1 hin).2
    have hn : daysSinceEpoch (11149 + 1) = 4072088 := by decide +kernel
    have ha : asalha11149.day = 4072088 - 1 := rfl
    omega

end Verif.Props
