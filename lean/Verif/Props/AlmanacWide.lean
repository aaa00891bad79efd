import Verif.Props.Almanac
import Verif.Props.Totals
/-
C72: the moons of the almanac also in the years 639..1289 and 4116..5834, in which the Kattika full moon is early or falls into the year
itself.
-/
set_option autoImplicit false

namespace Verif.Props
open Verif.Go Verif.Model Verif.Spec Verif.Lemmas

/-- By how much the lunar year written is too high: by one if the Kattika full moon that starts the loop is in the year itself. -/
noncomputable def surplus (day y : Int) : Int := open Classical in if Almanac.InYear day y then 1 else 0

theorem surplus_eq (day y : Int) : surplus day y = if daysSinceEpoch y ≤ day ∧ day < daysSinceEpoch (y + 1) then 1 else 0 := by
  unfold surplus
  by_cases h : Almanac.InYear day y
  · rw [if_pos h, if_pos ((inYear_iff _ _).1 h)]
  · rw [if_neg h, if_neg (fun h' => h ((inYear_iff _ _).2 h'))]

/-- The first moons of a lunar year. -/
theorem first_offsets : ∀ j : Fin 9, off false false j < 88 → j.val ≤ 5 := by decide +kernel

section
variable {cfg : Config} {y : Int} (hex : (fa y && fv cfg y) = false) (hlo : daysSinceEpoch y - 88 ≤ katDay cfg y)
  (hlo' : daysSinceEpoch (y + 1) - 88 ≤ katDay cfg (y + 1)) (hhi : katDay cfg (y + 1) < daysSinceEpoch (y + 1) + 29)
include hex hlo hlo' hhi

/-- The moons of the loop are those of the table but for the event. -/
theorem covered_core {ly : Int} (h0 : chain cfg y 0 = shift (katDay cfg y) ly seed0) (k : Nat)
    (hk : k ≤ covered (fa y) (toNewYear cfg (y + 1))) :
    core (chain cfg y k) = core (shift (katDay cfg y) ly (ext (fa y) (fv cfg y) k)) := by
  have L := lunar_year hex hlo hhi h0
  unfold ext
  by_cases hm : k ≤ moons (fa y)
  · rw [if_pos hm, (L k hm).1]
  · unfold covered at hk
    have hneg : katDay cfg (y + 1) < daysSinceEpoch (y + 1) := by
      rw [toNewYear_eq] at hk
      split at hk <;> omega
    have hj : k ≤ moons (fa y) + 8 := by split at hk <;> omega
    have hK := katDay_succ cfg y
    rw [len_eq] at hK
    have hcl := tab_close _ _ hex
    have hc : chain cfg y (moons (fa y)) = shift (katDay cfg (y + 1)) (1 + ly) seed0 := by
      rw [(L _ (Nat.le_refl _)).2.2.1 hneg rfl, hcl, hK]
      unfold shift seed0 Time.add
      simp only [UposathaMoon.mk.injEq, Time.mk.injEq, and_true, true_and]
      generalize len _ _ = L
      unfold nsPerDay; omega
    have F := chain_from hc (k - moons (fa y))
    have e : moons (fa y) + (k - moons (fa y)) = k := by omega
    rw [e] at F
    rw [if_neg hm, F.1 (by omega), hK]
    unfold core shift Time.add
    simp only [UposathaMoon.mk.injEq, Time.mk.injEq, and_true, true_and]
    generalize len _ _ = L
    unfold nsPerDay
    constructor <;> omega

/-- The moons of the loop up to the end of the year are those of the table, but for the festival of the sixth. -/
theorem covered_other {ly : Int} (h0 : chain cfg y 0 = shift (katDay cfg y) ly seed0) (k : Nat) (h6 : k ≠ 6)
    (hk : k ≤ covered (fa y) (toNewYear cfg (y + 1))) (hday : (chain cfg y k).Date.day < daysSinceEpoch (y + 1)) :
    chain cfg y k = shift (katDay cfg y) ly (ext (fa y) (fv cfg y) k) := by
  have L := lunar_year hex hlo hhi h0
  have hd := covered_days hex hlo hlo' hhi k hk
  have hK := katDay_succ cfg y
  rw [len_eq] at hK
  have hcl := tab_close _ _ hex
  by_cases hm : k < moons (fa y)
  · unfold ext
    rw [if_pos (by omega)]
    exact (L k (by omega)).2.1 hm h6
  · have hneg : katDay cfg (y + 1) < daysSinceEpoch (y + 1) := by
      by_cases he : k = moons (fa y)
      · unfold eoff ext at hd
        rw [if_pos (by omega), he, hcl, day_shift] at hd
        rw [he] at hday
        have : seed0.Date.day = 0 := by decide
        rw [this] at hd
        generalize len _ _ = L at *
        omega
      · unfold covered at hk
        rw [toNewYear_eq] at hk
        split at hk <;> omega
    have hc : chain cfg y (moons (fa y)) = shift (katDay cfg (y + 1)) (1 + ly) seed0 := by
      rw [(L _ (Nat.le_refl _)).2.2.1 hneg rfl, hcl, hK]
      unfold shift seed0 Time.add
      simp only [UposathaMoon.mk.injEq, Time.mk.injEq, and_true, true_and]
      generalize len _ _ = L
      unfold nsPerDay; omega
    by_cases he : k = moons (fa y)
    · rw [he, (L _ (Nat.le_refl _)).2.2.1 hneg rfl]
      unfold ext
      rw [if_pos (by omega)]
    · have hj : k ≤ moons (fa y) + 8 := by unfold covered at hk; split at hk <;> omega
      unfold eoff ext at hd
      rw [if_neg (by omega), day_shift] at hd
      have h5 := first_offsets ⟨k - moons (fa y), by omega⟩ (by unfold off; simp only; generalize len _ _ = L at *; omega)
      simp only at h5
      have F := (chain_from hc (k - moons (fa y))).2 h5
      have e : moons (fa y) + (k - moons (fa y)) = k := by omega
      rw [e] at F
      rw [F, hK]
      unfold ext
      rw [if_neg (by omega)]
      unfold shift Time.add
      simp only [UposathaMoon.mk.injEq, Time.mk.injEq, and_true, true_and]
      generalize len _ _ = L
      unfold nsPerDay
      constructor <;> omega

/-- With it, if the Kattika full moon is not too early. -/
theorem covered_exact (h74 : daysSinceEpoch y - 74 ≤ katDay cfg y) {ly : Int} (h0 : chain cfg y 0 = shift (katDay cfg y) ly seed0) (k : Nat)
    (hk : k ≤ covered (fa y) (toNewYear cfg (y + 1))) (hday : (chain cfg y k).Date.day < daysSinceEpoch (y + 1)) :
    chain cfg y k = shift (katDay cfg y) ly (ext (fa y) (fv cfg y) k) := by
  by_cases h6 : k = 6
  · have L := lunar_year hex hlo hhi h0
    have hm : 24 ≤ moons (fa y) := by unfold moons; split <;> omega
    unfold ext
    rw [if_pos (by omega), (L k (by omega)).2.2.2 h6, h6]
    unfold maghaYear
    rw [if_neg (by omega)]
    rfl
  · exact covered_other hex hlo hlo' hhi h0 k h6 hk hday

end

/-- The table and the almanac agree, wherever the lunar year starts. -/
theorem table_record (cfg : Config) {z : Int} (hex : (fa z && fv cfg z) = false) (hz : 639 ≤ z) :
    (∀ i, i < moons (fa z) → ∃ e ∈ Almanac.uposathas (Almanac.kindOf cfg.table z), ∀ d ly,
      published (shift d ly (tab (fa z) (fv cfg z) (i + 1))) = record { e with day := d + e.day, year := ly + 1 }) ∧
    ∀ e ∈ Almanac.uposathas (Almanac.kindOf cfg.table z), ∃ i, i < moons (fa z) ∧ ∀ d ly,
      published (shift d ly (tab (fa z) (fv cfg z) (i + 1))) = record { e with day := d + e.day, year := ly + 1 } := by
  have ht := table_almanac (fa z) (fv cfg z) hex
  rw [kindOf_eq cfg hz]
  constructor
  · intro i hi
    have hm : published (tab (fa z) (fv cfg z) (i + 1)) ∈
        (List.range (moons (fa z))).map (fun i => published (tab (fa z) (fv cfg z) (i + 1))) :=
      List.mem_map.2 ⟨i, List.mem_range.2 hi, rfl⟩
    rw [ht] at hm
    obtain ⟨e, he, hr⟩ := List.mem_map.1 hm
    exact ⟨e, he, fun d ly => record_shift d ly _ e hr.symm⟩
  · intro e he
    have hm : record { e with year := 1 } ∈ (Almanac.uposathas (kindBy (fa z) (fv cfg z))).map fun e => record { e with year := 1 } :=
      List.mem_map.2 ⟨e, he, rfl⟩
    rw [← ht] at hm
    obtain ⟨i, hi, hr⟩ := List.mem_map.1 hm
    exact ⟨i, List.mem_range.1 hi, fun d ly => record_shift d ly _ e hr⟩

theorem shipped_fa_fv {cfg : Config} (hs : Shipped cfg) (z : Int) : (fa z && fv cfg z) = false := by
  have := shipped_not_both hs z
  unfold fa fv
  cases h : (SuriyaYear.init z).isAdhikamasa <;> cases h' : (SuriyaYear.init z).isAdhikavara cfg <;> simp_all

theorem record_day (u : Almanac.Uposatha) : (record u).Date.day = u.day := by unfold record Time.day nsPerDay; simp

/-- The moons of the loop from the first on to the end of the year are, as far as `f` sees, the uposathas of the almanac after the
Kattika full moon, but for the lunar year. -/
structure Later (cfg : Config) (kattika : Int → Int) (y : Int) (f : UposathaMoon → UposathaMoon) : Prop where
  fwd : ∀ k, 1 ≤ k → (chain cfg y k).Date.day < daysSinceEpoch (y + 1) →
    ∃ u, Almanac.IsUposatha cfg.table kattika u ∧ kattika y < u.day ∧
      f (published (chain cfg y k)) = f { record u with LunarYear := u.year + surplus (kattika y) y }
  bwd : ∀ u, Almanac.IsUposatha cfg.table kattika u → kattika y < u.day → u.day < daysSinceEpoch (y + 1) →
    ∃ k, 1 ≤ k ∧ f (published (chain cfg y k)) = f { record u with LunarYear := u.year + surplus (kattika y) y }

section
variable {cfg : Config} {kattika : Int → Int} {y : Int}

theorem Later.uposatha_core (hl : Later cfg kattika y core) (m : UposathaMoon) : (∃ event, .uposatha { m with Event := event } ∈ generateSolarYear cfg y) ↔
    ∃ u, Almanac.IsUposatha cfg.table kattika u ∧ Almanac.InYear u.day y ∧ kattika y < u.day ∧
      { m with Event := "" } = { record u with Event := "", LunarYear := u.year + surplus (kattika y) y } := by
  constructor
  · rintro ⟨event, h⟩
    obtain ⟨k, hk1, hm, hy⟩ := (c22_uposatha_iff cfg y _).1 h
    rw [moon_eq] at hm
    have hd : (chain cfg y k).Date = m.Date := by have := congrArg UposathaMoon.Date hm; exact this.symm
    have hy' : m.Date.year = y := hy
    have hin : Almanac.InYear m.Date.day y := by rw [inYear_iff, ← year_eq_iff]; exact hy'
    have hlt : (chain cfg y k).Date.day < daysSinceEpoch (y + 1) := by rw [hd]; exact ((inYear_iff _ _).1 hin).2
    obtain ⟨u, hu, hu3, hq⟩ := hl.fwd k hk1 hlt
    rw [← hm] at hq
    have hq' : { m with Event := "" } = { record u with Event := "", LunarYear := u.year + surplus (kattika y) y } := hq
    have hdu : m.Date.day = u.day := by
      have := congrArg (fun x : UposathaMoon => x.Date.day) hq'
      exact this.trans (record_day u)
    exact ⟨u, hu, by rw [← hdu]; exact hin, hu3, hq'⟩
  · rintro ⟨u, hu, hin, hu3, hq⟩
    obtain ⟨k, hk1, hc⟩ := hl.bwd u hu hu3 ((inYear_iff _ _).1 hin).2
    have hq' : core m = core { record u with LunarYear := u.year + surplus (kattika y) y } := hq
    have hm : { m with Event := (published (chain cfg y k)).Event } = published (chain cfg y k) := by
      have e1 : ∀ x : UposathaMoon, x = { core x with Event := x.Event } := fun _ => rfl
      rw [e1 (published (chain cfg y k)), hc, ← hq']
      rfl
    have hdu : m.Date.day = u.day := by
      have := congrArg (fun x : UposathaMoon => x.Date.day) hq
      exact this.trans (record_day u)
    refine ⟨(published (chain cfg y k)).Event, (c22_uposatha_iff cfg y _).2 ⟨k, hk1, by rw [moon_eq]; exact hm, ?_⟩⟩
    show m.Date.year = y
    rw [inYear_iff, ← year_eq_iff, ← hdu] at hin
    exact hin

theorem Later.uposatha (hl : Later cfg kattika y id) (m : UposathaMoon) : .uposatha m ∈ generateSolarYear cfg y ↔
    ∃ u, Almanac.IsUposatha cfg.table kattika u ∧ Almanac.InYear u.day y ∧ kattika y < u.day ∧
      m = { record u with LunarYear := u.year + surplus (kattika y) y } := by
  have day : ∀ u n, ({ record u with LunarYear := n } : UposathaMoon).Date.year = y ↔ Almanac.InYear u.day y := by
    intro u n
    rw [inYear_iff, ← year_eq_iff, ← record_day u]
    exact Iff.rfl
  rw [c22_uposatha_iff]
  constructor
  · rintro ⟨k, hk1, rfl, hy⟩
    rw [moon_eq] at hy ⊢
    have hin : Almanac.InYear (chain cfg y k).Date.day y := by rw [inYear_iff, ← year_eq_iff]; exact hy
    obtain ⟨u, hu, hu3, hq⟩ := hl.fwd k hk1 ((inYear_iff _ _).1 hin).2
    have hq : published (chain cfg y k) = { record u with LunarYear := u.year + surplus (kattika y) y } := hq
    rw [hq] at hy ⊢
    exact ⟨u, hu, (day u _).1 hy, hu3, rfl⟩
  · rintro ⟨u, hu, hin, hu3, rfl⟩
    obtain ⟨k, hk1, hc⟩ := hl.bwd u hu hu3 ((inYear_iff _ _).1 hin).2
    exact ⟨k, hk1, by rw [moon_eq]; exact hc.symm, (day u _).2 hin⟩

theorem Later.half (hl : Later cfg kattika y core) (m : HalfMoon) : .half m ∈ generateSolarYear cfg y ↔
    ∃ u, Almanac.IsUposatha cfg.table kattika u ∧ Almanac.InYear (u.day + 8) y ∧ kattika y < u.day ∧ m = u.half := by
  have hday : ∀ u : Almanac.Uposatha, u.half.Date = (record u).Date.addDays 8 := by
    intro u
    rw [addDays_eq]
    unfold record Almanac.Uposatha.half Time.add
    simp only [Time.mk.injEq, and_true]
    unfold nsPerDay; omega
  have hyear : ∀ u : Almanac.Uposatha, u.half.Date.year = y ↔ Almanac.InYear (u.day + 8) y := by
    intro u
    rw [inYear_iff, ← year_eq_iff]
    have hd : u.half.Date.day = u.day + 8 := by unfold Almanac.Uposatha.half Time.day nsPerDay; simp
    unfold Time.year; rw [hd]
  have phase : ∀ (u : Almanac.Uposatha) (p : String), ((record u).Phase = "new" ∧ p = "waxing" ∨ (record u).Phase = "full" ∧ p = "waning") ↔
      p = u.half.Phase := by
    intro u p
    unfold record Almanac.Uposatha.half
    cases u.full <;> simp
  have half_ext : ∀ m n : HalfMoon, m = n ↔ m.Date = n.Date ∧ m.Phase = n.Phase := by
    intro m n; cases m; cases n; simp
  have fields : ∀ {x : UposathaMoon} {u : Almanac.Uposatha} {n : Int}, core (published x) = core { record u with LunarYear := n } →
      x.Date = (record u).Date ∧ x.Phase = (record u).Phase := by
    intro x u n h
    have hd := congrArg UposathaMoon.Date h
    have hp := congrArg UposathaMoon.Phase h
    exact ⟨hd, hp⟩
  rw [c23_half_iff]
  constructor
  · rintro ⟨k, hk1, hd, hy, hp⟩
    rw [moon_eq] at hd hp
    have hlt : (chain cfg y k).Date.day < daysSinceEpoch (y + 1) := by
      unfold Time.year at hy
      rw [hd, addDays_eq, day_add, year_eq_iff] at hy
      omega
    obtain ⟨u, hu, hu3, hq⟩ := hl.fwd k hk1 hlt
    obtain ⟨hq1, hq2⟩ := fields hq
    have hm : m = u.half := by
      rw [half_ext, hd, hq1, hday]
      exact ⟨rfl, (phase u _).1 (by rw [← hq2]; exact hp)⟩
    subst hm
    exact ⟨u, hu, (hyear u).1 hy, hu3, rfl⟩
  · rintro ⟨u, hu, hin, hu3, rfl⟩
    have hin' := (inYear_iff _ _).1 hin
    obtain ⟨k, hk1, hc⟩ := hl.bwd u hu hu3 (by omega)
    obtain ⟨hq1, hq2⟩ := fields hc
    refine ⟨k, hk1, ?_, (hyear u).2 hin, ?_⟩
    · rw [moon_eq, hq1, hday]
    · rw [moon_eq, hq2]; exact (phase u _).2 rfl

end

section
variable {cfg : Config} (hs : Shipped cfg) {kattika : Int → Int} (hk : Almanac.Kattikas cfg.table kattika) {y : Int} (h1 : 639 ≤ y)
  (h2 : y ≤ 5834)
include hs hk h1 h2

theorem later_seed : chain cfg y 0 = shift (katDay cfg y) (y + 542 + surplus (kattika y) y) seed0 := by
  obtain ⟨ly, h0⟩ := seed_shift cfg y
  have hl : (chain cfg y 0).LunarYear = (calculatePreviousKattika cfg y).year + BEdiff := rfl
  have hl' : (shift (katDay cfg y) ly seed0).LunarYear = 0 + ly := rfl
  rw [h0, hl'] at hl
  have hd : katDay cfg y = (calculatePreviousKattika cfg y).day := rfl
  have hK : kattika y = katDay cfg y := c72_kattika cfg kattika hk y h1
  have w := festival_window hs (y := y) (by omega) (by omega)
  have n0 := daysSinceEpoch_succ y
  have n1 := daysSinceEpoch_succ (y - 1)
  have b0 := yearDays_bounds y
  have b1 := yearDays_bounds (y - 1)
  have e1 : y - 1 + 1 = y := by omega
  rw [e1] at n1
  have hy : (calculatePreviousKattika cfg y).year = y - 1 + surplus (kattika y) y := by
    unfold Time.year
    rw [surplus_eq, hK, ← hd, year_eq_iff]
    split
    · have e : y - 1 + 1 = y := by omega
      rw [e]; omega
    · have e : y - 1 + 0 = y - 1 := by omega
      rw [e, e1]; omega
  have : ly = y + 542 + surplus (kattika y) y := by
    rw [hy] at hl
    unfold BEdiff at hl
    omega
  rw [h0, this]

/-- The moons of the loop agree with the table as far as `f` sees. -/
def Agrees (cfg : Config) (kattika : Int → Int) (y : Int) (f : UposathaMoon → UposathaMoon) : Prop :=
  (∀ x, f (published x) = published (f x)) ∧
  ∀ k, k ≤ covered (fa y) (toNewYear cfg (y + 1)) → (chain cfg y k).Date.day < daysSinceEpoch (y + 1) →
    f (chain cfg y k) = f (shift (katDay cfg y) (y + 542 + surplus (kattika y) y) (ext (fa y) (fv cfg y) k))

theorem agrees_core : Agrees cfg kattika y core := by
  refine ⟨fun _ => rfl, fun k hc _ => ?_⟩
  have w := festival_window hs (y := y) (by omega) (by omega)
  have w' := festival_window hs (y := y + 1) (by omega) (by omega)
  exact covered_core (shipped_fa_fv hs y) (by omega) (by omega) (by omega) (later_seed hs hk h1 h2) k hc

theorem agrees_id (h3 : 1290 ≤ y) : Agrees cfg kattika y id := by
  refine ⟨fun _ => rfl, fun k hc hd => ?_⟩
  have w := festival_window hs (y := y) (by omega) (by omega)
  have w' := festival_window hs (y := y + 1) (by omega) (by omega)
  exact covered_exact (shipped_fa_fv hs y) (by omega) (by omega) (by omega) (by omega) (later_seed hs hk h1 h2) k hc hd

variable {f : UposathaMoon → UposathaMoon} (hf : Agrees cfg kattika y f)
include hf

/-- The moons of the loop up to the end of the year are uposathas of the almanac. -/
theorem later_moon (k : Nat) (hk1 : 1 ≤ k) (hy : (chain cfg y k).Date.day < daysSinceEpoch (y + 1)) :
    ∃ u, Almanac.IsUposatha cfg.table kattika u ∧ kattika y < u.day ∧
      f (published (chain cfg y k)) = f { record u with LunarYear := u.year + surplus (kattika y) y } := by
  have hex := shipped_fa_fv hs y
  have w := festival_window hs (y := y) (by omega) (by omega)
  have w' := festival_window hs (y := y + 1) (by omega) (by omega)
  have hK : kattika y = katDay cfg y := c72_kattika cfg kattika hk y h1
  have hK' : kattika (y + 1) = katDay cfg (y + 1) := c72_kattika cfg kattika hk (y + 1) (by omega)
  have hc : k ≤ covered (fa y) (toNewYear cfg (y + 1)) := by
    by_contra hlt
    have he := covered_end hex (by omega) (by omega) (by omega)
    have hm := chain_year_mono cfg y (show covered (fa y) (toNewYear cfg (y + 1)) ≤ k by omega)
    have : ¬ (chain cfg y k).Date.year ≤ y := by omega
    apply this
    unfold Time.year
    rw [year_le_iff]
    omega
  have hcore := hf.2 k hc hy
  have hpub := hf.1
  by_cases hm : k ≤ moons (fa y)
  · obtain ⟨i, rfl⟩ : ∃ i, k = i + 1 := ⟨k - 1, by omega⟩
    obtain ⟨e, he, hr⟩ := (table_record cfg hex h1).1 i (by omega)
    refine ⟨{ e with day := kattika y + e.day, year := y + 543 }, ⟨y, e, he, rfl⟩, ?_, ?_⟩
    · have := offsets _ e he
      simp only; omega
    · rw [hpub, hcore, ← hpub]
      unfold ext
      rw [if_pos hm, hr, ← hK]
      have e1 : y + 542 + surplus (kattika y) y + 1 = y + 543 + surplus (kattika y) y := by omega
      rw [e1]
      rfl
  · obtain ⟨i, hi⟩ : ∃ i, k - moons (fa y) = i + 1 := ⟨k - moons (fa y) - 1, by omega⟩
    have hc8 : covered (fa y) (toNewYear cfg (y + 1)) ≤ moons (fa y) + 8 := by unfold covered; split <;> omega
    have hd := covered_days hex (by omega) (by omega) (by omega) k hc
    have hks := katDay_succ cfg y
    rw [len_eq] at hks
    unfold eoff ext at hd
    rw [if_neg hm, day_shift, hi] at hd
    have hi5 := first_offsets ⟨i + 1, by omega⟩ (by unfold off; simp only; generalize len _ _ = L at *; omega)
    simp only at hi5
    have hm5 : 24 ≤ moons (fa (y + 1)) := by unfold moons; split <;> omega
    obtain ⟨e, he, hr⟩ := (table_record cfg (shipped_fa_fv hs (y + 1)) (by omega)).1 i (by omega)
    refine ⟨{ e with day := kattika (y + 1) + e.day, year := y + 1 + 543 }, ⟨y + 1, e, he, rfl⟩, ?_, ?_⟩
    · have := offsets _ e he
      have := kattika_mono' hk (y := y) (z := y + 1) (by omega)
      simp only; omega
    · rw [hpub, hcore, ← hpub]
      have hr := hr (katDay cfg (y + 1)) (y + 1 + 542 + surplus (kattika y) y)
      rw [tab_alike _ _ ⟨i + 1, by omega⟩] at hr
      have e1 : y + 1 + 542 + surplus (kattika y) y + 1 = y + 1 + 543 + surplus (kattika y) y := by omega
      rw [e1, ← hK'] at hr
      have e2 : shift (katDay cfg y) (y + 542 + surplus (kattika y) y) (ext (fa y) (fv cfg y) k) =
          shift (kattika (y + 1)) (y + 1 + 542 + surplus (kattika y) y) (tab false false (i + 1)) := by
        unfold ext
        rw [if_neg hm, hi, hK', hks]
        unfold shift Time.add
        simp only [UposathaMoon.mk.injEq, Time.mk.injEq, and_true, true_and]
        generalize len _ _ = L
        unfold nsPerDay
        constructor <;> omega
      rw [e2, hr]
      rfl

/-- The uposathas of the almanac after the Kattika full moon and up to the end of the year are moons of the loop. -/
theorem moon_later (u : Almanac.Uposatha) (hu : Almanac.IsUposatha cfg.table kattika u) (h3 : kattika y < u.day)
    (h4 : u.day < daysSinceEpoch (y + 1)) :
    ∃ k, 1 ≤ k ∧ f (published (chain cfg y k)) = f { record u with LunarYear := u.year + surplus (kattika y) y } := by
  have hex := shipped_fa_fv hs y
  have w := festival_window hs (y := y) (by omega) (by omega)
  have w' := festival_window hs (y := y + 1) (by omega) (by omega)
  have hK : kattika y = katDay cfg y := c72_kattika cfg kattika hk y h1
  have hK' : kattika (y + 1) = katDay cfg (y + 1) := c72_kattika cfg kattika hk (y + 1) (by omega)
  have hpub := hf.1
  obtain ⟨z, e, he, rfl⟩ := hu
  have ho := offsets _ e he
  have hz := hk.step z
  simp only at h3 h4
  have z1 : y ≤ z := by
    by_contra hlt
    have := kattika_mono' hk (y := z + 1) (z := y) (by omega)
    omega
  have z2 : z ≤ y + 1 := by
    by_contra hlt
    have := kattika_mono' hk (y := y + 1) (z := z) (by omega)
    omega
  obtain ⟨i, hi, hr⟩ := (table_record cfg (shipped_fa_fv hs z) (by omega)).2 e he
  have hoff : off (fa z) (fv cfg z) (i + 1) = e.day := by
    have := congrArg (fun m : UposathaMoon => m.Date.day) (hr 0 0)
    simp only [record_day] at this
    have e1 : (published (shift 0 0 (tab (fa z) (fv cfg z) (i + 1)))).Date.day =
      (shift 0 0 (tab (fa z) (fv cfg z) (i + 1))).Date.day := rfl
    rw [e1, day_shift] at this
    unfold off; omega
  have hcases : z = y ∨ z = y + 1 := by omega
  rcases hcases with rfl | rfl
  · have hcv : i + 1 ≤ covered (fa z) (toNewYear cfg (z + 1)) := by unfold covered; split <;> omega
    have hd := covered_days hex (by omega) (by omega) (by omega) _ hcv
    unfold eoff ext at hd
    rw [if_pos (by omega)] at hd
    change _ = off (fa z) (fv cfg z) (i + 1) + _ at hd
    refine ⟨i + 1, by omega, ?_⟩
    rw [hpub, hf.2 (i + 1) hcv (by omega), ← hpub]
    unfold ext
    rw [if_pos (by omega), hr, ← hK]
    have e1 : z + 542 + surplus (kattika z) z + 1 = z + 543 + surplus (kattika z) z := by omega
    rw [e1]
    rfl
  · have small : ∀ a v : Bool, (a && v) = false → ∀ i : Fin 26, i.val < moons a → off a v (i + 1) < 88 → i.val < 5 := by decide +kernel
    have hm : moons (fa (y + 1)) ≤ 26 := by unfold moons; split <;> omega
    have hi5 := small (fa (y + 1)) (fv cfg (y + 1)) (shipped_fa_fv hs (y + 1)) ⟨i, by omega⟩ hi (by simp only; rw [hoff]; omega)
    simp only at hi5
    have hcv : moons (fa y) + (i + 1) ≤ covered (fa y) (toNewYear cfg (y + 1)) := by
      unfold covered
      rw [toNewYear_eq, if_pos (by omega)]
      omega
    have hks := katDay_succ cfg y
    rw [len_eq] at hks
    have hd := covered_days hex (by omega) (by omega) (by omega) _ hcv
    unfold eoff ext at hd
    rw [if_neg (by omega), day_shift, Nat.add_sub_cancel_left, ← tab_alike (fa (y + 1)) (fv cfg (y + 1)) ⟨i + 1, by omega⟩] at hd
    change _ = off (fa (y + 1)) (fv cfg (y + 1)) (i + 1) + _ + _ at hd
    refine ⟨moons (fa y) + (i + 1), by omega, ?_⟩
    rw [hpub, hf.2 _ hcv (by generalize len _ _ = L at *; omega), ← hpub]
    have hr := hr (katDay cfg (y + 1)) (y + 1 + 542 + surplus (kattika y) y)
    rw [tab_alike _ _ ⟨i + 1, by omega⟩] at hr
    have e1 : y + 1 + 542 + surplus (kattika y) y + 1 = y + 1 + 543 + surplus (kattika y) y := by omega
    rw [e1, ← hK'] at hr
    have e2 : shift (katDay cfg y) (y + 542 + surplus (kattika y) y) (ext (fa y) (fv cfg y) (moons (fa y) + (i + 1))) =
        shift (kattika (y + 1)) (y + 1 + 542 + surplus (kattika y) y) (tab false false (i + 1)) := by
      unfold ext
      rw [if_neg (by omega), Nat.add_sub_cancel_left, hK', hks]
      unfold shift Time.add
      simp only [UposathaMoon.mk.injEq, Time.mk.injEq, and_true, true_and]
      generalize len _ _ = L
      unfold nsPerDay
      constructor <;> omega
    rw [e2, hr]
    rfl

theorem later_of : Later cfg kattika y f := ⟨later_moon hs hk h1 h2 hf, moon_later hs hk h1 h2 hf⟩

omit hf

/-- C72: in the years 639 to 5834 the uposathas, without their festivals, are those of the almanac in the year after the Kattika full
moon that the loop starts with; their lunar year is one too high if that full moon is in the year itself. -/
theorem c72_uposatha_wide (m : UposathaMoon) : (∃ event, .uposatha { m with Event := event } ∈ generateSolarYear cfg y) ↔
    ∃ u, Almanac.IsUposatha cfg.table kattika u ∧ Almanac.InYear u.day y ∧ kattika y < u.day ∧
      { m with Event := "" } = { record u with Event := "", LunarYear := u.year + surplus (kattika y) y } :=
  Later.uposatha_core (later_of hs hk h1 h2 (agrees_core hs hk h1 h2)) m

/-- C72: from 1290 on the festivals written with the uposathas are those of the almanac too. -/
theorem c72_uposatha_later (h3 : 1290 ≤ y) (m : UposathaMoon) : .uposatha m ∈ generateSolarYear cfg y ↔
    ∃ u, Almanac.IsUposatha cfg.table kattika u ∧ Almanac.InYear u.day y ∧ kattika y < u.day ∧
      m = { record u with LunarYear := u.year + surplus (kattika y) y } :=
  Later.uposatha (later_of hs hk h1 h2 (agrees_id hs hk h1 h2 h3)) m

/-- C72: the half moons of these years are the eighth days after those uposathas of the almanac. -/
theorem c72_half_wide (m : HalfMoon) : .half m ∈ generateSolarYear cfg y ↔
    ∃ u, Almanac.IsUposatha cfg.table kattika u ∧ Almanac.InYear (u.day + 8) y ∧ kattika y < u.day ∧ m = u.half :=
  Later.half (later_of hs hk h1 h2 (agrees_core hs hk h1 h2)) m

end

/-! ### Festivals -/

/-- The festivals of a lunar year in days after its Kattika full moon. -/
theorem festival_days : ∀ a v : Bool, (a && v) = false → ∀ e ∈ Almanac.uposathas (kindBy a v),
    (e.puja = some .magha → e.day = if a then 118 else 89) ∧ (e.puja = some .vesakha → e.day = if a then 207 else 177) ∧
    (e.puja = some .asalha → e.day = if a then 266 else if v then 237 else 236) ∧
    (e.puja = some .pavarana → e.day = if a then 355 else if v then 326 else 325) := by
  decide +kernel

theorem festival_exists : ∀ a v : Bool, (a && v) = false →
    (∃ e ∈ Almanac.uposathas (kindBy a v), e.puja = some .magha ∧ e.day = if a then 118 else 89) ∧
    (∃ e ∈ Almanac.uposathas (kindBy a v), e.puja = some .vesakha ∧ e.day = if a then 207 else 177) ∧
    (∃ e ∈ Almanac.uposathas (kindBy a v), e.puja = some .asalha ∧ e.day = if a then 266 else if v then 237 else 236) ∧
    (∃ e ∈ Almanac.uposathas (kindBy a v), e.puja = some .pavarana ∧ e.day = if a then 355 else if v then 326 else 325) := by
  decide +kernel

/-- The festivals of a lunar year. -/
def festivalList (a v : Bool) : List (Int × String) :=
  [(if a then 118 else 89, "Māgha Pūjā"), (if a then 207 else 177, "Vesākha Pūjā"),
   (if a then 266 else if v then 237 else 236, "Āsāḷha Pūjā"), (if a then 267 else if v then 238 else 237, "First day of Vassa"),
   (if a then 355 else if v then 326 else 325, "Pavāraṇā Day"), (if a then 355 else if v then 326 else 325, "Last day of Vassa")]

theorem festival_iff {cfg : Config} (hs : Shipped cfg) (kattika : Int → Int) (z : Int) (h : 639 ≤ z) (day : Int) (name : String) :
    (∃ e ∈ Almanac.uposathas (Almanac.kindOf cfg.table z),
      (e.puja = some .magha ∧ day = kattika z + e.day ∧ name = "Māgha Pūjā" ∨
       e.puja = some .vesakha ∧ day = kattika z + e.day ∧ name = "Vesākha Pūjā" ∨
       e.puja = some .asalha ∧ day = kattika z + e.day ∧ name = "Āsāḷha Pūjā" ∨
       e.puja = some .asalha ∧ day = kattika z + e.day + 1 ∧ name = "First day of Vassa" ∨
       e.puja = some .pavarana ∧ day = kattika z + e.day ∧ name = "Pavāraṇā Day" ∨
       e.puja = some .pavarana ∧ day = kattika z + e.day ∧ name = "Last day of Vassa")) ↔
    (day - kattika z, name) ∈ festivalList (fa z) (fv cfg z) := by
  have hx := shipped_fa_fv hs z
  have F := festival_days (fa z) (fv cfg z) hx
  obtain ⟨⟨e1, m1, p1, d1⟩, ⟨e2, m2, p2, d2⟩, ⟨e3, m3, p3, d3⟩, ⟨e4, m4, p4, d4⟩⟩ := festival_exists (fa z) (fv cfg z) hx
  have r3 : (if fa z then (267 : Int) else if fv cfg z then 238 else 237) = (if fa z then (266 : Int) else if fv cfg z then 237 else 236) + 1 := by
    split <;> [rfl; split <;> rfl]
  rw [kindOf_eq cfg h]
  unfold festivalList
  rw [r3]
  simp only [List.mem_cons, Prod.mk.injEq, List.not_mem_nil, or_false]
  constructor
  · rintro ⟨e, he, hc⟩
    obtain ⟨f1, f2, f3, f4⟩ := F e he
    rcases hc with ⟨hp, hd, hn⟩ | ⟨hp, hd, hn⟩ | ⟨hp, hd, hn⟩ | ⟨hp, hd, hn⟩ | ⟨hp, hd, hn⟩ | ⟨hp, hd, hn⟩
    · exact .inl ⟨by rw [← f1 hp]; omega, hn⟩
    · exact .inr (.inl ⟨by rw [← f2 hp]; omega, hn⟩)
    · exact .inr (.inr (.inl ⟨by rw [← f3 hp]; omega, hn⟩))
    · exact .inr (.inr (.inr (.inl ⟨by rw [← f3 hp]; omega, hn⟩)))
    · exact .inr (.inr (.inr (.inr (.inl ⟨by rw [← f4 hp]; omega, hn⟩))))
    · exact .inr (.inr (.inr (.inr (.inr ⟨by rw [← f4 hp]; omega, hn⟩))))
  · rintro (⟨hd, hn⟩ | ⟨hd, hn⟩ | ⟨hd, hn⟩ | ⟨hd, hn⟩ | ⟨hd, hn⟩ | ⟨hd, hn⟩)
    · exact ⟨e1, m1, .inl ⟨p1, by rw [d1]; omega, hn⟩⟩
    · exact ⟨e2, m2, .inr (.inl ⟨p2, by rw [d2]; omega, hn⟩)⟩
    · exact ⟨e3, m3, .inr (.inr (.inl ⟨p3, by rw [d3]; omega, hn⟩))⟩
    · exact ⟨e3, m3, .inr (.inr (.inr (.inl ⟨p3, by rw [d3]; omega, hn⟩)))⟩
    · exact ⟨e4, m4, .inr (.inr (.inr (.inr (.inl ⟨p4, by rw [d4]; omega, hn⟩))))⟩
    · exact ⟨e4, m4, .inr (.inr (.inr (.inr (.inr ⟨p4, by rw [d4]; omega, hn⟩))))⟩

/-- C72: in the years 1290 to 5834 the major events are the festivals of the almanac in the year. -/
theorem c72_major_later {cfg : Config} (hs : Shipped cfg) {kattika : Int → Int} (hk : Almanac.Kattikas cfg.table kattika) {y : Int}
    (h1 : 1290 ≤ y) (h2 : y ≤ 5834) (m : MajorEvent) : .major m ∈ generateSolarYear cfg y ↔
    ∃ day name, Almanac.IsFestival cfg.table kattika day name ∧ Almanac.InYear day y ∧ m = majorOn ⟨day * nsPerDay, 0⟩ name := by
  have hK : ∀ z, 639 ≤ z → kattika z = katDay cfg z := c72_kattika cfg kattika hk
  have w := festival_window hs (y := y) (by omega) (by omega)
  have w' := festival_window hs (y := y + 1) (by omega) (by omega)
  have k0 := hK y (by omega)
  have k1 := hK (y + 1) (by omega)
  have n0 := daysSinceEpoch_succ y
  have b0 := yearDays_bounds y
  have bounds : ∀ a v : Bool, (a && v) = false → ∀ p ∈ festivalList a v, 89 ≤ p.1 ∧ p.1 ≤ len a v - 29 := by decide +kernel
  have hlen : ∀ z, 639 ≤ z → kattika (z + 1) = kattika z + len (fa z) (fv cfg z) := by
    intro z hz
    rw [hk.step, kindOf_eq cfg hz, kind_days]
  have hly := hlen y (by omega)
  have iff1 : ∀ day name, Almanac.IsFestival cfg.table kattika day name ∧ Almanac.InYear day y ↔
      (day - kattika y, name) ∈ festivalList (fa y) (fv cfg y) := by
    intro day name
    constructor
    · rintro ⟨⟨u, ⟨z, e, he, rfl⟩, hc⟩, hin⟩
      rw [inYear_iff] at hin
      have ho := offsets _ e he
      have hz := hk.step z
      simp only at hc
      have hd : day = kattika z + e.day ∨ day = kattika z + e.day + 1 := by
        rcases hc with h | h | h | h | h | h <;> [left; left; left; right; left; left] <;> exact h.2.1
      have z1 : y - 1 ≤ z := by
        by_contra hlt
        have := kattika_mono' hk (y := z + 1) (z := y) (by omega)
        omega
      have hf := (festival_iff hs kattika z (by omega) day name).1 ⟨e, he, hc⟩
      have hb := bounds _ _ (shipped_fa_fv hs z) _ hf
      simp only at hb
      have hl := hlen z (by omega)
      have hzy : z = y := by
        by_contra hne
        rcases Int.lt_or_le z y with hlt | hge
        · have e1 : z + 1 = y := by omega
          rw [e1] at hl
          omega
        · have := kattika_mono' hk (y := y + 1) (z := z) (by omega)
          omega
      rw [hzy] at hf
      exact hf
    · intro hf
      obtain ⟨e, he, hc⟩ := (festival_iff hs kattika y (by omega) day name).2 hf
      have hb := bounds _ _ (shipped_fa_fv hs y) _ hf
      simp only at hb
      refine ⟨⟨_, ⟨y, e, he, rfl⟩, hc⟩, ?_⟩
      rw [inYear_iff]
      have := w.2.1 h1
      omega
  have hlist : majorsOf (generateSolarYear cfg y) =
      (festivalList (fa y) (fv cfg y)).map fun p => majorOn ⟨(kattika y + p.1) * nsPerDay, 0⟩ p.2 := by
    have h6 := c21_six cfg hs y h1 h2
    have hx := shipped_fa_fv hs y
    have hA : ∀ n, ((SuriyaYear.init y).asalhaPuja cfg).addDays n = ⟨(kattika y + (n - 118 + len (fa y) (fv cfg y))) * nsPerDay, 0⟩ := by
      intro n
      have h := kattika_asalha cfg y (n - 118 + len (fa y) (fv cfg y))
      have e : n - 118 + len (fa y) (fv cfg y) + 118 - len (fa y) (fv cfg y) = n := by omega
      rw [e] at h
      rw [← h, kattika_eq, addDays_eq, k0]
      unfold Time.add
      simp only [Time.mk.injEq, and_true]
      generalize len _ _ = L
      unfold nsPerDay; omega
    have hA0 := hA 0
    rw [addDays_zero] at hA0
    simp only [hA0] at h6
    rw [h6]
    unfold fa fv at *
    cases ha : (SuriyaYear.init y).isAdhikamasa <;> cases hv : (SuriyaYear.init y).isAdhikavara cfg <;>
      simp_all [festivalList, len]
  have hmem : .major m ∈ generateSolarYear cfg y ↔ m ∈ majorsOf (generateSolarYear cfg y) := by
    unfold majorsOf
    rw [List.mem_filterMap]
    constructor
    · intro h; exact ⟨_, h, rfl⟩
    · rintro ⟨e, he, hq⟩
      cases e <;> simp at hq
      subst hq
      exact he
  rw [hmem, hlist, List.mem_map]
  constructor
  · rintro ⟨⟨d, n⟩, hp, rfl⟩
    refine ⟨kattika y + d, n, ?_⟩
    rw [← and_assoc, iff1]
    have e : kattika y + d - kattika y = d := by omega
    rw [e]
    exact ⟨hp, rfl⟩
  · rintro ⟨day, name, hf, hin, rfl⟩
    refine ⟨(day - kattika y, name), (iff1 day name).1 ⟨hf, hin⟩, ?_⟩
    have e : kattika y + (day - kattika y) = day := by omega
    simp only [e]

/-- The Kattika full moon of 2 January 4117 and the new moon after it in the almanac without exceptions. -/
def kattika4117 : Almanac.Uposatha :=
  { day := 1503339, full := true, month := 12, year := 4659, fortnight := 15, monthDays := 29, season := 3, number := 8, total := 8,
    added := false, puja := none }

def newMoon4117 : Almanac.Uposatha :=
  { day := 1503354, full := false, month := 1, year := 4660, fortnight := 15, monthDays := 30, season := 1, number := 1, total := 8,
    added := false, puja := none }

/-- C72: both are uposathas of 4117. The full moon is not among the uposathas of the year; the new moon is the first of them, with
4661 for its lunar year. -/
example {kattika : Int → Int} (hk : Almanac.Kattikas Config.default.table kattika) :
    Almanac.IsUposatha Config.default.table kattika kattika4117 ∧ IsDate kattika4117.day 4117 1 2 ∧
    Almanac.IsUposatha Config.default.table kattika newMoon4117 ∧ Almanac.InYear newMoon4117.day 4117 ∧
    surplus (kattika 4117) 4117 = 1 ∧
    (¬ ∃ m, .uposatha m ∈ generateSolarYear .default 4117 ∧ m.Date.day = kattika4117.day) ∧
    (∃ event, .uposatha { record newMoon4117 with LunarYear := 4661, Event := event } ∈ generateSolarYear .default 4117) ∧
    .half newMoon4117.half ∈ generateSolarYear .default 4117 := by
  have hK : kattika 4117 = 1503339 := (c72_kattika .default kattika hk 4117 (by decide)).trans (by decide +kernel)
  have hK0 : kattika 4116 = 1502955 := (c72_kattika .default kattika hk 4116 (by decide)).trans (by decide +kernel)
  have k0 : Almanac.kindOf Config.default.table 4116 = .extraMonth := by decide +kernel
  have k1 : Almanac.kindOf Config.default.table 4117 = .plain := by decide +kernel
  have u0 : Almanac.IsUposatha Config.default.table kattika kattika4117 := by
    refine ⟨4116, { kattika4117 with day := 384, year := 0 }, ?_, ?_⟩
    · rw [k0]; decide +kernel
    · rw [hK0]; rfl
  have u1 : Almanac.IsUposatha Config.default.table kattika newMoon4117 := by
    refine ⟨4117, { newMoon4117 with day := 15, year := 0 }, ?_, ?_⟩
    · rw [k1]; decide +kernel
    · rw [hK]; rfl
  have i1 : Almanac.InYear newMoon4117.day 4117 :=
    ⟨1, 17, (date_day (y := 4117) (m := 1) (d := 17) (by decide) (by decide) (by decide) (by decide)).1⟩
  have i8 : Almanac.InYear (newMoon4117.day + 8) 4117 :=
    ⟨1, 25, (date_day (y := 4117) (m := 1) (d := 25) (by decide) (by decide) (by decide) (by decide)).1⟩
  have hs : surplus (kattika 4117) 4117 = 1 := by rw [surplus_eq, hK]; decide +kernel
  have hlt : kattika 4117 < newMoon4117.day := by rw [hK]; decide
  refine ⟨u0, (date_day (y := 4117) (m := 1) (d := 2) (by decide) (by decide) (by decide) (by decide)).1, u1, i1, hs, ?_, ?_, ?_⟩
  · rintro ⟨m, hm, hd⟩
    obtain ⟨u, -, -, h3, hq⟩ := (c72_uposatha_wide (Or.inl rfl) hk (by decide) (by decide) m).1 ⟨m.Event, hm⟩
    have := congrArg (fun x : UposathaMoon => x.Date.day) hq
    have := this.trans (record_day u)
    have h5 : kattika4117.day = 1503339 := rfl
    simp only at this
    omega
  · exact (c72_uposatha_wide (Or.inl rfl) hk (by decide) (by decide) { record newMoon4117 with LunarYear := 4661 }).2
      ⟨newMoon4117, u1, i1, hlt, by rw [hs]; rfl⟩
  · exact (c72_half_wide (Or.inl rfl) hk (by decide) (by decide) _).2 ⟨newMoon4117, u1, i8, hlt, rfl⟩

/-- The full moon of Pavāraṇā in 5600 in the almanac without exceptions. -/
def pavarana5600 : Almanac.Uposatha :=
  { day := 2045344, full := true, month := 11, year := 6143, fortnight := 15, monthDays := 30, season := 3, number := 6, total := 8,
    added := false, puja := some .pavarana }

/-- C72: in 5600 the Kattika full moon is on 27 January. Pavāraṇā on 18 December is the day of the almanac; the lunar year written is
6144 instead of 6143. -/
example {kattika : Int → Int} (hk : Almanac.Kattikas Config.default.table kattika) :
    IsDate (kattika 5600) 5600 1 27 ∧ IsDate pavarana5600.day 5600 12 18 ∧
    Almanac.IsUposatha Config.default.table kattika pavarana5600 ∧
    .uposatha { record pavarana5600 with LunarYear := 6144 } ∈ generateSolarYear .default 5600 ∧
    (record pavarana5600).Event = "pavarana" ∧
    .major (majorOn ⟨pavarana5600.day * nsPerDay, 0⟩ "Pavāraṇā Day") ∈ generateSolarYear .default 5600 := by
  have hK : kattika 5600 = 2045018 := (c72_kattika .default kattika hk 5600 (by decide)).trans (by decide +kernel)
  have k0 : Almanac.kindOf Config.default.table 5600 = .extraDay := by decide +kernel
  have hd := (date_day (y := 5600) (m := 12) (d := 18) (by decide) (by decide) (by decide) (by decide)).1
  have hj := (date_day (y := 5600) (m := 1) (d := 27) (by decide) (by decide) (by decide) (by decide)).1
  have hu : Almanac.IsUposatha Config.default.table kattika pavarana5600 := by
    refine ⟨5600, { pavarana5600 with day := 326, year := 0 }, ?_, ?_⟩
    · rw [k0]; decide +kernel
    · rw [hK]; rfl
  have hs : surplus (kattika 5600) 5600 = 1 := by rw [surplus_eq, hK]; decide +kernel
  refine ⟨by rw [hK]; exact hj, hd, hu, ?_, rfl, ?_⟩
  · exact (c72_uposatha_later (Or.inl rfl) hk (by decide) (by decide) (by decide) _).2
      ⟨pavarana5600, hu, ⟨12, 18, hd⟩, by rw [hK]; decide, by rw [hs]; rfl⟩
  · exact (c72_major_later (Or.inl rfl) hk (by decide) (by decide) _).2
      ⟨pavarana5600.day, "Pavāraṇā Day", ⟨pavarana5600, hu, .inr (.inr (.inr (.inr (.inl ⟨rfl, rfl, rfl⟩))))⟩, ⟨12, 18, hd⟩, rfl⟩

end Verif.Props
