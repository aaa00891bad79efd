import Verif.Props.AlmanacFar
import Verif.Spec.AlmanacShown
/-
C80: the festivals of all years from 639 on.
-/
set_option autoImplicit false

namespace Verif.Props
open Verif.Go Verif.Model Verif.Spec Verif.Lemmas

/-- The uposatha as the loop of year `y` writes it. -/
noncomputable def written (t : Int → Option Bool) (kattika : Int → Int) (y : Int) (u : Almanac.Uposatha) : Almanac.Uposatha :=
  { u with year := u.year + surplus (kattika y) y, puja := open Classical in if Almanac.Doubled t u then some .magha else u.puja }

theorem written_iff {t : Int → Option Bool} {kattika : Int → Int} {u : Almanac.Uposatha} {y : Int} (h : Almanac.InYear u.day y)
    (w : Almanac.Uposatha) : Almanac.Written t kattika u w ↔ w = written t kattika y u := by
  constructor
  · rintro ⟨z, hz, hc, hp, hw⟩
    rw [inYear_iff, ← year_eq_iff] at h hz
    rw [h] at hz
    subst hz
    have h1 : w.year = u.year + surplus (kattika y) y := by
      rcases hc with ⟨hc, h⟩ | ⟨hc, h⟩
      · unfold surplus; rw [if_pos hc, h]
      · unfold surplus; rw [if_neg hc, h]; omega
    have h2 : w.puja = (written t kattika y u).puja := by
      unfold written
      rcases hp with ⟨hp, h⟩ | ⟨hp, h⟩
      · simp only [if_pos hp, h]
      · simp only [if_neg hp, h]
    rw [hw, h1, h2]
    rfl
  · rintro rfl
    refine ⟨y, h, ?_, ?_, rfl⟩
    · by_cases hc : Almanac.InYear (kattika y) y
      · left; unfold written surplus; rw [if_pos hc]; exact ⟨hc, rfl⟩
      · right; unfold written surplus; rw [if_neg hc]; exact ⟨hc, by simp⟩
    · by_cases hp : Almanac.Doubled t u
      · left; unfold written; simp only [if_pos hp]; exact ⟨hp, trivial⟩
      · right; unfold written; simp only [if_neg hp]; exact ⟨hp, trivial⟩

/-- The moons of the loop from the first on to the end of the year are the uposathas of the almanac after the Kattika full moon, as they
are written. -/
structure Prints (cfg : Config) (kattika : Int → Int) (y : Int) : Prop where
  fwd : ∀ k, 1 ≤ k → (chain cfg y k).Date.day < daysSinceEpoch (y + 1) →
    ∃ u, Almanac.IsUposatha cfg.table kattika u ∧ kattika y < u.day ∧ published (chain cfg y k) = record (written cfg.table kattika y u)
  bwd : ∀ u, Almanac.IsUposatha cfg.table kattika u → kattika y < u.day → u.day < daysSinceEpoch (y + 1) →
    ∃ k, 1 ≤ k ∧ published (chain cfg y k) = record (written cfg.table kattika y u)

section
variable {cfg : Config} {kattika : Int → Int} {y : Int}

theorem Prints.uposatha (hl : Prints cfg kattika y) (m : UposathaMoon) : .uposatha m ∈ generateSolarYear cfg y ↔
    ∃ u, Almanac.IsUposatha cfg.table kattika u ∧ Almanac.InYear u.day y ∧ kattika y < u.day ∧
      m = record (written cfg.table kattika y u) := by
  have day : ∀ u, (record (written cfg.table kattika y u)).Date.year = y ↔ Almanac.InYear u.day y := by
    intro u
    rw [inYear_iff, ← year_eq_iff, ← record_day u]
    exact Iff.rfl
  rw [c22_uposatha_iff]
  constructor
  · rintro ⟨k, hk1, rfl, hy⟩
    rw [moon_eq] at hy ⊢
    have hin : Almanac.InYear (chain cfg y k).Date.day y := by rw [inYear_iff, ← year_eq_iff]; exact hy
    obtain ⟨u, hu, hu3, hq⟩ := hl.fwd k hk1 ((inYear_iff _ _).1 hin).2
    rw [hq] at hy ⊢
    exact ⟨u, hu, (day u).1 hy, hu3, rfl⟩
  · rintro ⟨u, hu, hin, hu3, rfl⟩
    obtain ⟨k, hk1, hc⟩ := hl.bwd u hu hu3 ((inYear_iff _ _).1 hin).2
    exact ⟨k, hk1, by rw [moon_eq]; exact hc.symm, (day u).2 hin⟩

theorem Prints.major (hl : Prints cfg kattika y) (m : MajorEvent) : .major m ∈ generateSolarYear cfg y ↔
    ∃ u, Almanac.IsUposatha cfg.table kattika u ∧ Almanac.InYear u.day y ∧ kattika y < u.day ∧
      ∃ day name, Almanac.FeastOf (written cfg.table kattika y u) day name ∧ m = majorOn ⟨day * nsPerDay, 0⟩ name := by
  have year : ∀ (u : Almanac.Uposatha), (record u).Date.year = y ↔ Almanac.InYear u.day y := by
    intro u
    rw [inYear_iff, ← year_eq_iff, ← record_day u]
    exact Iff.rfl
  have add : ∀ (u : Almanac.Uposatha) (n : Int), (record u).Date.addDays n = ⟨(u.day + n) * nsPerDay, 0⟩ := by
    intro u n
    rw [addDays_eq]
    unfold record Time.add
    simp only [Time.mk.injEq, and_true]
    unfold nsPerDay; omega
  have fields : ∀ {x : UposathaMoon} {u : Almanac.Uposatha}, published x = record u →
      x.Date = (record u).Date ∧ x.Event = Almanac.eventName u.puja := by
    intro x u h
    have hd := congrArg UposathaMoon.Date h
    have hp := congrArg UposathaMoon.Event h
    exact ⟨hd, hp⟩
  rw [c22_major_iff]
  constructor
  · rintro ⟨k, hk1, hy, p, hp, rfl⟩
    rw [moon_eq] at hy hp ⊢
    obtain ⟨u, hu, hu3, hq⟩ := hl.fwd k hk1 (by unfold Time.year at hy; rw [year_eq_iff] at hy; exact hy.2)
    obtain ⟨hd, he⟩ := fields hq
    rw [hd] at hy ⊢
    rw [he] at hp
    exact ⟨u, hu, (year _).1 hy, hu3, u.day + p.2, p.1, (feast_iff _ _ _).2 ⟨p, hp, rfl, rfl⟩, by rw [add]; rfl⟩
  · rintro ⟨u, hu, hin, hu3, day, name, hf, rfl⟩
    obtain ⟨k, hk1, hc⟩ := hl.bwd u hu hu3 ((inYear_iff _ _).1 hin).2
    obtain ⟨hd, he⟩ := fields hc
    obtain ⟨p, hp, rfl, rfl⟩ := (feast_iff _ _ _).1 hf
    refine ⟨k, hk1, ?_, p, ?_, ?_⟩
    · rw [moon_eq, hd]; exact (year (written _ _ _ _)).2 hin
    · rw [moon_eq, he]; exact hp
    · rw [moon_eq, hd, add]

end

/-! ### From 1290 on -/

theorem third_full : ∀ k : Almanac.Kind, ∀ e ∈ Almanac.uposathas k, e.month = 3 → e.full = true →
    e.day = 89 ∧ e.puja = if k = .extraMonth then none else some .magha := by
  intro k; cases k <;> decide +kernel

theorem uposatha_doubled {t : Int → Option Bool} {kattika : Int → Int} {z : Int} {e : Almanac.Uposatha}
    (he : e ∈ Almanac.uposathas (Almanac.kindOf t z)) : Almanac.Doubled t { e with day := kattika z + e.day, year := z + 543 } ↔
    Almanac.kindOf t z = .extraMonth ∧ e.month = 3 ∧ e.full = true ∧ Almanac.InYear (kattika z + 89) z ∧ ¬ Almanac.InYear (kattika z + 74) z := by
  constructor
  · rintro ⟨y, hy, hk, h3, hf, hi, hn⟩
    have : z = y := by simp only at hy; omega
    subst this
    have h89 := (third_full _ e he h3 hf).1
    simp only [h89] at hi hn
    rw [show kattika z + 89 - 15 = kattika z + 74 by omega] at hn
    exact ⟨hk, h3, hf, hi, hn⟩
  · rintro ⟨hk, h3, hf, hi, hn⟩
    have h89 := (third_full _ e he h3 hf).1
    refine ⟨z, rfl, hk, h3, hf, ?_, ?_⟩
    · simp only [h89]; exact hi
    · simp only [h89]
      rw [show kattika z + 89 - 15 = kattika z + 74 by omega]
      exact hn

section
variable {cfg : Config} (hs : Shipped cfg) {kattika : Int → Int} (hk : Almanac.Kattikas cfg.table kattika)
include hs hk

theorem late_kattika {z : Int} (h : 1290 ≤ z) : daysSinceEpoch z - 74 ≤ kattika z := by
  rw [c72_kattika cfg kattika hk z (by omega)]
  change _ ≤ katDay cfg z
  rcases Int.lt_or_le z 5835 with h' | h'
  · exact (festival_window hs (by omega) (by omega)).2.1 h
  · have := far_kattika hs h'
    omega

/-- C80: after the Kattika full moon of 1290 no full moon is doubled. -/
theorem c80_not_doubled {y : Int} (h : 1290 ≤ y) {u : Almanac.Uposatha} (hu : Almanac.IsUposatha cfg.table kattika u) (hl : kattika y < u.day) :
    ¬ Almanac.Doubled cfg.table u := by
  obtain ⟨z, e, he, rfl⟩ := hu
  rw [uposatha_doubled he]
  rintro ⟨-, -, -, hi, hn⟩
  have ho := offsets _ e he
  have hz := hk.step z
  have z1 : y ≤ z := by
    by_contra hlt
    have := kattika_mono' hk (y := z + 1) (z := y) (by omega)
    simp only at hl
    omega
  have w := late_kattika hs hk (z := z) (by omega)
  rw [inYear_iff] at hi hn
  exact hn ⟨by omega, by omega⟩

theorem late_prints {y : Int} (h : 1290 ≤ y) : Prints cfg kattika y := by
  have hl := later_id hs hk h
  have eq : ∀ u, ¬ Almanac.Doubled cfg.table u →
      record (written cfg.table kattika y u) = { record u with LunarYear := u.year + surplus (kattika y) y } := by
    intro u hn
    unfold written
    rw [if_neg hn]
    rfl
  constructor
  · intro k h1 h2
    obtain ⟨u, hu, hlt, hq⟩ := hl.fwd k h1 h2
    exact ⟨u, hu, hlt, by rw [eq u (c80_not_doubled hs hk h hu hlt)]; exact hq⟩
  · intro u hu hlt h2
    obtain ⟨k, h1, hq⟩ := hl.bwd u hu hlt h2
    exact ⟨k, h1, by rw [eq u (c80_not_doubled hs hk h hu hlt)]; exact hq⟩

end

/-! ### Before 1290 -/

/-- Forget the festival of the full moon of the third month. -/
def hide (m : UposathaMoon) : UposathaMoon := if m.LunarMonth = 3 ∧ m.Phase = "full" then core m else m

theorem hide_third {m n : UposathaMoon} (h : hide m = hide n) : (m.LunarMonth = 3 ∧ m.Phase = "full" ↔ n.LunarMonth = 3 ∧ n.Phase = "full") ∧ core m = core n := by
  have a : ∀ m, (hide m).LunarMonth = m.LunarMonth ∧ (hide m).Phase = m.Phase ∧ core (hide m) = core m := by
    intro m; unfold hide; split <;> exact ⟨rfl, rfl, rfl⟩
  obtain ⟨a1, a2, a3⟩ := a m
  obtain ⟨b1, b2, b3⟩ := a n
  refine ⟨?_, ?_⟩
  · rw [← a1, ← a2, h, b1, b2]
  · rw [← a3, h, b3]

theorem tab_third : ∀ a v : Bool, (a && v) = false → (tab a v 6).LunarMonth = 3 ∧ (tab a v 6).Phase = "full" ∧ (tab a v 6).Date.day = 89 := by
  decide +kernel

theorem step_third : ∀ a v a' v' : Bool, (a && v) = false → (step a' v' (tab a v 5)).Event = if a' then "" else "magha" := by decide +kernel

section
variable {cfg : Config} (hs : Shipped cfg) {kattika : Int → Int} (hk : Almanac.Kattikas cfg.table kattika) {y : Int} (h1 : 639 ≤ y)
  (h2 : y ≤ 5834)
include hs hk h1 h2

theorem agrees_hide : Agrees cfg kattika y hide := by
  refine ⟨fun x => ?_, fun k hc hd => ?_⟩
  · unfold hide
    by_cases h : x.LunarMonth = 3 ∧ x.Phase = "full"
    · rw [if_pos h, if_pos (show (published x).LunarMonth = 3 ∧ (published x).Phase = "full" from h)]; rfl
    · rw [if_neg h, if_neg (show ¬ ((published x).LunarMonth = 3 ∧ (published x).Phase = "full") from h)]
  have w := festival_window hs (y := y) (by omega) (by omega)
  have w' := festival_window hs (y := y + 1) (by omega) (by omega)
  have hex := shipped_fa_fv hs y
  by_cases h6 : k = 6
  · have hcore := covered_core hex (by omega) (by omega) (by omega) (later_seed hs hk h1 h2) k hc
    have hm : 24 ≤ moons (fa y) := by unfold moons; split <;> omega
    have e : ext (fa y) (fv cfg y) k = tab (fa y) (fv cfg y) 6 := by unfold ext; rw [if_pos (by omega), h6]
    rw [e] at hcore ⊢
    have ht := tab_third _ _ hex
    have m1 : (chain cfg y k).LunarMonth = 3 := by
      have := congrArg UposathaMoon.LunarMonth hcore
      exact this.trans ht.1
    have m2 : (chain cfg y k).Phase = "full" := by
      have := congrArg UposathaMoon.Phase hcore
      exact this.trans ht.2.1
    unfold hide
    rw [if_pos ⟨m1, m2⟩, hcore, if_pos ⟨ht.1, ht.2.1⟩]
  · rw [covered_other hex (by omega) (by omega) (by omega) (later_seed hs hk h1 h2) k h6 hc hd]

omit hk in
/-- The lunar year before one that starts early has no extra month. -/
theorem before_early (he : katDay cfg y < daysSinceEpoch y - 74) : fa (y - 1) = false := by
  cases hfa : fa (y - 1)
  · rfl
  · exfalso
    have hs' := daysSinceEpoch_succ (y - 1)
    have hb := yearDays_bounds (y - 1)
    have hK := katDay_succ cfg (y - 1)
    have e : y - 1 + 1 = y := by omega
    have hL : (SuriyaYear.init (y - 1)).yearLength cfg = 384 := by rw [len_eq]; unfold len; rw [if_pos hfa]
    rw [e] at hs' hK
    have w0 := festival_window hs (y := y - 1) (by omega) (by omega)
    omega

/-- The day and the festival of the sixth moon. -/
theorem sixth : (chain cfg y 6).Date.day = kattika y + 89 ∧ (chain cfg y 6).Event = if fa (maghaYear cfg y) then "" else "magha" := by
  have w := festival_window hs (y := y) (by omega) (by omega)
  have w' := festival_window hs (y := y + 1) (by omega) (by omega)
  have hex := shipped_fa_fv hs y
  have hm24 : 24 ≤ moons (fa y) := by unfold moons; split <;> omega
  obtain ⟨L1, -, -, L4⟩ := lunar_year hex (by omega) (by omega) (later_seed hs hk h1 h2) 6 (by omega)
  have hK : kattika y = katDay cfg y := c72_kattika cfg kattika hk y h1
  have cd : ∀ x : UposathaMoon, (core x).Date.day = x.Date.day := fun _ => rfl
  have ev : ∀ d ly (u : UposathaMoon), (shift d ly u).Event = u.Event := fun _ _ _ => rfl
  constructor
  · have h := congrArg (fun x : UposathaMoon => x.Date.day) L1
    simp only [cd, day_shift] at h
    have := (tab_third _ _ hex).2.2
    omega
  · rw [L4 rfl, ev]
    exact step_third _ _ _ _ hex

theorem hide_written {k : Nat} (hd : (chain cfg y k).Date.day < daysSinceEpoch (y + 1)) {u : Almanac.Uposatha}
    (hu : Almanac.IsUposatha cfg.table kattika u) (hl : kattika y < u.day)
    (h : hide (published (chain cfg y k)) = hide { record u with LunarYear := u.year + surplus (kattika y) y }) :
    published (chain cfg y k) = record (written cfg.table kattika y u) := by
  obtain ⟨h3, hcore⟩ := hide_third h
  have hday : (chain cfg y k).Date.day = u.day := by
    have := congrArg (fun x : UposathaMoon => x.Date.day) hcore
    exact this.trans (record_day u)
  by_cases hm : u.month = 3 ∧ u.full = true
  · obtain ⟨z, e, he, rfl⟩ := hu
    have w := festival_window hs (y := y) (by omega) (by omega)
    have w' := festival_window hs (y := y + 1) (by omega) (by omega)
    have hK : kattika y = katDay cfg y := c72_kattika cfg kattika hk y h1
    have hK' : kattika (y + 1) = katDay cfg (y + 1) := c72_kattika cfg kattika hk (y + 1) (by omega)
    have t := third_full _ e he hm.1 hm.2
    have ho := offsets _ e he
    have hz := hk.step z
    simp only at hl hday
    have z1 : y ≤ z := by
      by_contra hlt
      have := kattika_mono' hk (y := z + 1) (z := y) (by omega)
      omega
    have z2 : z = y := by
      by_contra hlt
      have := kattika_mono' hk (y := y + 1) (z := z) (by omega)
      omega
    subst z2
    have d6 := (sixth hs hk h1 h2).1
    have hk6 : k = 6 := by
      rcases Nat.lt_trichotomy k 6 with h | h | h
      · have := chain_day_mono cfg z (show k ≤ 6 by omega); omega
      · exact h
      · have := chain_day_mono cfg z (show 6 ≤ k by omega); omega
    have hev := (sixth hs hk h1 h2).2
    rw [← hk6] at hev
    have e1 : ∀ x : UposathaMoon, x = { core x with Event := x.Event } := fun _ => rfl
    rw [e1 (published (chain cfg z k)), hcore]
    have hfin : (published (chain cfg z k)).Event = Almanac.eventName (written cfg.table kattika z { e with day := kattika z + e.day, year := z + 543 }).puja := by
      change (chain cfg z k).Event = _
      rw [hev]
      have hkind : Almanac.kindOf cfg.table z = .extraMonth ↔ fa z = true := by
        rw [kindOf_eq cfg h1]
        unfold kindBy
        cases fa z <;> cases fv cfg z <;> simp
      have hD := uposatha_doubled (kattika := kattika) he
      rw [hkind, inYear_iff, inYear_iff] at hD
      unfold written maghaYear
      simp only [t.2, hkind]
      by_cases hearly : katDay cfg z < daysSinceEpoch z - 74
      · rw [if_pos hearly, before_early hs h1 h2 hearly]
        cases hfa : fa z
        · rw [if_neg (fun h => absurd (hfa.symm.trans (hD.1 h).1) (by decide))]
          simp [Almanac.eventName]
        · rw [if_pos (hD.2 ⟨hfa, hm.1, hm.2, ⟨by omega, by omega⟩, by omega⟩)]
          simp [Almanac.eventName]
      · rw [if_neg hearly]
        rw [if_neg (fun h => (hD.1 h).2.2.2.2 ⟨by omega, by omega⟩)]
        cases hfa : fa z <;> simp [Almanac.eventName]
    rw [hfin]
    rfl
  · have hn : ¬ Almanac.Doubled cfg.table u := by
      rintro ⟨_, -, -, h3, hf, -⟩
      exact hm ⟨h3, hf⟩
    have hr : ¬ (({ record u with LunarYear := u.year + surplus (kattika y) y } : UposathaMoon).LunarMonth = 3 ∧
        ({ record u with LunarYear := u.year + surplus (kattika y) y } : UposathaMoon).Phase = "full") := by
      rintro ⟨a, b⟩
      refine hm ⟨a, ?_⟩
      have b : (if u.full then "full" else "new") = "full" := b
      cases hf : u.full
      · rw [hf] at b; revert b; decide
      · rfl
    have hl' := fun h => hr (h3.1 h)
    unfold hide at h
    rw [if_neg hr, if_neg hl'] at h
    rw [h]
    unfold written
    rw [if_neg hn]
    rfl

theorem early_prints : Prints cfg kattika y := by
  have hl := later_of hs hk h1 h2 (agrees_hide hs hk h1 h2)
  constructor
  · intro k hk1 hd
    obtain ⟨u, hu, hlt, hq⟩ := hl.fwd k hk1 hd
    exact ⟨u, hu, hlt, hide_written hs hk h1 h2 hd hu hlt hq⟩
  · intro u hu hlt hd
    obtain ⟨k, hk1, hq⟩ := hl.bwd u hu hlt hd
    refine ⟨k, hk1, hide_written hs hk h1 h2 ?_ hu hlt hq⟩
    have hday : (chain cfg y k).Date.day = u.day := by
      have := congrArg (fun x : UposathaMoon => x.Date.day) (hide_third hq).2
      exact this.trans (record_day u)
    omega

end

section
variable {cfg : Config} (hs : Shipped cfg) {kattika : Int → Int} (hk : Almanac.Kattikas cfg.table kattika) {y : Int} (h : 639 ≤ y)
include hs hk h

theorem prints : Prints cfg kattika y := by
  rcases Int.lt_or_le y 1290 with h' | h'
  · exact early_prints hs hk h (by omega)
  · exact late_prints hs hk h'

/-- C80: in every year from 639 on the uposathas generated are those of the almanac in the year after the Kattika full moon that the loop
starts with, as they are written. -/
theorem c80_uposatha (m : UposathaMoon) : .uposatha m ∈ generateSolarYear cfg y ↔
    ∃ u, Almanac.IsUposatha cfg.table kattika u ∧ Almanac.InYear u.day y ∧ kattika y < u.day ∧
      m = record (written cfg.table kattika y u) := (prints hs hk h).uposatha m

/-- C80: and the major events are the feasts that they have as they are written. -/
theorem c80_major (m : MajorEvent) : .major m ∈ generateSolarYear cfg y ↔
    ∃ u, Almanac.IsUposatha cfg.table kattika u ∧ Almanac.InYear u.day y ∧ kattika y < u.day ∧
      ∃ day name, Almanac.FeastOf (written cfg.table kattika y u) day name ∧ m = majorOn ⟨day * nsPerDay, 0⟩ name :=
  (prints hs hk h).major m

end

/-- The full moons of the third and the fourth month of 1289, a lunar year with an extra month. -/
def third1289 : Almanac.Uposatha :=
  { day := 470447, full := true, month := 3, year := 1832, fortnight := 15, monthDays := 30, season := 1, number := 6, total := 8,
    added := false, puja := none }

def fourth1289 : Almanac.Uposatha :=
  { day := 470476, full := true, month := 4, year := 1832, fortnight := 15, monthDays := 29, season := 1, number := 8, total := 8,
    added := false, puja := some .magha }

theorem magha1289 {kattika : Int → Int} (hk : Almanac.Kattikas Config.default.table kattika) :
    kattika 1289 = 470358 ∧ Almanac.InYear third1289.day 1289 ∧ Almanac.InYear fourth1289.day 1289 ∧
    Almanac.IsUposatha Config.default.table kattika third1289 ∧ Almanac.IsUposatha Config.default.table kattika fourth1289 ∧
    Almanac.Written Config.default.table kattika third1289 { third1289 with puja := some .magha } ∧
    Almanac.Written Config.default.table kattika fourth1289 fourth1289 := by
  have hK : kattika 1289 = 470358 := (c72_kattika .default kattika hk 1289 (by decide)).trans (by decide +kernel)
  have k0 : Almanac.kindOf Config.default.table 1289 = .extraMonth := by decide +kernel
  have i3 : Almanac.InYear third1289.day 1289 :=
    ⟨1, 15, (date_day (y := 1289) (m := 1) (d := 15) (by decide) (by decide) (by decide) (by decide)).1⟩
  have i4 : Almanac.InYear fourth1289.day 1289 :=
    ⟨2, 13, (date_day (y := 1289) (m := 2) (d := 13) (by decide) (by decide) (by decide) (by decide)).1⟩
  have n3 : ¬ Almanac.InYear (third1289.day - 15) 1289 := by rw [inYear_iff]; decide +kernel
  have nk : ¬ Almanac.InYear (kattika 1289) 1289 := by rw [inYear_iff, hK]; decide +kernel
  have u3 : Almanac.IsUposatha Config.default.table kattika third1289 := by
    refine ⟨1289, { third1289 with day := 89, year := 0 }, ?_, ?_⟩
    · rw [k0]; decide +kernel
    · rw [hK]; rfl
  have u4 : Almanac.IsUposatha Config.default.table kattika fourth1289 := by
    refine ⟨1289, { fourth1289 with day := 118, year := 0 }, ?_, ?_⟩
    · rw [k0]; decide +kernel
    · rw [hK]; rfl
  have w3 : Almanac.Written Config.default.table kattika third1289 { third1289 with puja := some .magha } :=
    ⟨1289, i3, .inr ⟨nk, rfl⟩, .inl ⟨⟨1289, rfl, k0, rfl, rfl, i3, n3⟩, rfl⟩, rfl⟩
  have w4 : Almanac.Written Config.default.table kattika fourth1289 fourth1289 := by
    refine ⟨1289, i4, .inr ⟨nk, rfl⟩, .inr ⟨?_, rfl⟩, rfl⟩
    rintro ⟨_, -, -, h3, -⟩
    revert h3; decide
  exact ⟨hK, i3, i4, u3, u4, w3, w4⟩

/-- C80: in 1289 Māgha Pūjā is an event of 15 January, where the almanac has a full moon without festival, and again of 13 February. -/
example {kattika : Int → Int} (hk : Almanac.Kattikas Config.default.table kattika) :
    Almanac.IsUposatha Config.default.table kattika third1289 ∧ third1289.puja = none ∧
    .uposatha { record third1289 with Event := "magha" } ∈ generateSolarYear .default 1289 ∧
    .major (majorOn ⟨third1289.day * nsPerDay, 0⟩ "Māgha Pūjā") ∈ generateSolarYear .default 1289 ∧
    .major (majorOn ⟨fourth1289.day * nsPerDay, 0⟩ "Māgha Pūjā") ∈ generateSolarYear .default 1289 := by
  obtain ⟨hK, i3, i4, u3, u4, w3, w4⟩ := magha1289 hk
  have e3 := (written_iff i3 _).1 w3
  have e4 := (written_iff i4 _).1 w4
  refine ⟨u3, rfl, ?_, ?_, ?_⟩
  · refine (c80_uposatha (.inl rfl) hk (by decide) _).2 ⟨third1289, u3, i3, by rw [hK]; decide, ?_⟩
    rw [← e3]; rfl
  · refine (c80_major (.inl rfl) hk (by decide) _).2 ⟨third1289, u3, i3, by rw [hK]; decide, _, _, ?_, rfl⟩
    rw [← e3]; exact .inl ⟨rfl, rfl, rfl⟩
  · refine (c80_major (.inl rfl) hk (by decide) _).2 ⟨fourth1289, u4, i4, by rw [hK]; decide, _, _, ?_, rfl⟩
    rw [← e4]; exact .inl ⟨rfl, rfl, rfl⟩

end Verif.Props
