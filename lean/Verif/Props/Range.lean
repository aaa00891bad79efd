import Verif.Props.AstroData
import Verif.Spec.Range
import Mathlib.Data.List.Nodup
/-
C55: how the result of `GetCalDays` depends on the range.
-/
set_option autoImplicit false

namespace Verif.Props
open Verif.Go Verif.Model Verif.Spec Verif.Lemmas

/-! ### Everything generated for a year is dated in it -/

theorem asalha_table : ∀ a v : Bool, (a && v) = false → ∀ k : Fin 35, k.val ≤ moons a + 8 →
    ((ext a v k).LunarMonth = 8 ∨ (ext a v k).LunarMonth = 13) → eoff a v k ≤ len a v - 100 := by
  decide +kernel

theorem asalha_month {cfg : Config} {y : Int} {k : Nat} (h : (chain cfg y k).Event = "asalha") :
    (chain cfg y k).LunarMonth = 8 ∨ (chain cfg y k).LunarMonth = 13 := by
  cases k with
  | zero => exact absurd h (by show ¬ ("" : String) = "asalha"; decide)
  | succ k =>
    rw [chain, next_eq_step] at h ⊢
    unfold step at h ⊢
    simp only at h ⊢
    split at h <;> rename_i hp
    · rw [if_pos hp]
      simp only [nextFull, majorEventName] at h ⊢
      generalize (chain cfg y k).LunarMonth = m at *
      split at h
      · by_cases e1 : m = 4
        · simp [e1] at h
        · by_cases e2 : m = 7
          · simp [e2] at h
          · by_cases e3 : m = 13
            · exact Or.inr e3
            · by_cases e4 : m = 11 <;> simp [e1, e2, e3, e4] at h
      · by_cases e1 : m = 3
        · simp [e1] at h
        · by_cases e2 : m = 6
          · simp [e2] at h
          · by_cases e3 : m = 8
            · exact Or.inl e3
            · by_cases e4 : m = 11 <;> simp [e1, e2, e3, e4] at h
    · simp only [nextNew] at h
      exact absurd h (by decide)

/-- C55: with steady settings everything `GenerateSolarYear` returns is dated in the year asked for. -/
theorem c55_in_year_steady (cfg : Config) (a b : Int) (hs : Steady cfg 118 a b) (y : Int) (h1 : a ≤ y) (h2 : y < b)
    (e : CalendarEvent)
    (h : e ∈ generateSolarYear cfg y) : e.getDate.year = y := by
  rcases (c22_in_year cfg y e h).1 with he | ⟨t, -, rfl⟩
  · exact he
  · obtain ⟨k, -, hyear, p, hp, hm⟩ := (c22_major_iff _ _ _).1 h
    rw [moon_eq] at hyear hp hm
    have hr := hs.regular (Int.le_refl _) h1 h2
    have hk2 : k ≤ moons (fa y) + 8 := by
      by_contra hlt
      have hm := chain_year_mono cfg y (j := moons (fa y) + 8) (k := k) (by omega)
      have hd := chain_day_ext hr (moons (fa y) + 8) (Nat.le_refl _)
      have hl : ∀ a v : Bool, (a && v) = false → eoff a v (moons a + 8) = len a v + 118 := by decide +kernel
      rw [hl _ _ hr.excl] at hd
      have hks := katDay_succ cfg y
      rw [len_eq] at hks
      have hlo := hr.lo'
      have : ¬ (chain cfg y (moons (fa y) + 8)).Date.year ≤ y := by
        unfold Time.year
        rw [year_le_iff]
        generalize len _ _ = L at *
        omega
      omega
    have hname : p.1 = "First day of Vassa" := by
      have := congrArg Event.Summary hm
      exact this.symm
    have hev : (chain cfg y k).Event = "asalha" ∧ p.2 = 1 := by
      unfold pujas at hp
      split at hp
      · simp only [List.mem_singleton] at hp; rw [hp] at hname; exact absurd hname (by decide)
      · split at hp
        · simp only [List.mem_singleton] at hp; rw [hp] at hname; exact absurd hname (by decide)
        · split at hp
          · rename_i ha
            refine ⟨ha, ?_⟩
            simp only [List.mem_cons, List.not_mem_nil, or_false] at hp
            rcases hp with hp | hp
            · rw [hp] at hname; exact absurd hname (by decide)
            · rw [hp]
          · split at hp
            · simp only [List.mem_cons, List.not_mem_nil, or_false] at hp
              rcases hp with hp | hp <;> rw [hp] at hname <;> exact absurd hname (by decide)
            · simp at hp
    have hmon := asalha_month hev.1
    have hcore := congrArg UposathaMoon.LunarMonth (chain_ext hr k hk2)
    have hcore : (chain cfg y k).LunarMonth = (ext (fa y) (fv cfg y) k).LunarMonth := hcore
    rw [hcore] at hmon
    have hm26 : moons (fa y) ≤ 26 := by unfold moons; split <;> omega
    have ht := asalha_table (fa y) (fv cfg y) hr.excl ⟨k, by omega⟩ hk2 hmon
    have hd := chain_day_ext hr k hk2
    have hks := katDay_succ cfg y
    rw [len_eq] at hks
    have hhi := hr.hi'
    have hy := (year_eq_iff _ _).1 hyear
    rw [hm]
    show ((chain cfg y k).Date.addDays p.2).year = y
    rw [hev.2]
    unfold Time.year
    rw [year_eq_iff, addDays_eq, day_add]
    simp only at ht
    generalize len _ _ = L at *
    omega

/-- C55: an event of 2018 on its first day. -/
example : ∃ e ∈ generateSolarYear .default 2018, e.getDate = date 2018 1 1 0 0 := by decide +kernel

/-! ### Complete for ranges in UTC -/

theorem within_years {fromDate toDate t : Time} (hf : fromDate.offset = 0) (ht : toDate.offset = 0) (hu : t.offset = 0)
    (h : Within fromDate toDate t) : fromDate.year ≤ t.year ∧ t.year ≤ toDate.year := by
  unfold Within at h
  unfold Time.year
  constructor <;> apply year_mono <;> unfold Time.day <;> rw [hu]
  · rw [hf]; unfold nsPerDay; omega
  · rw [ht]; unfold nsPerDay; omega

/-- C55: for a range in UTC the result holds every uposatha and half moon in the range that any year generates, and no
other. -/
theorem c55_complete (cfg : Config) (files : Int → AstroFile) (fromDate toDate : Time) (hf : fromDate.offset = 0)
    (ht : toDate.offset = 0) (l : List CalDay) (h : getCalDays cfg files fromDate toDate = some l) :
    (∀ u, (∃ c ∈ l, u ∈ c.UposathaMoon ∧ c.Date.day = u.Date.day) ↔
      (∃ y, .uposatha u ∈ generateSolarYear cfg y) ∧ Within fromDate toDate u.Date) ∧
    (∀ u, (∃ c ∈ l, u ∈ c.HalfMoon ∧ c.Date.day = u.Date.day) ↔
      (∃ y, .half u ∈ generateSolarYear cfg y) ∧ Within fromDate toDate u.Date) := by
  constructor
  · intro u
    rw [c27_uposatha_iff _ _ _ _ _ h]
    constructor
    · rintro ⟨y, -, -, hg, hw⟩; exact ⟨⟨y, hg⟩, hw⟩
    · rintro ⟨⟨y, hg⟩, hw⟩
      have hy : u.Date.year = y := ((c22_uposatha_iff cfg y u).1 hg).choose_spec.2.2
      have := within_years hf ht (generate_utc hg) hw
      exact ⟨y, by have := this.1; rw [← hy]; exact this, by have := this.2; rw [← hy]; exact this, hg, hw⟩
  · intro u
    rw [c27_half_iff _ _ _ _ _ h]
    constructor
    · rintro ⟨y, -, -, hg, hw⟩; exact ⟨⟨y, hg⟩, hw⟩
    · rintro ⟨⟨y, hg⟩, hw⟩
      have hy : u.Date.year = y := by
        rcases (c22_in_year cfg y _ hg).1 with h | ⟨t, -, h⟩
        · exact h
        · cases h
      have := within_years hf ht (generate_utc hg) hw
      exact ⟨y, by have := this.1; rw [← hy]; exact this, by have := this.2; rw [← hy]; exact this, hg, hw⟩

/-- C55: on the days of C26, the uposatha of 30 July 2015. -/
example : (∃ y, .uposatha asalhaDays[2].UposathaMoon[0] ∈ generateSolarYear .default y) ∧ Within (date 2015 7 22 0 0) (date 2015 8 9 0 0) (date 2015 7 30 0 0) :=
  ((c55_complete _ _ _ _ rfl rfl _ asalha_days).1 asalhaDays[2].UposathaMoon[0]).1
    ⟨asalhaDays[2], List.getElem_mem (by decide), List.mem_cons_self, rfl⟩

/-- C55: this fails for other ranges: the range up to 23:00 of 31 December 2017 in a zone five hours behind UTC contains
the instant of the uposatha of 1 January 2018 but not the uposatha, because that zone's year is 2017. -/
theorem c55_not_utc (cfg : Config) (files : Int → AstroFile) (fromDate : Time) (hf : fromDate.nanos ≤ (date 2018 1 1 0 0).nanos)
    (l : List CalDay) (h : getCalDays cfg files fromDate (date 2017 12 31 (23 * 3600 * nsPerSec) (-5 * 3600)) = some l) :
    Within fromDate (date 2017 12 31 (23 * 3600 * nsPerSec) (-5 * 3600)) (date 2018 1 1 0 0) ∧
    ∀ c ∈ l, ∀ u ∈ c.UposathaMoon, u.Date ≠ date 2018 1 1 0 0 := by
  constructor
  · have : (date 2018 1 1 0 0).nanos ≤ (date 2017 12 31 (23 * 3600 * nsPerSec) (-5 * 3600)).nanos := by decide
    exact ⟨hf, this⟩
  · intro c hc u hu hd
    obtain ⟨moons, -, hh, -, -⟩ := c27_content _ _ _ _ _ h
    rw [(hh c hc).uposatha] at hu
    have hu' : u ∈ uposathasOf (onDay (dayStart c.Date) (moons.map CalendarEvent.astro ++
        calendarEventsIn cfg fromDate (date 2017 12 31 (23 * 3600 * nsPerSec) (-5 * 3600)))) := by
      cases hl : (uposathasOf (onDay (dayStart c.Date) (moons.map CalendarEvent.astro ++
        calendarEventsIn cfg fromDate (date 2017 12 31 (23 * 3600 * nsPerSec) (-5 * 3600))))).getLast? with
      | none => rw [hl] at hu; simp at hu
      | some w =>
        rw [hl] at hu
        simp only [Option.toList_some, List.mem_singleton] at hu
        rw [hu]; exact List.mem_of_getLast? hl
    unfold uposathasOf at hu'
    rw [List.mem_filterMap] at hu'
    obtain ⟨e, he, hw⟩ := hu'
    unfold onDay at he
    have he := (List.mem_filter.1 he).1
    cases e <;> simp at hw
    subst hw
    rcases List.mem_append.1 he with he | he
    · simp at he
    · obtain ⟨y, -, hy, hg, -⟩ := mem_calendarEventsIn.1 he
      have hy' := ((c22_uposatha_iff cfg y _).1 hg).choose_spec.2.2
      rw [hd] at hy'
      have e1 : (date 2018 1 1 0 0).year = 2018 := by decide
      have e2 : (date 2017 12 31 (23 * 3600 * nsPerSec) (-5 * 3600)).year = 2017 := by decide
      omega

/-- C55: there is such an uposatha. -/
example : date 2018 1 1 0 0 ∈ (uposathasOf (generateSolarYear .default 2018)).map (·.Date) := by decide +kernel

/-! ### A day does not depend on the rest of the range -/

theorem flatMap_single {α β : Type} {f : α → List β} {a : α} : ∀ {l : List α}, l.Nodup → (∀ b ∈ l, b ≠ a → f b = []) →
    (a ∉ l → f a = []) → l.flatMap f = f a := by
  intro l
  induction l with
  | nil => intro _ _ h; rw [h (by simp)]; rfl
  | cons b l ih =>
    intro hn h1 h2
    rw [List.flatMap_cons]
    rw [List.nodup_cons] at hn
    by_cases hb : b = a
    · subst hb
      have : l.flatMap f = [] := by
        rw [List.flatMap_eq_nil_iff]
        intro x hx
        exact h1 x (by simp [hx]) (by rintro rfl; exact hn.1 hx)
      rw [this, List.append_nil]
    · rw [h1 b (by simp) hb, List.nil_append]
      refine ih hn.2 (fun x hx => h1 x (by simp [hx])) ?_
      intro ha
      exact h2 (by simp [ha, Ne.symm hb])

theorem onDay_calendar {cfg : Config} {last : Int} (hs : DatedInYear cfg last) {fromDate toDate : Time}
    (hf : fromDate.offset = 0) (ht : toDate.offset = 0) (h1 : 1900 ≤ fromDate.year) (h2 : toDate.year ≤ last) (d : Int) :
    onDay (d * nsPerDay) (calendarEventsIn cfg fromDate toDate) =
      (generateSolarYear cfg (yearYday d).1).filter fun e =>
        decide (Within fromDate toDate e.getDate) && decide (dayStart e.getDate = d * nsPerDay) := by
  have comm : onDay (d * nsPerDay) (calendarEventsIn cfg fromDate toDate) =
      (yearsFrom fromDate.year toDate.year).flatMap fun y => (generateSolarYear cfg y).filter fun e =>
        decide (Within fromDate toDate e.getDate) && decide (dayStart e.getDate = d * nsPerDay) := by
    unfold onDay calendarEventsIn
    rw [List.filter_flatMap]
    apply List.flatMap_congr
    intro y _
    rw [List.filter_filter]
    apply List.filter_congr
    intro e _
    rw [Bool.and_comm]
  have hday : ∀ {y : Int} {e : CalendarEvent}, e ∈ generateSolarYear cfg y → dayStart e.getDate = d * nsPerDay →
      e.getDate.day = d := by
    intro y e he hk
    rw [dayStart_utc (generate_utc he)] at hk
    unfold nsPerDay at hk; omega
  rw [comm]
  apply flatMap_single
  · unfold yearsFrom
    refine List.Nodup.map ?_ List.nodup_range
    intro i j hij
    simp only at hij
    omega
  · intro y hy hne
    unfold yearsFrom at hy
    simp only [List.mem_map, List.mem_range] at hy
    obtain ⟨i, hi, rfl⟩ := hy
    rw [List.filter_eq_nil_iff]
    intro e he
    simp only [Bool.and_eq_true, decide_eq_true_eq, not_and]
    intro _ hk
    apply hne
    rw [← hday he hk]
    exact (hs _ (by omega) (by omega) e he).symm
  · intro hy
    rw [List.filter_eq_nil_iff]
    intro e he
    simp only [Bool.and_eq_true, decide_eq_true_eq, not_and]
    intro hw hk
    apply hy
    have := within_years hf ht (generate_utc he) hw
    unfold Time.year at this
    rw [hday he hk] at this
    unfold yearsFrom
    simp only [List.mem_map, List.mem_range]
    refine ⟨((yearYday d).1 - fromDate.year).toNat, ?_, ?_⟩
    · unfold Time.year; omega
    · unfold Time.year; omega

theorem onDay_astro (fromDate toDate : Time) (h : 1900 ≤ fromDate.year) (hf : fromDate.offset = 0)
    (ht : toDate.offset = 0) (ms : List AstroMoon) (hm : getAstroMoons embeddedFiles fromDate toDate = some ms) (d : Int) :
    onDay (d * nsPerDay) (ms.map CalendarEvent.astro) = (embeddedMoons.filter fun m =>
      decide (Within fromDate toDate m.Date) && decide (dayStart m.Date = d * nsPerDay)).map CalendarEvent.astro := by
  rw [c53_moons_utc _ _ h hf ht] at hm
  cases hm
  unfold onDay
  rw [List.filter_map, List.filter_filter]
  congr 1
  apply List.filter_congr
  intro m _
  rw [Bool.and_comm]; rfl

theorem holds_unique {es : List CalendarEvent} {c c' : CalDay} (h : Holds es c) (h' : Holds es c') : c = c' := by
  have hd := h.date.symm.trans h'.date
  cases c; cases c'
  have := h.uposatha.trans h'.uposatha.symm
  have := h.half.trans h'.half.symm
  have := h.astro.trans h'.astro.symm
  have := h.majors.trans h'.majors.symm
  have := h.plain.trans h'.plain.symm
  simp_all

/-- C55: the entry of a day is the same in every range that cuts the same part out of that day. The data is the
embedded one; the ranges are in UTC, within years whose events are dated in them. -/
theorem c55_local_dated (cfg : Config) (last : Int) (hs : DatedInYear cfg last) (from1 to1 from2 to2 : Time) (h1 : UtcRange from1 to1)
    (h2 : UtcRange from2 to2) (hb1 : to1.year ≤ last) (hb2 : to2.year ≤ last) (l1 l2 : List CalDay) (hl1 : getCalDays cfg embeddedFiles from1 to1 = some l1)
    (hl2 : getCalDays cfg embeddedFiles from2 to2 = some l2) (d : Int) (hd : SameOnDay d from1 to1 from2 to2)
    (c : CalDay) (hc : c ∈ l1) (hcd : c.Date.day = d) : c ∈ l2 := by
  obtain ⟨m1, hm1, hh1, hcov1, -⟩ := c27_content _ _ _ _ _ hl1
  obtain ⟨m2, hm2, hh2, hcov2, -⟩ := c27_content _ _ _ _ _ hl2
  have u1 := (c26_sorted _ _ _ _ _ hl1).2
  have u2 := (c26_sorted _ _ _ _ _ hl2).2
  have same : ∀ t : Time, dayStart t = d * nsPerDay → t.offset = 0 → (Within from1 to1 t ↔ Within from2 to2 t) := by
    intro t hk hu
    rw [dayStart_utc hu] at hk
    have : t.day = d := by unfold nsPerDay at hk; omega
    exact hd t hu this
  have hes : onDay (d * nsPerDay) (m1.map CalendarEvent.astro ++ calendarEventsIn cfg from1 to1) =
      onDay (d * nsPerDay) (m2.map CalendarEvent.astro ++ calendarEventsIn cfg from2 to2) := by
    have happ : ∀ s a b, onDay s (a ++ b) = onDay s a ++ onDay s b := by intro s a b; exact List.filter_append ..
    rw [happ, happ, onDay_astro _ _ h1.first h1.utcFrom h1.utcTo m1 hm1, onDay_astro _ _ h2.first h2.utcFrom h2.utcTo m2 hm2,
      onDay_calendar hs h1.utcFrom h1.utcTo h1.first hb1,
      onDay_calendar hs h2.utcFrom h2.utcTo h2.first hb2]
    congr 1
    · congr 1
      apply List.filter_congr
      intro m hm
      have hu : m.Date.offset = 0 := by
        obtain ⟨e, -, he⟩ := List.mem_flatMap.1 hm
        obtain ⟨n, -, rfl⟩ := List.mem_map.1 he
        rfl
      by_cases hk : dayStart m.Date = d * nsPerDay
      · rw [decide_eq_decide.2 (same _ hk hu)]
      · simp [hk]
    · apply List.filter_congr
      intro e he
      by_cases hk : dayStart e.getDate = d * nsPerDay
      · rw [decide_eq_decide.2 (same _ hk (generate_utc he))]
      · simp [hk]
  have key : dayStart c.Date = d * nsPerDay := by rw [dayStart_utc (u1 c hc), hcd]
  have hc1 := hh1 c hc
  rw [key] at hc1
  have hlast := hc1.date
  rw [Option.map_eq_some_iff] at hlast
  obtain ⟨e, he, hed⟩ := hlast
  have hem := List.mem_of_getLast? he
  rw [hes] at hem
  have hem' := (List.mem_filter.1 hem).1
  obtain ⟨c', hc', hday'⟩ := hcov2 e hem'
  have hc2 := hh2 c' hc'
  have : dayStart c'.Date = d * nsPerDay := by
    rw [dayStart_utc (u2 c' hc'), hday', hed, hcd]
  rw [this, ← hes] at hc2
  rw [holds_unique hc1 hc2]
  exact hc'

/-- C55: two ranges that agree on 30 July 2015. -/
example : UtcRange (date 2015 7 22 0 0) (date 2015 8 9 0 0) ∧ UtcRange (date 2000 1 1 0 0) (date 2020 12 31 0 0) ∧
    SameOnDay (date 2015 7 30 0 0).day (date 2015 7 22 0 0) (date 2015 8 9 0 0) (date 2000 1 1 0 0) (date 2020 12 31 0 0) := by
  refine ⟨⟨by decide, by decide, by decide⟩, ⟨by decide, by decide, by decide⟩, ?_⟩
  intro t h0 hd
  have e : (t.nanos + t.offset * nsPerSec) / nsPerDay = 735808 := hd.trans (by decide)
  have h1 : (date 2015 7 22 0 0).nanos = 735800 * nsPerDay := by decide
  have h2 : (date 2015 8 9 0 0).nanos = 735818 * nsPerDay := by decide
  have h3 : (date 2000 1 1 0 0).nanos = 730119 * nsPerDay := by decide
  have h4 : (date 2020 12 31 0 0).nanos = 737789 * nsPerDay := by decide
  unfold Within
  rw [h1, h2, h3, h4]
  rw [h0] at e
  unfold nsPerDay at *
  omega

/-- C55: a range may be cut at any midnight: the result is the concatenation of the results for the two parts. -/
theorem c55_split_dated (cfg : Config) (last : Int) (hs : DatedInYear cfg last) (fromDate toDate : Time) (h : UtcRange fromDate toDate) (d : Int)
    (hb : toDate.year ≤ last) (h1 : fromDate.nanos ≤ d * nsPerDay) (h2 : d * nsPerDay ≤ toDate.nanos) (l : List CalDay)
    (hl : getCalDays cfg embeddedFiles fromDate toDate = some l) :
    ∃ l1 l2, getCalDays cfg embeddedFiles fromDate ⟨d * nsPerDay - 1, 0⟩ = some l1 ∧
      getCalDays cfg embeddedFiles ⟨d * nsPerDay, 0⟩ toDate = some l2 ∧ l = l1 ++ l2 := by
  obtain ⟨l1, hl1⟩ := Option.ne_none_iff_exists'.1 (c53_never_panics cfg fromDate ⟨d * nsPerDay - 1, 0⟩).2
  obtain ⟨l2, hl2⟩ := Option.ne_none_iff_exists'.1 (c53_never_panics cfg ⟨d * nsPerDay, 0⟩ toDate).2
  refine ⟨l1, l2, hl1, hl2, ?_⟩
  have hf := h.first
  have hfo := h.utcFrom
  have hto := h.utcTo
  have r1 : UtcRange fromDate ⟨d * nsPerDay - 1, 0⟩ := by
    exact ⟨hfo, rfl, hf⟩
  have hb1 : (⟨d * nsPerDay - 1, 0⟩ : Time).year ≤ last := by
    refine Int.le_trans ?_ hb
    unfold Time.year; apply year_mono; unfold Time.day; rw [hto]; unfold nsPerDay at *; simp only; omega
  have r2 : UtcRange ⟨d * nsPerDay, 0⟩ toDate := by
    refine ⟨rfl, hto, Int.le_trans hf ?_⟩
    unfold Time.year; apply year_mono; unfold Time.day; rw [hfo]; unfold nsPerDay at *; simp only; omega
  have s0 := (c26_sorted _ _ _ _ _ hl).1
  have s1 := (c26_sorted _ _ _ _ _ hl1).1
  have s2 := (c26_sorted _ _ _ _ _ hl2).1
  obtain ⟨-, -, -, -, w1⟩ := c27_content _ _ _ _ _ hl1
  obtain ⟨-, -, -, -, w2⟩ := c27_content _ _ _ _ _ hl2
  have u1 := (c26_sorted _ _ _ _ _ hl1).2
  have u2 := (c26_sorted _ _ _ _ _ hl2).2
  have b1 : ∀ c ∈ l1, c.Date.day < d := by
    intro c hc
    have := w1 c hc
    unfold Within at this
    unfold Time.day
    rw [u1 c hc]; unfold nsPerDay at *; simp only at this; omega
  have b2 : ∀ c ∈ l2, d ≤ c.Date.day := by
    intro c hc
    have := w2 c hc
    unfold Within at this
    unfold Time.day
    rw [u2 c hc]; unfold nsPerDay at *; simp only at this; omega
  have sd1 : ∀ e : Int, e < d → SameOnDay e fromDate toDate fromDate ⟨d * nsPerDay - 1, 0⟩ := by
    intro e he t htu hte
    unfold Time.day at hte
    rw [htu] at hte
    unfold Within nsPerDay at *; simp only; omega
  have sd2 : ∀ e : Int, d ≤ e → SameOnDay e fromDate toDate ⟨d * nsPerDay, 0⟩ toDate := by
    intro e he t htu hte
    unfold Time.day at hte
    rw [htu] at hte
    unfold Within nsPerDay at *; simp only; omega
  have sapp : (l1 ++ l2).Pairwise DayBefore := by
    rw [List.pairwise_append]
    refine ⟨s1, s2, ?_⟩
    intro a ha b hb
    have ha' := b1 a ha
    have hb' := b2 b hb
    refine ⟨?_, by omega⟩
    unfold Time.before
    unfold Time.day at ha' hb'
    rw [u1 a ha] at ha'
    rw [u2 b hb] at hb'
    rw [decide_eq_true_eq]
    unfold nsPerDay at *; omega
  have nod : ∀ {l : List CalDay}, l.Pairwise DayBefore → l.Nodup := by
    intro l hp
    refine hp.imp ?_
    rintro a b hab rfl
    have := hab.2; omega
  refine perm_eq ((List.perm_ext_iff_of_nodup (nod s0) (nod sapp)).2 ?_) s0 sapp
  intro c
  rw [List.mem_append]
  constructor
  · intro hc
    by_cases hlt : c.Date.day < d
    · exact Or.inl (c55_local_dated cfg last hs _ _ _ _ h r1 hb hb1 l l1 hl hl1 _ (sd1 _ hlt) c hc rfl)
    · exact Or.inr (c55_local_dated cfg last hs _ _ _ _ h r2 hb hb l l2 hl hl2 _ (sd2 _ (by omega)) c hc rfl)
  · rintro (hc | hc)
    · exact c55_local_dated cfg last hs _ _ _ _ r1 h hb1 hb l1 l hl1 hl _ (fun t a b => (sd1 _ (b1 c hc) t a b).symm) c hc rfl
    · exact c55_local_dated cfg last hs _ _ _ _ r2 h hb hb l2 l hl2 hl _ (fun t a b => (sd2 _ (b2 c hc) t a b).symm) c hc rfl

/-- C55: such a range and day. -/
example : UtcRange (date 2015 7 22 0 0) (date 2015 8 9 0 0) ∧ (date 2015 7 22 0 0).nanos ≤ (date 2015 7 30 0 0).day * nsPerDay ∧
    (date 2015 7 30 0 0).day * nsPerDay ≤ (date 2015 8 9 0 0).nanos := ⟨⟨by decide, by decide, by decide⟩, by decide, by decide⟩

/-- C55: the hypotheses are met by the year 2015 cut on 1 August. -/
example : UtcRange (date 2015 1 1 0 0) (date 2015 12 31 0 0) ∧
    (date 2015 1 1 0 0).nanos ≤ (date 2015 8 1 0 0).day * nsPerDay ∧
    (date 2015 8 1 0 0).day * nsPerDay ≤ (date 2015 12 31 0 0).nanos := by
  refine ⟨⟨by decide, by decide, by decide⟩, by decide, by decide⟩

end Verif.Props
