import Verif.Props.Almanac
import Verif.Props.Json
import Verif.Props.CliRun
/-
C72: the text written by caldays shows the almanac.
-/
set_option autoImplicit false

namespace Verif.Props
open scoped List
open Verif.Go Verif.Model Verif.Spec Verif.Lemmas

/-! ### From days to JSON -/

theorem forall2_left {α β : Type} {r : α → β → Prop} {l : List α} {l' : List β} (h : List.Forall₂ r l l') {x : α} (hx : x ∈ l) :
    ∃ y ∈ l', r x y := by
  induction h with
  | nil => simp at hx
  | cons h0 _ ih =>
    rcases List.mem_cons.1 hx with rfl | hx
    · exact ⟨_, List.mem_cons_self, h0⟩
    · obtain ⟨y, hy, hr⟩ := ih hx
      exact ⟨y, List.mem_cons_of_mem _ hy, hr⟩

theorem forall2_right {α β : Type} {r : α → β → Prop} {l : List α} {l' : List β} (h : List.Forall₂ r l l') {y : β} (hy : y ∈ l') :
    ∃ x ∈ l, r x y := by
  obtain ⟨x, hx, hr⟩ := forall2_left h.flip hy
  exact ⟨x, hx, hr⟩

theorem forall2_pairwise {α β : Type} {r : α → β → Prop} {p : α → α → Prop} {q : β → β → Prop} {l : List α} {l' : List β}
    (h : List.Forall₂ r l l') (hq : l'.Pairwise q) (hpq : ∀ x x' y y', r x y → r x' y' → q y y' → p x x') : l.Pairwise p := by
  induction h with
  | nil => exact List.Pairwise.nil
  | cons h0 ht ih =>
    rw [List.pairwise_cons] at hq ⊢
    refine ⟨fun x' hx' => ?_, ih hq.2⟩
    obtain ⟨y', hy', hr⟩ := forall2_left ht hx'
    exact hpq _ _ _ _ h0 hr (hq.1 y' hy')

section
variable {l : List CalDay} {j : Json} (hy : IsYears j fun y => l.filter fun c => decide (c.Date.year = y))
  (hu : ∀ c ∈ l, c.Date.offset = 0)
include hy

theorem entry_day {name : String} {α : Type} {is : Json → α → Prop} {sel : CalDay → List α}
    (hsel : ∀ x c, IsDay x c → HasList x name is (sel c)) {day : Int} {x : Json} (h : Almanac.Entry j name day x) :
    ∃ c ∈ l, c.Date.day = day ∧ ∃ v ∈ sel c, is x v := by
  obtain ⟨y, days, cj, t, items, -, hf, hc, ht, rfl, hn, hx⟩ := h
  rcases hy y with ⟨-, h0⟩ | ⟨-, days', h0, h2⟩
  · rw [hf] at h0; cases h0
  · rw [hf] at h0; cases h0
    obtain ⟨c, hcl, hd⟩ := forall2_left h2 hc
    refine ⟨c, (List.mem_filter.1 hcl).1, by rw [hasTime_unique ht hd.date], ?_⟩
    rcases hsel cj c hd with ⟨-, h0⟩ | ⟨-, items', h0, h3⟩
    · rw [hn] at h0; cases h0
    · rw [hn] at h0; cases h0
      exact forall2_left h3 hx

theorem day_entry {name : String} {α : Type} {is : Json → α → Prop} {sel : CalDay → List α}
    (hsel : ∀ x c, IsDay x c → HasList x name is (sel c)) {c : CalDay} (hc : c ∈ l) {v : α} (hv : v ∈ sel c) :
    ∃ x, Almanac.Entry j name c.Date.day x ∧ is x v := by
  have hcf : c ∈ l.filter fun d => decide (d.Date.year = c.Date.year) := List.mem_filter.2 ⟨hc, by simp⟩
  rcases hy c.Date.year with ⟨h0, -⟩ | ⟨-, days, h0, h2⟩
  · have h0 : (l.filter fun d => decide (d.Date.year = c.Date.year)) = [] := h0
    rw [h0] at hcf; cases hcf
  · obtain ⟨cj, hcj, hd⟩ := forall2_right h2 hcf
    rcases hsel cj c hd with ⟨h3, -⟩ | ⟨-, items, h3, h4⟩
    · rw [h3] at hv; cases hv
    · obtain ⟨x, hx, hi⟩ := forall2_right h4 hv
      refine ⟨x, ⟨c.Date.year, days, cj, c.Date, items, ?_, h0, hcj, hd.date, rfl, h3, hx⟩, hi⟩
      exact ⟨_, _, civil_spec c.Date⟩

theorem text_orderly (hp : l.Pairwise fun a b => a.Date.day < b.Date.day) : Almanac.Orderly j := by
  intro y days hf
  rcases hy y with ⟨-, h0⟩ | ⟨-, days', h0, h2⟩
  · rw [hf] at h0; cases h0
  · rw [hf] at h0; cases h0
    refine forall2_pairwise h2 (hp.filter _) ?_
    intro x x' c c' hx hx' hlt t t' ht ht'
    rw [hasTime_unique ht hx.date, hasTime_unique ht' hx'.date]
    exact hlt

theorem text_unrepeated (h : ∀ c ∈ l, c.UposathaMoon.Nodup ∧ c.HalfMoon.Nodup ∧ c.AstroMoon.Nodup ∧ c.MajorEvents.Nodup) :
    Almanac.Unrepeated j := by
  intro y days cj name items hf hc hn hi
  rcases hy y with ⟨-, h0⟩ | ⟨-, days', h0, h2⟩
  · rw [hf] at h0; cases h0
  · rw [hf] at h0; cases h0
    obtain ⟨c, hcl, hd⟩ := forall2_left h2 hc
    have hnd := h c (List.mem_filter.1 hcl).1
    have key : ∀ {α : Type} {is : Json → α → Prop} {v : List α}, (∀ x a b, is x a → is x b → a = b) → HasList cj name is v →
        v.Nodup → items.Nodup := by
      intro α is v hun hl hv
      rcases hl with ⟨-, h0⟩ | ⟨-, items', h0, h3⟩
      · rw [hi] at h0; cases h0
      · rw [hi] at h0; cases h0
        refine forall2_pairwise h3 hv ?_
        intro x x' a b hx hx' hab hxx
        subst hxx
        exact hab (hun _ _ _ hx hx')
    simp only [List.mem_cons, List.not_mem_nil, or_false] at hn
    rcases hn with rfl | rfl | rfl | rfl
    · exact key uposatha_unique hd.uposatha hnd.1
    · exact key half_unique hd.half hnd.2.1
    · exact key astro_unique hd.astro hnd.2.2.1
    · exact key event_unique hd.major hnd.2.2.2

end

theorem hasDay_of {x : Json} {name : String} {day : Int} (h : HasTime x name ⟨day * nsPerDay, 0⟩) : Almanac.HasDay x name day := by
  obtain ⟨s, hs, y, m, d, hh, mm, ss, ns, fr, hy, h1, h2, h3, hf, hd, hm, -, rfl⟩ := h
  have h0 : (⟨day * nsPerDay, 0⟩ : Time).sinceMidnight = 0 := by unfold Time.sinceMidnight nsPerDay; simp
  have hday : (⟨day * nsPerDay, 0⟩ : Time).day = day := by unfold Time.day nsPerDay; simp
  rw [h0] at hm
  rw [hday] at hd
  have : hh = 0 ∧ mm = 0 ∧ ss = 0 ∧ ns = 0 := by unfold nsPerSec at hm; omega
  obtain ⟨rfl, rfl, rfl, rfl⟩ := this
  have hfr : fr = [] := by
    rcases hf with hf | ⟨k, d, -, -, -, h0, hz, -⟩
    · exact hf.2
    · rcases Nat.mul_eq_zero.1 hz.symm with hz | hz
      · omega
      · exact absurd hz (by positivity)
  subst hfr
  refine ⟨y, m, d, hy, hd, ?_⟩
  rw [hs]
  congr 3

/-! ### The days of a range -/

section
variable {cfg : Config} {files : Int → AstroFile} {fromDate toDate : Time} {l : List CalDay}
  (h : getCalDays cfg files fromDate toDate = some l)
include h

/-- Whatever a day holds is of that day. -/
theorem own_day {c : CalDay} (hc : c ∈ l) : (∀ m ∈ c.UposathaMoon, c.Date.day = m.Date.day) ∧ (∀ m ∈ c.HalfMoon, c.Date.day = m.Date.day) ∧
    (∀ m ∈ c.MajorEvents, c.Date.day = m.Date.day) ∧ ∀ m ∈ c.AstroMoon, c.Date.day = m.Date.day := by
  obtain ⟨moons, hm, hh, -, -⟩ := c27_content _ _ _ _ _ h
  have hutc := (c26_sorted _ _ _ _ _ h).2
  have key : ∀ e : CalendarEvent, e ∈ onDay (dayStart c.Date) (moons.map CalendarEvent.astro ++ calendarEventsIn cfg fromDate toDate) →
      c.Date.day = e.getDate.day := by
    intro e he
    unfold onDay at he
    rw [List.mem_filter, decide_eq_true_eq] at he
    have ho : e.getDate.offset = 0 := by
      rcases List.mem_append.1 he.1 with h1 | h1
      · obtain ⟨w, hw, rfl⟩ := List.mem_map.1 h1
        exact (c31_range _ _ _ _ hm w hw).2.1
      · obtain ⟨y, -, -, hg, -⟩ := mem_calendarEventsIn.1 h1
        exact generate_utc hg
    exact ((key_day ho (hutc c hc)).1 he.2).symm
  refine ⟨?_, ?_, ?_, ?_⟩
  · intro m hm
    rw [(hh c hc).uposatha, Option.mem_toList] at hm
    have := List.mem_of_getLast? hm
    unfold uposathasOf at this
    rw [List.mem_filterMap] at this
    obtain ⟨e, he, hx⟩ := this
    cases e <;> simp at hx
    subst hx
    exact key _ he
  · intro m hm
    rw [(hh c hc).half, Option.mem_toList] at hm
    have := List.mem_of_getLast? hm
    unfold halvesOf at this
    rw [List.mem_filterMap] at this
    obtain ⟨e, he, hx⟩ := this
    cases e <;> simp at hx
    subst hx
    exact key _ he
  · intro m hm
    rw [(hh c hc).majors] at hm
    unfold majorsOf at hm
    rw [List.mem_filterMap] at hm
    obtain ⟨e, he, hx⟩ := hm
    cases e <;> simp at hx
    subst hx
    exact key _ he
  · intro m hm
    rw [(hh c hc).astro, Option.mem_toList] at hm
    have := List.mem_of_getLast? hm
    unfold astrosOf at this
    rw [List.mem_filterMap] at this
    obtain ⟨e, he, hx⟩ := this
    cases e <;> simp at hx
    subst hx
    exact key _ he

omit h in
theorem majorsIn_nodup {a b : Int} (hs : Steady cfg 74 a b) (h1 : a ≤ fromDate.year) (h2 : toDate.year < b) :
    (majorsOf (calendarEventsIn cfg fromDate toDate)).Nodup := by
  unfold calendarEventsIn majorsOf
  rw [List.filterMap_flatMap]
  have hyears : ∀ y ∈ yearsFrom fromDate.year toDate.year, a ≤ y ∧ y < b := by
    intro y hy
    unfold yearsFrom at hy
    simp only [List.mem_map, List.mem_range] at hy
    obtain ⟨i, hi, rfl⟩ := hy
    omega
  have hyn : (yearsFrom fromDate.year toDate.year).Nodup := by
    unfold yearsFrom
    refine List.Nodup.map ?_ List.nodup_range
    intro i j hij
    simp only at hij
    omega
  rw [List.nodup_flatMap]
  refine ⟨?_, ?_⟩
  · intro y hy
    have hr := c21_majors_steady cfg a b hs y (hyears y hy).1 (hyears y hy).2
    simp only at hr
    have : (majorsOf (generateSolarYear cfg y)).Nodup := by
      rw [hr]
      refine List.Nodup.of_map (·.Summary) ?_
      simp only [List.map_cons, List.map_nil, majorOn]
      decide
    have hsub : ((generateSolarYear cfg y).filter fun e => decide (Within fromDate toDate e.getDate)).filterMap
        (fun | .major m => some m | _ => none) <+ majorsOf (generateSolarYear cfg y) :=
      List.filter_sublist.filterMap _
    exact hsub.nodup this
  · have hs118 : Steady cfg 118 a b := hs.mono (by omega) (Int.le_refl _) (Int.le_refl _)
    refine hyn.imp_of_mem ?_
    intro y z hy hz hne m hm1 hm2
    have year : ∀ y ∈ yearsFrom fromDate.year toDate.year, m ∈ ((generateSolarYear cfg y).filter
        fun e => decide (Within fromDate toDate e.getDate)).filterMap (fun | .major m => some m | _ => none) → m.Date.year = y := by
      intro y hy hm
      rw [List.mem_filterMap] at hm
      obtain ⟨e, he, hx⟩ := hm
      have hyr : e.getDate.year = y := c55_in_year_steady cfg a b hs118 y (hyears y hy).1 (hyears y hy).2 e (List.mem_filter.1 he).1
      cases e <;> simp at hx
      rw [← hx]
      exact hyr
    exact hne ((year y hy hm1).symm.trans (year z hz hm2))

theorem majors_nodup {a b : Int} (hs : Steady cfg 74 a b) (h1 : a ≤ fromDate.year) (h2 : toDate.year < b) {c : CalDay} (hc : c ∈ l) :
    c.MajorEvents.Nodup := by
  obtain ⟨moons, hm, hh, -, -⟩ := c27_content _ _ _ _ _ h
  rw [(hh c hc).majors]
  have all := majorsIn_nodup (cfg := cfg) hs h1 h2
  have hsub : majorsOf (onDay (dayStart c.Date) (moons.map CalendarEvent.astro ++ calendarEventsIn cfg fromDate toDate)) <+
      majorsOf (calendarEventsIn cfg fromDate toDate) := by
    have e : majorsOf (moons.map CalendarEvent.astro ++ calendarEventsIn cfg fromDate toDate) =
        majorsOf (calendarEventsIn cfg fromDate toDate) := by
      have h1 : majorsOf (moons.map CalendarEvent.astro ++ calendarEventsIn cfg fromDate toDate) =
          majorsOf (moons.map CalendarEvent.astro) ++ majorsOf (calendarEventsIn cfg fromDate toDate) := List.filterMap_append
      have h2 : majorsOf (moons.map CalendarEvent.astro) = [] := by
        unfold majorsOf
        rw [List.filterMap_eq_nil_iff]
        intro x hx
        obtain ⟨w, -, rfl⟩ := List.mem_map.1 hx
        rfl
      rw [h1, h2, List.nil_append]
    rw [← e]
    exact List.filter_sublist.filterMap _
  exact hsub.nodup all

end

/-! ### What the text shows -/

theorem shows_uposatha {x : Json} {u : Almanac.Uposatha} (h : IsUposatha x (record u)) : Almanac.ShowsUposatha x u where
  date := hasDay_of h.date
  phase := h.phase
  month := h.lunarMonth
  year := h.lunarYear
  fortnight := h.uDays
  monthDays := h.mDays
  season := h.lunarSeason
  number := h.sNumber
  total := h.sTotal
  added := h.hasAdhikavara
  event := h.event

theorem shows_half {x : Json} {u : Almanac.Uposatha} (h : IsHalfMoon x u.half) : Almanac.ShowsHalf x (u.day + 8) (!u.full) where
  date := hasDay_of h.date
  phase := by rw [h.phase]; unfold Almanac.Uposatha.half; cases u.full <;> rfl

theorem shows_festival {x : Json} {day : Int} {name : String} (h : IsEvent x (majorOn ⟨day * nsPerDay, 0⟩ name)) :
    Almanac.ShowsFestival x day name where
  date := hasDay_of h.date
  summary := h.summary

theorem uposathas_days : ∀ k : Almanac.Kind, ∀ e ∈ Almanac.uposathas k, ∀ e' ∈ Almanac.uposathas k, e.day = e'.day → e = e' := by
  intro k; cases k <;> decide +kernel

/-- C72: no day has two uposathas. -/
theorem c72_unique {t : Int → Option Bool} {kattika : Int → Int} (hk : Almanac.Kattikas t kattika) (u u' : Almanac.Uposatha)
    (hu : Almanac.IsUposatha t kattika u) (hu' : Almanac.IsUposatha t kattika u') (h : u.day = u'.day) : u = u' := by
  obtain ⟨y, e, he, rfl⟩ := hu
  obtain ⟨z, e', he', rfl⟩ := hu'
  simp only at h
  have o := offsets _ e he
  have o' := offsets _ e' he'
  have s := hk.step y
  have s' := hk.step z
  have hyz : y = z := by
    rcases Int.lt_trichotomy y z with hlt | heq | hlt
    · have := kattika_mono' hk (y := y + 1) (z := z) (by omega)
      omega
    · exact heq
    · have := kattika_mono' hk (y := z + 1) (z := y) (by omega)
      omega
  subst hyz
  rw [uposathas_days _ e he e' he' (by omega)]

/-- C72: nothing else in the almanac falls on Āsāḷha Pūjā 2016. -/
example {kattika : Int → Int} (hk : Almanac.Kattikas Config.official.table kattika) (u : Almanac.Uposatha)
    (hu : Almanac.IsUposatha Config.official.table kattika u) (h : u.day = 736163) : u = asalha2016 := by
  refine c72_unique hk u asalha2016 hu ⟨2016, { asalha2016 with day := 237, year := 0 }, ?_, ?_⟩ h
  · rw [show Almanac.kindOf Config.official.table 2016 = .extraDay by decide +kernel]; decide +kernel
  · rw [kattika_2016 hk]; rfl

theorem day_midnight (d : Int) : (⟨d * nsPerDay, 0⟩ : Time).day = d := by unfold Time.day nsPerDay; simp

theorem within_days (a b d : Int) : Within ⟨a * nsPerDay, 0⟩ ⟨b * nsPerDay, 0⟩ ⟨d * nsPerDay, 0⟩ ↔ a ≤ d ∧ d ≤ b := by
  unfold Within nsPerDay
  simp only
  omega

theorem inYear_day (day y : Int) : Almanac.InYear day y ↔ (⟨day * nsPerDay, 0⟩ : Time).year = y := by
  rw [inYear_iff, ← year_eq_iff]
  unfold Time.year
  rw [day_midnight]

theorem year_mono {d e : Int} (h : d ≤ e) : (⟨d * nsPerDay, 0⟩ : Time).year ≤ (⟨e * nsPerDay, 0⟩ : Time).year := by
  unfold Time.year
  rw [day_midnight, day_midnight, year_le_iff]
  have := ((year_eq_iff e _).1 rfl).2
  omega

/-- C72: a JSON text with the days found between two dates shows the almanac between these dates. -/
theorem c72_text_steady {cfg : Config} {a b : Int} (hs : Steady cfg 74 a b) (ha : 639 ≤ a) {kattika : Int → Int}
    (hk : Almanac.Kattikas cfg.table kattika) (files : Int → AstroFile) (first last : Int)
    (h1 : a ≤ (⟨first * nsPerDay, 0⟩ : Time).year) (h2 : (⟨last * nsPerDay, 0⟩ : Time).year < b) (l : List CalDay)
    (h : getCalDays cfg files ⟨first * nsPerDay, 0⟩ ⟨last * nsPerDay, 0⟩ = some l) (j : Json)
    (hy : IsYears j fun y => l.filter fun c => decide (c.Date.year = y)) : Almanac.Shows cfg.table kattika first last j := by
  have hU := c27_uposatha_iff _ _ _ _ _ h
  have hH := c27_half_iff _ _ _ _ _ h
  have hM := (c27_major_iff _ _ _ _ _ h).1
  have hE := (c27_major_iff _ _ _ _ _ h).2
  have hsU : ∀ x c, IsDay x c → HasList x "UposathaMoon" IsUposatha c.UposathaMoon := fun _ _ h => h.uposatha
  have hsH : ∀ x c, IsDay x c → HasList x "HalfMoon" IsHalfMoon c.HalfMoon := fun _ _ h => h.half
  have hsM : ∀ x c, IsDay x c → HasList x "MajorEvents" IsEvent c.MajorEvents := fun _ _ h => h.major
  have hsE : ∀ x c, IsDay x c → HasList x "Events" IsEvent c.Events := fun _ _ h => h.events
  have halfDay : ∀ {c : CalDay}, c ∈ l → ∀ {m : HalfMoon}, m ∈ c.HalfMoon → ∃ u, Almanac.IsUposatha cfg.table kattika u ∧
      (u.month = 12 → u.full = true → ∃ y, Almanac.InYear u.day y ∧ Almanac.InYear (u.day + 8) y) ∧ m = u.half ∧
      c.Date.day = u.day + 8 ∧ first ≤ u.day + 8 ∧ u.day + 8 ≤ last := by
    intro c hc m hm
    have hd := (own_day h hc).2.1 m hm
    obtain ⟨y, y1, y2, hg, hw⟩ := (hH m).1 ⟨c, hc, hm, hd⟩
    obtain ⟨u, hu, hiy, hl, rfl⟩ := (c72_half_steady hs ha hk (y := y) (by omega) (by omega) m).1 hg
    rw [show u.half.Date = ⟨(u.day + 8) * nsPerDay, 0⟩ from rfl] at hw hd
    rw [within_days] at hw
    rw [day_midnight] at hd
    exact ⟨u, hu, fun h12 hf => ⟨y, hl h12 hf, hiy⟩, rfl, hd, hw.1, hw.2⟩
  refine ⟨?_, ?_, ?_, ?_, ?_, ?_, ?_, ?_, ?_⟩
  · exact text_orderly hy ((c26_sorted _ _ _ _ _ h).1.imp fun h => h.2)
  · refine text_unrepeated hy ?_
    intro c hc
    have one : ∀ {α : Type} (v : List α), v.length ≤ 1 → v.Nodup := by
      intro α v hv
      match v, hv with
      | [], _ => exact List.nodup_nil
      | [x], _ => exact List.nodup_singleton x
    have h28 := c28_at_most_one _ _ _ _ _ h c hc
    exact ⟨one _ h28.1, one _ h28.2.1, one _ h28.2.2, majors_nodup h hs h1 h2 hc⟩
  · intro day x he
    obtain ⟨c, hc, rfl, m, hm, hx⟩ := entry_day hy hsU he
    have hd := (own_day h hc).1 m hm
    obtain ⟨y, y1, y2, hg, hw⟩ := (hU m).1 ⟨c, hc, hm, hd⟩
    obtain ⟨u, hu, -, rfl⟩ := (c72_uposatha_steady hs ha hk (y := y) (by omega) (by omega) m).1 hg
    rw [show (record u).Date = ⟨u.day * nsPerDay, 0⟩ from rfl] at hw hd
    rw [within_days] at hw
    rw [day_midnight] at hd
    rw [hd]
    exact ⟨hw.1, hw.2, u, hu, rfl, shows_uposatha hx⟩
  · intro day x he
    obtain ⟨c, hc, rfl, m, hm, hx⟩ := entry_day hy hsH he
    obtain ⟨u, hu, -, rfl, hd, hw⟩ := halfDay hc hm
    rw [hd]
    exact ⟨hw.1, hw.2, !u.full, ⟨u, hu, rfl, rfl⟩, shows_half hx⟩
  · intro day x he
    obtain ⟨c, hc, rfl, m, hm, hx⟩ := entry_day hy hsM he
    have hd := (own_day h hc).2.2.1 m hm
    obtain ⟨y, y1, y2, hg, hw⟩ := (hM m).1 ⟨c, hc, hm, hd⟩
    obtain ⟨day, name, hf, -, rfl⟩ := (c72_major_steady hs ha hk (y := y) (by omega) (by omega) m).1 hg
    rw [show (majorOn ⟨day * nsPerDay, 0⟩ name).Date = ⟨day * nsPerDay, 0⟩ from rfl] at hw hd
    rw [within_days] at hw
    rw [day_midnight] at hd
    rw [hd]
    exact ⟨hw.1, hw.2, name, hf, shows_festival hx⟩
  · intro day x he
    obtain ⟨c, hc, -, m, hm, -⟩ := entry_day hy hsE he
    rw [hE c hc] at hm
    cases hm
  · intro u hu f1 f2
    obtain ⟨c, hc, hm, hd⟩ := (hU (record u)).2 ⟨(⟨u.day * nsPerDay, 0⟩ : Time).year, year_mono f1, year_mono f2,
      (c72_uposatha_steady hs ha hk (by have := year_mono f1; omega) (by have := year_mono f2; omega) _).2
        ⟨u, hu, (inYear_day _ _).2 rfl, rfl⟩, (within_days _ _ _).2 ⟨f1, f2⟩⟩
    rw [show (record u).Date = ⟨u.day * nsPerDay, 0⟩ from rfl, day_midnight] at hd
    obtain ⟨x, hx, hi⟩ := day_entry hy hsU hc hm
    rw [hd] at hx
    exact ⟨x, hx, shows_uposatha hi⟩
  · intro u hu f1 f2
    constructor
    · rintro ⟨x, he, -⟩ ⟨h12, hf, y, hy1, hy2⟩
      obtain ⟨c, hc, hd, m, hm, -⟩ := entry_day hy hsH he
      obtain ⟨u', hu', hl, -, hd', -⟩ := halfDay hc hm
      have := c72_unique hk u u' hu hu' (by omega)
      subst this
      obtain ⟨z, z1, z2⟩ := hl h12 hf
      rw [inYear_day] at z1 hy1
      rw [← hy1, z1] at hy2
      exact hy2 z2
    · intro hn
      have hl : u.month = 12 → u.full = true → Almanac.InYear u.day (⟨(u.day + 8) * nsPerDay, 0⟩ : Time).year := by
        intro h12 hf
        by_contra hny
        refine hn ⟨h12, hf, (⟨u.day * nsPerDay, 0⟩ : Time).year, (inYear_day _ _).2 rfl, ?_⟩
        intro h8
        rw [inYear_day] at hny h8
        exact hny h8.symm
      obtain ⟨c, hc, hm, hd⟩ := (hH u.half).2 ⟨(⟨(u.day + 8) * nsPerDay, 0⟩ : Time).year, year_mono f1, year_mono f2,
        (c72_half_steady hs ha hk (by have := year_mono f1; omega) (by have := year_mono f2; omega) _).2
          ⟨u, hu, (inYear_day _ _).2 rfl, hl, rfl⟩, (within_days _ _ _).2 ⟨f1, f2⟩⟩
      rw [show u.half.Date = ⟨(u.day + 8) * nsPerDay, 0⟩ from rfl, day_midnight] at hd
      obtain ⟨x, hx, hi⟩ := day_entry hy hsH hc hm
      rw [hd] at hx
      exact ⟨x, hx, shows_half hi⟩
  · intro day name hf f1 f2
    obtain ⟨c, hc, hm, hd⟩ := (hM (majorOn ⟨day * nsPerDay, 0⟩ name)).2 ⟨(⟨day * nsPerDay, 0⟩ : Time).year, year_mono f1, year_mono f2,
      (c72_major_steady hs ha hk (by have := year_mono f1; omega) (by have := year_mono f2; omega) _).2
        ⟨day, name, hf, (inYear_day _ _).2 rfl, rfl⟩, (within_days _ _ _).2 ⟨f1, f2⟩⟩
    rw [show (majorOn ⟨day * nsPerDay, 0⟩ name).Date = ⟨day * nsPerDay, 0⟩ from rfl, day_midnight] at hd
    obtain ⟨x, hx, hi⟩ := day_entry hy hsM hc hm
    rw [hd] at hx
    exact ⟨x, hx, shows_festival hi⟩

/-- C72: the hypotheses are met by July 2016 and the official exceptions. -/
example : Steady .official 74 1290 4116 ∧ (1290 : Int) ≤ (⟨736145 * nsPerDay, 0⟩ : Time).year ∧
    (⟨736175 * nsPerDay, 0⟩ : Time).year < 4116 ∧
    ∃ l, getCalDays .official (fun _ => .missing) ⟨736145 * nsPerDay, 0⟩ ⟨736175 * nsPerDay, 0⟩ = some l := by
  refine ⟨shipped_steady74 (Or.inr rfl), by decide +kernel, by decide +kernel, ?_⟩
  rw [← Option.isSome_iff_exists]
  decide +kernel

end Verif.Props
