import Verif.Props.AlmanacEarly
import Verif.Props.AlmanacIcs
import Verif.Props.RangeWide
import Verif.Spec.AlmanacShown
/-
C80: the files written by caldays and ical for all dates from 640 on that the programs can write.
-/
set_option autoImplicit false

namespace Verif.Props
open scoped List
open Verif.Go Verif.Model Verif.Model.Unmarshal Verif.Spec Verif.Lemmas

/-! ### Each major event once -/

theorem pujas_offset {e e' : String} {p q : String × Int} (hp : p ∈ pujas e) (hq : q ∈ pujas e') (h : p.1 = q.1) : p.2 = q.2 := by
  have all : ∀ e, ∀ p ∈ pujas e, p ∈ [("Māgha Pūjā", 0), ("Vesākha Pūjā", 0), ("Āsāḷha Pūjā", 0), ("First day of Vassa", 1),
      ("Pavāraṇā Day", 0), ("Last day of Vassa", (0 : Int))] := by
    intro e p hp
    unfold pujas at hp
    (repeat' split at hp) <;> revert hp p <;> decide
  have key : ∀ p ∈ [("Māgha Pūjā", 0), ("Vesākha Pūjā", 0), ("Āsāḷha Pūjā", 0), ("First day of Vassa", 1),
      ("Pavāraṇā Day", 0), ("Last day of Vassa", (0 : Int))], ∀ q ∈ [("Māgha Pūjā", 0), ("Vesākha Pūjā", 0), ("Āsāḷha Pūjā", 0),
      ("First day of Vassa", 1), ("Pavāraṇā Day", 0), ("Last day of Vassa", (0 : Int))], p.1 = q.1 → p.2 = q.2 := by decide
  exact key p (all e p hp) q (all e' q hq) h

theorem addDays_inj {a b : Time} {n : Int} (h : a.addDays n = b.addDays n) : a = b := by
  rw [addDays_eq, addDays_eq] at h
  unfold Time.add at h
  simp only [Time.mk.injEq] at h
  cases a; cases b
  simp only [Time.mk.injEq] at h ⊢
  exact ⟨by omega, h.2⟩

theorem major_year {cfg : Config} {y z : Int} {m : MajorEvent} (h : .major m ∈ generateSolarYear cfg y) (h' : .major m ∈ generateSolarYear cfg z) :
    y = z := by
  obtain ⟨k, -, hy, p, hp, rfl⟩ := (c22_major_iff _ _ _).1 h
  obtain ⟨k', -, hz, q, hq, he⟩ := (c22_major_iff _ _ _).1 h'
  have ho := pujas_offset hp hq (congrArg (·.Summary) he)
  have hd : (moonAfterKattika cfg y k).Date.addDays p.2 = (moonAfterKattika cfg z k').Date.addDays q.2 := congrArg (·.Date) he
  rw [ho] at hd
  rw [← hy, ← hz, addDays_inj hd]

theorem majors_year_nodup (cfg : Config) (y : Int) : (majorsOf (generateSolarYear cfg y)).Nodup := by
  obtain ⟨n, -, h2, -⟩ := generate_spec cfg y
  rw [h2, majors_emitted, List.nodup_flatMap]
  have names : ∀ w : UposathaMoon, (majorsOf (majorEventsOf w)).Nodup := by
    intro w
    refine List.Nodup.of_map (·.Summary) ?_
    have : (majorsOf (majorEventsOf w)).map (·.Summary) = (pujas w.Event).map (·.1) := by
      unfold majorEventsOf pujas majorsOf mkMajor
      by_cases h1 : w.Event = "magha"
      · simp [h1]
      · by_cases h2 : w.Event = "vesakha"
        · simp [h2]
        · by_cases h3 : w.Event = "asalha"
          · simp [h3]
          · by_cases h4 : w.Event = "pavarana"
            · simp [h4]
            · simp [h1, h2, h3, h4]
    rw [this]
    unfold pujas
    (repeat' split) <;> decide
  have mem : ∀ (w : UposathaMoon) (m : MajorEvent), m ∈ majorsOf (majorEventsOf w) → ∃ p ∈ pujas w.Event, m.Date = w.Date.addDays p.2 ∧ m.Summary = p.1 := by
    intro w m hm
    unfold majorsOf at hm
    rw [List.mem_filterMap] at hm
    obtain ⟨e, he, hx⟩ := hm
    obtain ⟨p, hp, rfl⟩ := (majorEventsOf_pujas w e).1 he
    simp only [Option.some.injEq] at hx
    subst hx
    exact ⟨p, hp, rfl, rfl⟩
  refine ⟨fun i _ => ?_, ?_⟩
  · split
    · exact names _
    · exact List.nodup_nil
  · refine List.nodup_range.imp ?_
    intro i j hne m hi hj
    simp only at hi hj
    split at hi
    · split at hj
      · obtain ⟨p, hp, hpd, hps⟩ := mem _ _ hi
        obtain ⟨q, hq, hqd, hqs⟩ := mem _ _ hj
        have ho := pujas_offset hp hq (hps.symm.trans hqs)
        rw [ho] at hpd
        have hd := addDays_inj (hpd.symm.trans hqd)
        rcases Nat.lt_or_ge i j with h | h
        · have := chain_day_mono cfg y (show i + 1 ≤ j + 1 by omega)
          rw [hd] at this; omega
        · have := chain_day_mono cfg y (show j + 1 ≤ i + 1 by omega)
          rw [hd] at this; omega
      · cases hj
    · cases hi

/-- C80: no major event is listed twice, whatever the settings and the range. -/
theorem c80_major_once (cfg : Config) (fromDate toDate : Time) : (majorsOf (calendarEventsIn cfg fromDate toDate)).Nodup := by
  unfold calendarEventsIn majorsOf
  rw [List.filterMap_flatMap, List.nodup_flatMap]
  refine ⟨?_, ?_⟩
  · intro y _
    have hsub : ((generateSolarYear cfg y).filter fun e => decide (Within fromDate toDate e.getDate)).filterMap
        (fun | .major m => some m | _ => none) <+ majorsOf (generateSolarYear cfg y) :=
      List.filter_sublist.filterMap _
    exact hsub.nodup (majors_year_nodup cfg y)
  · refine (yearsFrom_nodup _ _).imp ?_
    intro y z hne m hm1 hm2
    have year : ∀ y, m ∈ ((generateSolarYear cfg y).filter
        fun e => decide (Within fromDate toDate e.getDate)).filterMap (fun | .major m => some m | _ => none) → .major m ∈ generateSolarYear cfg y := by
      intro y hm
      rw [List.mem_filterMap] at hm
      obtain ⟨e, he, hx⟩ := hm
      cases e <;> simp at hx
      rw [← hx]
      exact (List.mem_filter.1 he).1
    exact hne (major_year (year y hm1) (year z hm2))

/-- C80: nor by a day of the calendar. -/
theorem c80_days_once {cfg : Config} {files : Int → AstroFile} {fromDate toDate : Time} {l : List CalDay}
    (h : getCalDays cfg files fromDate toDate = some l) {c : CalDay} (hc : c ∈ l) : c.MajorEvents.Nodup := by
  obtain ⟨moons, hm, hh, -, -⟩ := c27_content _ _ _ _ _ h
  rw [(hh c hc).majors]
  have hsub : majorsOf (onDay (dayStart c.Date) (moons.map CalendarEvent.astro ++ calendarEventsIn cfg fromDate toDate)) <+
      majorsOf (calendarEventsIn cfg fromDate toDate) := by
    have e : majorsOf (moons.map CalendarEvent.astro ++ calendarEventsIn cfg fromDate toDate) =
        majorsOf (calendarEventsIn cfg fromDate toDate) := by
      have h1 : majorsOf (moons.map CalendarEvent.astro ++ calendarEventsIn cfg fromDate toDate) =
          majorsOf (moons.map CalendarEvent.astro) ++ majorsOf (calendarEventsIn cfg fromDate toDate) := List.filterMap_append
      have h2 : majorsOf (moons.map CalendarEvent.astro) = [] := by
        unfold majorsOf
        rw [List.filterMap_eq_nil_iff]
        intro x hx
        obtain ⟨w, -, rfl⟩ := List.mem_map.1 hx
        rfl
      rw [h1, h2, List.nil_append]
    rw [← e]
    exact List.filter_sublist.filterMap _
  exact hsub.nodup (c80_major_once cfg fromDate toDate)

/-- C80: 2016 has six major events, two of them on the day of Pavāraṇā. -/
example : (majorsOf (calendarEventsIn .default (date 2016 1 1 0 0) (date 2016 12 31 0 0))).length = 6 ∧
    ∃ l, getCalDays .default embeddedFiles (date 2016 1 1 0 0) (date 2016 12 31 0 0) = some l ∧ ∃ c ∈ l, 1 < c.MajorEvents.length := by
  refine ⟨by decide +kernel, ?_⟩
  obtain ⟨l, hl⟩ := Option.ne_none_iff_exists'.1 (c53_never_panics .default (date 2016 1 1 0 0) (date 2016 12 31 0 0)).2
  refine ⟨l, hl, ?_⟩
  have hm := (c27_major_iff _ _ _ _ _ hl).1
  have mem : ∀ name, name ∈ ["Pavāraṇā Day", "Last day of Vassa"] →
      ∃ c ∈ l, majorOn ⟨736252 * nsPerDay, 0⟩ name ∈ c.MajorEvents ∧ c.Date.day = 736252 := by
    intro name hn
    obtain ⟨c, hc, h1, h2⟩ := (hm (majorOn ⟨736252 * nsPerDay, 0⟩ name)).2 ⟨2016, by decide +kernel, by decide +kernel, by
      rcases List.mem_cons.1 hn with rfl | hn
      · decide +kernel
      · rw [List.mem_singleton] at hn; subst hn; decide +kernel,
      show Within _ _ ⟨736252 * nsPerDay, 0⟩ by decide +kernel⟩
    refine ⟨c, hc, h1, h2.trans ?_⟩
    show (⟨736252 * nsPerDay, 0⟩ : Time).day = _
    exact day_midnight _
  obtain ⟨c, hc, h1, h2⟩ := mem _ (List.mem_cons_self ..)
  obtain ⟨c', hc', h1', h2'⟩ := mem "Last day of Vassa" (by decide)
  have hcc : c = c' := by
    have hp := (c26_sorted _ _ _ _ _ hl).1
    by_contra hne
    obtain ⟨i, hi, rfl⟩ := List.mem_iff_getElem.1 hc
    obtain ⟨k, hk, rfl⟩ := List.mem_iff_getElem.1 hc'
    rcases Nat.lt_trichotomy i k with h | h | h
    · have := (List.pairwise_iff_getElem.1 hp i k hi hk h).2; omega
    · subst h; exact hne rfl
    · have := (List.pairwise_iff_getElem.1 hp k i hk hi h).2; omega
  subst hcc
  refine ⟨c, hc, ?_⟩
  by_contra hlt
  match hv : c.MajorEvents with
  | [] => rw [hv] at h1; cases h1
  | [x] =>
    rw [hv, List.mem_singleton] at h1 h1'
    have := congrArg (·.Summary) (h1.trans h1'.symm)
    revert this; decide +kernel
  | _ :: _ :: _ => rw [hv] at hlt; simp at hlt

/-! ### The years of the feasts -/

/-- A feast up to 11148 is in the civil year of its uposatha. -/
theorem feast_year {cfg : Config} (hs : Shipped cfg) {kattika : Int → Int} (hk : Almanac.Kattikas cfg.table kattika)
    {u : Almanac.Uposatha} (hu : Almanac.IsUposatha cfg.table kattika u) {y : Int} (hy : Almanac.InYear u.day y) (hl : kattika y < u.day)
    (h1 : 639 ≤ y) (h2 : y ≤ 11148) {day : Int} {name : String}
    (hf : Almanac.FeastOf (written cfg.table kattika y u) day name) : Almanac.InYear day y := by
  have hm := (c80_major hs hk h1 _).2 ⟨u, hu, hy, hl, day, name, hf, rfl⟩
  have := (c55_in_year cfg hs).1 y (by omega) h2 _ hm
  rw [inYear_day]
  exact this

theorem last_639 {cfg : Config} (hs : Shipped cfg) {e : CalendarEvent} (he : e ∈ generateSolarYear cfg 639) : e.getDate.day ≠ 233388 := by
  have key : ∀ cfg, (generateSolarYear cfg 639).all (fun e => decide (e.getDate.day ≠ 233388)) = true →
      e ∈ generateSolarYear cfg 639 → e.getDate.day ≠ 233388 := by
    intro cfg h he
    exact of_decide_eq_true (List.all_eq_true.1 h e he)
  rcases hs with rfl | rfl
  · exact key _ (by decide +kernel) he
  · exact key _ (by decide +kernel) he

/-- A feast from 640 to 11148 is of an uposatha of these years. -/
theorem feast_years {cfg : Config} (hs : Shipped cfg) {kattika : Int → Int} (hk : Almanac.Kattikas cfg.table kattika)
    {u : Almanac.Uposatha} (hu : Almanac.IsUposatha cfg.table kattika u) {y : Int} (hy : Almanac.InYear u.day y) (hl : kattika y < u.day)
    {day : Int} {name : String} (hf : Almanac.FeastOf (written cfg.table kattika y u) day name) (h1 : 640 ≤ (⟨day * nsPerDay, 0⟩ : Time).year)
    (h2 : (⟨day * nsPerDay, 0⟩ : Time).year ≤ 11148) : 640 ≤ y ∧ y ≤ 11148 := by
  have hyr := (inYear_day _ _).1 hy
  have hday : day = u.day ∨ day = u.day + 1 := by
    rcases hf with hf | hf | hf | hf | hf | hf <;> [left; left; left; right; left; left] <;> exact hf.2.1
  have hle := year_mono (show u.day ≤ day by omega)
  refine ⟨?_, by omega⟩
  by_contra hn
  have hd : 233389 ≤ day := by
    by_contra hd
    have := year_mono (show day ≤ 233388 by omega)
    have e : (⟨233388 * nsPerDay, 0⟩ : Time).year = 639 := by decide +kernel
    omega
  have hu' : u.day ≤ 233388 := by
    by_contra hd
    have := year_mono (show 233389 ≤ u.day by omega)
    have e : (⟨233389 * nsPerDay, 0⟩ : Time).year = 640 := by decide +kernel
    omega
  have he : u.day = 233388 := by omega
  have e : (⟨233388 * nsPerDay, 0⟩ : Time).year = 639 := by decide +kernel
  rw [he, e] at hyr
  subst hyr
  have hg := (c80_uposatha hs hk (y := 639) (by omega) (record (written cfg.table kattika 639 u))).2 ⟨u, hu, hy, hl, rfl⟩
  refine last_639 hs hg ?_
  show (⟨u.day * nsPerDay, 0⟩ : Time).day = _
  rw [day_midnight, he]

section
variable {cfg : Config} (hs : Shipped cfg) {kattika : Int → Int} (hk : Almanac.Kattikas cfg.table kattika) {first last : Int}
  (h1 : 640 ≤ (⟨first * nsPerDay, 0⟩ : Time).year) (h2 : (⟨last * nsPerDay, 0⟩ : Time).year ≤ 11148)
include hs hk h1 h2

/-- C80: a JSON text with the days found between two dates shows the entries of the almanac after the Kattika full moons. -/
theorem c80_text (files : Int → AstroFile) (l : List CalDay)
    (h : getCalDays cfg files ⟨first * nsPerDay, 0⟩ ⟨last * nsPerDay, 0⟩ = some l) (j : Json)
    (hy : IsYears j fun y => l.filter fun c => decide (c.Date.year = y)) : Almanac.ShowsFrom cfg.table kattika first last j := by
  have hU := c27_uposatha_iff _ _ _ _ _ h
  have hH := c27_half_iff _ _ _ _ _ h
  have hM := (c27_major_iff _ _ _ _ _ h).1
  have hE := (c27_major_iff _ _ _ _ _ h).2
  have hsU : ∀ x c, IsDay x c → HasList x "UposathaMoon" IsUposatha c.UposathaMoon := fun _ _ h => h.uposatha
  have hsH : ∀ x c, IsDay x c → HasList x "HalfMoon" IsHalfMoon c.HalfMoon := fun _ _ h => h.half
  have hsM : ∀ x c, IsDay x c → HasList x "MajorEvents" IsEvent c.MajorEvents := fun _ _ h => h.major
  have hsE : ∀ x c, IsDay x c → HasList x "Events" IsEvent c.Events := fun _ _ h => h.events
  refine ⟨?_, ?_, ?_, ?_, ?_, ?_, ?_, ?_, ?_⟩
  · exact text_orderly hy ((c26_sorted _ _ _ _ _ h).1.imp fun h => h.2)
  · refine text_unrepeated hy ?_
    intro c hc
    have one : ∀ {α : Type} (v : List α), v.length ≤ 1 → v.Nodup := by
      intro α v hv
      match v, hv with
      | [], _ => exact List.nodup_nil
      | [x], _ => exact List.nodup_singleton x
    have h28 := c28_at_most_one _ _ _ _ _ h c hc
    exact ⟨one _ h28.1, one _ h28.2.1, one _ h28.2.2, c80_days_once h hc⟩
  · intro day x he
    obtain ⟨c, hc, rfl, m, hm, hx⟩ := entry_day hy hsU he
    have hd := (own_day h hc).1 m hm
    obtain ⟨y, y1, y2, hg, hw⟩ := (hU m).1 ⟨c, hc, hm, hd⟩
    obtain ⟨u, hu, hin, hlt, rfl⟩ := (c80_uposatha hs hk (y := y) (by omega) m).1 hg
    have hx : IsUposatha x (record (written cfg.table kattika y u)) := hx
    have hw : Within _ _ ⟨u.day * nsPerDay, 0⟩ := hw
    have hd : c.Date.day = (⟨u.day * nsPerDay, 0⟩ : Time).day := hd
    rw [within_days] at hw
    rw [day_midnight] at hd
    rw [hd]
    exact ⟨hw.1, hw.2, u, _, hu, ⟨y, hin, hlt⟩, rfl, (written_iff hin _).2 rfl, shows_uposatha hx⟩
  · intro day x he
    obtain ⟨c, hc, rfl, m, hm, hx⟩ := entry_day hy hsH he
    have hd := (own_day h hc).2.1 m hm
    obtain ⟨y, y1, y2, hg, hw⟩ := (hH m).1 ⟨c, hc, hm, hd⟩
    obtain ⟨u, hu, hin, hlt, rfl⟩ := (c72_half_far hs hk (y := y) (by omega) m).1 hg
    rw [show u.half.Date = ⟨(u.day + 8) * nsPerDay, 0⟩ from rfl] at hw hd
    rw [within_days] at hw
    rw [day_midnight] at hd
    rw [hd]
    exact ⟨hw.1, hw.2, u, hu, ⟨y, hin, hlt⟩, rfl, shows_half hx⟩
  · intro day x he
    obtain ⟨c, hc, rfl, m, hm, hx⟩ := entry_day hy hsM he
    have hd := (own_day h hc).2.2.1 m hm
    obtain ⟨y, y1, y2, hg, hw⟩ := (hM m).1 ⟨c, hc, hm, hd⟩
    obtain ⟨u, hu, hin, hlt, day, name, hf, rfl⟩ := (c80_major hs hk (y := y) (by omega) m).1 hg
    rw [show (majorOn ⟨day * nsPerDay, 0⟩ name).Date = ⟨day * nsPerDay, 0⟩ from rfl] at hw hd
    rw [within_days] at hw
    rw [day_midnight] at hd
    rw [hd]
    exact ⟨hw.1, hw.2, u, _, name, hu, ⟨y, hin, hlt⟩, (written_iff hin _).2 rfl, hf, shows_festival hx⟩
  · intro day x he
    obtain ⟨c, hc, -, m, hm, -⟩ := entry_day hy hsE he
    rw [hE c hc] at hm
    cases hm
  · rintro u w hu ⟨y, hin, hlt⟩ hwr f1 f2
    rw [written_iff hin] at hwr
    subst hwr
    have hyr := (inYear_day _ _).1 hin
    have y1 := year_mono f1
    have y2 := year_mono f2
    obtain ⟨c, hc, hm, hd⟩ := (hU (record (written cfg.table kattika y u))).2 ⟨y, by omega, by omega,
      (c80_uposatha hs hk (by omega) _).2 ⟨u, hu, hin, hlt, rfl⟩, (within_days _ _ _).2 ⟨f1, f2⟩⟩
    have hd : c.Date.day = (⟨u.day * nsPerDay, 0⟩ : Time).day := hd
    rw [day_midnight] at hd
    obtain ⟨x, hx, hi⟩ := day_entry hy hsU hc hm
    rw [hd] at hx
    exact ⟨x, hx, shows_uposatha hi⟩
  · rintro u hu ⟨y, hin, hlt⟩ f1 f2
    have hyr := (inYear_day _ _).1 hin
    have y1 := year_mono f1
    have y2 := year_mono f2
    obtain ⟨c, hc, hm, hd⟩ := (hH u.half).2 ⟨y, by omega, by omega,
      (c72_half_far hs hk (by omega) _).2 ⟨u, hu, hin, hlt, rfl⟩, (within_days _ _ _).2 ⟨f1, f2⟩⟩
    rw [show u.half.Date = ⟨(u.day + 8) * nsPerDay, 0⟩ from rfl, day_midnight] at hd
    obtain ⟨x, hx, hi⟩ := day_entry hy hsH hc hm
    rw [hd] at hx
    exact ⟨x, hx, shows_half hi⟩
  · rintro u w day name hu ⟨y, hin, hlt⟩ hwr hf f1 f2
    rw [written_iff hin] at hwr
    subst hwr
    have y1 := year_mono f1
    have y2 := year_mono f2
    have hyd := feast_years hs hk hu hin hlt hf (by omega) (by omega)
    have hyr := (inYear_day _ _).1 (feast_year hs hk hu hin hlt (by omega) hyd.2 hf)
    obtain ⟨c, hc, hm, hd⟩ := (hM (majorOn ⟨day * nsPerDay, 0⟩ name)).2 ⟨y, by omega, by omega,
      (c80_major hs hk (by omega) _).2 ⟨u, hu, hin, hlt, day, name, hf, rfl⟩, (within_days _ _ _).2 ⟨f1, f2⟩⟩
    rw [show (majorOn ⟨day * nsPerDay, 0⟩ name).Date = ⟨day * nsPerDay, 0⟩ from rfl, day_midnight] at hd
    obtain ⟨x, hx, hi⟩ := day_entry hy hsM hc hm
    rw [hd] at hx
    exact ⟨x, hx, shows_festival hi⟩

/-- The event of an entry shown. -/
inductive EventShown (t : Int → Option Bool) (kattika : Int → Int) : CalendarEvent → Int → String → Prop where
  | uposatha (u w : Almanac.Uposatha) (h : Almanac.IsUposatha t kattika u) (hs : Almanac.Shown kattika u)
    (hw : Almanac.Written t kattika u w) :
    EventShown t kattika (.uposatha (record w)) u.day (Almanac.uposathaText u)
  | half (u : Almanac.Uposatha) (h : Almanac.IsUposatha t kattika u) (hs : Almanac.ShownHalf kattika u) :
    EventShown t kattika (.half u.half) (u.day + 8) (if u.full then "Waning Moon" else "Waxing Moon")
  | festival (u w : Almanac.Uposatha) (day : Int) (name : String) (h : Almanac.IsUposatha t kattika u) (hs : Almanac.Shown kattika u)
    (hw : Almanac.Written t kattika u w) (hf : Almanac.FeastOf w day name) : EventShown t kattika (.major (majorOn ⟨day * nsPerDay, 0⟩ name)) day name

omit hs hk h1 h2 in
theorem EventShown.shows {t : Int → Option Bool} {kattika : Int → Int} {e : CalendarEvent} {day : Int} {text : String}
    (h : EventShown t kattika e day text) :
    e.getDate = ⟨day * nsPerDay, 0⟩ ∧ e.string = text ∧ Almanac.IsEntryShown t kattika day text := by
  cases h with
  | uposatha u w hu hs hw =>
    obtain ⟨y, hy, hl⟩ := hs
    have := (written_iff hy w).1 hw
    subst this
    exact ⟨rfl, (uposatha_string (u := u) hu :), u, hu, .inl ⟨⟨y, hy, hl⟩, rfl, rfl⟩⟩
  | half u hu hs => exact ⟨rfl, half_string u, u, hu, .inr (.inl ⟨hs, rfl, rfl⟩)⟩
  | festival u w _ _ hu hs hw hf => exact ⟨rfl, rfl, u, hu, .inr (.inr ⟨hs, w, hw, hf⟩)⟩

omit hs hk h1 h2 in
theorem eventShown_entry {t : Int → Option Bool} {kattika : Int → Int} {day : Int} {text : String}
    (h : Almanac.IsEntryShown t kattika day text) : ∃ e, EventShown t kattika e day text := by
  obtain ⟨u, hu, ⟨hs, rfl, rfl⟩ | ⟨hs, rfl, rfl⟩ | ⟨hs, w, hw, hf⟩⟩ := h
  · obtain ⟨y, hy, hl⟩ := hs
    exact ⟨_, .uposatha u _ hu ⟨y, hy, hl⟩ ((written_iff hy _).2 rfl)⟩
  · exact ⟨_, .half u hu hs⟩
  · exact ⟨_, .festival u w _ _ hu hs hw hf⟩

omit hs hk h1 h2 in
theorem begins_feast {u : Almanac.Uposatha} {day : Int} {name : String} (h : Almanac.FeastOf u day name) :
    begins name ∈ ["Māgh".toList, "Vesā".toList, "Āsāḷ".toList, "Firs".toList, "Pavā".toList, "Last".toList] := by
  rcases h with h | h | h | h | h | h <;> rw [h.2.2] <;> decide +kernel

omit hs hk h1 h2 in
theorem eventShown_unique {t : Int → Option Bool} {kattika : Int → Int} (hk : Almanac.Kattikas t kattika) {e e' : CalendarEvent} {day : Int}
    {text : String} (h : EventShown t kattika e day text) (h' : EventShown t kattika e' day text) : e = e' := by
  generalize hd : day = day' at h'
  generalize ht : text = text' at h'
  cases h with
  | uposatha u w hu hs hw =>
    cases h' with
    | uposatha u' w' hu' hs' hw' =>
      have := c72_unique hk u u' hu hu' hd
      subst this
      obtain ⟨y, hy, -⟩ := hs
      rw [written_iff hy] at hw hw'
      rw [hw, hw']
    | half u' hu' hs' =>
      have b1 := begins_uposatha u; have b2 := begins_half u'
      rw [ht] at b1
      exact absurd rfl (begins_apart _ b1 _ b2 "Last".toList (by decide)).1
    | festival u' w' _ _ hu' hs' hw' hf' =>
      have b1 := begins_uposatha u; have b2 := begins_feast hf'
      rw [ht] at b1
      exact absurd rfl (begins_apart _ b1 "Wani".toList (by decide) _ b2).2.1
  | half u hu hs =>
    cases h' with
    | uposatha u' w' hu' hs' hw' =>
      have b1 := begins_uposatha u'; have b2 := begins_half u
      rw [ht] at b2
      exact absurd rfl (begins_apart _ b1 _ b2 "Last".toList (by decide)).1
    | half u' hu' hs' => rw [c72_unique hk u u' hu hu' (by omega)]
    | festival u' w' _ _ hu' hs' hw' hf' =>
      have b1 := begins_half u; have b2 := begins_feast hf'
      rw [ht] at b1
      exact absurd rfl (begins_apart "New ".toList (by decide) _ b1 _ b2).2.2
  | festival u w _ _ hu hs hw hf =>
    cases h' with
    | uposatha u' w' hu' hs' hw' =>
      have b1 := begins_uposatha u'; have b2 := begins_feast hf
      rw [ht] at b2
      exact absurd rfl (begins_apart _ b1 "Wani".toList (by decide) _ b2).2.1
    | half u' hu' hs' =>
      have b1 := begins_half u'; have b2 := begins_feast hf
      rw [ht] at b2
      exact absurd rfl (begins_apart "New ".toList (by decide) _ b1 _ b2).2.2
    | festival u' w' _ _ hu' hs' hw' hf' => rw [hd, ht]

/-- The events of a range are those of the entries shown. -/
theorem events_shown (e : CalendarEvent) : e ∈ calendarEventsIn cfg ⟨first * nsPerDay, 0⟩ ⟨last * nsPerDay, 0⟩ ↔
    ∃ day text, EventShown cfg.table kattika e day text ∧ first ≤ day ∧ day ≤ last := by
  rw [mem_calendarEventsIn]
  constructor
  · rintro ⟨y, y1, y2, hg, hw⟩
    have key : ∃ day text, EventShown cfg.table kattika e day text := by
      cases e with
      | uposatha m =>
        obtain ⟨u, hu, hin, hlt, rfl⟩ := (c80_uposatha hs hk (y := y) (by omega) m).1 hg
        exact ⟨_, _, .uposatha u _ hu ⟨y, hin, hlt⟩ ((written_iff hin _).2 rfl)⟩
      | half m =>
        obtain ⟨u, hu, hin, hlt, rfl⟩ := (c72_half_far hs hk (y := y) (by omega) m).1 hg
        exact ⟨_, _, .half u hu ⟨y, hin, hlt⟩⟩
      | major m =>
        obtain ⟨u, hu, hin, hlt, day, name, hf, rfl⟩ := (c80_major hs hk (y := y) (by omega) m).1 hg
        exact ⟨_, _, .festival u _ day name hu ⟨y, hin, hlt⟩ ((written_iff hin _).2 rfl) hf⟩
      | astro m => exact absurd rfl ((c22_in_year cfg y _ hg).2.1 m)
      | event m => exact absurd rfl ((c22_in_year cfg y _ hg).2.2 m)
    obtain ⟨day, text, hev⟩ := key
    rw [hev.shows.1, within_days] at hw
    exact ⟨day, text, hev, hw⟩
  · rintro ⟨day, text, hev, f1, f2⟩
    have hw : Within ⟨first * nsPerDay, 0⟩ ⟨last * nsPerDay, 0⟩ e.getDate := by rw [hev.shows.1, within_days]; exact ⟨f1, f2⟩
    have y1 := year_mono f1
    have y2 := year_mono f2
    refine ⟨(⟨day * nsPerDay, 0⟩ : Time).year, y1, y2, ?_, hw⟩
    cases hev with
    | uposatha u w hu hsh hwr =>
      obtain ⟨y, hin, hlt⟩ := hsh
      rw [written_iff hin] at hwr
      rw [(inYear_day _ _).1 hin] at y1 y2 ⊢
      subst hwr
      exact (c80_uposatha hs hk (by omega) _).2 ⟨u, hu, hin, hlt, rfl⟩
    | half u hu hsh =>
      obtain ⟨y, hin, hlt⟩ := hsh
      rw [(inYear_day _ _).1 hin] at y1 y2 ⊢
      exact (c72_half_far hs hk (by omega) _).2 ⟨u, hu, hin, hlt, rfl⟩
    | festival u w _ name hu hsh hwr hf =>
      obtain ⟨y, hin, hlt⟩ := hsh
      rw [written_iff hin] at hwr
      subst hwr
      have hyd := feast_years hs hk hu hin hlt hf (by omega) (by omega)
      rw [(inYear_day _ _).1 (feast_year hs hk hu hin hlt (by omega) hyd.2 hf)]
      exact (c80_major hs hk (by omega) _).2 ⟨u, hu, hin, hlt, day, _, hf, rfl⟩

/-- C80: a calendar with the events found between two dates shows the entries of the almanac after the Kattika full moons. -/
theorem c80_ics (cal : Calendar) (stamps : Nat → Stamp) (es : List CalendarEvent)
    (hp : es.Perm (calendarEventsIn cfg ⟨first * nsPerDay, 0⟩ ⟨last * nsPerDay, 0⟩))
    (hord : es.Pairwise (fun d e => d.getDate.nanos ≤ e.getDate.nanos)) (hlen : cal.events.length = es.length)
    (hv : ∀ (i : Nat) (h1 : i < cal.events.length) (h2 : i < es.length), IsVEvent cal.events[i] es[i] (stamps i)) :
    Almanac.ShowsIcsFrom cfg.table kattika first last cal := by
  have hmem : ∀ e, e ∈ es ↔ ∃ day text, EventShown cfg.table kattika e day text ∧ first ≤ day ∧ day ≤ last := by
    intro e
    rw [hp.mem_iff]
    exact events_shown hs hk h1 h2 e
  have hnd : es.Nodup := by
    rw [hp.nodup_iff]
    refine events_nodup (calendar_uposathas_nodup _ _ _) (calendar_halves_nodup _ _ _) (c80_major_once _ _ _) ?_ ?_
    · intro m hm
      obtain ⟨y, -, -, hg, -⟩ := mem_calendarEventsIn.1 hm
      exact (c22_in_year cfg y _ hg).2.1 m rfl
    · intro m hm
      obtain ⟨y, -, -, hg, -⟩ := mem_calendarEventsIn.1 hm
      exact (c22_in_year cfg y _ hg).2.2 m rfl
  obtain ⟨g1, g2, g3⟩ := calendar_entries (E := EventShown cfg.table kattika) (fun _ _ _ h => ⟨h.shows.1, h.shows.2.1⟩)
    (fun _ _ _ _ h h' => eventShown_unique hk h h') cal stamps es hmem hnd hord hlen hv
  refine ⟨?_, ?_, g3⟩
  · intro p hp
    obtain ⟨e, day, text, hw, f1, f2, hev⟩ := g1 p hp
    exact ⟨day, text, hw, f1, f2, hev.shows.2.2⟩
  · intro day text hent f1 f2
    obtain ⟨e, hev⟩ := eventShown_entry hent
    exact g2 e day text hev f1 f2

end

/-! ### The commands -/

section
variable {cfg : Config} (hs : Shipped cfg) {kattika : Int → Int} (hk : Almanac.Kattikas cfg.table kattika) {first last y1 y2 : Int}
  (h1 : Almanac.InYear first y1) (h2 : Almanac.InYear last y2) (hy1 : 640 ≤ y1) {nowFrom nowTo : Int} (flags : Flags)
  (hf : Almanac.Asks flags.fromDate nowFrom 1 1 first) (ht : Almanac.Asks flags.toDate nowTo 12 31 last)
include hs hk h1 h2 hy1 hf ht

/-- C80: caldays on days of the years from 640 to 11148: exit code 0 means that JSON was written that shows the uposathas after the
Kattika full moons, their half moons and feasts. -/
theorem c80_caldays (hy2 : y2 ≤ 11148) (sys : System) (w : World) (r : Run)
    (hr : r = Command.caldays.run cfg (dataFile .bits64) nowFrom nowTo flags sys) (he : r.exit = 0) :
    ∃ str j, readJson str = some j ∧ Almanac.ShowsFrom cfg.table kattika first last j ∧ AstroShow first last j ∧
      (flags.output ≠ "" → (w.after r.effects).files flags.output = some (utf8 str) ∧ (w.after r.effects).stdout = w.stdout) ∧
      (flags.output = "" → (w.after r.effects).files = w.files ∧
        (w.after r.effects).stdout = w.stdout ++ (utf8 (str ++ ['\n'])).take sys.printed) := by
  obtain ⟨str, j, l, hj, hl, hyears, ha, ho1, ho2⟩ := caldays_written flags hf ht sys w r hr he
  have hyear1 : (⟨first * nsPerDay, 0⟩ : Time).year = y1 := (inYear_day _ _).1 h1
  have hyear2 : (⟨last * nsPerDay, 0⟩ : Time).year = y2 := (inYear_day _ _).1 h2
  exact ⟨str, j, hj, c80_text hs hk (by omega) (by omega) embeddedFiles l hl _ hyears, ha, ho1, ho2⟩

/-- C80: ical on days of the years from 640 to 9998: exit code 0 means that an iCalendar object was written that shows the uposathas
after the Kattika full moons, their half moons and feasts. -/
theorem c80_ical (hy2 : y2 ≤ 9998) (stamps : Nat → Stamp) (hst : ∀ i, GoodStamp (stamps i)) (sys : System) (w : World) (r : Run)
    (hr : r = (Command.ical stamps).run cfg (dataFile .bits64) nowFrom nowTo flags sys) (he : r.exit = 0) :
    ∃ str cal, readIcs str = some cal ∧ Almanac.ShowsIcsFrom cfg.table kattika first last cal ∧
      (flags.output ≠ "" → (w.after r.effects).files flags.output = some (utf8 str) ∧ (w.after r.effects).stdout = w.stdout) ∧
      (flags.output = "" → (w.after r.effects).files = w.files ∧
        (w.after r.effects).stdout = w.stdout ++ (utf8 str).take sys.printed) := by
  subst hr
  obtain ⟨str, htext, ho1, ho2⟩ := c66_success (.ical stamps) cfg (dataFile .bits64) nowFrom nowTo flags sys w he
  have hi := asks_range hf ht
  have hyear1 : (⟨first * nsPerDay, 0⟩ : Time).year = y1 := (inYear_day _ _).1 h1
  have hyear2 : (⟨last * nsPerDay, 0⟩ : Time).year = y2 := (inYear_day _ _).1 h2
  have htext : icalText cfg embeddedFiles stamps nowFrom nowTo flags.fromDate flags.toDate = some str := by
    rw [← (c61_data .bits64)]; exact htext
  obtain ⟨l, hl⟩ := Option.ne_none_iff_exists'.1 (c53_never_panics cfg ⟨first * nsPerDay, 0⟩ ⟨last * nsPerDay, 0⟩).2
  obtain ⟨text, cal, es, ht', hcal, -, -, -, -, hp, hord, hlen, hv⟩ :=
    c58_text cfg embeddedFiles stamps hst nowFrom nowTo _ _ _ _ hi (by omega) (by omega) l hl
  rw [htext] at ht'; cases ht'
  refine ⟨str, cal, hcal, c80_ics hs hk (by omega) (by omega) cal stamps es hp hord hlen hv, ho1, ?_⟩
  intro h
  have := ho2 h
  rwa [show (Command.ical stamps).ending = [] from rfl, List.append_nil] at this

end

theorem pavarana5600_shown {kattika : Int → Int} (hk : Almanac.Kattikas Config.default.table kattika) :
    kattika 5600 = 2045018 ∧ Almanac.IsUposatha Config.default.table kattika pavarana5600 ∧ Almanac.Shown kattika pavarana5600 ∧
    Almanac.Written Config.default.table kattika pavarana5600 { pavarana5600 with year := 6144 } := by
  have hK : kattika 5600 = 2045018 := (c72_kattika .default kattika hk 5600 (by decide)).trans (by decide +kernel)
  have k0 : Almanac.kindOf Config.default.table 5600 = .extraDay := by decide +kernel
  have hin : Almanac.InYear pavarana5600.day 5600 :=
    ⟨12, 18, (date_day (y := 5600) (m := 12) (d := 18) (by decide) (by decide) (by decide) (by decide)).1⟩
  have hj : Almanac.InYear (kattika 5600) 5600 :=
    ⟨1, 27, hK ▸ (date_day (y := 5600) (m := 1) (d := 27) (by decide) (by decide) (by decide) (by decide)).1⟩
  refine ⟨hK, ⟨5600, { pavarana5600 with day := 326, year := 0 }, ?_, ?_⟩, ⟨5600, hin, by rw [hK]; decide⟩,
    ⟨5600, hin, .inl ⟨hj, rfl⟩, .inr ⟨?_, rfl⟩, rfl⟩⟩
  · rw [k0]; decide +kernel
  · rw [hK]; rfl
  · rintro ⟨_, -, -, h3, -⟩
    revert h3; decide

/-- No uposatha is shown on the day of the Kattika full moon of 5600. -/
theorem kattika5600_missing {kattika : Int → Int} (hK : kattika 5600 = 2045018) (u : Almanac.Uposatha) (hs : Almanac.Shown kattika u) :
    u.day ≠ 2045018 := by
  rintro hd
  obtain ⟨y, hy, hl⟩ := hs
  have hj : Almanac.InYear 2045018 5600 :=
    ⟨1, 27, (date_day (y := 5600) (m := 1) (d := 27) (by decide) (by decide) (by decide) (by decide)).1⟩
  rw [hd, inYear_day] at hy
  rw [inYear_day] at hj
  rw [← hy, hj] at hl
  omega

/-- C80: caldays without any flag in the year 5600: the JSON printed has Pavāraṇā on 18 December with the lunar year 6144 and no
uposatha on 27 January, the Kattika full moon. -/
example (w : World) (sys : System) : ∃ str j,
    let r := Command.caldays.run .default (dataFile .bits64) 5600 5600 ⟨"", "", ""⟩ sys
    r.exit = 0 ∧ (w.after r.effects).files = w.files ∧ (w.after r.effects).stdout = w.stdout ++ (utf8 (str ++ ['\n'])).take sys.printed ∧
    readJson str = some j ∧
    (∃ x, Almanac.Entry j "MajorEvents" 2045344 x ∧ Almanac.ShowsFestival x 2045344 "Pavāraṇā Day") ∧
    (∃ x, Almanac.Entry j "UposathaMoon" 2045344 x ∧ Almanac.ShowsUposatha x { pavarana5600 with year := 6144 }) ∧
    ∀ x, ¬ Almanac.Entry j "UposathaMoon" 2045018 x := by
  have d1 := (date_day (y := 5600) (m := 1) (d := 1) (by decide) (by decide) (by decide) (by decide)).1
  have d2 := (date_day (y := 5600) (m := 12) (d := 31) (by decide) (by decide) (by decide) (by decide)).1
  rw [show (date 5600 1 1 0 0).day = 2044992 by decide +kernel] at d1
  rw [show (date 5600 12 31 0 0).day = 2045357 by decide +kernel] at d2
  obtain ⟨kattika, hk, -⟩ := c72_exists_unique Config.default.table
  have hexit := c72_caldays_ends (cfg := .default) ⟨_, _, d1⟩ ⟨_, _, d2⟩ (by decide) (by decide) (nowFrom := 5600) (nowTo := 5600) ⟨"", "", ""⟩
    (.inl ⟨rfl, d1⟩) (.inl ⟨rfl, d2⟩) sys (by simp)
  obtain ⟨str, j, g1, g2, -, -, g4⟩ := c80_caldays (Or.inl rfl) hk ⟨_, _, d1⟩ ⟨_, _, d2⟩ (by decide) (nowFrom := 5600)
    (nowTo := 5600) ⟨"", "", ""⟩ (.inl ⟨rfl, d1⟩) (.inl ⟨rfl, d2⟩) (by decide) sys w _ rfl hexit
  obtain ⟨hK, hu, hsh, hwr⟩ := pavarana5600_shown hk
  refine ⟨str, j, hexit, (g4 rfl).1, (g4 rfl).2, g1, ?_, ?_, ?_⟩
  · exact g2.festivalAll _ _ 2045344 _ hu hsh hwr (.inr (.inr (.inr (.inr (.inl ⟨rfl, rfl, rfl⟩))))) (by decide) (by decide)
  · exact g2.uposathaAll _ _ hu hsh hwr (by decide) (by decide)
  · intro x hx
    obtain ⟨-, -, u, -, -, hs, hd, -⟩ := g2.uposathaOnly _ _ hx
    exact kattika5600_missing hK u hs hd

/-- C80: caldays without any flag in the year 1289: the JSON printed has Māgha Pūjā on 15 January too, where the almanac has none. -/
example (w : World) (sys : System) : ∃ str j,
    let r := Command.caldays.run .default (dataFile .bits64) 1289 1289 ⟨"", "", ""⟩ sys
    r.exit = 0 ∧ (w.after r.effects).files = w.files ∧ (w.after r.effects).stdout = w.stdout ++ (utf8 (str ++ ['\n'])).take sys.printed ∧
    readJson str = some j ∧
    (∃ x, Almanac.Entry j "MajorEvents" 470447 x ∧ Almanac.ShowsFestival x 470447 "Māgha Pūjā") ∧
    (∃ x, Almanac.Entry j "MajorEvents" 470476 x ∧ Almanac.ShowsFestival x 470476 "Māgha Pūjā") ∧
    ∃ kattika, Almanac.Kattikas Config.default.table kattika ∧ ¬ Almanac.IsFestival Config.default.table kattika 470447 "Māgha Pūjā" := by
  have d1 := (date_day (y := 1289) (m := 1) (d := 1) (by decide) (by decide) (by decide) (by decide)).1
  have d2 := (date_day (y := 1289) (m := 12) (d := 31) (by decide) (by decide) (by decide) (by decide)).1
  rw [show (date 1289 1 1 0 0).day = 470433 by decide +kernel] at d1
  rw [show (date 1289 12 31 0 0).day = 470797 by decide +kernel] at d2
  obtain ⟨kattika, hk, -⟩ := c72_exists_unique Config.default.table
  have hexit := c72_caldays_ends (cfg := .default) ⟨_, _, d1⟩ ⟨_, _, d2⟩ (by decide) (by decide) (nowFrom := 1289) (nowTo := 1289) ⟨"", "", ""⟩
    (.inl ⟨rfl, d1⟩) (.inl ⟨rfl, d2⟩) sys (by simp)
  obtain ⟨str, j, g1, g2, -, -, g4⟩ := c80_caldays (Or.inl rfl) hk ⟨_, _, d1⟩ ⟨_, _, d2⟩ (by decide) (nowFrom := 1289)
    (nowTo := 1289) ⟨"", "", ""⟩ (.inl ⟨rfl, d1⟩) (.inl ⟨rfl, d2⟩) (by decide) sys w _ rfl hexit
  obtain ⟨hK, i3, i4, u3, u4, w3, w4⟩ := magha1289 hk
  refine ⟨str, j, hexit, (g4 rfl).1, (g4 rfl).2, g1, ?_, ?_, kattika, hk, ?_⟩
  · exact g2.festivalAll _ _ 470447 _ u3 ⟨1289, i3, by rw [hK]; decide⟩ w3 (.inl ⟨rfl, rfl, rfl⟩) (by decide) (by decide)
  · exact g2.festivalAll _ _ 470476 _ u4 ⟨1289, i4, by rw [hK]; decide⟩ w4 (.inl ⟨rfl, rfl, rfl⟩) (by decide) (by decide)
  · intro hf
    obtain ⟨v, hv, hf⟩ := (Almanac.isFestival_iff _ _ _ _).1 hf
    rcases hf with hf | hf | hf | hf | hf | hf
    · have := c72_unique hk v third1289 hv u3 hf.2.1.symm
      rw [this] at hf
      exact absurd hf.1 (by decide)
    all_goals exact absurd hf.2.2 (by decide)

/-- C80: ical without any flag in the year 5600: the calendar printed has Pavāraṇā on 18 December and no uposatha on 27 January. -/
example (w : World) (sys : System) : ∃ str cal,
    let r := (Command.ical demoStamps).run .default (dataFile .bits64) 5600 5600 ⟨"", "", ""⟩ sys
    r.exit = 0 ∧ (w.after r.effects).stdout = w.stdout ++ (utf8 str).take sys.printed ∧ readIcs str = some cal ∧
    (∃ p ∈ cal.events, Almanac.WholeDay p 2045344 "Pavāraṇā Day") ∧
    (∃ p ∈ cal.events, Almanac.WholeDay p 2045344 "Full Moon - 15 day Vassāna 6/8") ∧
    ∀ p ∈ cal.events, ∀ u : Almanac.Uposatha, ¬ Almanac.WholeDay p 2045018 (Almanac.uposathaText u) := by
  have d1 := (date_day (y := 5600) (m := 1) (d := 1) (by decide) (by decide) (by decide) (by decide)).1
  have d2 := (date_day (y := 5600) (m := 12) (d := 31) (by decide) (by decide) (by decide) (by decide)).1
  rw [show (date 5600 1 1 0 0).day = 2044992 by decide +kernel] at d1
  rw [show (date 5600 12 31 0 0).day = 2045357 by decide +kernel] at d2
  obtain ⟨kattika, hk, -⟩ := c72_exists_unique Config.default.table
  have hexit := c72_ical_ends (cfg := .default) (nowFrom := 5600) (nowTo := 5600) demoStamps ⟨"", "", ""⟩
    (.inl ⟨rfl, d1⟩) (.inl ⟨rfl, d2⟩) sys (by simp)
  obtain ⟨str, cal, g1, g2, -, g4⟩ := c80_ical (Or.inl rfl) hk ⟨_, _, d1⟩ ⟨_, _, d2⟩ (by decide) (nowFrom := 5600)
    (nowTo := 5600) ⟨"", "", ""⟩ (.inl ⟨rfl, d1⟩) (.inl ⟨rfl, d2⟩) (by decide) demoStamps demoStamps_good sys w _ rfl hexit
  obtain ⟨hK, hu, hsh, hwr⟩ := pavarana5600_shown hk
  refine ⟨str, cal, hexit, (g4 rfl).2, g1, ?_, ?_, ?_⟩
  · exact g2.all 2045344 _ ⟨_, hu, .inr (.inr ⟨hsh, _, hwr, .inr (.inr (.inr (.inr (.inl ⟨rfl, rfl, rfl⟩))))⟩)⟩ (by decide) (by decide)
  · exact g2.all 2045344 _ ⟨_, hu, .inl ⟨hsh, rfl, by decide +kernel⟩⟩ (by decide) (by decide)
  · intro p hp u hw
    obtain ⟨day, text, hw', -, -, v, hv, hc⟩ := g2.only p hp
    obtain ⟨rfl, rfl⟩ := wholeDay_unique hw hw'
    have b := begins_uposatha u
    rcases hc with ⟨hs, hd, -⟩ | ⟨-, -, ht⟩ | ⟨-, w, -, hf⟩
    · exact kattika5600_missing hK v hs hd.symm
    · rw [ht] at b
      exact absurd rfl (begins_apart _ b _ (begins_half v) "Last".toList (by decide)).1
    · have b2 := begins_feast hf
      exact absurd rfl (begins_apart _ b "Wani".toList (by decide) _ b2).2.1

end Verif.Props
