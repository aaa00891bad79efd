import Verif.Props.CalDays
import Verif.Model.Cli
import Mathlib.Data.List.Flatten
import Mathlib.Data.List.Perm.Basic
/-
C36: the components of the icalendar.
-/
set_option autoImplicit false

namespace Verif.Props
open Verif.Go Verif.Model Verif.Spec Verif.Lemmas

/-- Every generated event starts at a midnight in UTC. -/
theorem generate_midnight {cfg : Config} {y : Int} {e : CalendarEvent} (h : e ∈ generateSolarYear cfg y) :
    e.getDate = ⟨e.getDate.day * nsPerDay, 0⟩ := by
  have ha : ∀ k n, (chain cfg y k).Date.addDays n = ⟨((chain cfg y k).Date.addDays n).day * nsPerDay, 0⟩ := by
    intro k n
    rw [addDays_eq, day_add]
    conv => lhs; rw [chain_midnight]
    unfold Time.add
    simp only [Time.mk.injEq, and_true]
    rw [Int.add_mul]
  cases e with
  | uposatha u =>
    obtain ⟨k, -, h1, -⟩ := (c22_uposatha_iff _ _ _).1 h
    rw [moon_eq] at h1; rw [h1]; exact chain_midnight cfg y k
  | half m =>
    obtain ⟨k, -, h1, -⟩ := (c23_half_iff _ _ _).1 h
    rw [moon_eq] at h1
    have e : (CalendarEvent.half m).getDate = (chain cfg y k).Date.addDays 8 := h1
    rw [e]; exact ha k 8
  | major e =>
    obtain ⟨k, -, -, p, -, h1⟩ := (c22_major_iff _ _ _).1 h
    rw [moon_eq] at h1
    rw [h1]; exact ha k p.2
  | astro m => exact absurd rfl ((c22_in_year cfg y _ h).2.1 m)
  | event m => exact absurd rfl ((c22_in_year cfg y _ h).2.2 m)

theorem uposathas_nodup (cfg : Config) (y : Int) : (uposathasOf (generateSolarYear cfg y)).Nodup := by
  obtain ⟨n, -, h2, -⟩ := generate_spec cfg y
  rw [h2, uposathas_emitted]
  refine List.Nodup.map_on ?_ (List.nodup_range.filter _)
  intro i _ j _ hij
  have e : (chain cfg y (0 + i + 1)).Date.day = (chain cfg y (0 + j + 1)).Date.day :=
    by have := congrArg (fun u : UposathaMoon => u.Date.day) hij; exact this
  rcases Nat.le_total i j with h | h
  · have := chain_day_mono cfg y (show 0 + i + 1 ≤ 0 + j + 1 by omega); omega
  · have := chain_day_mono cfg y (show 0 + j + 1 ≤ 0 + i + 1 by omega); omega

theorem halves_nodup (cfg : Config) (y : Int) : (halvesOf (generateSolarYear cfg y)).Nodup := by
  obtain ⟨n, -, h2, -⟩ := generate_spec cfg y
  rw [h2, halves_emitted]
  refine List.Nodup.map_on ?_ (List.nodup_range.filter _)
  intro i _ j _ hij
  have e : ((chain cfg y (0 + i + 1)).Date.addDays 8).day = ((chain cfg y (0 + j + 1)).Date.addDays 8).day :=
    congrArg (fun u : HalfMoon => u.Date.day) hij
  rw [addDays_eq, addDays_eq, day_add, day_add] at e
  rcases Nat.le_total i j with h | h
  · have := chain_day_mono cfg y (show 0 + i + 1 ≤ 0 + j + 1 by omega); omega
  · have := chain_day_mono cfg y (show 0 + j + 1 ≤ 0 + i + 1 by omega); omega

theorem mem_uposathasOf {es : List CalendarEvent} {u : UposathaMoon} : u ∈ uposathasOf es ↔ .uposatha u ∈ es := by
  unfold uposathasOf
  rw [List.mem_filterMap]
  constructor
  · rintro ⟨e, he, hw⟩
    cases e <;> simp at hw
    subst hw; exact he
  · intro hw; exact ⟨_, hw, rfl⟩

theorem mem_halvesOf {es : List CalendarEvent} {u : HalfMoon} : u ∈ halvesOf es ↔ .half u ∈ es := by
  unfold halvesOf
  rw [List.mem_filterMap]
  constructor
  · rintro ⟨e, he, hw⟩
    cases e <;> simp at hw
    subst hw; exact he
  · intro hw; exact ⟨_, hw, rfl⟩

theorem yearsFrom_nodup (a b : Int) : (yearsFrom a b).Nodup := by
  unfold yearsFrom
  refine List.Nodup.map_on ?_ List.nodup_range
  intro i _ j _ h; omega

theorem calendar_uposathas_nodup (cfg : Config) (fromDate toDate : Time) :
    (uposathasOf (calendarEventsIn cfg fromDate toDate)).Nodup := by
  have e : uposathasOf (calendarEventsIn cfg fromDate toDate) = (yearsFrom fromDate.year toDate.year).flatMap fun y =>
      uposathasOf ((generateSolarYear cfg y).filter fun e => decide (Within fromDate toDate e.getDate)) := by
    unfold calendarEventsIn uposathasOf; rw [List.filterMap_flatMap]
  rw [e, List.nodup_flatMap]
  refine ⟨?_, ?_⟩
  · intro y _
    refine (uposathas_nodup cfg y).sublist ?_
    unfold uposathasOf; exact List.Sublist.filterMap _ List.filter_sublist
  · refine (yearsFrom_nodup _ _).imp ?_
    intro y y' hne u hu hu'
    rw [mem_uposathasOf, List.mem_filter] at hu hu'
    obtain ⟨_, _, _, h1⟩ := (c22_uposatha_iff _ _ _).1 hu.1
    obtain ⟨_, _, _, h2⟩ := (c22_uposatha_iff _ _ _).1 hu'.1
    omega

theorem calendar_halves_nodup (cfg : Config) (fromDate toDate : Time) :
    (halvesOf (calendarEventsIn cfg fromDate toDate)).Nodup := by
  have e : halvesOf (calendarEventsIn cfg fromDate toDate) = (yearsFrom fromDate.year toDate.year).flatMap fun y =>
      halvesOf ((generateSolarYear cfg y).filter fun e => decide (Within fromDate toDate e.getDate)) := by
    unfold calendarEventsIn halvesOf; rw [List.filterMap_flatMap]
  rw [e, List.nodup_flatMap]
  refine ⟨?_, ?_⟩
  · intro y _
    refine (halves_nodup cfg y).sublist ?_
    unfold halvesOf; exact List.Sublist.filterMap _ List.filter_sublist
  · refine (yearsFrom_nodup _ _).imp ?_
    intro y y' hne u hu hu'
    rw [mem_halvesOf, List.mem_filter] at hu hu'
    obtain ⟨_, _, _, h1, _⟩ := (c23_half_iff _ _ _).1 hu.1
    obtain ⟨_, _, _, h2, _⟩ := (c23_half_iff _ _ _).1 hu'.1
    omega

theorem getLast_toList_of_unique {α : Type} {l : List α} (hn : l.Nodup) (h : ∀ a ∈ l, ∀ b ∈ l, a = b) :
    l.getLast?.toList = l := by
  match l with
  | [] => rfl
  | [a] => rfl
  | a :: b :: l =>
    have := h a (by simp) b (by simp)
    subst this
    simp at hn

/-- Splitting a list by a key gives a permutation of it. -/
theorem flatMap_groups {α : Type} (f : α → Int) : ∀ (ks : List Int) (l : List α), ks.Nodup → (∀ x ∈ l, f x ∈ ks) →
    (ks.flatMap fun k => l.filter fun x => decide (f x = k)).Perm l := by
  intro ks
  induction ks with
  | nil =>
    intro l _ h
    cases l with
    | nil => exact List.Perm.refl _
    | cons x l => exact absurd (h x (by simp)) (by simp)
  | cons k ks ih =>
    intro l hn h
    rw [List.nodup_cons] at hn
    rw [List.flatMap_cons]
    have h1 := ih (l.filter fun x => !decide (f x = k)) hn.2 (by
      intro x hx
      rw [List.mem_filter] at hx
      have := h x hx.1
      simp only [Bool.not_eq_true', decide_eq_false_iff_not] at hx
      rw [List.mem_cons] at this
      exact this.resolve_left hx.2)
    have e : (ks.flatMap fun k' => l.filter fun x => decide (f x = k')) =
        ks.flatMap fun k' => (l.filter fun x => !decide (f x = k)).filter fun x => decide (f x = k') := by
      apply List.flatMap_congr
      intro k' hk'
      rw [List.filter_filter]
      apply List.filter_congr
      intro x _
      rw [Bool.eq_iff_iff]
      simp only [decide_eq_true_eq, Bool.and_eq_true, Bool.not_eq_true', decide_eq_false_iff_not]
      constructor
      · intro h1; refine ⟨h1, fun h2 => ?_⟩
        rw [h1] at h2; subst h2; exact hn.1 hk'
      · exact fun h => h.1
    rw [e]
    exact (List.Perm.append_left _ h1).trans (List.filter_append_perm (fun x => decide (f x = k)) l)

/-- Splitting a list of events by kind gives a permutation of it. -/
theorem kinds_perm (es : List CalendarEvent) :
    ((astrosOf es).map CalendarEvent.astro ++ ((uposathasOf es).map CalendarEvent.uposatha ++
      (halvesOf es).map CalendarEvent.half ++ (majorsOf es).map CalendarEvent.major ++
      (plainOf es).map CalendarEvent.event)).Perm es := by
  induction es with
  | nil => exact List.Perm.refl _
  | cons e es ih =>
    refine List.Perm.trans ?_ (ih.cons e)
    rw [← List.append_assoc, ← List.append_assoc, ← List.append_assoc]
    rw [← List.append_assoc, ← List.append_assoc, ← List.append_assoc]
    cases e
    · exact (List.perm_middle.append_right _).append_right _ |>.append_right _
    · exact (List.perm_middle.append_right _).append_right _
    · exact List.Perm.refl _
    · exact List.perm_middle.append_right _
    · exact List.perm_middle

theorem icalOfDay_eq {c : CalDay} (h1 : c.UposathaMoon.length ≤ 1) (h2 : c.HalfMoon.length ≤ 1) :
    icalOfDay c = (icalDayEvents c).map icalEvent := by
  obtain ⟨d, us, hs, as, ms, es⟩ := c
  simp only at h1 h2
  rcases us with _ | ⟨u, _ | ⟨u', us⟩⟩ <;> rcases hs with _ | ⟨m, _ | ⟨m', hs⟩⟩
  all_goals first
    | (simp at h1; done)
    | (simp at h2; done)
    | (simp only [icalOfDay, icalDayEvents, List.map_append, List.map_map, List.map_cons, List.map_nil]; rfl)

theorem icalComponents_eq (l : List CalDay) : icalComponents l = l.flatMap icalOfDay := by
  have : ∀ (l : List CalDay) (acc : List VEvent),
      l.foldl (fun components day => components ++ icalOfDay day) acc = acc ++ l.flatMap icalOfDay := by
    intro l
    induction l with
    | nil => intro acc; simp
    | cons c l ih => intro acc; rw [List.foldl_cons, ih, List.flatMap_cons, List.append_assoc]
  unfold icalComponents
  rw [this]; rfl

/-- C36: the components are, day by day, the uposatha, the half moon, the major events and the plain events of the day;
the astronomical moon is left out. -/
theorem c36_order (cfg : Config) (files : Int → AstroFile) (fromDate toDate : Time) (l : List CalDay)
    (h : getCalDays cfg files fromDate toDate = some l) :
    icalComponents l = (l.flatMap fun c => c.UposathaMoon.map CalendarEvent.uposatha ++ c.HalfMoon.map .half ++
      c.MajorEvents.map .major ++ c.Events.map .event).map icalEvent := by
  rw [icalComponents_eq, List.map_flatMap]
  apply List.flatMap_congr
  intro c hc
  have := c28_at_most_one _ _ _ _ _ h c hc
  exact icalOfDay_eq this.1 this.2.1

/-- C36: the components of the days of C26, without the astronomical moons. -/
example : (icalComponents asalhaDays).map (·.SUMMARY) =
    ["Waxing Moon", "Full Moon - 15 day Gimha 10/10", "Āsāḷha Pūjā", "First day of Vassa", "Waning Moon"] := by decide +kernel

/-- The events put into the icalendar for a day are the calendar events of that day. -/
theorem icalDay_perm {cfg : Config} {files : Int → AstroFile} {fromDate toDate : Time} {l : List CalDay}
    (h : getCalDays cfg files fromDate toDate = some l) {c : CalDay} (hc : c ∈ l) :
    (icalDayEvents c).Perm (onDay (dayStart c.Date) (calendarEventsIn cfg fromDate toDate)) := by
  obtain ⟨moons, -, hh, -, -⟩ := c27_content _ _ _ _ _ h
  have hH := hh c hc
  have hd : onDay (dayStart c.Date) (moons.map CalendarEvent.astro ++ calendarEventsIn cfg fromDate toDate) =
      onDay (dayStart c.Date) (moons.map CalendarEvent.astro) ++
        onDay (dayStart c.Date) (calendarEventsIn cfg fromDate toDate) := by
    unfold onDay; rw [List.filter_append]
  rw [hd] at hH
  have hA : ∀ e ∈ onDay (dayStart c.Date) (moons.map CalendarEvent.astro), ∃ m, e = .astro m := by
    intro e he
    unfold onDay at he
    obtain ⟨m, -, rfl⟩ := List.mem_map.1 (List.mem_filter.1 he).1
    exact ⟨m, rfl⟩
  have hE : ∀ e ∈ onDay (dayStart c.Date) (calendarEventsIn cfg fromDate toDate),
      e ∈ calendarEventsIn cfg fromDate toDate ∧ dayStart e.getDate = dayStart c.Date := by
    intro e he
    unfold onDay at he
    exact ⟨(List.mem_filter.1 he).1, of_decide_eq_true (List.mem_filter.1 he).2⟩
  have hsub : (onDay (dayStart c.Date) (calendarEventsIn cfg fromDate toDate)).Sublist
      (calendarEventsIn cfg fromDate toDate) := List.filter_sublist
  generalize onDay (dayStart c.Date) (moons.map CalendarEvent.astro) = A at *
  generalize onDay (dayStart c.Date) (calendarEventsIn cfg fromDate toDate) = E at *
  have n1 : uposathasOf A = [] := by
    unfold uposathasOf; rw [List.filterMap_eq_nil_iff]
    intro e he; obtain ⟨m, rfl⟩ := hA e he; rfl
  have n2 : halvesOf A = [] := by
    unfold halvesOf; rw [List.filterMap_eq_nil_iff]
    intro e he; obtain ⟨m, rfl⟩ := hA e he; rfl
  have n3 : majorsOf A = [] := by
    unfold majorsOf; rw [List.filterMap_eq_nil_iff]
    intro e he; obtain ⟨m, rfl⟩ := hA e he; rfl
  have n4 : plainOf A = [] := by
    unfold plainOf; rw [List.filterMap_eq_nil_iff]
    intro e he; obtain ⟨m, rfl⟩ := hA e he; rfl
  have n5 : astrosOf E = [] := by
    unfold astrosOf; rw [List.filterMap_eq_nil_iff]
    intro e he
    obtain ⟨y, -, -, hg, -⟩ := mem_calendarEventsIn.1 (hE e he).1
    have := (c22_in_year cfg y e hg).2.1
    cases e with
    | astro m => exact absurd rfl (this m)
    | _ => rfl
  have e1 : uposathasOf (A ++ E) = uposathasOf E := by
    unfold uposathasOf at *; rw [List.filterMap_append, n1]; rfl
  have e2 : halvesOf (A ++ E) = halvesOf E := by
    unfold halvesOf at *; rw [List.filterMap_append, n2]; rfl
  have e3 : majorsOf (A ++ E) = majorsOf E := by
    unfold majorsOf at *; rw [List.filterMap_append, n3]; rfl
  have e4 : plainOf (A ++ E) = plainOf E := by
    unfold plainOf at *; rw [List.filterMap_append, n4]; rfl
  have u1 : (uposathasOf E).getLast?.toList = uposathasOf E := by
    apply getLast_toList_of_unique
    · refine (calendar_uposathas_nodup cfg fromDate toDate).sublist ?_
      unfold uposathasOf; exact hsub.filterMap _
    · intro a ha b hb
      have ha' := hE _ (mem_uposathasOf.1 ha)
      have hb' := hE _ (mem_uposathasOf.1 hb)
      obtain ⟨y, -, -, hg, -⟩ := mem_calendarEventsIn.1 ha'.1
      obtain ⟨y', -, -, hg', -⟩ := mem_calendarEventsIn.1 hb'.1
      exact uposatha_same_day hg hg' ((key_day (generate_utc hg) (generate_utc hg')).1 (ha'.2.trans hb'.2.symm))
  have u2 : (halvesOf E).getLast?.toList = halvesOf E := by
    apply getLast_toList_of_unique
    · refine (calendar_halves_nodup cfg fromDate toDate).sublist ?_
      unfold halvesOf; exact hsub.filterMap _
    · intro a ha b hb
      have ha' := hE _ (mem_halvesOf.1 ha)
      have hb' := hE _ (mem_halvesOf.1 hb)
      obtain ⟨y, -, -, hg, -⟩ := mem_calendarEventsIn.1 ha'.1
      obtain ⟨y', -, -, hg', -⟩ := mem_calendarEventsIn.1 hb'.1
      exact half_same_day hg hg' ((key_day (generate_utc hg) (generate_utc hg')).1 (ha'.2.trans hb'.2.symm))
  unfold icalDayEvents
  rw [hH.uposatha, hH.half, hH.majors, hH.plain, e1, e2, e3, e4, u1, u2]
  have := kinds_perm E
  rw [n5] at this
  exact this

/-- The events of the days are a rearrangement of the calendar events of the range. -/
theorem ical_perm {cfg : Config} {files : Int → AstroFile} {fromDate toDate : Time} {l : List CalDay}
    (h : getCalDays cfg files fromDate toDate = some l) :
    (l.flatMap icalDayEvents).Perm (calendarEventsIn cfg fromDate toDate) := by
  obtain ⟨moons, -, -, hcov, -⟩ := c27_content _ _ _ _ _ h
  have hs := c26_sorted _ _ _ _ _ h
  have hn : (l.map keyOf).Nodup := by
    rw [List.Nodup, List.pairwise_map]
    refine hs.1.imp_of_mem ?_
    intro a b ha hb hab he
    have := (key_day (hs.2 a ha) (hs.2 b hb)).1 he
    omega
  have hg := flatMap_groups (fun e : CalendarEvent => dayStart e.getDate) (l.map keyOf)
    (calendarEventsIn cfg fromDate toDate) hn (by
      intro e he
      obtain ⟨c, hc, hd⟩ := hcov e (List.mem_append_right _ he)
      obtain ⟨y, -, -, hy, -⟩ := mem_calendarEventsIn.1 he
      rw [List.mem_map]
      exact ⟨c, hc, (key_day (hs.2 c hc) (generate_utc hy)).2 hd⟩)
  rw [List.flatMap_map] at hg
  refine List.Perm.trans ?_ hg
  refine List.Perm.flatMap_left _ ?_
  intro c hc
  exact icalDay_perm h hc

/-- C36: the components are a rearrangement of the calendar events of the range: each event once, nothing else. -/
theorem c36_each_once (cfg : Config) (files : Int → AstroFile) (fromDate toDate : Time) (l : List CalDay)
    (h : getCalDays cfg files fromDate toDate = some l) :
    (icalComponents l).Perm ((calendarEventsIn cfg fromDate toDate).map icalEvent) := by
  rw [c36_order _ _ _ _ _ h]
  apply List.Perm.map
  exact ical_perm h

/-- C36: the events they come from. -/
example : (icalComponents asalhaDays).Perm ((calendarEventsIn .default (date 2015 7 22 0 0) (date 2015 8 9 0 0)).map icalEvent) :=
  c36_each_once _ _ _ _ _ asalha_days

/-- C36: every component is an all-day event in UTC, from a midnight of the range to the next midnight. -/
theorem c36_fields (cfg : Config) (files : Int → AstroFile) (fromDate toDate : Time) (l : List CalDay)
    (h : getCalDays cfg files fromDate toDate = some l) (v : VEvent) (hv : v ∈ icalComponents l) :
    v.AllDay = true ∧ v.TZID = "UTC" ∧ v.DTSTART = ⟨v.DTSTART.day * nsPerDay, 0⟩ ∧
    v.DTEND = ⟨(v.DTSTART.day + 1) * nsPerDay, 0⟩ ∧ Within fromDate toDate v.DTSTART := by
  rw [(c36_each_once _ _ _ _ _ h).mem_iff, List.mem_map] at hv
  obtain ⟨e, he, rfl⟩ := hv
  obtain ⟨y, -, -, hy, hw⟩ := mem_calendarEventsIn.1 he
  have hm := generate_midnight hy
  refine ⟨rfl, ?_, hm, ?_, hw⟩
  · show locationName e.getDate = "UTC"
    unfold locationName; rw [if_pos (generate_utc hy)]
  · show e.getDate.add (24 * 3600 * nsPerSec) = ⟨(e.getDate.day + 1) * nsPerDay, 0⟩
    generalize e.getDate.day = d at *
    rw [hm]
    unfold Time.add
    simp only [Time.mk.injEq, and_true]
    unfold nsPerDay nsPerSec
    omega

/-- C36: all are days of UTC. -/
example : ∀ v ∈ icalComponents asalhaDays, v.AllDay = true ∧ v.TZID = "UTC" := fun v hv =>
  ⟨(c36_fields _ _ _ _ _ asalha_days v hv).1, (c36_fields _ _ _ _ _ asalha_days v hv).2.1⟩

/-- C36: the components are in order of their start. -/
theorem c36_sorted (cfg : Config) (files : Int → AstroFile) (fromDate toDate : Time) (l : List CalDay)
    (h : getCalDays cfg files fromDate toDate = some l) :
    (icalComponents l).Pairwise (fun a b => a.DTSTART.nanos ≤ b.DTSTART.nanos) := by
  rw [c36_order _ _ _ _ _ h, List.pairwise_map, List.pairwise_flatMap]
  have hs := c26_sorted _ _ _ _ _ h
  have key : ∀ c ∈ l, ∀ e ∈ icalDayEvents c, e.getDate.nanos = c.Date.day * nsPerDay := by
    intro c hc e he
    have := (icalDay_perm h hc).mem_iff.1 he
    unfold onDay at this
    rw [List.mem_filter] at this
    obtain ⟨y, -, -, hy, -⟩ := mem_calendarEventsIn.1 this.1
    have hd := (key_day (generate_utc hy) (hs.2 c hc)).1 (of_decide_eq_true this.2)
    rw [generate_midnight hy]
    show e.getDate.day * nsPerDay = _
    rw [hd]
  refine ⟨?_, ?_⟩
  · intro c hc
    rw [List.pairwise_iff_forall_sublist]
    intro a b hab
    have ha := key c hc a (hab.subset (by simp))
    have hb := key c hc b (hab.subset (by simp))
    show a.getDate.nanos ≤ b.getDate.nanos
    omega
  · refine hs.1.imp_of_mem ?_
    intro c c' hc hc' hcc a ha b hb
    have ha := key c hc a ha
    have hb := key c' hc' b hb
    show a.getDate.nanos ≤ b.getDate.nanos
    have := hcc.2
    unfold nsPerDay at *
    omega

/-- C36: in order of their days. -/
example : (icalComponents asalhaDays).Pairwise (fun a b => a.DTSTART.nanos ≤ b.DTSTART.nanos) := c36_sorted _ _ _ _ _ asalha_days

end Verif.Props
