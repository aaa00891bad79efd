import Verif.Props.Cli
import Verif.Props.Panic
/-
C49: the text of a calendar day.
-/
set_option autoImplicit false

namespace Verif.Props
open Verif.Go Verif.Model Verif.Spec Verif.Lemmas

/-- C49: the text of an astronomical moon names its phase. -/
theorem c49_astro_text (files : Int → AstroFile) (fromDate toDate : Time) (ms : List AstroMoon)
    (h : getAstroMoons files fromDate toDate = some ms) (m : AstroMoon) (hm : m ∈ ms) :
    (m.Phase, m.string) ∈ [("new", "New Moon"), ("waxing", "Waxing Moon"), ("full", "Full Moon"), ("waning", "Waning Moon")] := by
  obtain ⟨-, -, hp, -⟩ := c31_range _ _ _ _ h m hm
  unfold AstroMoon.string
  generalize m.Phase = p at *
  simp only [List.mem_cons, List.not_mem_nil, or_false] at hp
  rcases hp with rfl | rfl | rfl | rfl <;> decide +kernel

/-- C49: the texts of the moons on the days of C26. -/
example : (getAstroMoons asalhaFiles (date 2015 7 22 0 0) (date 2015 8 9 0 0)).map (fun ms => ms.map AstroMoon.string) =
    some ["Waxing Moon", "Full Moon", "Waning Moon"] := by decide +kernel

theorem astro_no_comma : ∀ q ∈ [("new", "New Moon"), ("waxing", "Waxing Moon"), ("full", "Full Moon"),
    ("waning", "Waning Moon")], ',' ∉ q.2.toList ∧ q.2 ≠ "" := by decide +kernel

theorem no_comma_uposatha (cfg : Config) (y : Int) (ho : Orderly cfg y) (u : UposathaMoon)
    (hu : .uposatha u ∈ generateSolarYear cfg y) : ',' ∉ u.string.toList ∧ u.string ≠ "" := by
  obtain ⟨p, hp, d, hd, s, hs, t, ht, n, hn, -, -, -, e⟩ := c44_uposatha_text_orderly cfg y ho u hu
  rw [e]
  have key : ∀ l : List String, (∀ s ∈ l, ',' ∉ s.toList) → ∀ s ∈ l, ',' ∉ s.toList := fun _ h => h
  have a := key ["New", "Full"] (by decide +kernel) p hp
  have b := key ["14", "15"] (by decide +kernel) d hd
  have c := key ["Hemanta", "Gimha", "Vassāna"] (by decide +kernel) s hs
  have f := key ["8", "10"] (by decide +kernel) t ht
  have g := key ["1", "2", "3", "4", "5", "6", "7", "8", "9", "10"] (by decide +kernel) n hn
  constructor
  · simp only [String.toList_append, List.mem_append, not_or]
    refine ⟨⟨⟨⟨⟨⟨⟨⟨a, ?_⟩, b⟩, ?_⟩, c⟩, ?_⟩, g⟩, ?_⟩, f⟩ <;> decide +kernel
  · intro hc
    have := congrArg (fun s => s.toList.length) hc
    simp only [String.toList_append, List.length_append] at this
    have e1 : " Moon - ".toList.length = 8 := by decide +kernel
    have e2 : "".toList.length = 0 := by decide +kernel
    omega

theorem no_astro (cfg : Config) (y : Int) (m : AstroMoon) : .astro m ∉ generateSolarYear cfg y := by
  rw [mem_generate]
  rintro ⟨k, h⟩
  have hm : CalendarEvent.astro m ∉ majorEventsOf (confirmed (chain cfg y (k + 1))) := by
    rw [majorEventsOf_pujas]; rintro ⟨p, -, h⟩; cases h
  unfold iterationEvents at h
  simp only [List.mem_append] at h
  rcases h with (h | h) | h <;> split at h <;> simp_all

theorem event_kind {α : Type} {f : CalendarEvent → Option α} {es : List CalendarEvent} {x : α}
    (h : x ∈ (es.filterMap f).getLast?.toList) : ∃ e ∈ es, f e = some x := by
  rw [Option.mem_toList] at h
  exact List.mem_filterMap.1 (List.mem_of_getLast? h)

/-- C49: the text of a day is the texts of its uposatha, astronomical moon and half moon, in this order, joined by commas;
a missing moon gives an empty text and a present one does not. So the text has exactly two commas. In orderly
years. -/
theorem c49_day_text_orderly (cfg : Config) (files : Int → AstroFile) (fromDate toDate : Time)
    (ho : ∀ y, fromDate.year ≤ y → y ≤ toDate.year → Orderly cfg y) (l : List CalDay)
    (h : getCalDays cfg files fromDate toDate = some l)
    (c : CalDay) (hc : c ∈ l) : ∃ u a m : String, c.string = u ++ ", " ++ a ++ ", " ++ m ∧
      (u = "" ↔ c.UposathaMoon = []) ∧ (a = "" ↔ c.AstroMoon = []) ∧ (m = "" ↔ c.HalfMoon = []) ∧
      (∀ x ∈ c.UposathaMoon, u = x.string) ∧ (∀ x ∈ c.AstroMoon, a = x.string) ∧ (∀ x ∈ c.HalfMoon, m = x.string) ∧
      c.string.toList.count ',' = 2 := by
  obtain ⟨moons, hm, hh, -, -⟩ := c27_content _ _ _ _ _ h
  have hd := hh c hc
  have e : c.string = c.getUposathaMoon.string ++ ", " ++ c.getAstroMoon.string ++ ", " ++ c.getHalfMoon.string := by
    rfl
  have kinds : ∀ ev ∈ onDay (dayStart c.Date) (moons.map CalendarEvent.astro ++ calendarEventsIn cfg fromDate toDate),
      (∃ m ∈ moons, ev = .astro m) ∨ ∃ y, fromDate.year ≤ y ∧ y ≤ toDate.year ∧ ev ∈ generateSolarYear cfg y := by
    intro ev hev
    have := (List.mem_filter.1 hev).1
    rcases List.mem_append.1 this with hx | hx
    · obtain ⟨m, hm1, rfl⟩ := List.mem_map.1 hx
      exact .inl ⟨m, hm1, rfl⟩
    · right
      unfold calendarEventsIn at hx
      obtain ⟨y, hy, hx⟩ := List.mem_flatMap.1 hx
      unfold yearsFrom at hy
      obtain ⟨i, hi, rfl⟩ := List.mem_map.1 hy
      have := List.mem_range.1 hi
      exact ⟨_, by omega, by omega, (List.mem_filter.1 hx).1⟩
  have hU : (c.getUposathaMoon.string = "" ↔ c.UposathaMoon = []) ∧ (∀ x ∈ c.UposathaMoon, c.getUposathaMoon.string = x.string) ∧
      ',' ∉ c.getUposathaMoon.string.toList := by
    have hx : ∀ x ∈ c.UposathaMoon, ',' ∉ x.string.toList ∧ x.string ≠ "" := by
      intro x hx
      rw [hd.uposatha] at hx
      obtain ⟨ev, hev, hk⟩ := event_kind hx
      cases ev <;> simp only [Option.some.injEq, reduceCtorEq] at hk
      subst hk
      rcases kinds _ hev with ⟨m, -, hc⟩ | ⟨y, y1, y2, hg⟩
      · cases hc
      · exact no_comma_uposatha cfg y (ho y y1 y2) _ hg
    have hl := (c28_at_most_one _ _ _ _ _ h c hc).1
    unfold CalDay.getUposathaMoon
    rcases hq : c.UposathaMoon with _ | ⟨x, _ | ⟨x', q⟩⟩
    · decide +kernel
    · have := hx x (by rw [hq]; simp)
      simp [this.1, this.2]
    · rw [hq] at hl; simp at hl
  have hA : (c.getAstroMoon.string = "" ↔ c.AstroMoon = []) ∧ (∀ x ∈ c.AstroMoon, c.getAstroMoon.string = x.string) ∧
      ',' ∉ c.getAstroMoon.string.toList := by
    have hx : ∀ x ∈ c.AstroMoon, ',' ∉ x.string.toList ∧ x.string ≠ "" := by
      intro x hx
      rw [hd.astro] at hx
      obtain ⟨ev, hev, hk⟩ := event_kind hx
      cases ev <;> simp only [Option.some.injEq, reduceCtorEq] at hk
      subst hk
      rcases kinds _ hev with ⟨m, hm1, hc⟩ | ⟨y, y1, y2, hg⟩
      · cases hc
        have := astro_no_comma _ (c49_astro_text _ _ _ _ hm _ hm1)
        exact this
      · exact absurd hg (no_astro cfg y _)
    have hl := (c28_at_most_one _ _ _ _ _ h c hc).2.2
    unfold CalDay.getAstroMoon
    rcases hq : c.AstroMoon with _ | ⟨x, _ | ⟨x', q⟩⟩
    · decide +kernel
    · have := hx x (by rw [hq]; simp)
      simp [this.1, this.2]
    · rw [hq] at hl; simp at hl
  have hH : (c.getHalfMoon.string = "" ↔ c.HalfMoon = []) ∧ (∀ x ∈ c.HalfMoon, c.getHalfMoon.string = x.string) ∧
      ',' ∉ c.getHalfMoon.string.toList := by
    have hx : ∀ x ∈ c.HalfMoon, ',' ∉ x.string.toList ∧ x.string ≠ "" := by
      intro x hx
      rw [hd.half] at hx
      obtain ⟨ev, hev, hk⟩ := event_kind hx
      cases ev <;> simp only [Option.some.injEq, reduceCtorEq] at hk
      subst hk
      rcases kinds _ hev with ⟨m, -, hc⟩ | ⟨y, y1, y2, hg⟩
      · cases hc
      · rcases c44_half_text cfg y _ hg with e | e <;> rw [e] <;> decide +kernel
    have hl := (c28_at_most_one _ _ _ _ _ h c hc).2.1
    unfold CalDay.getHalfMoon
    rcases hq : c.HalfMoon with _ | ⟨x, _ | ⟨x', q⟩⟩
    · decide +kernel
    · have := hx x (by rw [hq]; simp)
      simp [this.1, this.2]
    · rw [hq] at hl; simp at hl
  refine ⟨_, _, _, e, hU.1, hA.1, hH.1, hU.2.1, hA.2.1, hH.2.1, ?_⟩
  rw [e]
  simp only [String.toList_append, List.count_append, List.count_eq_zero.2 hU.2.2, List.count_eq_zero.2 hA.2.2,
    List.count_eq_zero.2 hH.2.2]
  decide +kernel

/-- C49: and of the days themselves. -/
example : asalhaDays.map CalDay.string =
    [", , Waxing Moon", ", Waxing Moon, ", "Full Moon - 15 day Gimha 10/10, , ", ", Full Moon, ", ", Waning Moon, Waning Moon"] := by decide +kernel

/-- C49: a day with an uposatha and an astronomical moon, and one with a half moon only. -/
example : let u : UposathaMoon := { Phase := "full", U_Days := 15, LunarSeason := 1, S_Number := 4, S_Total := 8 }
    let d : CalDay := { UposathaMoon := [u], AstroMoon := [{ Phase := "full" }] }
    let h : CalDay := { HalfMoon := [{ Phase := "waning" }] }
    d.string = "Full Moon - 15 day Hemanta 4/8, Full Moon, " ∧ h.string = ", , Waning Moon" := by decide +kernel

/-- C49 applies: without astronomical data there is a calendar for every range. -/
example : getCalDays .default (fun _ => .missing) (date 2015 1 1 0 0) (date 2015 12 31 0 0) ≠ none := by
  rw [ne_eq, c52_calendar]; decide +kernel

end Verif.Props
