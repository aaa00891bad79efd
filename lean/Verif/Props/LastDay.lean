import Verif.Props.Range
import Verif.Props.Cli
/-
C56: astronomical moons of the last day of a command line range.
-/
set_option autoImplicit false

namespace Verif.Props
open Verif.Go Verif.Model Verif.Spec Verif.Lemmas

theorem mem_astrosOf {es : List CalendarEvent} {m : AstroMoon} : m ∈ astrosOf es ↔ .astro m ∈ es := by
  unfold astrosOf
  rw [List.mem_filterMap]
  constructor
  · rintro ⟨e, he, hw⟩
    cases e <;> simp at hw
    subst hw; exact he
  · intro h; exact ⟨_, h, rfl⟩

/-- C55: with the embedded data and a range in UTC starting in 1900 or later, the astronomical moons in the result are
exactly the embedded moons in the range. -/
theorem c55_astro (cfg : Config) (fromDate toDate : Time) (hf : fromDate.offset = 0) (ht : toDate.offset = 0)
    (hy : 1900 ≤ fromDate.year) (l : List CalDay) (h : getCalDays cfg embeddedFiles fromDate toDate = some l)
    (m : AstroMoon) : (∃ c ∈ l, m ∈ c.AstroMoon ∧ c.Date.day = m.Date.day) ↔
      m ∈ embeddedMoons ∧ Within fromDate toDate m.Date := by
  obtain ⟨moons, hm, hh, hcov, -⟩ := c27_content _ _ _ _ _ h
  have hutc := (c26_sorted _ _ _ _ _ h).2
  have hap := c53_apart _ _ _ hm
  have hmem : ∀ w, w ∈ moons ↔ w ∈ embeddedMoons ∧ Within fromDate toDate w.Date := by
    intro w
    rw [c53_moons_utc _ _ hy hf ht] at hm
    cases hm
    rw [List.mem_filter, decide_eq_true_eq]
  have hmo : ∀ w ∈ moons, w.Date.offset = 0 := fun w hw => (c31_range _ _ _ _ hm w hw).2.1
  have inAll : ∀ s w, w ∈ astrosOf (onDay s (moons.map CalendarEvent.astro ++ calendarEventsIn cfg fromDate toDate)) ↔
      w ∈ moons ∧ dayStart w.Date = s := by
    intro s w
    rw [mem_astrosOf]
    unfold onDay
    rw [List.mem_filter, List.mem_append, decide_eq_true_eq]
    constructor
    · rintro ⟨he | he, hk⟩
      · obtain ⟨w', hw', hww⟩ := List.mem_map.1 he
        cases hww
        exact ⟨hw', hk⟩
      · obtain ⟨y, -, -, hg, -⟩ := mem_calendarEventsIn.1 he
        exact absurd rfl ((c22_in_year cfg y _ hg).2.1 w)
    · rintro ⟨hw, hk⟩
      exact ⟨Or.inl (List.mem_map.2 ⟨w, hw, rfl⟩), hk⟩
  rw [← hmem]
  constructor
  · rintro ⟨c, hc, hmc, -⟩
    rw [(hh c hc).astro] at hmc
    cases hl : (astrosOf (onDay (dayStart c.Date) (moons.map CalendarEvent.astro ++
        calendarEventsIn cfg fromDate toDate))).getLast? with
    | none => rw [hl] at hmc; simp at hmc
    | some w =>
      rw [hl] at hmc
      simp only [Option.toList_some, List.mem_singleton] at hmc
      rw [hmc]
      exact ((inAll _ _).1 (List.mem_of_getLast? hl)).1
  · intro hmm
    obtain ⟨c, hc, hd⟩ := hcov (.astro m) (List.mem_append_left _ (List.mem_map.2 ⟨m, hmm, rfl⟩))
    have hd : c.Date.day = m.Date.day := hd
    refine ⟨c, hc, ?_, hd⟩
    rw [(hh c hc).astro, getLast_unique (a := m)]
    · simp
    · exact (inAll _ _).2 ⟨hmm, (key_day (hmo m hmm) (hutc c hc)).2 hd.symm⟩
    · intro b hb
      obtain ⟨hb1, hb2⟩ := (inAll _ _).1 hb
      have hbd : b.Date.day = m.Date.day := by rw [(key_day (hmo b hb1) (hutc c hc)).1 hb2, hd]
      by_contra hne
      have key : ∀ {ms : List AstroMoon}, (ms.Pairwise fun a b => a.Date.nanos + nsPerDay ≤ b.Date.nanos ∧
          a.Date.day < b.Date.day) → ∀ a ∈ ms, ∀ b ∈ ms, a ≠ b → a.Date.day ≠ b.Date.day := by
        intro ms hp
        induction hp with
        | nil => intro a ha; simp at ha
        | cons hx _ ih =>
          intro a ha b hb hne
          rcases List.mem_cons.1 ha with rfl | ha' <;> rcases List.mem_cons.1 hb with rfl | hb'
          · exact absurd rfl hne
          · have := (hx b hb').2; omega
          · have := (hx a ha').2; omega
          · exact ih a ha' b hb' hne
      exact key hap b hb1 m hmm hne hbd

/-- C55: the range of a week with the full moon of 25 November 2015 in it. -/
example : 1900 ≤ (date 2015 11 20 0 0).year ∧ getCalDays .default embeddedFiles (date 2015 11 20 0 0) (date 2015 11 27 0 0) ≠ none ∧
    Within (date 2015 11 20 0 0) (date 2015 11 27 0 0) (date 2015 11 25 (81890 * nsPerSec) 0) := by
  refine ⟨by decide, ?_, by decide⟩
  rw [ne_eq, c52_calendar]; decide +kernel

theorem rows_not_midnight : embeddedTable.all (fun e => (e.2.getD []).all fun n => !Nat.beq (secs n % 86400) 0) = true := by
  decide +kernel

theorem not_midnight {m : AstroMoon} (hm : m ∈ embeddedMoons) : m.Date.sinceMidnight ≠ 0 ∧ m.Date.offset = 0 := by
  unfold embeddedMoons at hm
  obtain ⟨e, he, hm⟩ := List.mem_flatMap.1 hm
  obtain ⟨n, hn, rfl⟩ := List.mem_map.1 hm
  refine ⟨?_, rfl⟩
  have h1 := List.all_eq_true.1 (List.all_eq_true.1 rows_not_midnight e he) n hn
  have hr := table_row he hn
  have := moonOf_nanos n hr.1
  show (moonOf n).Date.sinceMidnight ≠ 0
  have ho : (moonOf n).Date.offset = 0 := rfl
  unfold Time.sinceMidnight
  rw [this, ho]
  simp only [Bool.not_eq_true', Bool.eq_false_iff, ne_eq, Nat.beq_eq] at h1
  unfold nsPerSec nsPerDay
  omega

/-- The bounds of a command line range are at midnight UTC. -/
theorem cliInit_midnight {nowFrom nowTo : Int} {f t : String} {a b : Time} (hi : cliInit nowFrom nowTo f t = some (a, b)) :
    (a.sinceMidnight = 0 ∧ a.offset = 0) ∧ b.sinceMidnight = 0 ∧ b.offset = 0 := by
  obtain ⟨ha, hb⟩ := (c42_range _ _ _ _ _ _).1 hi
  have mid : ∀ (s : String) (c : Time) (y mo d : Int), (if s = "" then IsDate c.day y mo d ∧ c.sinceMidnight = 0 ∧ c.offset = 0
      else parseDate s = some c) → c.sinceMidnight = 0 ∧ c.offset = 0 := by
    intro s c y mo d h
    split at h
    · exact h.2
    · obtain ⟨_, _, _, _, _, _, _, _, _, _, h1, h2⟩ := (c42_parse _ _).1 h
      exact ⟨h1, h2⟩
  exact ⟨mid _ _ _ _ _ ha, mid _ _ _ _ _ hb⟩

/-- C56: the command line range ends at midnight at the beginning of its last day. So of the embedded moons the output
holds those from the first day of the range to the day before the last, and never one of the last day. -/
theorem c56_last_day (cfg : Config) (nowFrom nowTo : Int) (f t : String) (a b : Time)
    (hi : cliInit nowFrom nowTo f t = some (a, b)) (hy : 1900 ≤ a.year) (l : List CalDay)
    (h : getCalDays cfg embeddedFiles a b = some l) (m : AstroMoon) :
    (∃ c ∈ l, m ∈ c.AstroMoon ∧ c.Date.day = m.Date.day) ↔
      m ∈ embeddedMoons ∧ a.day ≤ m.Date.day ∧ m.Date.day < b.day := by
  obtain ⟨hma, hmb⟩ := cliInit_midnight hi
  rw [c55_astro cfg a b hma.2 hmb.2 hy l h]
  constructor
  · rintro ⟨h1, h2⟩
    have hn := not_midnight h1
    refine ⟨h1, ?_⟩
    unfold Within at h2
    obtain ⟨hma1, hma2⟩ := hma
    obtain ⟨hmb1, hmb2⟩ := hmb
    obtain ⟨hn1, hn2⟩ := hn
    unfold Time.sinceMidnight at hma1 hmb1 hn1
    unfold Time.day
    rw [hma2] at hma1
    rw [hmb2] at hmb1
    rw [hn2] at hn1
    rw [hma2, hmb2, hn2]
    unfold nsPerDay at *
    omega
  · rintro ⟨h1, h2⟩
    have hn := not_midnight h1
    refine ⟨h1, ?_⟩
    unfold Within
    obtain ⟨hma1, hma2⟩ := hma
    obtain ⟨hmb1, hmb2⟩ := hmb
    obtain ⟨hn1, hn2⟩ := hn
    unfold Time.sinceMidnight at hma1 hmb1 hn1
    unfold Time.day at h2
    rw [hma2] at hma1
    rw [hmb2] at hmb1
    rw [hn2] at hn1
    rw [hma2, hmb2, hn2] at h2
    unfold nsPerDay at *
    omega

/-- C56: `--from 2015-11-01 --to 2015-11-25`: the uposatha of 25 November is in the output, the full moon of that day is
not. -/
example : cliInit 0 0 "2015-11-01" "2015-11-25" = some (date 2015 11 1 0 0, date 2015 11 25 0 0) ∧
    1900 ≤ (date 2015 11 1 0 0).year ∧
    { Phase := "full", Date := date 2015 11 25 (81890 * nsPerSec) 0 } ∈ embeddedMoons ∧
    (date 2015 11 25 (81890 * nsPerSec) 0).day = (date 2015 11 25 0 0).day := by
  refine ⟨by decide +kernel, by decide, ?_, by decide⟩
  unfold embeddedMoons
  rw [List.mem_flatMap]
  refine ⟨(2015, some astro2015), by decide +kernel, List.mem_map.2 ⟨2015_11_25_22_44_50_0_2, by decide +kernel, by decide +kernel⟩⟩

end Verif.Props
