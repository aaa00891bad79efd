import Verif.Lemmas.Merge
import Verif.Props.Generate
import Verif.Spec.Calendar
/-
Properties C26-C31: calendar days.
-/
set_option autoImplicit false

namespace Verif.Props
open Verif.Go Verif.Model Verif.Spec Verif.Lemmas

/-! ### The events that reach the calendar -/

theorem within_eq (a b d : Time) : (d.before a || d.after b) = !decide (Within a b d) := by
  rw [Bool.eq_iff_iff]
  rw [Bool.not_eq_true', decide_eq_false_iff_not]
  unfold Within
  simp only [Time.before, Time.after, Bool.or_eq_true, decide_eq_true_eq]
  omega

theorem foldl_filter_merge (p : CalendarEvent → Bool) (es : List CalendarEvent) (ds : List CalDay) :
    es.foldl (fun ds d => if p d then ds else mergeIntoCalDays ds d) ds =
      (es.filter (fun d => !p d)).foldl mergeIntoCalDays ds := by
  induction es generalizing ds with
  | nil => rfl
  | cons e es ih =>
    rw [List.foldl_cons, ih, List.filter_cons]
    cases h : p e <;> simp

theorem eventYears_eq (cfg : Config) (fromDate toDate : Time) : ∀ (n : Nat) (y : Int) (ds : List CalDay),
    eventYears cfg fromDate toDate n y ds =
      (((List.range n).map fun (i : Nat) => y + (i : Int)).flatMap fun y =>
        (generateSolarYear cfg y).filter fun e => decide (Within fromDate toDate e.getDate)).foldl mergeIntoCalDays ds := by
  intro n
  induction n with
  | zero => intro y ds; rfl
  | succ n ih =>
    intro y ds
    have hp : ∀ d : CalendarEvent, (!(d.getDate.before fromDate || d.getDate.after toDate)) =
        decide (Within fromDate toDate d.getDate) := by
      intro d
      rw [within_eq, Bool.not_not]
    unfold eventYears
    simp only
    rw [ih, foldl_filter_merge, List.range_succ_eq_map, List.map_cons, List.flatMap_cons, List.foldl_append]
    simp only [hp, List.map_map, Int.natCast_zero, Int.add_zero]
    congr 1
    have : ((fun (i : Nat) => y + (i : Int)) ∘ Nat.succ) = fun (i : Nat) => y + 1 + (i : Int) := by
      funext i; simp only [Function.comp]; omega
    rw [this]

theorem unsorted_eq (cfg : Config) (files : Int → AstroFile) (fromDate toDate : Time) :
    unsortedCalDays cfg files fromDate toDate =
      (getAstroMoons files fromDate toDate).map fun moons =>
        (moons.map CalendarEvent.astro ++ calendarEventsIn cfg fromDate toDate).foldl mergeIntoCalDays [] := by
  unfold unsortedCalDays
  cases getAstroMoons files fromDate toDate with
  | none => rfl
  | some moons =>
    simp only [Option.map_some, eventYears_eq, List.foldl_append, List.foldl_map]
    rfl

theorem mem_calendarEventsIn {cfg : Config} {fromDate toDate : Time} {e : CalendarEvent} :
    e ∈ calendarEventsIn cfg fromDate toDate ↔
      ∃ y, fromDate.year ≤ y ∧ y ≤ toDate.year ∧ e ∈ generateSolarYear cfg y ∧ Within fromDate toDate e.getDate := by
  unfold calendarEventsIn yearsFrom
  simp only [List.mem_flatMap, List.mem_map, List.mem_range, List.mem_filter, decide_eq_true_eq]
  constructor
  · rintro ⟨y, ⟨i, hi, rfl⟩, h1, h2⟩
    exact ⟨_, by omega, by omega, h1, h2⟩
  · rintro ⟨y, h0, h1, h2, h3⟩
    exact ⟨y, ⟨(y - fromDate.year).toNat, by omega, by omega⟩, h2, h3⟩

/-- Calendar events are in UTC. -/
theorem generate_utc {cfg : Config} {y : Int} {e : CalendarEvent} (h : e ∈ generateSolarYear cfg y) :
    e.getDate.offset = 0 := by
  have hc : ∀ k, (chain cfg y k).Date.offset = 0 := by intro k; rw [chain_midnight]
  have ha : ∀ k n, ((chain cfg y k).Date.addDays n).offset = 0 := by
    intro k n; rw [addDays_eq]; exact hc k
  cases e with
  | uposatha u =>
    obtain ⟨k, -, h1, -⟩ := (c22_uposatha_iff _ _ _).1 h
    rw [moon_eq] at h1; rw [h1]; exact hc k
  | half m =>
    obtain ⟨k, -, h1, -⟩ := (c23_half_iff _ _ _).1 h
    rw [moon_eq] at h1
    show m.Date.offset = 0
    rw [h1]; exact ha k 8
  | major e =>
    obtain ⟨k, -, -, p, -, h1⟩ := (c22_major_iff _ _ _).1 h
    rw [moon_eq] at h1
    rw [h1]; exact ha k p.2
  | astro m => exact absurd rfl ((c22_in_year cfg y _ h).2.1 m)
  | event m => exact absurd rfl ((c22_in_year cfg y _ h).2.2 m)

/-! ### C31: astronomical moons -/

theorem phaseCode_eq (c : Int) (d : Time) : (phaseCode c).map (fun p => ({ Phase := p, Date := d } : AstroMoon)) =
    ((["new", "waxing", "full", "waning"][c.toNat]?).bind fun p =>
      if 0 ≤ c then some { Phase := p, Date := d } else none) := by
  unfold phaseCode
  by_cases h : 0 ≤ c
  · obtain ⟨n, rfl⟩ : ∃ n : Nat, c = n := ⟨c.toNat, by omega⟩
    rcases n with _ | _ | _ | _ | n
    · rfl
    · rfl
    · rfl
    · rfl
    · have h0 : ¬ (((n + 1 + 1 + 1 + 1 : Nat) : Int) = 0) := by omega
      have h1 : ¬ (((n + 1 + 1 + 1 + 1 : Nat) : Int) = 1) := by omega
      have h2 : ¬ (((n + 1 + 1 + 1 + 1 : Nat) : Int) = 2) := by omega
      have h3 : ¬ (((n + 1 + 1 + 1 + 1 : Nat) : Int) = 3) := by omega
      rw [if_neg h0, if_neg h1, if_neg h2, if_neg h3]
      rfl
  · rw [if_neg (by omega), if_neg (by omega), if_neg (by omega), if_neg (by omega)]
    have : c.toNat = 0 := by omega
    simp [this, h]

theorem astroMoonsOf_eq (fromDate toDate : Time) (rs : List AerisMoon) :
    astroMoonsOf fromDate toDate rs =
      (rs.filter fun r => decide (Within fromDate toDate r.DateTimeISO)).mapM fun r =>
        (["new", "waxing", "full", "waning"][r.Code.toNat]?).bind fun p =>
          if 0 ≤ r.Code then some { Phase := p, Date := r.DateTimeISO.utc } else none := by
  induction rs with
  | nil => rfl
  | cons r rs ih =>
    unfold astroMoonsOf
    simp only
    have hp : (r.DateTimeISO.utc.before fromDate || r.DateTimeISO.utc.after toDate) =
        !decide (Within fromDate toDate r.DateTimeISO) := within_eq _ _ r.DateTimeISO.utc
    rw [hp, ih]
    by_cases hw : Within fromDate toDate r.DateTimeISO
    · simp only [hw, decide_true, Bool.not_true, Bool.false_eq_true, if_false, List.filter_cons_of_pos,
        List.mapM_cons]
      rw [← phaseCode_eq]
      cases phaseCode r.Code with
      | none => rfl
      | some p =>
        simp only [Option.map_some]
        generalize List.mapM (m := Option) _ _ = o
        cases o <;> rfl
    · simp [hw]

theorem astroLoop_eq (files : Int → AstroFile) (fromDate toDate : Time) : ∀ (n : Nat) (y : Int) (acc : List AstroMoon),
    astroLoop files fromDate toDate n y acc =
      (((((List.range n).map fun (i : Nat) => y + (i : Int)).takeWhile fun y => decide (files y ≠ .missing)).mapM
        fun y => contribution fromDate toDate (files y)).map fun ms => acc ++ ms.flatten) := by
  intro n
  induction n with
  | zero => intro y acc; simp [astroLoop]
  | succ n ih =>
    intro y acc
    have hr : ((List.range (n + 1)).map fun (i : Nat) => y + (i : Int)) =
        y :: ((List.range n).map fun (i : Nat) => y + 1 + (i : Int)) := by
      rw [List.range_succ_eq_map, List.map_cons, List.map_map]
      simp only [Int.natCast_zero, Int.add_zero]
      congr 1
      apply List.map_congr_left
      intro i _; simp only [Function.comp]; omega
    rw [hr]
    unfold astroLoop
    cases hf : files y with
    | missing => simp [hf]
    | undecodable =>
      rw [List.takeWhile_cons_of_pos (by simp [hf]), List.mapM_cons, hf]
      rfl
    | resp success errorCode response =>
      rw [List.takeWhile_cons_of_pos (by simp [hf]), List.mapM_cons, hf]
      simp only
      have skip : contribution fromDate toDate (.resp success errorCode response) = some [] →
          astroLoop files fromDate toDate n (y + 1) acc = Option.map (fun ms => acc ++ ms.flatten)
            (do
              let a ← contribution fromDate toDate (.resp success errorCode response)
              let __do_lift ← List.mapM (fun y => contribution fromDate toDate (files y))
                (List.takeWhile (fun y => decide (files y ≠ .missing))
                  (List.map (fun (i : Nat) => y + 1 + (i : Int)) (List.range n)))
              pure (a :: __do_lift)) := by
        intro hc
        rw [hc, ih]
        cases List.mapM (fun y => contribution fromDate toDate (files y)) _ <;> rfl
      by_cases hs : success = true
      · have hs' : ¬ (success ≠ true) := by simp [hs]
        rw [if_neg hs']
        by_cases he : errorCode = ""
        · have he' : ¬ (errorCode.length ≠ 0) := by simp [he]
          rw [if_neg he']
          have hc : contribution fromDate toDate (.resp success errorCode response) =
              astroMoonsOf fromDate toDate response := by
            rw [astroMoonsOf_eq]; exact if_pos ⟨hs, he⟩
          rw [hc]
          cases astroMoonsOf fromDate toDate response with
          | none => rfl
          | some ms =>
            simp only
            rw [ih]
            cases List.mapM (fun y => contribution fromDate toDate (files y)) _ with
            | none => rfl
            | some mss => simp
        · have he' : errorCode.length ≠ 0 := by
            intro h; exact he (String.length_eq_zero_iff.1 h)
          rw [if_pos he']
          apply skip
          exact if_neg (fun h => he h.2)
      · rw [if_pos hs]
        apply skip
        exact if_neg (fun h => hs h.1)

/-- C31: `GetAstroMoons` concatenates the contributions of the years of the range up to, and not including, the first
one whose file is missing; it panics exactly when one of these files is undecodable or has an in-range moon with an
unknown phase code. -/
theorem c31_astro (files : Int → AstroFile) (fromDate toDate : Time) :
    getAstroMoons files fromDate toDate =
      (((yearsFrom fromDate.year toDate.year).takeWhile fun y => decide (files y ≠ .missing)).mapM
        fun y => contribution fromDate toDate (files y)).map List.flatten := by
  unfold getAstroMoons
  rw [astroLoop_eq]
  rfl

theorem mapM_mem {α β : Type} {f : α → Option β} : ∀ {l : List α} {r : List β}, l.mapM f = some r →
    ∀ b ∈ r, ∃ a ∈ l, f a = some b := by
  intro l
  induction l with
  | nil => intro r h b hb; simp at h; subst h; simp at hb
  | cons a l ih =>
    intro r h b hb
    rw [List.mapM_cons] at h
    cases h1 : f a with
    | none => rw [h1] at h; cases h
    | some x =>
      cases h2 : l.mapM f with
      | none => rw [h1, h2] at h; cases h
      | some xs =>
        rw [h1, h2] at h
        cases h
        rcases List.mem_cons.1 hb with rfl | hb
        · exact ⟨a, by simp, h1⟩
        · obtain ⟨a', ha', h'⟩ := ih h2 b hb
          exact ⟨a', by simp [ha'], h'⟩

/-- C31: every returned moon is in range, in UTC, has one of the four phases and comes from a file of a year of the
range with no missing file before it. -/
theorem c31_range (files : Int → AstroFile) (fromDate toDate : Time) (ms : List AstroMoon)
    (h : getAstroMoons files fromDate toDate = some ms) (m : AstroMoon) (hm : m ∈ ms) :
    Within fromDate toDate m.Date ∧ m.Date.offset = 0 ∧ m.Phase ∈ ["new", "waxing", "full", "waning"] ∧
    ∃ y rs, fromDate.year ≤ y ∧ y ≤ toDate.year ∧ files y = .resp true "" rs ∧
      ∃ r ∈ rs, m.Date = r.DateTimeISO.utc := by
  rw [c31_astro, Option.map_eq_some_iff] at h
  obtain ⟨mss, h1, rfl⟩ := h
  obtain ⟨l, hl, hml⟩ := List.mem_flatten.1 hm
  obtain ⟨y, hy, hc⟩ := mapM_mem h1 l hl
  have hy' : y ∈ yearsFrom fromDate.year toDate.year := (List.takeWhile_prefix _).subset hy
  unfold yearsFrom at hy'
  simp only [List.mem_map, List.mem_range] at hy'
  obtain ⟨i, hi, rfl⟩ := hy'
  cases hf : files (fromDate.year + i) with
  | missing => rw [hf] at hc; cases hc; simp at hml
  | undecodable => rw [hf] at hc; cases hc
  | resp success errorCode response =>
    rw [hf] at hc
    unfold contribution at hc
    simp only at hc
    split at hc
    · rename_i hs
      obtain ⟨r, hr, hb⟩ := mapM_mem hc m hml
      rw [List.mem_filter] at hr
      obtain ⟨p, hp, hpe⟩ := Option.bind_eq_some_iff.1 hb
      split at hpe
      · cases hpe
        refine ⟨of_decide_eq_true hr.2, rfl, List.mem_of_getElem? hp, fromDate.year + i, response, by omega, by omega, ?_,
          r, hr.1, rfl⟩
        rw [hf, hs.1, hs.2]
      · cases hpe
    · cases hc; simp at hml

/-- C31: a range with a moon in it and one moon of the file left out. -/
example : getAstroMoons (fun y => if y = 2015 then .resp true "" [⟨date 2015 1 5 0 0, 2⟩, ⟨date 2015 1 13 0 0, 3⟩] else .missing)
    (date 2015 1 7 0 0) (date 2016 1 31 0 0) = some [⟨"waning", date 2015 1 13 0 0⟩] := by decide +kernel

/-- C31: no missing file is skipped over: once the file of year `y` is missing, nothing of later years is read. -/
theorem c31_stop (files files' : Int → AstroFile) (fromDate toDate : Time) (y : Int)
    (hy : files y = .missing) (hy' : files' y = .missing) (hl : fromDate.year ≤ y) (he : ∀ z < y, files z = files' z) :
    getAstroMoons files fromDate toDate = getAstroMoons files' fromDate toDate := by
  rw [c31_astro, c31_astro]
  have key : ∀ (n : Nat) (a : Int), a ≤ y →
      ((((List.range n).map fun (i : Nat) => a + (i : Int)).takeWhile fun y => decide (files y ≠ .missing)).mapM
        fun y => contribution fromDate toDate (files y)) =
      ((((List.range n).map fun (i : Nat) => a + (i : Int)).takeWhile fun y => decide (files' y ≠ .missing)).mapM
        fun y => contribution fromDate toDate (files' y)) := by
    intro n
    induction n with
    | zero => intro a _; rfl
    | succ n ih =>
      intro a ha
      have hr : ((List.range (n + 1)).map fun (i : Nat) => a + (i : Int)) =
          a :: ((List.range n).map fun (i : Nat) => a + 1 + (i : Int)) := by
        rw [List.range_succ_eq_map, List.map_cons, List.map_map]
        simp only [Int.natCast_zero, Int.add_zero]
        congr 1
        apply List.map_congr_left
        intro i _; simp only [Function.comp]; omega
      rw [hr]
      by_cases hay : a = y
      · subst hay; simp [hy, hy']
      · have hfa := he a (by omega)
        by_cases hm : files a = .missing
        · rw [hm] at hfa; simp [hm, ← hfa]
        · have hm' : files' a ≠ .missing := by rw [← hfa]; exact hm
          rw [List.takeWhile_cons_of_pos (by simp [hm]), List.takeWhile_cons_of_pos (by simp [hm']),
            List.mapM_cons, List.mapM_cons, hfa, ih (a + 1) (by omega)]
  unfold yearsFrom
  rw [key _ _ hl]

/-- The three kinds of outcome of C31 occur: a range over a missing file, a panic, and a normal result. -/
example : getAstroMoons (fun y => if y = 2015 then .resp true "" [⟨date 2015 1 5 0 0, 2⟩] else .missing)
      (date 2015 1 1 0 0) (date 2016 12 31 0 0) = some [⟨"full", date 2015 1 5 0 0⟩] ∧
    getAstroMoons (fun _ => .resp true "" [⟨date 2015 1 5 0 0, 4⟩]) (date 2015 1 1 0 0) (date 2015 12 31 0 0) = none ∧
    getAstroMoons (fun _ => .resp false "" [⟨date 2015 1 5 0 0, 4⟩]) (date 2015 1 1 0 0) (date 2015 12 31 0 0) =
      some [] := by decide +kernel

/-! ### C29: merging one event -/

/-- C29: `findCalDay` fails exactly when no day of the list starts at the same instant as the day of the date. -/
theorem c29_find_none (ds : List CalDay) (t : Time) :
    findCalDay ds t = none ↔ ∀ c ∈ ds, dayStart c.Date ≠ dayStart t := find_none

/-- C29: otherwise it returns the first such day. -/
theorem c29_find_first (ds : List CalDay) (t : Time) (k : Nat) (h : findCalDay ds t = some k) :
    ∃ hk : k < ds.length, dayStart ds[k].Date = dayStart t ∧ ∀ j (hj : j < k), dayStart ds[j].Date ≠ dayStart t :=
  find_some h

/-- C29: the first of two such days. -/
example : findCalDay [{ Date := date 2015 1 4 0 0 }, { Date := date 2015 1 5 0 0 }, { Date := date 2015 1 5 7 0 }] (date 2015 1 5 3600000000000 0) = some 1 := by
  decide +kernel

/-- C29: merging an event without a matching day appends one day holding just that event. -/
theorem c29_merge_new (ds : List CalDay) (e : CalendarEvent) (h : ∀ c ∈ ds, dayStart c.Date ≠ dayStart e.getDate) :
    ∃ c, mergeIntoCalDays ds e = ds ++ [c] ∧ Holds [e] c := by
  refine ⟨e.addToDay {}, ?_, ?_⟩
  · unfold mergeIntoCalDays
    rw [find_none.2 h]
  · exact foldl_holds [e] (by simp)

/-- C29: a half moon on the day after the only day there. -/
example : ∃ c, mergeIntoCalDays [{ Date := date 2015 1 5 0 0 }] (.half { Date := date 2015 1 6 0 0, Phase := "waning" }) =
    [{ Date := date 2015 1 5 0 0 }] ++ [c] ∧ Holds [.half { Date := date 2015 1 6 0 0, Phase := "waning" }] c :=
  c29_merge_new _ _ (by decide +kernel)

/-- C29: merging an event with a matching day changes only the first matching day: single entries are replaced, list
entries appended to, and the date becomes that of the event. Lengths and all other days are unchanged. -/
theorem c29_merge_existing (ds : List CalDay) (e : CalendarEvent)
    (h : ∃ c ∈ ds, dayStart c.Date = dayStart e.getDate) :
    ∃ (pre post : List CalDay) (c c' : CalDay), ds = pre ++ c :: post ∧ mergeIntoCalDays ds e = pre ++ c' :: post ∧
      (∀ d ∈ pre, dayStart d.Date ≠ dayStart e.getDate) ∧ dayStart c.Date = dayStart e.getDate ∧
      c'.Date = e.getDate ∧
      c'.UposathaMoon = (match e with | .uposatha m => m :: c.UposathaMoon.tail | _ => c.UposathaMoon) ∧
      c'.HalfMoon = (match e with | .half m => m :: c.HalfMoon.tail | _ => c.HalfMoon) ∧
      c'.AstroMoon = (match e with | .astro m => m :: c.AstroMoon.tail | _ => c.AstroMoon) ∧
      c'.MajorEvents = c.MajorEvents ++ majorsOf [e] ∧ c'.Events = c.Events ++ plainOf [e] := by
  cases hf : findCalDay ds e.getDate with
  | none =>
    obtain ⟨c, hc, hk⟩ := h
    exact absurd hk (find_none.1 hf c hc)
  | some k =>
    obtain ⟨hk, hkey, hfirst⟩ := find_some hf
    refine ⟨ds.take k, ds.drop (k + 1), ds[k], e.addToDay ds[k], ?_, ?_, ?_, hkey, addToDay_date _ _, ?_⟩
    · rw [List.getElem_cons_drop, List.take_append_drop]
    · unfold mergeIntoCalDays
      rw [hf]
      simp only
      rw [List.modify_eq_take_cons_drop hk]
    · intro d hd
      obtain ⟨j, hj, rfl⟩ := List.mem_iff_getElem.1 hd
      rw [List.getElem_take]
      have : j < k := by simp at hj; omega
      exact hfirst j this
    · have hs : ∀ {α : Type} (l : List α) (m : α), setSingle l m = m :: l.tail := by
        intro α l m; cases l <;> rfl
      generalize ds[k] = c
      cases e <;> simp [CalendarEvent.addToDay, CalDay.setUposathaMoon, CalDay.setHalfMoon, CalDay.setAstroMoon, hs,
        majorsOf, plainOf]

/-- C29: a half moon joins the day that holds an astronomical moon; the day takes its date. -/
example : mergeIntoCalDays [{ Date := date 2015 1 4 0 0 }, { Date := date 2015 1 5 0 0, AstroMoon := [⟨"full", date 2015 1 5 0 0⟩] }]
      (.half { Date := date 2015 1 5 3600000000000 0, Phase := "waning" }) =
    [{ Date := date 2015 1 4 0 0 },
      { Date := date 2015 1 5 3600000000000 0, AstroMoon := [⟨"full", date 2015 1 5 0 0⟩],
        HalfMoon := [{ Date := date 2015 1 5 3600000000000 0, Phase := "waning" }] }] := by decide +kernel

/-- C29: pairwise distinct days stay pairwise distinct. -/
theorem c29_distinct (ds : List CalDay) (e : CalendarEvent) (h : (ds.map fun c => dayStart c.Date).Nodup) :
    ((mergeIntoCalDays ds e).map fun c => dayStart c.Date).Nodup := by
  by_cases hm : ∃ c ∈ ds, dayStart c.Date = dayStart e.getDate
  · obtain ⟨pre, post, c, c', h1, h2, -, h4, h5, -⟩ := c29_merge_existing ds e hm
    rw [h2]
    rw [h1] at h
    simp only [List.map_append, List.map_cons] at h ⊢
    rw [h5, ← h4]; exact h
  · have hm' : ∀ c ∈ ds, dayStart c.Date ≠ dayStart e.getDate := fun c hc hk => hm ⟨c, hc, hk⟩
    obtain ⟨c, h1, h2⟩ := c29_merge_new ds e hm'
    rw [h1, List.map_append, List.nodup_append]
    refine ⟨h, by simp, ?_⟩
    intro a ha b hb
    obtain ⟨d, hd, rfl⟩ := List.mem_map.1 ha
    simp only [List.map_cons, List.map_nil, List.mem_singleton] at hb
    have hdate := h2.date
    simp only [List.getLast?_singleton, Option.map_some, Option.some.injEq] at hdate
    rw [hb, ← hdate]
    exact hm' d hd

/-- Both cases of C29 occur: merging a half moon into the day of an uposatha and into a list without that day. -/
example : (∃ c ∈ [({ Date := date 2015 1 5 0 0 } : CalDay)], dayStart c.Date = dayStart (date 2015 1 5 3600000000000 0)) ∧
    (∀ c ∈ [({ Date := date 2015 1 5 0 0 } : CalDay)], dayStart c.Date ≠ dayStart (date 2015 1 6 0 0)) := by
  decide +kernel

/-! ### C26, C27, C28: `GetCalDays` -/

theorem dayStart_utc {t : Time} (h : t.offset = 0) : dayStart t = t.day * nsPerDay := by
  unfold dayStart Time.sinceMidnight Time.day
  rw [h]; unfold nsPerDay; omega

theorem key_day {t t' : Time} (h : t.offset = 0) (h' : t'.offset = 0) : dayStart t = dayStart t' ↔ t.day = t'.day := by
  rw [dayStart_utc h, dayStart_utc h']
  unfold nsPerDay; omega

/-- Everything known about the list before sorting. -/
theorem unsorted_spec {cfg : Config} {files : Int → AstroFile} {fromDate toDate : Time} {ds : List CalDay}
    (h : unsortedCalDays cfg files fromDate toDate = some ds) :
    ∃ moons, getAstroMoons files fromDate toDate = some moons ∧
      Grouped (moons.map CalendarEvent.astro ++ calendarEventsIn cfg fromDate toDate) ds ∧
      (∀ e ∈ moons.map CalendarEvent.astro ++ calendarEventsIn cfg fromDate toDate,
        e.getDate.offset = 0 ∧ Within fromDate toDate e.getDate) := by
  rw [unsorted_eq, Option.map_eq_some_iff] at h
  obtain ⟨moons, h1, rfl⟩ := h
  refine ⟨moons, h1, ?_, ?_⟩
  · have := grouped_foldl grouped_nil (moons.map CalendarEvent.astro ++ calendarEventsIn cfg fromDate toDate)
    rw [List.nil_append] at this
    exact this
  · intro e he
    rcases List.mem_append.1 he with he | he
    · obtain ⟨m, hm, rfl⟩ := List.mem_map.1 he
      have := c31_range _ _ _ _ h1 m hm
      exact ⟨this.2.1, this.1⟩
    · obtain ⟨y, -, -, h2, h3⟩ := mem_calendarEventsIn.1 he
      exact ⟨generate_utc h2, h3⟩

theorem date_of_event {es : List CalendarEvent} {ds : List CalDay} (h : Grouped es ds) {c : CalDay} (hc : c ∈ ds) :
    ∃ e ∈ es, e.getDate = c.Date := by
  have := (h.holds hc).date
  rw [Option.map_eq_some_iff] at this
  obtain ⟨e, he, hd⟩ := this
  have hm := List.mem_of_getLast? he
  unfold onDay at hm
  exact ⟨e, (List.mem_filter.1 hm).1, hd⟩

/-- The strict order of the result. -/
def DayBefore (a b : CalDay) : Prop := a.Date.before b.Date = true ∧ a.Date.day < b.Date.day

theorem sorted_of {ds l : List CalDay} (hp : l.Perm ds) (hu : ∀ c ∈ ds, c.Date.offset = 0)
    (hn : (ds.map keyOf).Nodup) (hs : l.Pairwise (fun a b => calDayLess b a = false)) : l.Pairwise DayBefore := by
  have hn' : (l.map keyOf).Nodup := (hp.map keyOf).nodup_iff.2 hn
  rw [List.Nodup, List.pairwise_map] at hn'
  have := hs.and hn'
  refine this.imp_of_mem ?_
  rintro a b ha hb ⟨h1, h2⟩
  have hau := hu a (hp.subset ha)
  have hbu := hu b (hp.subset hb)
  unfold keyOf at h2
  rw [dayStart_utc hau, dayStart_utc hbu] at h2
  unfold calDayLess Time.after at h1
  simp only [decide_eq_false_iff_not] at h1
  unfold DayBefore Time.before
  simp only [decide_eq_true_eq]
  unfold Time.day at *
  simp only [hau, hbu] at *
  unfold nsPerDay at *
  omega

theorem perm_eq {l l' : List CalDay} (hp : l.Perm l') (h : l.Pairwise DayBefore) (h' : l'.Pairwise DayBefore) : l = l' := by
  refine hp.eq_of_pairwise ?_ h h'
  intro a b _ _ h1 h2
  exfalso
  have := h1.2; have := h2.2; omega

theorem getCalDays_perm {cfg : Config} {files : Int → AstroFile} {fromDate toDate : Time} {l : List CalDay}
    (h : getCalDays cfg files fromDate toDate = some l) :
    ∃ ds, unsortedCalDays cfg files fromDate toDate = some ds ∧ l.Perm ds ∧
      l.Pairwise (fun a b => calDayLess b a = false) := by
  unfold getCalDays at h
  rw [Option.map_eq_some_iff] at h
  obtain ⟨ds, h1, rfl⟩ := h
  refine ⟨ds, h1, List.mergeSort_perm _ _, ?_⟩
  have := List.pairwise_mergeSort (le := fun a b => !calDayLess b a) (by
    intro a b c h1 h2
    simp only [calDayLess, Time.after, Bool.not_eq_true', decide_eq_false_iff_not] at *
    omega) (by
    intro a b
    simp only [calDayLess, Time.after, Bool.or_eq_true, Bool.not_eq_true', decide_eq_false_iff_not]
    omega) ds
  refine this.imp ?_
  intro a b h
  simpa using h

/-- C26: the result of `GetCalDays` is strictly increasing in time and in calendar day (all dates are UTC). -/
theorem c26_sorted (cfg : Config) (files : Int → AstroFile) (fromDate toDate : Time) (l : List CalDay)
    (h : getCalDays cfg files fromDate toDate = some l) :
    l.Pairwise (fun a b => a.Date.before b.Date = true ∧ a.Date.day < b.Date.day) ∧ ∀ c ∈ l, c.Date.offset = 0 := by
  obtain ⟨ds, h1, hp, hs⟩ := getCalDays_perm h
  obtain ⟨moons, -, hg, he⟩ := unsorted_spec h1
  have hu : ∀ c ∈ ds, c.Date.offset = 0 := by
    intro c hc
    obtain ⟨e, hm, hd⟩ := date_of_event hg hc
    rw [← hd]; exact (he e hm).1
  exact ⟨sorted_of hp hu hg.nodup hs, fun c hc => hu c (hp.subset hc)⟩

/-- C26: the sorting algorithm is not observable: every permutation of the collected days that is sorted with respect
to `CalDaySlice.Less` is the result of `GetCalDays`. -/
theorem c26_any_sort (cfg : Config) (files : Int → AstroFile) (fromDate toDate : Time) (ds l : List CalDay)
    (h : unsortedCalDays cfg files fromDate toDate = some ds) (hp : l.Perm ds)
    (hs : l.Pairwise (fun a b => calDayLess b a = false)) :
    getCalDays cfg files fromDate toDate = some l := by
  cases h' : getCalDays cfg files fromDate toDate with
  | none => unfold getCalDays at h'; rw [h] at h'; cases h'
  | some l' =>
    obtain ⟨ds', h1, hp', hs'⟩ := getCalDays_perm h'
    rw [h] at h1; cases h1
    obtain ⟨moons, -, hg, he⟩ := unsorted_spec h
    have hu : ∀ c ∈ ds, c.Date.offset = 0 := by
      intro c hc
      obtain ⟨e, hm, hd⟩ := date_of_event hg hc
      rw [← hd]; exact (he e hm).1
    rw [perm_eq (hp'.trans hp.symm) (sorted_of hp' hu hg.nodup hs') (sorted_of hp hu hg.nodup hs)]

/-- Astronomical data with the moons of July and August 2015 only. -/
def asalhaFiles : Int → AstroFile := fun y =>
  if y = 2015 then .resp true "" [⟨date 2015 7 24 (14580 * nsPerSec) 0, 1⟩, ⟨date 2015 7 31 (38580 * nsPerSec) 0, 2⟩, ⟨date 2015 8 7 (7380 * nsPerSec) 0, 3⟩]
  else .missing

/-- The days from 22 July to 9 August 2015. -/
def asalhaDays : List CalDay :=
  [{ Date := date 2015 7 23 0 0, HalfMoon := [{ Date := date 2015 7 23 0 0, Phase := "waxing" }] },
   { Date := date 2015 7 24 (14580 * nsPerSec) 0, AstroMoon := [{ Phase := "waxing", Date := date 2015 7 24 (14580 * nsPerSec) 0 }] },
   { Date := date 2015 7 30 0 0
     UposathaMoon := [{ Date := date 2015 7 30 0 0, Status := 2, Phase := "full", Event := "asalha", S_Number := 10, S_Total := 10,
                        U_Days := 15, M_Days := 30, LunarMonth := 13, LunarSeason := 2, LunarYear := 2558 }]
     MajorEvents := [{ Date := date 2015 7 30 0 0, Summary := "Āsāḷha Pūjā", Description := "Āsāḷha Pūjā" }] },
   { Date := date 2015 7 31 0 0, AstroMoon := [{ Phase := "full", Date := date 2015 7 31 (38580 * nsPerSec) 0 }]
     MajorEvents := [{ Date := date 2015 7 31 0 0, Summary := "First day of Vassa", Description := "First day of Vassa" }] },
   { Date := date 2015 8 7 0 0, HalfMoon := [{ Date := date 2015 8 7 0 0, Phase := "waning" }]
     AstroMoon := [{ Phase := "waning", Date := date 2015 8 7 (7380 * nsPerSec) 0 }] }]

/-- C26 to C28 apply: days of all kinds. -/
theorem asalha_days : getCalDays .default asalhaFiles (date 2015 7 22 0 0) (date 2015 8 9 0 0) = some asalhaDays := by
  refine c26_any_sort .default asalhaFiles _ _ [asalhaDays[1], asalhaDays[3], asalhaDays[4], asalhaDays[0], asalhaDays[2]] _ ?_ ?_ ?_
  · decide +kernel
  · decide +kernel
  · decide +kernel

/-- C26 on them. -/
example : asalhaDays.Pairwise (fun a b => a.Date.before b.Date = true ∧ a.Date.day < b.Date.day) := (c26_sorted _ _ _ _ _ asalha_days).1

/-- C27: each calendar day holds exactly the events of its day among the astronomical moons and the in-range calendar
events, each such event has its day in the result, and dates are in range. -/
theorem c27_content (cfg : Config) (files : Int → AstroFile) (fromDate toDate : Time) (l : List CalDay)
    (h : getCalDays cfg files fromDate toDate = some l) :
    ∃ moons, getAstroMoons files fromDate toDate = some moons ∧
      (∀ c ∈ l, Holds (onDay (dayStart c.Date)
        (moons.map CalendarEvent.astro ++ calendarEventsIn cfg fromDate toDate)) c) ∧
      (∀ e ∈ moons.map CalendarEvent.astro ++ calendarEventsIn cfg fromDate toDate,
        ∃ c ∈ l, c.Date.day = e.getDate.day) ∧
      (∀ c ∈ l, Within fromDate toDate c.Date) := by
  obtain ⟨ds, h1, hp, hs⟩ := getCalDays_perm h
  obtain ⟨moons, h2, hg, he⟩ := unsorted_spec h1
  have hutc := (c26_sorted _ _ _ _ _ h).2
  refine ⟨moons, h2, fun c hc => hg.holds (hp.subset hc), ?_, ?_⟩
  · intro e hm
    obtain ⟨c, hc, hk⟩ := hg.cover e hm
    refine ⟨c, hp.symm.subset hc, ?_⟩
    unfold keyOf at hk
    rw [dayStart_utc (hutc c (hp.symm.subset hc)), dayStart_utc (he e hm).1] at hk
    unfold nsPerDay at hk; omega
  · intro c hc
    obtain ⟨e, hm, hd⟩ := date_of_event hg (hp.subset hc)
    rw [← hd]; exact (he e hm).2

/-- C27: 7 August has the waning half moon of both kinds and nothing else. -/
example : ∃ moons, getAstroMoons asalhaFiles (date 2015 7 22 0 0) (date 2015 8 9 0 0) = some moons ∧ moons.length = 3 ∧
    Holds (onDay (dayStart (date 2015 8 7 0 0)) (moons.map CalendarEvent.astro ++
      calendarEventsIn .default (date 2015 7 22 0 0) (date 2015 8 9 0 0))) asalhaDays[4] := by
  obtain ⟨moons, h, h1, -⟩ := c27_content _ _ _ _ _ asalha_days
  refine ⟨moons, h, ?_, h1 asalhaDays[4] (List.getElem_mem (by decide))⟩
  have e : (getAstroMoons asalhaFiles (date 2015 7 22 0 0) (date 2015 8 9 0 0)).map List.length = some 3 := by decide +kernel
  rw [h] at e
  exact Option.some.inj e

/-- C27: the result is nothing when the range is empty. -/
theorem c27_empty_range (cfg : Config) (files : Int → AstroFile) (fromDate toDate : Time) (l : List CalDay)
    (h : getCalDays cfg files fromDate toDate = some l) (hr : toDate.before fromDate = true) : l = [] := by
  obtain ⟨_, _, _, _, hw⟩ := c27_content _ _ _ _ _ h
  cases l with
  | nil => rfl
  | cons c l =>
    exfalso
    have := hw c (by simp)
    unfold Within at this
    unfold Time.before at hr
    simp only [decide_eq_true_eq] at hr
    omega

/-- C27: there is such a range. -/
example : getCalDays .default asalhaFiles (date 2015 8 9 0 0) (date 2015 7 22 0 0) = some [] ∧
    (date 2015 7 22 0 0).before (date 2015 8 9 0 0) = true :=
  ⟨c26_any_sort _ _ _ _ [] [] (by decide +kernel) (List.Perm.refl _) List.Pairwise.nil, by decide⟩

theorem uposatha_same_day {cfg : Config} {y y' : Int} {u u' : UposathaMoon}
    (h : .uposatha u ∈ generateSolarYear cfg y) (h' : .uposatha u' ∈ generateSolarYear cfg y')
    (hd : u.Date.day = u'.Date.day) : u = u' := by
  obtain ⟨k, -, hk, hy⟩ := (c22_uposatha_iff _ _ _).1 h
  obtain ⟨k', -, hk', hy'⟩ := (c22_uposatha_iff _ _ _).1 h'
  have : y = y' := by rw [← hy, ← hy']; unfold Time.year; rw [hd]
  subst this
  rw [moon_eq] at hk hk'
  have e1 : u.Date.day = (chain cfg y k).Date.day := by rw [hk]; rfl
  have e2 : u'.Date.day = (chain cfg y k').Date.day := by rw [hk']; rfl
  have : k = k' := by
    rcases Nat.le_total k k' with hle | hle
    · have := chain_day_mono cfg y hle; omega
    · have := chain_day_mono cfg y hle; omega
  rw [hk, hk', this]

theorem half_same_day {cfg : Config} {y y' : Int} {u u' : HalfMoon}
    (h : .half u ∈ generateSolarYear cfg y) (h' : .half u' ∈ generateSolarYear cfg y')
    (hd : u.Date.day = u'.Date.day) : u = u' := by
  obtain ⟨k, -, hk, hy, hph⟩ := (c23_half_iff _ _ _).1 h
  obtain ⟨k', -, hk', hy', hph'⟩ := (c23_half_iff _ _ _).1 h'
  have : y = y' := by rw [← hy, ← hy']; unfold Time.year; rw [hd]
  subst this
  rw [moon_eq] at hk hk' hph hph'
  have e1 : u.Date.day = (chain cfg y k).Date.day + 8 := by rw [hk, addDays_eq, day_add]
  have e2 : u'.Date.day = (chain cfg y k').Date.day + 8 := by rw [hk', addDays_eq, day_add]
  have : k = k' := by
    rcases Nat.le_total k k' with hle | hle
    · have := chain_day_mono cfg y hle; omega
    · have := chain_day_mono cfg y hle; omega
  subst this
  cases u; cases u'
  simp only [HalfMoon.mk.injEq]
  refine ⟨hk.trans hk'.symm, ?_⟩
  rcases hph with ⟨p1, p2⟩ | ⟨p1, p2⟩ <;> rcases hph' with ⟨q1, q2⟩ | ⟨q1, q2⟩ <;> simp_all

theorem getLast_unique {α : Type} {l : List α} {a : α} (h : a ∈ l) (hu : ∀ b ∈ l, b = a) : l.getLast?.toList = [a] := by
  cases hl : l.getLast? with
  | none => rw [List.getLast?_eq_none_iff] at hl; subst hl; simp at h
  | some b => rw [hu b (List.mem_of_getLast? hl)]; rfl

/-- C27: an uposatha is stored in the result, on its day, iff it is generated for a year of the range and lies in the
range; nothing is overwritten. -/
theorem c27_uposatha_iff (cfg : Config) (files : Int → AstroFile) (fromDate toDate : Time) (l : List CalDay)
    (h : getCalDays cfg files fromDate toDate = some l) (u : UposathaMoon) :
    (∃ c ∈ l, u ∈ c.UposathaMoon ∧ c.Date.day = u.Date.day) ↔
      ∃ y, fromDate.year ≤ y ∧ y ≤ toDate.year ∧ .uposatha u ∈ generateSolarYear cfg y ∧ Within fromDate toDate u.Date := by
  obtain ⟨moons, hm, hh, hcov, -⟩ := c27_content _ _ _ _ _ h
  have hutc := (c26_sorted _ _ _ _ _ h).2
  have mem : ∀ (es : List CalendarEvent) (w : UposathaMoon), w ∈ uposathasOf es ↔ .uposatha w ∈ es := by
    intro es w
    unfold uposathasOf
    rw [List.mem_filterMap]
    constructor
    · rintro ⟨e, he, hw⟩
      cases e <;> simp at hw
      subst hw; exact he
    · intro hw; exact ⟨_, hw, rfl⟩
  have inCal : ∀ w, CalendarEvent.uposatha w ∈ moons.map CalendarEvent.astro ++ calendarEventsIn cfg fromDate toDate →
      ∃ y, fromDate.year ≤ y ∧ y ≤ toDate.year ∧ .uposatha w ∈ generateSolarYear cfg y ∧
        Within fromDate toDate w.Date := by
    intro w hw
    rcases List.mem_append.1 hw with hw | hw
    · simp at hw
    · exact mem_calendarEventsIn.1 hw
  constructor
  · rintro ⟨c, hc, hu, -⟩
    rw [(hh c hc).uposatha] at hu
    have hu' : u ∈ uposathasOf (onDay (dayStart c.Date)
        (moons.map CalendarEvent.astro ++ calendarEventsIn cfg fromDate toDate)) := by
      rw [Option.mem_toList] at hu
      exact List.mem_of_getLast? hu
    rw [mem] at hu'
    unfold onDay at hu'
    exact inCal u (List.mem_filter.1 hu').1
  · intro hy
    have hes : CalendarEvent.uposatha u ∈ moons.map CalendarEvent.astro ++ calendarEventsIn cfg fromDate toDate :=
      List.mem_append_right _ (mem_calendarEventsIn.2 hy)
    obtain ⟨c, hc, hd⟩ := hcov _ hes
    refine ⟨c, hc, ?_, hd⟩
    obtain ⟨y, -, -, hg, -⟩ := hy
    have hkey : dayStart u.Date = dayStart c.Date :=
      (key_day (generate_utc hg) (hutc c hc)).2 hd.symm
    rw [(hh c hc).uposatha, getLast_unique (a := u)]
    · simp
    · rw [mem]; unfold onDay; rw [List.mem_filter]
      exact ⟨hes, decide_eq_true hkey⟩
    · intro b hb
      rw [mem] at hb
      unfold onDay at hb
      rw [List.mem_filter] at hb
      obtain ⟨y', -, -, hg', -⟩ := inCal b hb.1
      have hk' : dayStart b.Date = dayStart c.Date := of_decide_eq_true hb.2
      exact uposatha_same_day hg' hg ((key_day (generate_utc hg') (generate_utc hg)).1 (hk'.trans hkey.symm))

/-- C27: the uposatha of 30 July 2015. -/
example : ∃ u ∈ asalhaDays[2].UposathaMoon, ∃ y, .uposatha u ∈ generateSolarYear .default y := by
  refine ⟨_, List.mem_cons_self, ?_⟩
  obtain ⟨y, -, -, h, -⟩ := (c27_uposatha_iff _ _ _ _ _ asalha_days asalhaDays[2].UposathaMoon[0]).1
    ⟨asalhaDays[2], List.getElem_mem (by decide), List.mem_cons_self, by decide⟩
  exact ⟨y, h⟩

/-- C27: the same for half moons. -/
theorem c27_half_iff (cfg : Config) (files : Int → AstroFile) (fromDate toDate : Time) (l : List CalDay)
    (h : getCalDays cfg files fromDate toDate = some l) (u : HalfMoon) :
    (∃ c ∈ l, u ∈ c.HalfMoon ∧ c.Date.day = u.Date.day) ↔
      ∃ y, fromDate.year ≤ y ∧ y ≤ toDate.year ∧ .half u ∈ generateSolarYear cfg y ∧ Within fromDate toDate u.Date := by
  obtain ⟨moons, hm, hh, hcov, -⟩ := c27_content _ _ _ _ _ h
  have hutc := (c26_sorted _ _ _ _ _ h).2
  have mem : ∀ (es : List CalendarEvent) (w : HalfMoon), w ∈ halvesOf es ↔ .half w ∈ es := by
    intro es w
    unfold halvesOf
    rw [List.mem_filterMap]
    constructor
    · rintro ⟨e, he, hw⟩
      cases e <;> simp at hw
      subst hw; exact he
    · intro hw; exact ⟨_, hw, rfl⟩
  have inCal : ∀ w, CalendarEvent.half w ∈ moons.map CalendarEvent.astro ++ calendarEventsIn cfg fromDate toDate →
      ∃ y, fromDate.year ≤ y ∧ y ≤ toDate.year ∧ .half w ∈ generateSolarYear cfg y ∧
        Within fromDate toDate w.Date := by
    intro w hw
    rcases List.mem_append.1 hw with hw | hw
    · simp at hw
    · exact mem_calendarEventsIn.1 hw
  constructor
  · rintro ⟨c, hc, hu, -⟩
    rw [(hh c hc).half] at hu
    have hu' : u ∈ halvesOf (onDay (dayStart c.Date)
        (moons.map CalendarEvent.astro ++ calendarEventsIn cfg fromDate toDate)) := by
      rw [Option.mem_toList] at hu
      exact List.mem_of_getLast? hu
    rw [mem] at hu'
    unfold onDay at hu'
    exact inCal u (List.mem_filter.1 hu').1
  · intro hy
    have hes : CalendarEvent.half u ∈ moons.map CalendarEvent.astro ++ calendarEventsIn cfg fromDate toDate :=
      List.mem_append_right _ (mem_calendarEventsIn.2 hy)
    obtain ⟨c, hc, hd⟩ := hcov _ hes
    refine ⟨c, hc, ?_, hd⟩
    obtain ⟨y, -, -, hg, -⟩ := hy
    have hkey : dayStart u.Date = dayStart c.Date :=
      (key_day (generate_utc hg) (hutc c hc)).2 hd.symm
    rw [(hh c hc).half, getLast_unique (a := u)]
    · simp
    · rw [mem]; unfold onDay; rw [List.mem_filter]
      exact ⟨hes, decide_eq_true hkey⟩
    · intro b hb
      rw [mem] at hb
      unfold onDay at hb
      rw [List.mem_filter] at hb
      obtain ⟨y', -, -, hg', -⟩ := inCal b hb.1
      have hk' : dayStart b.Date = dayStart c.Date := of_decide_eq_true hb.2
      exact half_same_day hg' hg ((key_day (generate_utc hg') (generate_utc hg)).1 (hk'.trans hkey.symm))

/-- C27: the half moon of 7 August 2015 is generated and so in the output. -/
example : ∃ c ∈ asalhaDays, { Date := date 2015 8 7 0 0, Phase := "waning" } ∈ c.HalfMoon ∧ c.Date.day = (date 2015 8 7 0 0).day :=
  (c27_half_iff _ _ _ _ _ asalha_days { Date := date 2015 8 7 0 0, Phase := "waning" }).2
    ⟨2015, by decide, by decide, by decide +kernel, by decide⟩

/-- C27: the same for major events; no plain events appear. -/
theorem c27_major_iff (cfg : Config) (files : Int → AstroFile) (fromDate toDate : Time) (l : List CalDay)
    (h : getCalDays cfg files fromDate toDate = some l) :
    (∀ e : MajorEvent, (∃ c ∈ l, e ∈ c.MajorEvents ∧ c.Date.day = e.Date.day) ↔
      ∃ y, fromDate.year ≤ y ∧ y ≤ toDate.year ∧ .major e ∈ generateSolarYear cfg y ∧ Within fromDate toDate e.Date) ∧
    ∀ c ∈ l, c.Events = [] := by
  obtain ⟨moons, hm, hh, hcov, -⟩ := c27_content _ _ _ _ _ h
  have hutc := (c26_sorted _ _ _ _ _ h).2
  have mem : ∀ (es : List CalendarEvent) (w : MajorEvent), w ∈ majorsOf es ↔ .major w ∈ es := by
    intro es w
    unfold majorsOf
    rw [List.mem_filterMap]
    constructor
    · rintro ⟨e, he, hw⟩
      cases e <;> simp at hw
      subst hw; exact he
    · intro hw; exact ⟨_, hw, rfl⟩
  constructor
  · intro e
    constructor
    · rintro ⟨c, hc, hu, -⟩
      rw [(hh c hc).majors, mem] at hu
      unfold onDay at hu
      have hu' := (List.mem_filter.1 hu).1
      rcases List.mem_append.1 hu' with hw | hw
      · simp at hw
      · exact mem_calendarEventsIn.1 hw
    · intro hy
      have hes : CalendarEvent.major e ∈ moons.map CalendarEvent.astro ++ calendarEventsIn cfg fromDate toDate :=
        List.mem_append_right _ (mem_calendarEventsIn.2 hy)
      obtain ⟨c, hc, hd⟩ := hcov _ hes
      refine ⟨c, hc, ?_, hd⟩
      obtain ⟨y, -, -, hg, -⟩ := hy
      have hkey : dayStart e.Date = dayStart c.Date :=
        (key_day (generate_utc hg) (hutc c hc)).2 hd.symm
      rw [(hh c hc).majors, mem]; unfold onDay; rw [List.mem_filter]
      exact ⟨hes, decide_eq_true hkey⟩
  · intro c hc
    rw [(hh c hc).plain]
    unfold plainOf
    rw [List.filterMap_eq_nil_iff]
    intro e he
    unfold onDay at he
    have he' := (List.mem_filter.1 he).1
    rcases List.mem_append.1 he' with hw | hw
    · obtain ⟨m, -, rfl⟩ := List.mem_map.1 hw; rfl
    · obtain ⟨y, -, -, hg, -⟩ := mem_calendarEventsIn.1 hw
      cases e with
      | event m => exact absurd rfl ((c22_in_year cfg y _ hg).2.2 m)
      | _ => rfl

/-- C27: the first day of Vassa in 2015. -/
example : ∃ y, .major asalhaDays[3].MajorEvents[0] ∈ generateSolarYear .default y := by
  obtain ⟨y, -, -, h, -⟩ := ((c27_major_iff _ _ _ _ _ asalha_days).1 asalhaDays[3].MajorEvents[0]).1
    ⟨asalhaDays[3], List.getElem_mem (by decide), List.mem_cons_self, by decide⟩
  exact ⟨y, h⟩

/-- C28: at most one uposatha, half moon and astronomical moon per calendar day. -/
theorem c28_at_most_one (cfg : Config) (files : Int → AstroFile) (fromDate toDate : Time) (l : List CalDay)
    (h : getCalDays cfg files fromDate toDate = some l) (c : CalDay) (hc : c ∈ l) :
    c.UposathaMoon.length ≤ 1 ∧ c.HalfMoon.length ≤ 1 ∧ c.AstroMoon.length ≤ 1 := by
  obtain ⟨moons, -, hh, -, -⟩ := c27_content _ _ _ _ _ h
  have h' := hh c hc
  have key : ∀ {α : Type} (o : Option α), o.toList.length ≤ 1 := by intro α o; cases o <;> simp
  rw [h'.uposatha, h'.half, h'.astro]
  exact ⟨key _, key _, key _⟩

/-- C28: each kind of moon on some day. -/
example : asalhaDays.map (fun c => (c.UposathaMoon.length, c.HalfMoon.length, c.AstroMoon.length)) =
    [(0, 1, 0), (0, 0, 1), (1, 0, 0), (0, 0, 1), (0, 1, 1)] := rfl

/-- C28: getters return what was set last; setting one kind leaves the others alone; an unset kind reads as zero. -/
theorem c28_get_set (c : CalDay) (u : UposathaMoon) (a : AstroMoon) (m : HalfMoon) :
    (c.setUposathaMoon u).getUposathaMoon = u ∧ (c.setAstroMoon a).getAstroMoon = a ∧ (c.setHalfMoon m).getHalfMoon = m ∧
    (c.setUposathaMoon u).getAstroMoon = c.getAstroMoon ∧ (c.setUposathaMoon u).getHalfMoon = c.getHalfMoon ∧
    (c.setAstroMoon a).getUposathaMoon = c.getUposathaMoon ∧ (c.setAstroMoon a).getHalfMoon = c.getHalfMoon ∧
    (c.setHalfMoon m).getUposathaMoon = c.getUposathaMoon ∧ (c.setHalfMoon m).getAstroMoon = c.getAstroMoon ∧
    (c.UposathaMoon = [] → c.getUposathaMoon = {}) ∧ (c.AstroMoon = [] → c.getAstroMoon = {}) ∧
    (c.HalfMoon = [] → c.getHalfMoon = {}) := by
  have hs : ∀ {α : Type} (l : List α) (m : α), setSingle l m = m :: l.tail := by
    intro α l m; cases l <;> rfl
  refine ⟨?_, ?_, ?_, rfl, rfl, rfl, rfl, rfl, rfl, ?_, ?_, ?_⟩ <;>
    simp +contextual [CalDay.setUposathaMoon, CalDay.setAstroMoon, CalDay.setHalfMoon, CalDay.getUposathaMoon,
      CalDay.getAstroMoon, CalDay.getHalfMoon, hs]

/-! ### C30 -/

/-- C30: `AddHalfMoonDays` keeps its input as a prefix and appends, in order, one day for each day whose (first)
uposatha is new or full: eight days later, with a waxing or waning half moon and nothing else. -/
theorem c30_half_moon_days (ds : List CalDay) :
    ∃ extra, addHalfMoonDays ds = ds ++ extra ∧
      List.Forall₂ (fun (d x : CalDay) => ∃ u, d.UposathaMoon.head? = some u ∧
          x = { Date := d.Date.addDays 8,
                HalfMoon := [{ Date := d.Date.addDays 8, Phase := if u.Phase = "new" then "waxing" else "waning" }] })
        (ds.filter fun d => (d.UposathaMoon.head?.any fun u => u.Phase == "new" || u.Phase == "full")) extra := by
  refine ⟨ds.filterMap halfMoonDay, rfl, ?_⟩
  induction ds with
  | nil => exact List.Forall₂.nil
  | cons d ds ih =>
    rw [List.filter_cons, List.filterMap_cons]
    cases hu : d.UposathaMoon with
    | nil =>
      have : halfMoonDay d = none := by unfold halfMoonDay; simp [hu]
      rw [this]; simpa using ih
    | cons u us =>
      have hg : d.getUposathaMoon = u := by unfold CalDay.getUposathaMoon; rw [hu]
      have hl : d.UposathaMoon.length ≠ 0 := by simp [hu]
      by_cases h1 : u.Phase = "new"
      · have : halfMoonDay d = some (CalDay.mk (d.Date.addDays 8) [] [⟨d.Date.addDays 8, "waxing"⟩] [] [] []) := by
          unfold halfMoonDay; rw [if_pos hl, hg, h1]; rfl
        rw [this]
        simp only [List.head?_cons, Option.any_some, h1, beq_self_eq_true, Bool.true_or, if_true]
        refine List.Forall₂.cons ⟨u, by simp [hu], by simp [h1]⟩ ih
      · by_cases h2 : u.Phase = "full"
        · have : halfMoonDay d = some (CalDay.mk (d.Date.addDays 8) [] [⟨d.Date.addDays 8, "waning"⟩] [] [] []) := by
            unfold halfMoonDay; rw [if_pos hl, hg, h2]; rfl
          rw [this]
          simp only [List.head?_cons, Option.any_some, h2, beq_self_eq_true, Bool.or_true, if_true]
          refine List.Forall₂.cons ⟨u, by simp [hu], by simp [h2]⟩ ih
        · have : halfMoonDay d = none := by
            unfold halfMoonDay; rw [if_pos hl, hg]; simp [halfPhase, h1, h2]
          rw [this]
          simpa [h1, h2] using ih

/-- The hypotheses of C26-C28 are met: without astronomical data every range has a result. -/
theorem c26_total (cfg : Config) (fromDate toDate : Time) :
    ∃ l, getCalDays cfg (fun _ => .missing) fromDate toDate = some l := by
  unfold getCalDays
  rw [unsorted_eq, c31_astro]
  have : ∀ ys : List Int, (ys.takeWhile fun y => decide ((fun _ : Int => AstroFile.missing) y ≠ .missing)) = [] := by
    intro ys; cases ys <;> simp
  rw [this]
  exact ⟨_, rfl⟩

/-! ### C46: the embedded years -/

/-- C46: a range that starts before 1900 or after 2040 gets no astronomical moon at all, even for its years with data. -/
theorem c46_none_outside (files : Int → AstroFile) (hf : EmbeddedYears files) (fromDate toDate : Time)
    (h : fromDate.year < 1900 ∨ 2040 < fromDate.year) : getAstroMoons files fromDate toDate = some [] := by
  rw [c31_astro]
  have : ((yearsFrom fromDate.year toDate.year).takeWhile fun y => decide (files y ≠ .missing)) = [] := by
    unfold yearsFrom
    rcases (toDate.year - fromDate.year + 1).toNat with _ | n
    · rfl
    · rw [List.range_succ_eq_map, List.map_cons, List.takeWhile_cons, decide_eq_false]
      · rfl
      · rw [not_not, hf]; simpa using h
  rw [this]
  rfl

/-- C46: 1899 has no file, and then nothing of 1900 is read. -/
example : getAstroMoons (fun y => if 1900 ≤ y ∧ y ≤ 2040 then .resp true "" [⟨date 1900 1 5 0 0, 2⟩] else .missing)
    (date 1899 1 1 0 0) (date 1900 12 31 0 0) = some [] := by decide +kernel

theorem takeWhile_years (files : Int → AstroFile) (hf : EmbeddedYears files) : ∀ (n : Nat) (a : Int), 1900 ≤ a →
    ((List.range n).map fun i : Nat => a + (i : Int)).takeWhile (fun y => decide (files y ≠ .missing)) =
      (List.range (min n (2041 - a).toNat)).map fun i : Nat => a + (i : Int) := by
  intro n
  induction n with
  | zero => intro a _; simp
  | succ n ih =>
    intro a ha
    have hshift : ∀ m, ((List.range (m + 1)).map fun i : Nat => a + (i : Int)) =
        a :: (List.range m).map fun i : Nat => (a + 1) + (i : Int) := by
      intro m
      rw [List.range_succ_eq_map, List.map_cons, List.map_map]
      congr 1
      · simp
      · apply List.map_congr_left
        intro i _
        simp only [Function.comp]
        push_cast; omega
    rw [hshift, List.takeWhile_cons]
    by_cases hb : a ≤ 2040
    · have hne : files a ≠ .missing := by rw [Ne, hf]; omega
      rw [decide_eq_true hne, if_pos rfl, ih (a + 1) (by omega)]
      have : min (n + 1) (2041 - a).toNat = min n (2041 - (a + 1)).toNat + 1 := by omega
      rw [this, hshift]
    · have hne : files a = .missing := by rw [hf]; omega
      rw [decide_eq_false (by simpa using hne)]
      have : min (n + 1) (2041 - a).toNat = 0 := by omega
      rw [this]; rfl

/-- C46: a range starting in 1900 to 2040 uses the files of its years up to 2040. -/
theorem c46_inside (files : Int → AstroFile) (hf : EmbeddedYears files) (fromDate toDate : Time)
    (h : 1900 ≤ fromDate.year) : getAstroMoons files fromDate toDate =
      ((yearsFrom fromDate.year (min toDate.year 2040)).mapM fun y => contribution fromDate toDate (files y)).map
        List.flatten := by
  rw [c31_astro]
  unfold yearsFrom
  rw [takeWhile_years files hf _ _ h]
  have : min (toDate.year - fromDate.year + 1).toNat (2041 - fromDate.year).toNat =
      (min toDate.year 2040 - fromDate.year + 1).toNat := by omega
  rw [this]

/-- C46 is not vacuous: there are such files, with a moon in 2000 lost to a range from 1899 but not to one from 1900. -/
example : ∃ files, EmbeddedYears files ∧
    getAstroMoons files (date 1899 1 1 0 0) (date 2001 1 1 0 0) = some [] ∧
    getAstroMoons files (date 2000 1 1 0 0) (date 2001 1 1 0 0) =
      some [{ Phase := "full", Date := date 2000 5 1 0 0 }] := by
  refine ⟨fun y => if y < 1900 ∨ 2040 < y then .missing else
    .resp true "" (if y = 2000 then [{ Code := 2, DateTimeISO := date 2000 5 1 0 0 }] else []), ?_, ?_, ?_⟩
  · intro y
    dsimp only
    split <;> simp_all
  · decide +kernel
  · decide +kernel

end Verif.Props
