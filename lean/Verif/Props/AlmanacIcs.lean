import Verif.Spec.AlmanacIcs
import Verif.Props.AlmanacRun
/-
C72: the file written by ical shows the almanac.
-/
set_option autoImplicit false

namespace Verif.Props
open scoped List
open Verif.Go Verif.Model Verif.Model.Unmarshal Verif.Spec Verif.Lemmas

theorem icsDate_unique {s : String} {n n' : Int} (h : IsIcsDate s n) (h' : IsIcsDate s n') : n = n' := by
  obtain ⟨y, m, d, hy, hd, rfl⟩ := h
  obtain ⟨y', m', d', hy', hd', he⟩ := h'
  have he := String.ofList_injective he
  obtain ⟨h1, h2⟩ := List.append_inj he (by simp [pad_length])
  obtain ⟨h0, h1⟩ := List.append_inj h1 (by simp [pad_length])
  have md : ∀ y m : Int, monthDays y m ≤ 31 := by
    intro y m
    unfold monthDays
    split_ifs <;> omega
  have b : m < 100 ∧ d < 100 ∧ m' < 100 ∧ d' < 100 := by
    obtain ⟨_, -, -, a1, a2, a3, a4⟩ := hd
    obtain ⟨_, -, -, b1, b2, b3, b4⟩ := hd'
    have := md y m
    have := md y' m'
    omega
  have e0 := pad_inj (k := 4) (by omega) (by omega) h0
  have e1 := pad_inj (k := 2) (by omega) (by omega) h1
  have e2 := pad_inj (k := 2) (by omega) (by omega) h2
  subst e0 e1 e2
  exact isDate_day hd hd'

theorem wholeDay_unique {p : List (String × String)} {day day' : Int} {text text' : String} (h : Almanac.WholeDay p day text)
    (h' : Almanac.WholeDay p day' text') : day = day' ∧ text = text' := by
  obtain ⟨⟨v, h1, h2⟩, -, h3⟩ := h
  obtain ⟨⟨v', h1', h2'⟩, -, h3'⟩ := h'
  rw [h1] at h1'; cases h1'
  rw [h3] at h3'; cases h3'
  exact ⟨icsDate_unique h2 h2', rfl⟩

theorem wholeDay_of {p : List (String × String)} {e : CalendarEvent} {s : Stamp} (h : IsVEvent p e s) :
    Almanac.WholeDay p e.getDate.day e.string := ⟨h.start, h.stop, h.summary⟩

/-! ### Texts -/

theorem seasons_shown : ∀ k : Almanac.Kind, ∀ e ∈ Almanac.uposathas k, e.season = 1 ∨ e.season = 2 ∨ e.season = 3 := by
  intro k; cases k <;> decide +kernel

theorem uposatha_string {t : Int → Option Bool} {kattika : Int → Int} {u : Almanac.Uposatha} (hu : Almanac.IsUposatha t kattika u) :
    (record u).string = Almanac.uposathaText u := by
  have hs : seasonName u.season = Almanac.seasonText u.season := by
    obtain ⟨y, e, he, rfl⟩ := hu
    rcases seasons_shown _ e he with h | h | h <;> simp only [h] <;> decide +kernel
  have t1 : title "full" = "Full" := by decide +kernel
  have t2 : title "new" = "New" := by decide +kernel
  unfold UposathaMoon.string Almanac.uposathaText record
  simp only
  rw [hs]
  cases u.full
  · simp only [Bool.false_eq_true, if_false]
    rw [if_pos (by decide), t2]
  · simp only [if_true]
    rw [if_pos (by decide), t1]

theorem half_string (u : Almanac.Uposatha) : u.half.string = if u.full then "Waning Moon" else "Waxing Moon" := by
  have t1 : title "waning" = "Waning" := by decide +kernel
  have t2 : title "waxing" = "Waxing" := by decide +kernel
  unfold HalfMoon.string Almanac.Uposatha.half
  cases u.full
  · simp only [Bool.false_eq_true, if_false]
    rw [if_pos (by decide), t2]
    decide +kernel
  · simp only [if_true]
    rw [if_pos (by decide), t1]
    decide +kernel

/-- The first four letters tell the kinds of entries apart. -/
def begins (s : String) : List Char := s.toList.take 4

theorem begins_uposatha (u : Almanac.Uposatha) : begins (Almanac.uposathaText u) ∈ ["Full".toList, "New ".toList] := by
  unfold begins Almanac.uposathaText
  simp only [String.toList_append, List.append_assoc]
  cases u.full
  · simp
  · simp

theorem begins_half (u : Almanac.Uposatha) :
    begins (if u.full then "Waning Moon" else "Waxing Moon") ∈ ["Wani".toList, "Waxi".toList] := by
  cases u.full <;> decide +kernel

theorem begins_festival {t : Int → Option Bool} {kattika : Int → Int} {day : Int} {name : String}
    (h : Almanac.IsFestival t kattika day name) : begins name ∈ ["Māgh".toList, "Vesā".toList, "Āsāḷ".toList, "Firs".toList, "Pavā".toList, "Last".toList] := by
  obtain ⟨u, -, h⟩ := h
  rcases h with h | h | h | h | h | h <;> rw [h.2.2] <;> decide +kernel

theorem begins_apart : ∀ p ∈ ["Full".toList, "New ".toList], ∀ q ∈ ["Wani".toList, "Waxi".toList],
    ∀ r ∈ ["Māgh".toList, "Vesā".toList, "Āsāḷ".toList, "Firs".toList, "Pavā".toList, "Last".toList], p ≠ q ∧ p ≠ r ∧ q ≠ r := by
  decide +kernel

/-! ### Events -/

/-- The half moon after `u` is not shown. -/
def lost (u : Almanac.Uposatha) : Prop := u.month = 12 ∧ u.full = true ∧ ∃ y, Almanac.InYear u.day y ∧ ¬ Almanac.InYear (u.day + 8) y

/-- The event of an entry of the almanac. -/
inductive EventOf (t : Int → Option Bool) (kattika : Int → Int) : CalendarEvent → Int → String → Prop where
  | uposatha (u : Almanac.Uposatha) (h : Almanac.IsUposatha t kattika u) : EventOf t kattika (.uposatha (record u)) u.day (Almanac.uposathaText u)
  | half (u : Almanac.Uposatha) (h : Almanac.IsUposatha t kattika u) (hl : ¬ lost u) :
    EventOf t kattika (.half u.half) (u.day + 8) (if u.full then "Waning Moon" else "Waxing Moon")
  | festival (day : Int) (name : String) (h : Almanac.IsFestival t kattika day name) :
    EventOf t kattika (.major (majorOn ⟨day * nsPerDay, 0⟩ name)) day name

section
variable {t : Int → Option Bool} {kattika : Int → Int} {e e' : CalendarEvent} {day : Int} {text : String}

theorem EventOf.shows (h : EventOf t kattika e day text) :
    e.getDate = ⟨day * nsPerDay, 0⟩ ∧ e.string = text ∧ Almanac.IsEntry t kattika day text := by
  cases h with
  | uposatha u hu => exact ⟨rfl, uposatha_string hu, .inl ⟨u, hu, rfl, rfl⟩⟩
  | half u hu hl => exact ⟨rfl, half_string u, .inr (.inl ⟨u, hu, rfl, rfl, hl⟩)⟩
  | festival _ _ hf => exact ⟨rfl, rfl, .inr (.inr hf)⟩

theorem eventOf_entry (h : Almanac.IsEntry t kattika day text) : ∃ e, EventOf t kattika e day text := by
  rcases h with ⟨u, hu, rfl, rfl⟩ | ⟨u, hu, rfl, rfl, hl⟩ | h
  · exact ⟨_, .uposatha u hu⟩
  · exact ⟨_, .half u hu hl⟩
  · exact ⟨_, .festival _ _ h⟩

theorem eventOf_unique (hk : Almanac.Kattikas t kattika) (h : EventOf t kattika e day text) (h' : EventOf t kattika e' day text) : e = e' := by
  have key : ∀ (u : Almanac.Uposatha), Almanac.IsUposatha t kattika u → ∀ {e' : CalendarEvent} {day' : Int} {text' : String}, EventOf t kattika e' day' text' → day' = u.day →
      text' = Almanac.uposathaText u → e' = .uposatha (record u) := by
    intro u hu e' day' text' h' hd ht
    cases h' with
    | uposatha u' hu' => rw [c72_unique hk u' u hu' hu hd]
    | half u' hu' hl =>
      have b1 := begins_uposatha u; have b2 := begins_half u'
      rw [ht] at b2
      exact absurd rfl (begins_apart _ b1 _ b2 "Last".toList (by decide)).1
    | festival _ _ hf =>
      have b1 := begins_uposatha u; have b2 := begins_festival hf
      rw [ht] at b2
      exact absurd rfl (begins_apart _ b1 "Wani".toList (by decide) _ b2).2.1
  have key2 : ∀ (u : Almanac.Uposatha), Almanac.IsUposatha t kattika u → ∀ {e' : CalendarEvent} {day' : Int} {text' : String}, EventOf t kattika e' day' text' → day' = u.day + 8 →
      text' = (if u.full then "Waning Moon" else "Waxing Moon") → e' = .half u.half := by
    intro u hu e' day' text' h' hd ht
    cases h' with
    | uposatha u' hu' =>
      have b1 := begins_uposatha u'; have b2 := begins_half u
      rw [ht] at b1
      exact absurd rfl (begins_apart _ b1 _ b2 "Last".toList (by decide)).1
    | half u' hu' hl => rw [c72_unique hk u' u hu' hu (by omega)]
    | festival _ _ hf =>
      have b1 := begins_half u; have b2 := begins_festival hf
      rw [ht] at b2
      exact absurd rfl (begins_apart "New ".toList (by decide) _ b1 _ b2).2.2
  cases h with
  | uposatha u hu => exact (key u hu h' rfl rfl).symm
  | half u hu hl => exact (key2 u hu h' rfl rfl).symm
  | festival _ _ hf =>
    generalize hd : day = day' at h'
    generalize ht : text = text' at h'
    cases h' with
    | uposatha u hu => subst hd ht; exact key u hu (.festival _ _ hf) rfl rfl
    | half u hu hl => subst hd ht; exact key2 u hu (.festival _ _ hf) rfl rfl
    | festival _ _ _ => rfl

end

theorem events_nodup {es : List CalendarEvent} (hu : (uposathasOf es).Nodup) (hh : (halvesOf es).Nodup) (hm : (majorsOf es).Nodup)
    (ha : ∀ m, .astro m ∉ es) (he : ∀ m, .event m ∉ es) : es.Nodup := by
  rw [List.nodup_iff_sublist]
  intro e hs
  cases e with
  | uposatha u => exact (List.nodup_iff_sublist.1 hu u) (by
      have := hs.filterMap (fun | CalendarEvent.uposatha m => some m | _ => none)
      exact this)
  | half u => exact (List.nodup_iff_sublist.1 hh u) (by
      have := hs.filterMap (fun | CalendarEvent.half m => some m | _ => none)
      exact this)
  | major u => exact (List.nodup_iff_sublist.1 hm u) (by
      have := hs.filterMap (fun | CalendarEvent.major m => some m | _ => none)
      exact this)
  | astro m => exact ha m (hs.subset (by simp))
  | event m => exact he m (hs.subset (by simp))

/-- A calendar with the events of certain entries shows these entries, each once. -/
theorem calendar_entries {E : CalendarEvent → Int → String → Prop} (hE : ∀ e day text, E e day text → e.getDate = ⟨day * nsPerDay, 0⟩ ∧ e.string = text)
    (hun : ∀ e e' day text, E e day text → E e' day text → e = e') {first last : Int} (cal : Calendar) (stamps : Nat → Stamp)
    (es : List CalendarEvent) (hmem : ∀ e, e ∈ es ↔ ∃ day text, E e day text ∧ first ≤ day ∧ day ≤ last) (hnd : es.Nodup)
    (hord : es.Pairwise (fun d e => d.getDate.nanos ≤ e.getDate.nanos)) (hlen : cal.events.length = es.length)
    (hv : ∀ (i : Nat) (h1 : i < cal.events.length) (h2 : i < es.length), IsVEvent cal.events[i] es[i] (stamps i)) :
    (∀ p ∈ cal.events, ∃ e day text, Almanac.WholeDay p day text ∧ first ≤ day ∧ day ≤ last ∧ E e day text) ∧
    (∀ e day text, E e day text → first ≤ day → day ≤ last → ∃ p ∈ cal.events, Almanac.WholeDay p day text) ∧
    cal.events.Pairwise fun p q => ∀ day text day' text', Almanac.WholeDay p day text → Almanac.WholeDay q day' text' →
      day ≤ day' ∧ ¬ (day = day' ∧ text = text') := by
  refine ⟨?_, ?_, ?_⟩
  · intro p hpm
    obtain ⟨i, hi, rfl⟩ := List.mem_iff_getElem.1 hpm
    obtain ⟨day, text, hev, f1, f2⟩ := (hmem es[i]).1 (List.getElem_mem _)
    have hw := wholeDay_of (hv i hi (by omega))
    rw [(hE _ _ _ hev).1, (hE _ _ _ hev).2, day_midnight] at hw
    exact ⟨_, day, text, hw, f1, f2, hev⟩
  · intro e day text hev f1 f2
    obtain ⟨i, hi, he⟩ := List.mem_iff_getElem.1 ((hmem e).2 ⟨day, text, hev, f1, f2⟩)
    refine ⟨cal.events[i], List.getElem_mem _, ?_⟩
    have hw := wholeDay_of (hv i (by omega) hi)
    rw [he, (hE _ _ _ hev).1, (hE _ _ _ hev).2, day_midnight] at hw
    exact hw
  · rw [List.pairwise_iff_getElem]
    intro i k hi hk' hik day text day' text' hw hw'
    obtain ⟨d, x, hev, -, -⟩ := (hmem es[i]).1 (List.getElem_mem _)
    obtain ⟨d', x', hev', -, -⟩ := (hmem es[k]).1 (List.getElem_mem _)
    have w := wholeDay_of (hv i hi (by omega))
    have w' := wholeDay_of (hv k hk' (by omega))
    have ho := List.pairwise_iff_getElem.1 hord i k (by omega) (by omega) hik
    rw [(hE _ _ _ hev).1, (hE _ _ _ hev).2, day_midnight] at w
    rw [(hE _ _ _ hev').1, (hE _ _ _ hev').2, day_midnight] at w'
    obtain ⟨rfl, rfl⟩ := wholeDay_unique hw w
    obtain ⟨rfl, rfl⟩ := wholeDay_unique hw' w'
    rw [(hE _ _ _ hev).1, (hE _ _ _ hev').1] at ho
    refine ⟨by unfold nsPerDay at ho; simp only at ho; omega, ?_⟩
    rintro ⟨rfl, rfl⟩
    have := hun _ _ _ _ hev hev'
    have := (List.Nodup.getElem_inj_iff hnd).1 this
    omega

section
variable {cfg : Config} {a b : Int} (hs : Steady cfg 74 a b) (ha : 639 ≤ a) {kattika : Int → Int}
  (hk : Almanac.Kattikas cfg.table kattika) {first last : Int} (h1 : a ≤ (⟨first * nsPerDay, 0⟩ : Time).year)
  (h2 : (⟨last * nsPerDay, 0⟩ : Time).year < b)
include hs ha hk h1 h2

/-- The events of a range are those of the entries of the almanac. -/
theorem events_almanac (e : CalendarEvent) : e ∈ calendarEventsIn cfg ⟨first * nsPerDay, 0⟩ ⟨last * nsPerDay, 0⟩ ↔
    ∃ day text, EventOf cfg.table kattika e day text ∧ first ≤ day ∧ day ≤ last := by
  rw [mem_calendarEventsIn]
  constructor
  · rintro ⟨y, y1, y2, hg, hw⟩
    have key : ∃ day text, EventOf cfg.table kattika e day text := by
      cases e with
      | uposatha m =>
        obtain ⟨u, hu, -, rfl⟩ := (c72_uposatha_steady hs ha hk (y := y) (by omega) (by omega) m).1 hg
        exact ⟨_, _, .uposatha u hu⟩
      | half m =>
        obtain ⟨u, hu, hiy, hl, rfl⟩ := (c72_half_steady hs ha hk (y := y) (by omega) (by omega) m).1 hg
        refine ⟨_, _, .half u hu ?_⟩
        rintro ⟨h12, hf, z, hz1, hz2⟩
        have := hl h12 hf
        rw [inYear_day] at this hz1
        rw [← hz1, this] at hz2
        exact hz2 hiy
      | major m =>
        obtain ⟨day, name, hf, -, rfl⟩ := (c72_major_steady hs ha hk (y := y) (by omega) (by omega) m).1 hg
        exact ⟨_, _, .festival day name hf⟩
      | astro m => exact absurd rfl ((c22_in_year cfg y _ hg).2.1 m)
      | event m => exact absurd rfl ((c22_in_year cfg y _ hg).2.2 m)
    obtain ⟨day, text, hev⟩ := key
    rw [hev.shows.1, within_days] at hw
    exact ⟨day, text, hev, hw⟩
  · rintro ⟨day, text, hev, f1, f2⟩
    have hw : Within ⟨first * nsPerDay, 0⟩ ⟨last * nsPerDay, 0⟩ e.getDate := by rw [hev.shows.1, within_days]; exact ⟨f1, f2⟩
    have y1 := year_mono f1
    have y2 := year_mono f2
    refine ⟨(⟨day * nsPerDay, 0⟩ : Time).year, y1, y2, ?_, hw⟩
    cases hev with
    | uposatha u hu => exact (c72_uposatha_steady hs ha hk (by omega) (by omega) _).2 ⟨u, hu, (inYear_day _ _).2 rfl, rfl⟩
    | half u hu hl =>
      refine (c72_half_steady hs ha hk (by omega) (by omega) _).2 ⟨u, hu, (inYear_day _ _).2 rfl, ?_, rfl⟩
      intro h12 hf
      by_contra hny
      refine hl ⟨h12, hf, (⟨u.day * nsPerDay, 0⟩ : Time).year, (inYear_day _ _).2 rfl, ?_⟩
      intro h8
      rw [inYear_day] at hny h8
      exact hny h8.symm
    | festival _ name hf => exact (c72_major_steady hs ha hk (by omega) (by omega) _).2 ⟨day, _, hf, (inYear_day _ _).2 rfl, rfl⟩

/-- C72: a calendar with the events found between two dates shows the almanac between these dates. -/
theorem c72_ics_steady (cal : Calendar) (stamps : Nat → Stamp) (es : List CalendarEvent)
    (hp : es.Perm (calendarEventsIn cfg ⟨first * nsPerDay, 0⟩ ⟨last * nsPerDay, 0⟩))
    (hord : es.Pairwise (fun d e => d.getDate.nanos ≤ e.getDate.nanos)) (hlen : cal.events.length = es.length)
    (hv : ∀ (i : Nat) (h1 : i < cal.events.length) (h2 : i < es.length), IsVEvent cal.events[i] es[i] (stamps i)) :
    Almanac.ShowsIcs cfg.table kattika first last cal := by
  have hmem : ∀ e, e ∈ es ↔ ∃ day text, EventOf cfg.table kattika e day text ∧ first ≤ day ∧ day ≤ last := by
    intro e
    rw [hp.mem_iff]
    exact events_almanac hs ha hk h1 h2 e
  have hnd : es.Nodup := by
    rw [hp.nodup_iff]
    refine events_nodup (calendar_uposathas_nodup _ _ _) (calendar_halves_nodup _ _ _) (majorsIn_nodup hs h1 h2) ?_ ?_
    · intro m hm
      obtain ⟨y, -, -, hg, -⟩ := mem_calendarEventsIn.1 hm
      exact (c22_in_year cfg y _ hg).2.1 m rfl
    · intro m hm
      obtain ⟨y, -, -, hg, -⟩ := mem_calendarEventsIn.1 hm
      exact (c22_in_year cfg y _ hg).2.2 m rfl
  obtain ⟨g1, g2, g3⟩ := calendar_entries (E := EventOf cfg.table kattika) (fun _ _ _ h => ⟨h.shows.1, h.shows.2.1⟩)
    (fun _ _ _ _ h h' => eventOf_unique hk h h') cal stamps es hmem hnd hord hlen hv
  refine ⟨?_, ?_, g3⟩
  · intro p hp
    obtain ⟨e, day, text, hw, f1, f2, hev⟩ := g1 p hp
    exact ⟨day, text, hw, f1, f2, hev.shows.2.2⟩
  · intro day text hent f1 f2
    obtain ⟨e, hev⟩ := eventOf_entry hent
    exact g2 e day text hev f1 f2

/-- C72: the hypotheses about settings and range are met by July 2016 and the official exceptions; a month has five events at least. -/
example : Steady .official 74 1290 4116 ∧ (1290 : Int) ≤ (⟨736145 * nsPerDay, 0⟩ : Time).year ∧
    (⟨736175 * nsPerDay, 0⟩ : Time).year < 4116 ∧
    5 ≤ (calendarEventsIn .official ⟨736145 * nsPerDay, 0⟩ ⟨736175 * nsPerDay, 0⟩).length :=
  ⟨shipped_steady74 (Or.inr rfl), by decide +kernel, by decide +kernel, by decide +kernel⟩

end

section
variable {cfg : Config} {kattika : Int → Int} {first last y1 y2 : Int} {nowFrom nowTo : Int} (stamps : Nat → Stamp) (flags : Flags)
  (hf : Almanac.Asks flags.fromDate nowFrom 1 1 first) (ht : Almanac.Asks flags.toDate nowTo 12 31 last)
include hf ht

theorem ical_text (files : Int → AstroFile) (l : List CalDay)
    (hl : getCalDays cfg files ⟨first * nsPerDay, 0⟩ ⟨last * nsPerDay, 0⟩ = some l) :
    icalText cfg files stamps nowFrom nowTo flags.fromDate flags.toDate = some (icsText (icalComponents l) stamps) := by
  unfold icalText actionIcal
  simp only [asks_range hf ht, hl]
  rfl

/-- C72: with the settings of the library as shipped and any flags (dates left out are the first and the last day of the clock's year):
if ical works on days of the years 1290 to 4115, exit code 0 means that the output file holds, or standard output was sent, an
iCalendar object showing exactly the almanac between the two dates. -/
theorem c72_ical_flags (hs : Shipped cfg) (hk : Almanac.Kattikas cfg.table kattika) (h1 : Almanac.InYear first y1)
    (h2 : Almanac.InYear last y2) (hy1 : 1290 ≤ y1) (hy2 : y2 ≤ 4115) (hst : ∀ i, GoodStamp (stamps i))
    (sys : System) (w : World) (r : Run) (hr : r = (Command.ical stamps).run cfg (dataFile .bits64) nowFrom nowTo flags sys)
    (he : r.exit = 0) :
    ∃ str cal, readIcs str = some cal ∧ Almanac.ShowsIcs cfg.table kattika first last cal ∧
      (flags.output ≠ "" → (w.after r.effects).files flags.output = some (utf8 str) ∧ (w.after r.effects).stdout = w.stdout) ∧
      (flags.output = "" → (w.after r.effects).files = w.files ∧
        (w.after r.effects).stdout = w.stdout ++ (utf8 str).take sys.printed) := by
  subst hr
  obtain ⟨str, htext, ho1, ho2⟩ := c66_success (.ical stamps) cfg (dataFile .bits64) nowFrom nowTo flags sys w he
  have hi := asks_range hf ht
  have hyear1 : (⟨first * nsPerDay, 0⟩ : Time).year = y1 := (inYear_day _ _).1 h1
  have hyear2 : (⟨last * nsPerDay, 0⟩ : Time).year = y2 := (inYear_day _ _).1 h2
  have htext : icalText cfg embeddedFiles stamps nowFrom nowTo flags.fromDate flags.toDate = some str := by
    rw [← (c61_data .bits64)]; exact htext
  obtain ⟨l, hl⟩ := Option.ne_none_iff_exists'.1 (c53_never_panics cfg ⟨first * nsPerDay, 0⟩ ⟨last * nsPerDay, 0⟩).2
  obtain ⟨text, cal, es, ht', hcal, -, -, -, -, hp, hord, hlen, hv⟩ :=
    c58_text cfg embeddedFiles stamps hst nowFrom nowTo _ _ _ _ hi (by omega) (by omega) l hl
  rw [htext] at ht'; cases ht'
  refine ⟨str, cal, hcal, c72_ics_steady (shipped_steady74 hs) (by omega) hk (by omega) (by omega) cal stamps es hp hord hlen hv, ho1, ?_⟩
  intro h
  have := ho2 h
  rwa [show (Command.ical stamps).ending = [] from rfl, List.append_nil] at this

/-- C72: such a run has exit code 0 if it prints, or if the system opens the file and takes all writes, each of at least a byte. -/
theorem c72_ical_ends (sys : System) (hall : flags.output ≠ "" → sys.openFails = false ∧
      ∀ str, icalText cfg (dataFile .bits64) stamps nowFrom nowTo flags.fromDate flags.toDate = some str →
        (utf8 str).length ≤ sys.sizes.length) :
    ((Command.ical stamps).run cfg (dataFile .bits64) nowFrom nowTo flags sys).exit = 0 := by
  rw [(c61_data .bits64)] at hall ⊢
  obtain ⟨l, hl⟩ := Option.ne_none_iff_exists'.1 (c53_never_panics cfg ⟨first * nsPerDay, 0⟩ ⟨last * nsPerDay, 0⟩).2
  have htext := ical_text stamps flags hf ht embeddedFiles l hl
  generalize embeddedFiles = files at *
  rw [(run_text (.ical stamps) cfg files nowFrom nowTo flags sys).1 _ htext]
  by_cases ho : flags.output = ""
  · unfold output
    rw [if_neg (by rw [ho]; decide)]
  · exact output_exit sys _ _ ho (hall ho).1 ((hall ho).2 _ htext)

end

/-- C72: with two dates and the name of an output file. -/
theorem c72_ical {cfg : Config} (hs : Shipped cfg) {kattika : Int → Int} (hk : Almanac.Kattikas cfg.table kattika)
    {y1 m1 d1 y2 m2 d2 : Nat} (hy1 : 1290 ≤ y1) (hy2 : y2 ≤ 4115) {first last : Int} (h1 : IsDate first y1 m1 d1)
    (h2 : IsDate last y2 m2 d2) (h12 : first ≤ last) {nowFrom nowTo : Int} (stamps : Nat → Stamp) (hst : ∀ i, GoodStamp (stamps i))
    {output : String} (ho : output ≠ "") (sys : System) (w : World) (r : Run)
    (hr : r = (Command.ical stamps).run cfg (dataFile .bits64) nowFrom nowTo ⟨isoDate y1 m1 d1, isoDate y2 m2 d2, output⟩ sys) (he : r.exit = 0) :
    ∃ str cal, (w.after r.effects).files output = some (utf8 str) ∧ readIcs str = some cal ∧
      Almanac.ShowsIcs cfg.table kattika first last cal := by
  have hyear1 : (⟨first * nsPerDay, 0⟩ : Time).year = y1 := (inYear_day _ _).1 ⟨_, _, h1⟩
  have hyear2 : (⟨last * nsPerDay, 0⟩ : Time).year = y2 := (inYear_day _ _).1 ⟨_, _, h2⟩
  have hle : y1 ≤ y2 := by have := year_mono h12; omega
  obtain ⟨str, cal, hcal, hshow, ho1, -⟩ := c72_ical_flags stamps ⟨isoDate y1 m1 d1, isoDate y2 m2 d2, output⟩
    (asks_date (by omega) h1 nowFrom 1 1) (asks_date (by omega) h2 nowTo 12 31) hs hk ⟨_, _, h1⟩ ⟨_, _, h2⟩ (by omega) (by omega) hst
    sys w r hr he
  exact ⟨str, cal, (ho1 ho).1, hcal, hshow⟩

/-- C72: such a run has exit code 0 if the system opens the file and takes all writes, each of at least a byte. -/
theorem c72_ical_exit {cfg : Config} {y1 m1 d1 y2 m2 d2 : Nat} (hy2 : y2 ≤ 4115) {first last : Int} (h1 : IsDate first y1 m1 d1)
    (h2 : IsDate last y2 m2 d2) (h12 : first ≤ last) {nowFrom nowTo : Int} (stamps : Nat → Stamp)
    {output : String} (sys : System) (hopen : sys.openFails = false)
    (hall : ∀ str, icalText cfg (dataFile .bits64) stamps nowFrom nowTo (isoDate y1 m1 d1) (isoDate y2 m2 d2) = some str →
      (utf8 str).length ≤ sys.sizes.length) :
    ((Command.ical stamps).run cfg (dataFile .bits64) nowFrom nowTo ⟨isoDate y1 m1 d1, isoDate y2 m2 d2, output⟩ sys).exit = 0 := by
  have hyear1 : (⟨first * nsPerDay, 0⟩ : Time).year = y1 := (inYear_day _ _).1 ⟨_, _, h1⟩
  have hyear2 : (⟨last * nsPerDay, 0⟩ : Time).year = y2 := (inYear_day _ _).1 ⟨_, _, h2⟩
  have hle : y1 ≤ y2 := by have := year_mono h12; omega
  exact c72_ical_ends stamps ⟨isoDate y1 m1 d1, isoDate y2 m2 d2, output⟩ (asks_date (by omega) h1 nowFrom 1 1)
    (asks_date (by omega) h2 nowTo 12 31) sys fun _ => ⟨hopen, hall⟩

/-- C72: ical for July 2016 with the official exceptions: the file holds a calendar with the uposatha and Āsāḷha Pūjā on the 19th and the
half moon on the 27th. -/
example (w : World) : ∃ (sys : System) (str : List Char) (cal : Calendar),
    let r := (Command.ical demoStamps).run .official (dataFile .bits64) 0 0 ⟨"2016-07-01", "2016-07-31", "out.ics"⟩ sys
    r.exit = 0 ∧ (w.after r.effects).files "out.ics" = some (utf8 str) ∧ readIcs str = some cal ∧
    (∃ p ∈ cal.events, Almanac.WholeDay p 736163 "Full Moon - 15 day Gimha 8/8") ∧
    (∃ p ∈ cal.events, Almanac.WholeDay p 736163 "Āsāḷha Pūjā") ∧ (∃ p ∈ cal.events, Almanac.WholeDay p 736171 "Waning Moon") := by
  have d1 : IsDate ((736145 : Nat) : Int) ((2016 : Nat) : Int) ((7 : Nat) : Int) ((1 : Nat) : Int) := by
    rw [show ((736145 : Nat) : Int) = (date 2016 7 1 0 0).day by decide +kernel]
    exact (date_day (y := 2016) (m := 7) (d := 1) (by decide) (by decide) (by decide) (by decide)).1
  have d2 : IsDate ((736175 : Nat) : Int) ((2016 : Nat) : Int) ((7 : Nat) : Int) ((31 : Nat) : Int) := by
    rw [show ((736175 : Nat) : Int) = (date 2016 7 31 0 0).day by decide +kernel]
    exact (date_day (y := 2016) (m := 7) (d := 31) (by decide) (by decide) (by decide) (by decide)).1
  have e1 : "2016-07-01" = isoDate 2016 7 1 := by decide +kernel
  have e2 : "2016-07-31" = isoDate 2016 7 31 := by decide +kernel
  rw [e1, e2]
  obtain ⟨kattika, hk, -⟩ := c72_exists_unique Config.official.table
  obtain ⟨sizes, hsz⟩ := option_bound (icalText .official (dataFile .bits64) demoStamps 0 0 (isoDate 2016 7 1) (isoDate 2016 7 31)) fun str => (utf8 str).length
  let sys : System := ⟨false, List.replicate sizes 1, 0, ""⟩
  have hexit := c72_ical_exit (cfg := .official) (by decide) d1 d2 (by decide) (nowFrom := 0) (nowTo := 0) demoStamps (output := "out.ics")
    sys rfl (by intro str h; simpa [sys] using hsz str h)
  obtain ⟨str, cal, h1, h2, h3⟩ := c72_ical (Or.inr rfl) hk (by decide) (by decide) d1 d2 (by decide) demoStamps demoStamps_good (by decide) sys w _ rfl hexit
  have hu : Almanac.IsUposatha Config.official.table kattika asalha2016 := by
    have hkind : Almanac.kindOf Config.official.table 2016 = .extraDay := by decide +kernel
    refine ⟨2016, { asalha2016 with day := 237, year := 0 }, ?_, ?_⟩
    · rw [hkind]; decide +kernel
    · rw [kattika_2016 hk]; rfl
  refine ⟨sys, str, cal, hexit, h1, h2, ?_, ?_, ?_⟩
  · exact h3.all 736163 _ (.inl ⟨asalha2016, hu, rfl, by decide +kernel⟩) (by decide) (by decide)
  · exact h3.all 736163 _ (.inr (.inr ⟨asalha2016, hu, .inr (.inr (.inl ⟨rfl, rfl, rfl⟩))⟩)) (by decide) (by decide)
  · exact h3.all 736171 _ (.inr (.inl ⟨asalha2016, hu, rfl, rfl, by rintro ⟨h, -⟩; revert h; decide⟩)) (by decide) (by decide)

/-- C72: ical without any flag in the year 2016: the calendar printed shows Āsāḷha Pūjā on 19 July. -/
example (w : World) (sys : System) : ∃ str cal,
    let r := (Command.ical demoStamps).run .default (dataFile .bits64) 2016 2016 ⟨"", "", ""⟩ sys
    r.exit = 0 ∧ (w.after r.effects).stdout = w.stdout ++ (utf8 str).take sys.printed ∧ readIcs str = some cal ∧
    ∃ p ∈ cal.events, Almanac.WholeDay p 736163 "Āsāḷha Pūjā" := by
  have d1 : IsDate ((735963 : Nat) : Int) (2016 : Int) 1 1 := by
    rw [show ((735963 : Nat) : Int) = (date 2016 1 1 0 0).day by decide +kernel]
    exact (date_day (y := 2016) (m := 1) (d := 1) (by decide) (by decide) (by decide) (by decide)).1
  have d2 : IsDate ((736328 : Nat) : Int) (2016 : Int) 12 31 := by
    rw [show ((736328 : Nat) : Int) = (date 2016 12 31 0 0).day by decide +kernel]
    exact (date_day (y := 2016) (m := 12) (d := 31) (by decide) (by decide) (by decide) (by decide)).1
  obtain ⟨kattika, hk, -⟩ := c72_exists_unique Config.default.table
  have hexit := c72_ical_ends (cfg := .default) demoStamps (nowFrom := 2016) (nowTo := 2016) ⟨"", "", ""⟩ (.inl ⟨rfl, d1⟩) (.inl ⟨rfl, d2⟩)
    sys (by simp)
  obtain ⟨str, cal, h1, h2, -, h4⟩ := c72_ical_flags demoStamps (nowFrom := 2016) (nowTo := 2016) ⟨"", "", ""⟩ (.inl ⟨rfl, d1⟩)
    (.inl ⟨rfl, d2⟩) (Or.inl rfl) hk ⟨_, _, d1⟩ ⟨_, _, d2⟩ (by decide) (by decide) demoStamps_good sys w _ rfl hexit
  have hu : Almanac.IsUposatha Config.default.table kattika asalha2016 := by
    have hkind : Almanac.kindOf Config.default.table 2016 = .extraDay := by decide +kernel
    refine ⟨2016, { asalha2016 with day := 237, year := 0 }, ?_, ?_⟩
    · rw [hkind]; decide +kernel
    · rw [kattika_2016 hk]; rfl
  exact ⟨str, cal, hexit, (h4 rfl).2, h1,
    h2.all 736163 _ (.inr (.inr ⟨asalha2016, hu, .inr (.inr (.inl ⟨rfl, rfl, rfl⟩))⟩)) (by decide) (by decide)⟩

end Verif.Props
