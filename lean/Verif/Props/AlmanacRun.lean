import Verif.Props.AlmanacText
import Verif.Props.LastDay
import Verif.Props.UnmarshalData
/-
C72: the file written by caldays shows the almanac.
-/
set_option autoImplicit false

namespace Verif.Props
open Verif.Go Verif.Model Verif.Model.Unmarshal Verif.Spec Verif.Lemmas

/-! ### The command -/

theorem parse_isoDate {y m d : Nat} {n : Int} (hy : y ≤ 9999) (h : IsDate n y m d) :
    parseDate (isoDate y m d) = some ⟨n * nsPerDay, 0⟩ ∧ isoDate y m d ≠ "" := by
  have h' := h
  obtain ⟨s, -, -, d1, d2, m1, m2⟩ := h'
  have hp : parseDate (isoDate y m d) = some ⟨n * nsPerDay, 0⟩ := by
    rw [c42_parse]
    refine ⟨y, m, d, hy, by omega, by omega, by omega, d2, rfl, by rw [day_midnight]; exact h, ?_, rfl⟩
    unfold Time.sinceMidnight nsPerDay; simp
  refine ⟨hp, ?_⟩
  intro he
  have := congrArg String.toList he
  unfold isoDate at this
  simp at this

/-- The range of a command. -/
theorem asks_range {nowFrom nowTo first last : Int} {f t : String} (hf : Almanac.Asks f nowFrom 1 1 first) (ht : Almanac.Asks t nowTo 12 31 last) :
    cliInit nowFrom nowTo f t = some (⟨first * nsPerDay, 0⟩, ⟨last * nsPerDay, 0⟩) := by
  have mid : ∀ d : Int, (⟨d * nsPerDay, 0⟩ : Time).sinceMidnight = 0 := by
    intro d; unfold Time.sinceMidnight nsPerDay; simp
  rw [c42_range]
  constructor
  · rcases hf with ⟨rfl, h⟩ | ⟨y, m, d, hy, rfl, h⟩
    · rw [if_pos rfl, day_midnight]; exact ⟨h, mid _, rfl⟩
    · rw [if_neg (parse_isoDate hy h).2]; exact (parse_isoDate hy h).1
  · rcases ht with ⟨rfl, h⟩ | ⟨y, m, d, hy, rfl, h⟩
    · rw [if_pos rfl, day_midnight]; exact ⟨h, mid _, rfl⟩
    · rw [if_neg (parse_isoDate hy h).2]; exact (parse_isoDate hy h).1

theorem asks_date {y m d : Nat} {date : Int} (hy : y ≤ 9999) (h : IsDate date y m d) (now m' d' : Int) :
    Almanac.Asks (isoDate y m d) now m' d' date := .inr ⟨y, m, d, hy, rfl, h⟩

theorem output_exit (sys : System) {path : String} (str ending : List Char) (ho : path ≠ "") (hopen : sys.openFails = false)
    (hall : (utf8 str).length ≤ sys.sizes.length) : (output sys path str ending).exit = 0 := by
  have hw : ∀ (sizes : List Nat) (x : List UInt8), x.length ≤ sizes.length → (writes sizes x).2 = true := by
    intro sizes
    induction sizes with
    | nil => intro x hx; cases x with
      | nil => rfl
      | cons _ _ => simp at hx
    | cons n sizes ih =>
      intro x hx
      cases x with
      | nil => rfl
      | cons c x =>
        simp only [writes]
        apply ih
        simp only [List.length_cons, List.length_drop] at hx ⊢
        omega
  have hp : 0 < path.length := by
    rw [Nat.pos_iff_ne_zero, ne_eq, String.length_eq_zero_iff]; exact ho
  unfold output
  simp [hp, hopen, hw _ _ hall]

/-- The astronomical moons in the text of caldays. -/
def AstroShow (first last : Int) (j : Json) : Prop :=
  (∀ day x, Almanac.Entry j "AstroMoon" day x → (∃ y, 1900 ≤ y ∧ Almanac.InYear first y) ∧
    ∃ m ∈ embeddedMoons, m.Date.day = day ∧ first ≤ day ∧ day < last ∧ IsAstroMoon x m) ∧
  ((∃ y, 1900 ≤ y ∧ Almanac.InYear first y) → ∀ m ∈ embeddedMoons, first ≤ m.Date.day → m.Date.day < last →
    ∃ x, Almanac.Entry j "AstroMoon" m.Date.day x ∧ IsAstroMoon x m)

/-- What the text of caldays shows. -/
def CalDaysShow (t : Int → Option Bool) (kattika : Int → Int) (first last : Int) (j : Json) : Prop :=
  Almanac.Shows t kattika first last j ∧ AstroShow first last j

/-- A run of caldays with exit code 0 has written JSON with the days found and their astronomical moons. -/
theorem caldays_written {cfg : Config} {first last : Int} {nowFrom nowTo : Int} (flags : Flags)
    (hf : Almanac.Asks flags.fromDate nowFrom 1 1 first) (ht : Almanac.Asks flags.toDate nowTo 12 31 last)
    (sys : System) (w : World) (r : Run) (hr : r = Command.caldays.run cfg (dataFile .bits64) nowFrom nowTo flags sys) (he : r.exit = 0) :
    ∃ str j l, readJson str = some j ∧ getCalDays cfg embeddedFiles ⟨first * nsPerDay, 0⟩ ⟨last * nsPerDay, 0⟩ = some l ∧
      (IsYears j fun y => l.filter fun c => decide (c.Date.year = y)) ∧ AstroShow first last j ∧
      (flags.output ≠ "" → (w.after r.effects).files flags.output = some (utf8 str) ∧ (w.after r.effects).stdout = w.stdout) ∧
      (flags.output = "" → (w.after r.effects).files = w.files ∧
        (w.after r.effects).stdout = w.stdout ++ (utf8 (str ++ ['\n'])).take sys.printed) := by
  subst hr
  obtain ⟨str, hst, ho1, ho2⟩ := c66_success .caldays cfg (dataFile .bits64) nowFrom nowTo flags sys w he
  have hi := asks_range hf ht
  generalize hyear1 : (⟨first * nsPerDay, 0⟩ : Time).year = y1
  have hnew : (∃ y, 1900 ≤ y ∧ Almanac.InYear first y) ↔ 1900 ≤ y1 := by
    constructor
    · rintro ⟨y, hy, h⟩
      have := (inYear_day _ _).1 h
      omega
    · intro h; exact ⟨y1, h, (inYear_day _ _).2 hyear1⟩
  have hst : calDaysText cfg embeddedFiles nowFrom nowTo flags.fromDate flags.toDate = some str := by
    rw [← (c61_data .bits64)]; exact hst
  obtain ⟨l, hl⟩ := Option.ne_none_iff_exists'.1 (c53_never_panics cfg ⟨first * nsPerDay, 0⟩ ⟨last * nsPerDay, 0⟩).2
  obtain ⟨fields, hj, -, -, hyears⟩ := (c57_text cfg _ nowFrom nowTo _ _ _ _ hi l hl).2 str hst
  refine ⟨str, .obj fields, l, hj, hl, hyears, ⟨?_, ?_⟩, ho1, ho2⟩
  · intro day x hx
    rw [hnew]
    obtain ⟨c, hc, rfl, m, hm, hi'⟩ := entry_day (is := IsAstroMoon) (sel := (·.AstroMoon)) hyears (fun _ _ h => h.astro) hx
    have hd := (own_day hl hc).2.2.2 m hm
    by_cases hn : 1900 ≤ y1
    · have := (c56_last_day cfg nowFrom nowTo _ _ _ _ hi (by omega) l hl m).1 ⟨c, hc, hm, hd⟩
      rw [day_midnight, day_midnight, ← hd] at this
      exact ⟨hn, m, this.1, hd.symm, this.2.1, this.2.2, hi'⟩
    · exfalso
      obtain ⟨moons, hmo, hh, -, -⟩ := c27_content _ _ _ _ _ hl
      rw [c46_none_outside _ c53_years _ _ (Or.inl (by omega))] at hmo
      cases hmo
      rw [(hh c hc).astro, Option.mem_toList] at hm
      have hm := List.mem_of_getLast? hm
      unfold astrosOf at hm
      rw [List.mem_filterMap] at hm
      obtain ⟨e, he', hx'⟩ := hm
      unfold onDay at he'
      have he' := (List.mem_filter.1 he').1
      simp only [List.map_nil, List.nil_append] at he'
      obtain ⟨y, -, -, hg, -⟩ := mem_calendarEventsIn.1 he'
      cases e <;> simp at hx'
      exact (c22_in_year _ _ _ hg).2.1 _ rfl
  · intro hn m hm f1 f2
    rw [hnew] at hn
    obtain ⟨c, hc, hmc, hd⟩ := (c56_last_day cfg nowFrom nowTo _ _ _ _ hi (by omega) l hl m).2
      ⟨hm, by rw [day_midnight]; exact f1, by rw [day_midnight]; exact f2⟩
    obtain ⟨x, hx, hi'⟩ := day_entry (is := IsAstroMoon) (sel := (·.AstroMoon)) hyears (fun _ _ h => h.astro) hc hmc
    rw [hd] at hx
    exact ⟨x, hx, hi'⟩

section
variable {cfg : Config} (hs : Shipped cfg) {kattika : Int → Int} (hk : Almanac.Kattikas cfg.table kattika) {first last y1 y2 : Int}
  (h1 : Almanac.InYear first y1) (h2 : Almanac.InYear last y2) (hy1 : 1290 ≤ y1) (hy2 : y2 ≤ 4115) {nowFrom nowTo : Int} (flags : Flags)
  (hf : Almanac.Asks flags.fromDate nowFrom 1 1 first) (ht : Almanac.Asks flags.toDate nowTo 12 31 last)
include hs hk h1 h2 hy1 hy2 hf ht

/-- C72: with the settings of the library as shipped and any flags (dates left out are the first and the last day of the clock's year):
if caldays works on days of the years 1290 to 4115, exit code 0 means that the output file holds, or standard output was sent, JSON
showing exactly the almanac between the two dates. The astronomical moons in it are those of the data from the first day to the day
before the last; there are none if the range starts before 1900. -/
theorem c72_caldays_flags (sys : System) (w : World) (r : Run) (hr : r = Command.caldays.run cfg (dataFile .bits64) nowFrom nowTo flags sys)
    (he : r.exit = 0) :
    ∃ str j, readJson str = some j ∧ CalDaysShow cfg.table kattika first last j ∧
      (flags.output ≠ "" → (w.after r.effects).files flags.output = some (utf8 str) ∧ (w.after r.effects).stdout = w.stdout) ∧
      (flags.output = "" → (w.after r.effects).files = w.files ∧
        (w.after r.effects).stdout = w.stdout ++ (utf8 (str ++ ['\n'])).take sys.printed) := by
  obtain ⟨str, j, l, hj, hl, hyears, ha, ho1, ho2⟩ := caldays_written flags hf ht sys w r hr he
  have hyear1 : (⟨first * nsPerDay, 0⟩ : Time).year = y1 := (inYear_day _ _).1 h1
  have hyear2 : (⟨last * nsPerDay, 0⟩ : Time).year = y2 := (inYear_day _ _).1 h2
  exact ⟨str, j, hj, ⟨c72_text_steady (shipped_steady74 hs) (by omega) hk embeddedFiles first last (by omega) (by omega) l hl _ hyears, ha⟩,
    ho1, ho2⟩

end

section
variable {cfg : Config} {first last y1 y2 : Int} (h1 : Almanac.InYear first y1) (h2 : Almanac.InYear last y2) (hy1 : 0 ≤ y1)
  (hy2 : y2 ≤ 9999) {nowFrom nowTo : Int} (flags : Flags) (hf : Almanac.Asks flags.fromDate nowFrom 1 1 first)
  (ht : Almanac.Asks flags.toDate nowTo 12 31 last)
include h1 h2 hy1 hy2 hf ht

/-- C72: a run of caldays on days of the years 0 to 9999 has exit code 0 if it prints, or if the system opens the file and takes all
writes, each of at least a byte. -/
theorem c72_caldays_ends (sys : System) (hall : flags.output ≠ "" → sys.openFails = false ∧
      ∀ str, calDaysText cfg (dataFile .bits64) nowFrom nowTo flags.fromDate flags.toDate = some str → (utf8 str).length ≤ sys.sizes.length) :
    (Command.caldays.run cfg (dataFile .bits64) nowFrom nowTo flags sys).exit = 0 := by
  have hi := asks_range hf ht
  have hyear1 : (⟨first * nsPerDay, 0⟩ : Time).year = y1 := (inYear_day _ _).1 h1
  have hyear2 : (⟨last * nsPerDay, 0⟩ : Time).year = y2 := (inYear_day _ _).1 h2
  rw [(c61_data .bits64)] at hall ⊢
  have hw : calDaysText cfg embeddedFiles nowFrom nowTo flags.fromDate flags.toDate ≠ none := by
    obtain ⟨l, hl⟩ := Option.ne_none_iff_exists'.1 (c53_never_panics cfg ⟨first * nsPerDay, 0⟩ ⟨last * nsPerDay, 0⟩).2
    rw [ne_eq, (c57_text cfg _ nowFrom nowTo _ _ _ _ hi l hl).1]
    rintro ⟨c, hc, hn⟩
    have := c37_years cfg _ _ _ l hl rfl rfl c hc
    omega
  obtain ⟨str, hstr⟩ := Option.ne_none_iff_exists'.1 hw
  rw [(run_text .caldays cfg embeddedFiles nowFrom nowTo flags sys).1 str hstr]
  by_cases ho : flags.output = ""
  · unfold output
    rw [if_neg (by rw [ho]; decide)]
  · exact output_exit sys _ _ ho (hall ho).1 ((hall ho).2 str hstr)

end

section
variable {cfg : Config} (hs : Shipped cfg) {kattika : Int → Int} (hk : Almanac.Kattikas cfg.table kattika)
  {y1 m1 d1 y2 m2 d2 : Nat} (hy1 : 1290 ≤ y1) (hy2 : y2 ≤ 4115) {first last : Int} (h1 : IsDate first y1 m1 d1)
  (h2 : IsDate last y2 m2 d2) (h12 : first ≤ last) {nowFrom nowTo : Int}
include hs hk hy1 hy2 h1 h2 h12

/-- C72: with two dates and the name of an output file. -/
theorem c72_caldays {output : String} (ho : output ≠ "") (sys : System) (w : World) (r : Run)
    (hr : r = Command.caldays.run cfg (dataFile .bits64) nowFrom nowTo ⟨isoDate y1 m1 d1, isoDate y2 m2 d2, output⟩ sys) (he : r.exit = 0) :
    ∃ str j, (w.after r.effects).files output = some (utf8 str) ∧ readJson str = some j ∧
      Almanac.Shows cfg.table kattika first last j ∧
      (∀ day x, Almanac.Entry j "AstroMoon" day x → 1900 ≤ y1 ∧ ∃ m ∈ embeddedMoons, m.Date.day = day ∧ first ≤ day ∧ day < last ∧
        IsAstroMoon x m) ∧
      (1900 ≤ y1 → ∀ m ∈ embeddedMoons, first ≤ m.Date.day → m.Date.day < last →
        ∃ x, Almanac.Entry j "AstroMoon" m.Date.day x ∧ IsAstroMoon x m) := by
  have hyear1 : (⟨first * nsPerDay, 0⟩ : Time).year = y1 := (inYear_day _ _).1 ⟨_, _, h1⟩
  have hyear2 : (⟨last * nsPerDay, 0⟩ : Time).year = y2 := (inYear_day _ _).1 ⟨_, _, h2⟩
  have hle : y1 ≤ y2 := by have := year_mono h12; omega
  obtain ⟨str, j, hj, ⟨g1, g2, g3⟩, ho1, -⟩ := c72_caldays_flags hs hk ⟨_, _, h1⟩ ⟨_, _, h2⟩ (by omega) (by omega)
    ⟨isoDate y1 m1 d1, isoDate y2 m2 d2, output⟩ (asks_date (by omega) h1 nowFrom 1 1) (asks_date (by omega) h2 nowTo 12 31) sys w r hr he
  refine ⟨str, j, (ho1 ho).1, hj, g1, fun day x hx => ?_, fun hn => g3 ⟨y1, by omega, _, _, h1⟩⟩
  obtain ⟨⟨y, hy, hyear⟩, m⟩ := g2 day x hx
  have := (inYear_day _ _).1 hyear
  exact ⟨by omega, m⟩

omit hs hk in
/-- C72: such a run has exit code 0 if the system opens the file and takes all writes, each of at least a byte. -/
theorem c72_caldays_exit {output : String} (sys : System) (hopen : sys.openFails = false)
    (hall : ∀ str, calDaysText cfg (dataFile .bits64) nowFrom nowTo (isoDate y1 m1 d1) (isoDate y2 m2 d2) = some str →
      (utf8 str).length ≤ sys.sizes.length) :
    (Command.caldays.run cfg (dataFile .bits64) nowFrom nowTo ⟨isoDate y1 m1 d1, isoDate y2 m2 d2, output⟩ sys).exit = 0 := by
  have hyear1 : (⟨first * nsPerDay, 0⟩ : Time).year = y1 := (inYear_day _ _).1 ⟨_, _, h1⟩
  have hyear2 : (⟨last * nsPerDay, 0⟩ : Time).year = y2 := (inYear_day _ _).1 ⟨_, _, h2⟩
  have hle : y1 ≤ y2 := by have := year_mono h12; omega
  exact c72_caldays_ends (y1 := y1) (y2 := y2) ⟨_, _, h1⟩ ⟨_, _, h2⟩ (by omega) (by omega)
    ⟨isoDate y1 m1 d1, isoDate y2 m2 d2, output⟩ (asks_date (by omega) h1 nowFrom 1 1) (asks_date (by omega) h2 nowTo 12 31) sys
    fun _ => ⟨hopen, hall⟩

end

theorem option_bound {α : Type} (o : Option α) (f : α → Nat) : ∃ n, ∀ x, o = some x → f x ≤ n := by
  cases o with
  | none => exact ⟨0, by simp⟩
  | some x => exact ⟨f x, by simp⟩

/-- C72: caldays for July 2016 with the official exceptions. There is a system that takes the whole text; then the file holds JSON with
Āsāḷha Pūjā on the 19th, the uposatha of that day and the half moon on the 27th. -/
example (w : World) : ∃ (sys : System) (str : List Char) (j : Json),
    let r := Command.caldays.run .official (dataFile .bits64) 0 0 ⟨"2016-07-01", "2016-07-31", "out.json"⟩ sys
    r.exit = 0 ∧ (w.after r.effects).files "out.json" = some (utf8 str) ∧ readJson str = some j ∧
    (∃ x, Almanac.Entry j "MajorEvents" 736163 x ∧ Almanac.ShowsFestival x 736163 "Āsāḷha Pūjā") ∧
    (∃ x, Almanac.Entry j "UposathaMoon" 736163 x ∧ Almanac.ShowsUposatha x asalha2016) ∧
    (∃ x, Almanac.Entry j "HalfMoon" 736171 x ∧ Almanac.ShowsHalf x 736171 false) := by
  have d1 : IsDate ((736145 : Nat) : Int) ((2016 : Nat) : Int) ((7 : Nat) : Int) ((1 : Nat) : Int) := by
    rw [show ((736145 : Nat) : Int) = (date 2016 7 1 0 0).day by decide +kernel]
    exact (date_day (y := 2016) (m := 7) (d := 1) (by decide) (by decide) (by decide) (by decide)).1
  have d2 : IsDate ((736175 : Nat) : Int) ((2016 : Nat) : Int) ((7 : Nat) : Int) ((31 : Nat) : Int) := by
    rw [show ((736175 : Nat) : Int) = (date 2016 7 31 0 0).day by decide +kernel]
    exact (date_day (y := 2016) (m := 7) (d := 31) (by decide) (by decide) (by decide) (by decide)).1
  have e1 : "2016-07-01" = isoDate 2016 7 1 := by decide +kernel
  have e2 : "2016-07-31" = isoDate 2016 7 31 := by decide +kernel
  rw [e1, e2]
  obtain ⟨kattika, hk, -⟩ := c72_exists_unique Config.official.table
  obtain ⟨sizes, hsz⟩ := option_bound (calDaysText .official (dataFile .bits64) 0 0 (isoDate 2016 7 1) (isoDate 2016 7 31)) fun str => (utf8 str).length
  let sys : System := ⟨false, List.replicate sizes 1, 0, ""⟩
  have hexit := c72_caldays_exit (cfg := .official) (by decide) (by decide) d1 d2 (by decide) (nowFrom := 0) (nowTo := 0)
    (output := "out.json") sys rfl (by intro str h; simpa [sys] using hsz str h)
  obtain ⟨str, j, h1, h2, h3, -⟩ := c72_caldays (Or.inr rfl) hk (by decide) (by decide) d1 d2 (by decide) (by decide) sys w _ rfl hexit
  have hu : Almanac.IsUposatha Config.official.table kattika asalha2016 := by
    have hkind : Almanac.kindOf Config.official.table 2016 = .extraDay := by decide +kernel
    refine ⟨2016, { asalha2016 with day := 237, year := 0 }, ?_, ?_⟩
    · rw [hkind]; decide +kernel
    · rw [kattika_2016 hk]; rfl
  refine ⟨sys, str, j, hexit, h1, h2, ?_, ?_, ?_⟩
  · exact h3.festivalAll 736163 _ ⟨asalha2016, hu, .inr (.inr (.inl ⟨rfl, rfl, rfl⟩))⟩ (by decide) (by decide)
  · exact h3.uposathaAll asalha2016 hu (by decide) (by decide)
  · exact (h3.halfAll asalha2016 hu (by decide) (by decide)).2 (by rintro ⟨h, -⟩; revert h; decide)

/-- C72: caldays without any flag in the year 2016: the JSON printed shows Āsāḷha Pūjā on 19 July. -/
example (w : World) (sys : System) : ∃ str j,
    let r := Command.caldays.run .default (dataFile .bits64) 2016 2016 ⟨"", "", ""⟩ sys
    r.exit = 0 ∧ (w.after r.effects).files = w.files ∧ (w.after r.effects).stdout = w.stdout ++ (utf8 (str ++ ['\n'])).take sys.printed ∧
    readJson str = some j ∧
    ∃ x, Almanac.Entry j "MajorEvents" 736163 x ∧ Almanac.ShowsFestival x 736163 "Āsāḷha Pūjā" := by
  have d1 : IsDate ((735963 : Nat) : Int) (2016 : Int) 1 1 := by
    rw [show ((735963 : Nat) : Int) = (date 2016 1 1 0 0).day by decide +kernel]
    exact (date_day (y := 2016) (m := 1) (d := 1) (by decide) (by decide) (by decide) (by decide)).1
  have d2 : IsDate ((736328 : Nat) : Int) (2016 : Int) 12 31 := by
    rw [show ((736328 : Nat) : Int) = (date 2016 12 31 0 0).day by decide +kernel]
    exact (date_day (y := 2016) (m := 12) (d := 31) (by decide) (by decide) (by decide) (by decide)).1
  obtain ⟨kattika, hk, -⟩ := c72_exists_unique Config.default.table
  have hexit := c72_caldays_ends (cfg := .default) ⟨_, _, d1⟩ ⟨_, _, d2⟩ (by decide) (by decide) (nowFrom := 2016) (nowTo := 2016) ⟨"", "", ""⟩
    (.inl ⟨rfl, d1⟩) (.inl ⟨rfl, d2⟩) sys (by simp)
  obtain ⟨str, j, h1, h2, -, h4⟩ := c72_caldays_flags (Or.inl rfl) hk ⟨_, _, d1⟩ ⟨_, _, d2⟩ (by decide) (by decide) (nowFrom := 2016)
    (nowTo := 2016) ⟨"", "", ""⟩ (.inl ⟨rfl, d1⟩) (.inl ⟨rfl, d2⟩) sys w _ rfl hexit
  have hu : Almanac.IsUposatha Config.default.table kattika asalha2016 := by
    have hkind : Almanac.kindOf Config.default.table 2016 = .extraDay := by decide +kernel
    refine ⟨2016, { asalha2016 with day := 237, year := 0 }, ?_, ?_⟩
    · rw [hkind]; decide +kernel
    · rw [kattika_2016 hk]; rfl
  refine ⟨str, j, hexit, (h4 rfl).1, (h4 rfl).2, h1,
    h2.1.festivalAll 736163 _ ⟨asalha2016, hu, .inr (.inr (.inl ⟨rfl, rfl, rfl⟩))⟩ (by decide) (by decide)⟩

end Verif.Props
