import Verif.Spec.ExitCode
import Verif.Props.CommandLine
/-
C66 and C78: the exit code of caldays and ical.
-/
set_option autoImplicit false

namespace Verif.Props
open Verif.Go Verif.Model Verif.Model.Unmarshal Verif.Spec Verif.Lemmas
open Verif.Spec.CommandLine (Options Says Dashed)

theorem writes_all (sizes : List Nat) (x : List UInt8) : (writes sizes x).2 = true ↔ x.length ≤ (sizes.map (· + 1)).sum := by
  induction sizes generalizing x with
  | nil => cases x <;> simp [writes]
  | cons n sizes ih =>
    cases x with
    | nil => simp [writes]
    | cons c x =>
      simp only [writes, List.map_cons, List.sum_cons, List.length_cons]
      rw [ih, List.length_drop]
      omega

theorem output_code (sys : System) (path : String) (str ending : List Char) :
    ((output sys path str ending).exit = 0 ∨ (output sys path str ending).exit = 1) ∧
    ((output sys path str ending).exit = 0 ↔ path = "" ∨ Takes sys (utf8 str).length) := by
  unfold output Takes
  by_cases hp : path = ""
  · subst hp; simp
  · have : 0 < path.length := by rw [Nat.pos_iff_ne_zero, ne_eq, String.length_eq_zero_iff]; exact hp
    rw [if_pos this]
    by_cases ho : sys.openFails = true
    · simp [hp, ho]
    · rw [if_neg ho]
      rw [← writes_all]
      simp only [Bool.not_eq_true] at ho
      cases hw : (writes sys.sizes (utf8 str)).2 <;> simp [hp, ho, hw]

theorem cliInit_some (nowFrom nowTo : Int) (f t : String) :
    (∃ p, cliInit nowFrom nowTo f t = some p) ↔ GoodDate f ∧ GoodDate t := by
  have key : ∀ (s : String) (y m d : Int), 1 ≤ m → m ≤ 12 → 1 ≤ d → d ≤ monthDays y m →
      ((∃ c : Time, if s = "" then IsDate c.day y m d ∧ c.sinceMidnight = 0 ∧ c.offset = 0 else parseDate s = some c) ↔ GoodDate s) := by
    intro s y m d h1 h2 h3 h4
    unfold GoodDate
    by_cases hs : s = ""
    · simp only [hs, true_or, iff_true]
      have w := date_day (y := y) (m := m) (d := d) h1 h2 h3 h4
      exact ⟨_, w.1, w.2, rfl⟩
    · simp only [hs, false_or]
      constructor
      · rintro ⟨c, hc⟩
        obtain ⟨y', m', d', g1, -, -, -, -, g2, g3, -⟩ := (c42_parse _ _).1 hc
        exact ⟨_, y', m', d', g1, g2, g3⟩
      · rintro ⟨day, y', m', d', g1, g2, s', gs⟩
        obtain ⟨-, -, k1, k2, k3, k4⟩ := gs
        have w := date_day (y := y') (m := m') (d := d') k3 k4 k1 k2
        exact ⟨_, (c42_parse _ _).2 ⟨y', m', d', g1, by omega, by omega, by omega, k2, g2, w.1, w.2, rfl⟩⟩
  rw [← key f nowFrom 1 1 (by decide) (by decide) (by decide) (by unfold monthDays; simp),
    ← key t nowTo 12 31 (by decide) (by decide) (by decide) (by unfold monthDays; simp)]
  constructor
  · rintro ⟨⟨a, b⟩, h⟩
    exact ⟨⟨a, ((c42_range _ _ _ _ _ _).1 h).1⟩, ⟨b, ((c42_range _ _ _ _ _ _).1 h).2⟩⟩
  · rintro ⟨⟨a, ha⟩, ⟨b, hb⟩⟩
    exact ⟨(a, b), (c42_range _ _ _ _ _ _).2 ⟨ha, hb⟩⟩

/-- The years of the range are those JSON can hold if the clock's are. -/
theorem range_years {nowFrom nowTo : Int} {f t : String} {a b : Time} (hi : cliInit nowFrom nowTo f t = some (a, b)) (h0 : 0 ≤ nowFrom)
    (h9 : nowTo ≤ 9999) : 0 ≤ a.year ∧ b.year ≤ 9999 ∧ a.offset = 0 ∧ b.offset = 0 := by
  obtain ⟨ha, hb⟩ := (c42_range _ _ _ _ _ _).1 hi
  have e : 0 ≤ a.year ∧ a.offset = 0 := by
    split at ha
    · exact ⟨by rw [← (isDate_unique ha.1 (civil_spec _)).1]; exact h0, ha.2.2⟩
    · obtain ⟨y, _, _, h1, _, _, _, _, _, hd, _, ho⟩ := (c42_parse _ _).1 ha
      have := (isDate_unique hd (civil_spec _)).1
      exact ⟨by omega, ho⟩
  have e' : b.year ≤ 9999 ∧ b.offset = 0 := by
    split at hb
    · exact ⟨by rw [← (isDate_unique hb.1 (civil_spec _)).1]; exact h9, hb.2.2⟩
    · obtain ⟨y, _, _, h1, _, _, _, _, _, hd, _, ho⟩ := (c42_parse _ _).1 hb
      have := (isDate_unique hd (civil_spec _)).1
      exact ⟨by omega, ho⟩
  exact ⟨e.1, e'.1, e.2, e'.2⟩

theorem text_some (c : Command) (cfg : Config) (nowFrom nowTo : Int) (flags : Flags) (h0 : 0 ≤ nowFrom) (h9 : nowTo ≤ 9999) :
    (∃ str, c.text cfg embeddedFiles nowFrom nowTo flags = some str) ↔ GoodDate flags.fromDate ∧ GoodDate flags.toDate := by
  rw [← cliInit_some nowFrom nowTo]
  cases hi : cliInit nowFrom nowTo flags.fromDate flags.toDate with
  | none =>
    cases c <;> simp [Command.text, calDaysText, actionCalDays, icalText, actionIcal, hi]
  | some p =>
    obtain ⟨a, b⟩ := p
    simp only [Option.some.injEq, exists_eq', iff_true]
    obtain ⟨y0, y9, oa, ob⟩ := range_years hi h0 h9
    obtain ⟨l, hl⟩ := Option.ne_none_iff_exists'.1 (c53_never_panics cfg a b).2
    cases c with
    | caldays =>
      refine Option.ne_none_iff_exists'.1 fun hn => ?_
      obtain ⟨c, hc, hn⟩ := (c57_text cfg _ nowFrom nowTo _ _ a b hi l hl).1.1 hn
      have := c37_years _ _ _ _ _ hl oa ob c hc
      exact hn ⟨by omega, by omega⟩
    | ical stamps => simp [Command.text, icalText, actionIcal, hi, hl]

/-- C66: whatever the data files are, the exit code is 0, 1 or 2, and it is 2 exactly if the options are good and looking up the days panics. -/
theorem c66_codes (c : Command) (cfg : Config) (files : Int → AstroFile) (nowFrom nowTo : Int) (flags : Flags) (sys : System) (r : Run)
    (hr : r = c.run cfg files nowFrom nowTo flags sys) : (r.exit = 0 ∨ r.exit = 1 ∨ r.exit = 2) ∧
    (r.exit = 2 ↔ ∃ a b, cliInit nowFrom nowTo flags.fromDate flags.toDate = some (a, b) ∧ getCalDays cfg files a b = none) := by
  have out := fun str ending => (output_code sys flags.output str ending).1
  have two : ∀ str ending, (output sys flags.output str ending).exit ≠ 2 := fun str ending => by
    rcases out str ending with h | h <;> rw [h] <;> decide
  have zero : ∀ str ending, (output sys flags.output str ending).exit = 0 ∨ (output sys flags.output str ending).exit = 1 ∨
      (output sys flags.output str ending).exit = 2 := fun str ending => (out str ending).imp_right .inl
  cases hi : cliInit nowFrom nowTo flags.fromDate flags.toDate with
  | none => cases c <;> simp [hr, Command.run, runCalDays, runIcal, hi]
  | some p =>
    obtain ⟨a, b⟩ := p
    simp only [Option.some.injEq, Prod.mk.injEq]
    cases hl : getCalDays cfg files a b with
    | none =>
      have : r.exit = 2 := by cases c <;> simp [hr, Command.run, runCalDays, runIcal, hi, hl]
      exact ⟨.inr (.inr this), iff_of_true this ⟨a, b, ⟨rfl, rfl⟩, hl⟩⟩
    | some l =>
      have no : ¬ ∃ a' b', (a = a' ∧ b = b') ∧ getCalDays cfg files a' b' = none := by
        rintro ⟨_, _, ⟨rfl, rfl⟩, h⟩; rw [hl] at h; cases h
      cases c with
      | caldays =>
        simp only [Command.run, runCalDays, hi, hl] at hr
        cases hg : groupsJson (daysByYear l) with
        | none =>
          rw [hg] at hr
          exact ⟨.inr (.inl (by rw [hr])), iff_of_false (by rw [hr]; simp) no⟩
        | some j =>
          rw [hg] at hr
          exact ⟨by rw [hr]; exact zero _ _, iff_of_false (by rw [hr]; exact two _ _) no⟩
      | ical stamps =>
        simp only [Command.run, runIcal, hi, hl] at hr
        exact ⟨by rw [hr]; exact zero _ _, iff_of_false (by rw [hr]; exact two _ _) no⟩

/-- C66: a data file that cannot be decoded: exit code 2 for both commands. -/
example (sys : System) : (Command.caldays.run .default (fun _ => .undecodable) 2026 2026 ⟨"", "", ""⟩ sys).exit = 2 ∧
    ((Command.ical demoStamps).run .default (fun _ => .undecodable) 2026 2026 ⟨"", "", ""⟩ sys).exit = 2 := by
  have h : getCalDays .default (fun _ => .undecodable) (date 2026 1 1 0 0) (date 2026 12 31 0 0) = none :=
    (c52_calendar .default _ _ _).2 ((c52_moons _ _ _).2 ⟨2026, by decide +kernel, by decide +kernel, fun z h1 h2 => by simp, .inl rfl⟩)
  exact ⟨(c66_codes .caldays _ _ _ _ _ _ _ rfl).2.2 ⟨_, _, rfl, h⟩, (c66_codes (.ical demoStamps) _ _ _ _ _ _ _ rfl).2.2 ⟨_, _, rfl, h⟩⟩

section
variable (c : Command) (cfg : Config) (nowFrom nowTo : Int) (flags : Flags) (sys : System) (h0 : 0 ≤ nowFrom) (h9 : nowTo ≤ 9999)
include h0 h9

/-- C66: with the embedded data, while the clock's year has up to four digits, the exit code is 0 or 1, and it is 0 exactly if both options
for dates are missing or give existing dates and the output goes to standard output or to a file that the system opens and that takes all
bytes. -/
theorem c66_exit (r : Run) (hr : r = c.run cfg (dataFile .bits64) nowFrom nowTo flags sys) :
    (r.exit = 0 ∨ r.exit = 1) ∧ (r.exit = 0 ↔ GoodDate flags.fromDate ∧ GoodDate flags.toDate ∧
      (flags.output = "" ∨ ∃ str, c.text cfg (dataFile .bits64) nowFrom nowTo flags = some str ∧ Takes sys (utf8 str).length)) := by
  rw [c61_data] at hr ⊢
  have ht := text_some c cfg nowFrom nowTo flags h0 h9
  cases hc : c.text cfg embeddedFiles nowFrom nowTo flags with
  | some str =>
    have := ht.1 ⟨str, hc⟩
    rw [hr, (run_text c cfg embeddedFiles nowFrom nowTo flags sys).1 str hc]
    simpa only [Option.some.injEq, exists_eq_left', this, true_and] using output_code sys flags.output str c.ending
  | none =>
    have hn : ¬ (GoodDate flags.fromDate ∧ GoodDate flags.toDate) := by rw [← ht, hc]; simp
    have h1 := ((run_text c cfg embeddedFiles nowFrom nowTo flags sys).2 hc).1
    rw [← hr] at h1
    refine ⟨.inr ?_, iff_of_false h1 (by tauto)⟩
    have hi : cliInit nowFrom nowTo flags.fromDate flags.toDate = none := by
      rw [← cliInit_some nowFrom nowTo] at hn
      exact Option.eq_none_iff_forall_ne_some.2 fun p hp => hn ⟨p, hp⟩
    rw [hr]
    cases c <;> simp [Command.run, runCalDays, runIcal, hi]

end

/-- C78: the same from the words of the command line: the exit code of `caldays` or `ical` with options is 0 or 1, and it is 0 exactly if
the dates exist and the output can be written. -/
theorem c78_exit (cli : Cli) (hk : Keeps cli.arrange) (cfg : Config) (stamps : Nat → Stamp) {nowFrom nowTo : Int} (h0 : 0 ≤ nowFrom)
    (h9 : nowTo ≤ 9999) (sys : System) {c : Command} (hu : c.Uses stamps) {words : List String} {opts : List (String × String)}
    (h : Options optionNames words opts) (hv : ∀ o ∈ opts, ¬ Dashed o.2) {f t path : String} (hf : Says opts "from" f) (ht : Says opts "to" t)
    (ho : Says opts "output" path) (r : Run) (hr : r = runMain cli cfg (dataFile .bits64) stamps nowFrom nowTo (c.name :: words) sys) :
    (r.exit = 0 ∨ r.exit = 1) ∧ (r.exit = 0 ↔ GoodDate f ∧ GoodDate t ∧
      (path = "" ∨ ∃ str, c.text cfg (dataFile .bits64) nowFrom nowTo ⟨f, t, path⟩ = some str ∧ Takes sys (utf8 str).length)) :=
  c66_exit c cfg nowFrom nowTo ⟨f, t, path⟩ sys h0 h9 r (hr.trans (c78_options cli cfg _ stamps nowFrom nowTo sys hk hu h hv hf ht ho))

/-- Enough room for any number of bytes. -/
theorem takes_replicate (n printed : Nat) (e : String) : Takes ⟨false, List.replicate n 0, printed, e⟩ n := by
  simp [Takes]

/-- C66: a leap day that exists and one that does not; a text of 1 January 2100, and a disk with room for 10 bytes. -/
example : let run := fun f t o sys => (Command.caldays.run .default (dataFile .bits64) 2026 2026 ⟨f, t, o⟩ sys).exit
    (∀ sys, run "2024-02-29" "" "" sys = 0) ∧ (∀ sys, run "2023-02-29" "" "" sys = 1) ∧ (∀ o sys, run "2024-02-29" "yesterday" o sys = 1) ∧
    (∃ sys, run "2024-02-29" "" "out.json" sys = 0) ∧ (∀ printed e, run "2100-01-01" "2100-01-06" "out.json" ⟨false, [3, 5], printed, e⟩ = 1) ∧
    ∀ sizes printed e, run "2100-01-01" "2100-01-06" "out.json" ⟨true, sizes, printed, e⟩ = 1 := by
  have key := fun f t o sys => c66_exit .caldays .default 2026 2026 ⟨f, t, o⟩ sys (by decide) (by decide) _ rfl
  have leap : GoodDate "2024-02-29" := .inr ⟨_, 2024, 2, 29, by decide, by decide +kernel,
    (date_day (y := 2024) (m := 2) (d := 29) (by decide) (by decide) (by decide) (by decide)).1⟩
  have none' : GoodDate "" := .inl rfl
  have bad : ∀ s : String, s ≠ "" → parseDate s = none → ¬ GoodDate s := by
    intro s h1 h2 h3
    have := (cliInit_some 0 0 s "").2 ⟨h3, none'⟩
    obtain ⟨⟨a, b⟩, h⟩ := this
    have := ((c42_range _ _ _ _ _ _).1 h).1
    rw [if_neg h1, h2] at this
    cases this
  have one : ∀ {r : Run}, (r.exit = 0 ∨ r.exit = 1) → r.exit ≠ 0 → r.exit = 1 := fun h h' => h.resolve_left h'
  obtain ⟨str, hstr⟩ := (text_some .caldays .default 2026 2026 ⟨"2024-02-29", "", "out.json"⟩ (by decide) (by decide)).2 ⟨leap, none'⟩
  rw [← c61_data .bits64] at hstr
  refine ⟨fun sys => (key _ _ _ sys).2.2 ⟨leap, none', .inl rfl⟩, fun sys => one (key _ _ _ sys).1 fun h => ?_,
    fun o sys => one (key _ _ _ sys).1 fun h => ?_, ⟨⟨false, List.replicate (utf8 str).length 0, 0, ""⟩, ?_⟩, fun printed e => ?_, fun sizes printed e => ?_⟩
  · exact bad _ (by decide) (by decide +kernel) ((key _ _ _ _).2.1 h).1
  · exact bad "yesterday" (by decide) (by decide +kernel) ((key _ _ _ _).2.1 h).2.1
  · exact (key _ _ _ _).2.2 ⟨leap, none', .inr ⟨str, hstr, takes_replicate _ _ _⟩⟩
  · refine one (key _ _ _ _).1 fun h => ?_
    obtain ⟨-, -, h | ⟨str, h1, -, h2⟩⟩ := (key _ _ _ _).2.1 h
    · exact absurd h (by decide)
    · rw [c61_data] at h1
      have : Command.caldays.text .default embeddedFiles 2026 2026 ⟨"2100-01-01", "2100-01-06", "out.json"⟩ =
        Command.caldays.text .default (fun _ => .missing) 2026 2026 ⟨"2100-01-01", "2100-01-06", "out.json"⟩ := by decide +kernel
      rw [this] at h1
      have h3 : ∀ s, Command.caldays.text .default (fun _ => .missing) 2026 2026 ⟨"2100-01-01", "2100-01-06", "out.json"⟩ = some s →
          10 < (utf8 s).length := by
        intro s hs
        have : ((Command.caldays.text .default (fun _ => .missing) 2026 2026 ⟨"2100-01-01", "2100-01-06", "out.json"⟩).map
          fun s => (utf8 s).length).getD 0 > 10 := by decide +kernel
        rw [hs] at this
        exact this
      have := h3 str h1
      simp only [List.map_cons, List.map_nil, List.sum_cons, List.sum_nil] at h2
      omega
  · refine one (key _ _ _ _).1 fun h => ?_
    obtain ⟨-, -, h | ⟨str, -, h1, -⟩⟩ := (key _ _ _ _).2.1 h
    · exact absurd h (by decide)
    · cases h1

end Verif.Props
