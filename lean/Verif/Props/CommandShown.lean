import Verif.Props.ExitCode
import Verif.Props.AlmanacShown
/-
C78 with C80: from the words of the command line to the files for all years from 640 on.
-/
set_option autoImplicit false

namespace Verif.Props
open Verif.Go Verif.Model Verif.Model.Unmarshal Verif.Spec Verif.Lemmas
open Verif.Spec.CommandLine (Options Says Dashed)

section
variable (cli : Cli) (hkeep : Keeps cli.arrange) {cfg : Config} (hs : Shipped cfg) {kattika : Int → Int}
  (hk : Almanac.Kattikas cfg.table kattika) {first last y1 y2 : Int} (h1 : Almanac.InYear first y1) (h2 : Almanac.InYear last y2)
  (hy1 : 640 ≤ y1) {nowFrom nowTo : Int} (stamps : Nat → Stamp) {words : List String} {opts : List (String × String)}
  (h : Options optionNames words opts) (hv : ∀ o ∈ opts, ¬ Dashed o.2) {f t path : String} (hf : Says opts "from" f) (ht : Says opts "to" t)
  (ho : Says opts "output" path) (af : Almanac.Asks f nowFrom 1 1 first) (at' : Almanac.Asks t nowTo 12 31 last) (sys : System) (w : World)
  (r : Run)
include hkeep hs hk h1 h2 hy1 h hv hf ht ho af at'

/-- C78: the whole program, from the words of the command line: `caldays` with options asking for days of the years 640 to 11148 leaves,
if the exit code is 0, JSON with the entries of C80 in the file named by the options, or sends it to standard output if none is named. -/
theorem c78_caldays_shown (hy2 : y2 ≤ 11148) (hr : r = runMain cli cfg (dataFile .bits64) stamps nowFrom nowTo ("caldays" :: words) sys)
    (he : r.exit = 0) :
    ∃ str j, readJson str = some j ∧ Almanac.ShowsFrom cfg.table kattika first last j ∧ AstroShow first last j ∧
      (path ≠ "" → (w.after r.effects).files path = some (utf8 str) ∧ (w.after r.effects).stdout = w.stdout) ∧
      (path = "" → (w.after r.effects).files = w.files ∧
        (w.after r.effects).stdout = w.stdout ++ (utf8 (str ++ ['\n'])).take sys.printed) :=
  c80_caldays hs hk h1 h2 hy1 ⟨f, t, path⟩ af at' hy2 sys w r
    (hr.trans (c78_options cli cfg _ stamps nowFrom nowTo sys hkeep (c := .caldays) (fun _ h => nomatch h) h hv hf ht ho)) he

/-- C78: the same for `ical` up to 9998. -/
theorem c78_ical_shown (hy2 : y2 ≤ 9998) (hst : ∀ i, GoodStamp (stamps i))
    (hr : r = runMain cli cfg (dataFile .bits64) stamps nowFrom nowTo ("ical" :: words) sys) (he : r.exit = 0) :
    ∃ str cal, readIcs str = some cal ∧ Almanac.ShowsIcsFrom cfg.table kattika first last cal ∧
      (path ≠ "" → (w.after r.effects).files path = some (utf8 str) ∧ (w.after r.effects).stdout = w.stdout) ∧
      (path = "" → (w.after r.effects).files = w.files ∧
        (w.after r.effects).stdout = w.stdout ++ (utf8 str).take sys.printed) :=
  c80_ical hs hk h1 h2 hy1 ⟨f, t, path⟩ af at' hy2 stamps hst sys w r
    (hr.trans (c78_options cli cfg _ stamps nowFrom nowTo sys hkeep (c := .ical stamps) (fun _ h => by cases h; rfl) h hv hf ht ho)) he

end

/-- C78: the words `caldays -output=out.json` when the clock's year is 1289, on a disk with room for the text: exit code 0, and out.json has
two Māgha Pūjās. -/
example (text : List String → String) (w : World) : ∃ sys : System,
    let r := runMain ⟨arrange2016, text, fun _ => 0, true⟩ .default (dataFile .bits64) demoStamps 1289 1289 ["caldays", "-output=out.json"] sys
    r.exit = 0 ∧ ∃ str j, (w.after r.effects).files "out.json" = some (utf8 str) ∧ readJson str = some j ∧
    (∃ x, Almanac.Entry j "MajorEvents" 470447 x ∧ Almanac.ShowsFestival x 470447 "Māgha Pūjā") ∧
    (∃ x, Almanac.Entry j "MajorEvents" 470476 x ∧ Almanac.ShowsFestival x 470476 "Māgha Pūjā") := by
  have d1 := (date_day (y := 1289) (m := 1) (d := 1) (by decide) (by decide) (by decide) (by decide)).1
  have d2 := (date_day (y := 1289) (m := 12) (d := 31) (by decide) (by decide) (by decide) (by decide)).1
  rw [show (date 1289 1 1 0 0).day = 470433 by decide +kernel] at d1
  rw [show (date 1289 12 31 0 0).day = 470797 by decide +kernel] at d2
  obtain ⟨kattika, hk, -⟩ := c72_exists_unique Config.default.table
  obtain ⟨hK, i3, i4, u3, u4, w3, w4⟩ := magha1289 hk
  have one : Options optionNames ["-output=out.json"] [("output", "out.json")] :=
    .joined "-" "output" "out.json" (.inl rfl) (by decide) .none
  have plain : ∀ o ∈ [("output", "out.json")], ¬ Dashed o.2 := by
    intro o ho; simp only [List.mem_cons, List.not_mem_nil, or_false] at ho; subst ho; exact not_dashed (by decide)
  have named : Says [("output", "out.json")] "output" "out.json" := .given (before := []) (after := []) _ _ (by decide)
  obtain ⟨t, ht⟩ := (text_some .caldays .default 1289 1289 ⟨"", "", "out.json"⟩ (by decide) (by decide)).2 ⟨.inl rfl, .inl rfl⟩
  rw [← c61_data .bits64] at ht
  let sys : System := ⟨false, List.replicate (utf8 t).length 0, 0, ""⟩
  have he := (c78_exit (⟨arrange2016, text, fun _ => 0, true⟩ : Cli) keeps_2016 .default demoStamps (nowFrom := 1289) (nowTo := 1289) (by decide)
    (by decide) sys (c := .caldays) (fun _ h => nomatch h) one plain (.missing _ (by decide)) (.missing _ (by decide)) named _ rfl).2.2
    ⟨.inl rfl, .inl rfl, .inr ⟨t, ht, takes_replicate _ _ _⟩⟩
  obtain ⟨str, j, hj, g, -, ho, -⟩ := c78_caldays_shown (⟨arrange2016, text, fun _ => 0, true⟩ : Cli) keeps_2016 (.inl rfl) hk
    ⟨_, _, d1⟩ ⟨_, _, d2⟩ (by decide) demoStamps one plain
    (.missing _ (by decide)) (.missing _ (by decide)) named
    (nowFrom := 1289) (nowTo := 1289) (.inl ⟨rfl, d1⟩) (.inl ⟨rfl, d2⟩) sys w _ (by decide) rfl he
  refine ⟨sys, he, str, j, (ho (by decide)).1, hj, ?_, ?_⟩
  · exact g.festivalAll _ _ 470447 _ u3 ⟨1289, i3, by rw [hK]; decide⟩ w3 (.inl ⟨rfl, rfl, rfl⟩) (by decide) (by decide)
  · exact g.festivalAll _ _ 470476 _ u4 ⟨1289, i4, by rw [hK]; decide⟩ w4 (.inl ⟨rfl, rfl, rfl⟩) (by decide) (by decide)

end Verif.Props
