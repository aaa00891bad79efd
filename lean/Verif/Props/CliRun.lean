import Verif.Model.CliRun
import Verif.Props.Json
import Verif.Props.IcalText
import Verif.Lemmas.Truncated
/-
C66: what a run of a command leaves behind, at any point where it may be killed.
-/
set_option autoImplicit false

namespace Verif.Props
open Verif.Go Verif.Model Verif.Spec Verif.Lemmas

/-! ### Writing -/

theorem writes_spec (sizes : List Nat) (b : List UInt8) :
    (writes sizes b).1.flatten <+: b ∧ ((writes sizes b).2 = true → (writes sizes b).1.flatten = b) := by
  induction sizes generalizing b with
  | nil => cases b <;> simp [writes]
  | cons n sizes ih =>
    cases b with
    | nil => simp [writes]
    | cons x b =>
      have h := ih (b.drop n)
      simp only [writes, List.flatten_cons, List.cons_append]
      refine ⟨?_, ?_⟩
      · rw [List.cons_prefix_cons]
        refine ⟨rfl, ?_⟩
        conv => rhs; rw [← List.take_append_drop n b]
        exact (List.prefix_append_right_inj _).2 h.1
      · intro ht
        rw [h.2 ht, List.take_append_drop]

theorem after_appends (w : World) (path : String) (ws : List (List UInt8)) :
    ((w.after (ws.map (.append path))).files path = if ws = [] then w.files path else some ((w.files path).getD [] ++ ws.flatten)) ∧
    (∀ p, p ≠ path → (w.after (ws.map (.append path))).files p = w.files p) ∧
    (w.after (ws.map (.append path))).stdout = w.stdout := by
  induction ws generalizing w with
  | nil => simp [World.after]
  | cons b ws ih =>
    have h := ih ((Effect.append path b).apply w)
    have e : w.after ((b :: ws).map (.append path)) = ((Effect.append path b).apply w).after (ws.map (.append path)) := rfl
    rw [e]
    refine ⟨?_, ?_, ?_⟩
    · rw [h.1]
      by_cases hw : ws = []
      · simp [hw, Effect.apply]
      · simp [hw, Effect.apply]
    · intro p hp; rw [h.2.1 p hp]; simp [Effect.apply, hp]
    · rw [h.2.2]; rfl

/-- The world when a file has been created and some writes have been made. -/
theorem after_file (w : World) (path : String) (ws : List (List UInt8)) :
    ((w.after (.create path :: ws.map (.append path))).files path = some ws.flatten) ∧
    (∀ p, p ≠ path → (w.after (.create path :: ws.map (.append path))).files p = w.files p) ∧
    (w.after (.create path :: ws.map (.append path))).stdout = w.stdout := by
  have h := after_appends ((Effect.create path).apply w) path ws
  have e : w.after (.create path :: ws.map (.append path)) = ((Effect.create path).apply w).after (ws.map (.append path)) := rfl
  rw [e]
  refine ⟨?_, ?_, ?_⟩
  · rw [h.1]
    by_cases hw : ws = [] <;> simp [hw, Effect.apply]
  · intro p hp; rw [h.2.1 p hp]; simp [Effect.apply, hp]
  · rw [h.2.2]; rfl

/-! ### Output -/

/-- A run that writes `bytes`, killed after `k` effects. -/
theorem output_crash (sys : System) (path : String) (str ending : List Char) (w : World) (k : Nat) :
    let v := w.after ((output sys path str ending).effects.take k)
    (∀ p, p ≠ path ∨ path = "" → v.files p = w.files p) ∧
    (v.files path = w.files path ∨ ∃ n, v.files path = some ((utf8 str).take n)) := by
  intro v
  by_cases hp : 0 < path.length
  · by_cases ho : sys.openFails = true
    · have : v = w := by
        show w.after ((output sys path str ending).effects.take k) = w
        unfold output
        simp [hp, ho, World.after]
      rw [this]; exact ⟨fun _ _ => rfl, .inl rfl⟩
    · have he : (output sys path str ending).effects = .create path :: (writes sys.sizes (utf8 str)).1.map (.append path) := by
        unfold output; simp [hp, ho]
      have hne : path ≠ "" := by rintro rfl; simp at hp
      cases k with
      | zero =>
        have : v = w := by
          show w.after ((output sys path str ending).effects.take 0) = w
          simp [World.after]
        rw [this]; exact ⟨fun _ _ => rfl, .inl rfl⟩
      | succ k =>
        have hv : v = w.after (.create path :: ((writes sys.sizes (utf8 str)).1.take k).map (.append path)) := by
          show w.after ((output sys path str ending).effects.take (k + 1)) = _
          rw [he, List.take_succ_cons, List.map_take]
        have h := after_file w path ((writes sys.sizes (utf8 str)).1.take k)
        rw [hv]
        refine ⟨fun p h' => h.2.1 p (h'.resolve_right hne), .inr ?_⟩
        have hpre : ((writes sys.sizes (utf8 str)).1.take k).flatten <+: utf8 str := by
          refine List.IsPrefix.trans ?_ (writes_spec sys.sizes (utf8 str)).1
          conv => rhs; rw [← List.take_append_drop k (writes sys.sizes (utf8 str)).1]
          rw [List.flatten_append]
          exact List.prefix_append _ _
        refine ⟨((writes sys.sizes (utf8 str)).1.take k).flatten.length, ?_⟩
        rw [h.1, ← List.prefix_iff_eq_take.1 hpre]
  · have hv : v.files = w.files := by
      show (w.after ((output sys path str ending).effects.take k)).files = _
      unfold output
      rw [if_neg hp]
      rcases k with _ | k
      · rfl
      · simp [World.after, Effect.apply]
    rw [hv]; exact ⟨fun _ _ => rfl, .inl rfl⟩

/-- A run that ends with exit code 0. -/
theorem output_success (sys : System) (path : String) (str ending : List Char) (w : World)
    (h : (output sys path str ending).exit = 0) :
    let v := w.after (output sys path str ending).effects
    (path ≠ "" → v.files path = some (utf8 str) ∧ v.stdout = w.stdout) ∧
    (path = "" → v.files = w.files ∧ v.stdout = w.stdout ++ (utf8 (str ++ ending)).take sys.printed) := by
  intro v
  refine ⟨?_, ?_⟩
  · intro hne
    have hp : 0 < path.length := by
      rw [Nat.pos_iff_ne_zero, ne_eq, String.length_eq_zero_iff]; exact hne
    unfold output at h
    rw [if_pos hp] at h
    by_cases ho : sys.openFails = true
    · rw [if_pos ho] at h; cases h
    · rw [if_neg ho] at h
      simp only at h
      have hok : (writes sys.sizes (utf8 str)).2 = true := by
        by_contra hc; rw [if_neg hc] at h; cases h
      have he : (output sys path str ending).effects = .create path :: (writes sys.sizes (utf8 str)).1.map (.append path) := by
        unfold output; simp [hp, ho]
      have hf := after_file w path (writes sys.sizes (utf8 str)).1
      show (w.after (output sys path str ending).effects).files path = _ ∧ (w.after (output sys path str ending).effects).stdout = _
      rw [he, hf.1, (writes_spec _ _).2 hok]
      exact ⟨rfl, hf.2.2⟩
  · rintro rfl
    show (w.after (output sys "" str ending).effects).files = _ ∧ (w.after (output sys "" str ending).effects).stdout = _
    simp [output, World.after, Effect.apply]

/-! ### The commands -/

/-- The two commands as one: the run depends on the text that C57 and C58 are about. -/
inductive Command where
  | caldays
  | ical (stamps : Nat → Stamp)

/-- The text of a command; `none` if there is none. -/
def Command.text (c : Command) (cfg : Config) (files : Int → AstroFile) (nowFrom nowTo : Int) (flags : Flags) : Option (List Char) :=
  match c with
  | .caldays => calDaysText cfg files nowFrom nowTo flags.fromDate flags.toDate
  | .ical stamps => icalText cfg files stamps nowFrom nowTo flags.fromDate flags.toDate

/-- What is printed after the text. -/
def Command.ending : Command → List Char
  | .caldays => ['\n']
  | .ical _ => []

def Command.run (c : Command) (cfg : Config) (files : Int → AstroFile) (nowFrom nowTo : Int) (flags : Flags) (sys : System) : Run :=
  match c with
  | .caldays => runCalDays cfg files nowFrom nowTo flags sys
  | .ical stamps => runIcal cfg files stamps nowFrom nowTo flags sys

theorem run_text (c : Command) (cfg : Config) (files : Int → AstroFile) (nowFrom nowTo : Int) (flags : Flags) (sys : System) :
    (∀ str, c.text cfg files nowFrom nowTo flags = some str →
      c.run cfg files nowFrom nowTo flags sys = output sys flags.output str c.ending) ∧
    (c.text cfg files nowFrom nowTo flags = none → (c.run cfg files nowFrom nowTo flags sys).exit ≠ 0 ∧
      ∀ e ∈ (c.run cfg files nowFrom nowTo flags sys).effects, ∃ b, e = .print b) := by
  cases c with
  | caldays =>
    simp only [Command.text, Command.run, Command.ending, calDaysText, actionCalDays, runCalDays]
    cases cliInit nowFrom nowTo flags.fromDate flags.toDate with
    | none => simp
    | some p =>
      simp only
      cases getCalDays cfg files p.1 p.2 with
      | none => simp
      | some l =>
        simp only [Option.map_some]
        cases hg : groupsJson (daysByYear l) with
        | none => simp [hg]
        | some j => simp [hg]
  | ical stamps =>
    simp only [Command.text, Command.run, Command.ending, icalText, actionIcal, runIcal]
    cases cliInit nowFrom nowTo flags.fromDate flags.toDate with
    | none => simp
    | some p =>
      simp only
      cases getCalDays cfg files p.1 p.2 with
      | none => simp
      | some l => simp

theorem prints_files (w : World) (es : List Effect) (h : ∀ e ∈ es, ∃ b, e = .print b) : (w.after es).files = w.files := by
  induction es generalizing w with
  | nil => rfl
  | cons e es ih =>
    obtain ⟨b, rfl⟩ := h _ List.mem_cons_self
    show (((Effect.print b).apply w).after es).files = _
    rw [ih _ fun e he => h e (List.mem_cons_of_mem _ he)]
    rfl

section
variable (c : Command) (cfg : Config) (files : Int → AstroFile) (nowFrom nowTo : Int) (flags : Flags) (sys : System)

/-- C66: wherever a run is killed, every file but the output file is as before; the output file is as before or holds the first
bytes of the text. -/
theorem c66_crash (w : World) (k : Nat) :
    let v := w.after ((c.run cfg files nowFrom nowTo flags sys).effects.take k)
    (∀ p, p ≠ flags.output ∨ flags.output = "" → v.files p = w.files p) ∧
    (v.files flags.output = w.files flags.output ∨
      ∃ str n, c.text cfg files nowFrom nowTo flags = some str ∧ v.files flags.output = some ((utf8 str).take n)) := by
  intro v
  have h := run_text c cfg files nowFrom nowTo flags sys
  cases ht : c.text cfg files nowFrom nowTo flags with
  | none =>
    have : v.files = w.files := prints_files _ _ fun e he => (h.2 ht).2 e (List.mem_of_mem_take he)
    rw [this]; exact ⟨fun _ _ => rfl, .inl rfl⟩
  | some str =>
    have ho := output_crash sys flags.output str c.ending w k
    have hv : v = w.after ((output sys flags.output str c.ending).effects.take k) := by rw [← h.1 str ht]
    rw [← hv] at ho
    exact ⟨ho.1, ho.2.imp_right fun ⟨n, hn⟩ => ⟨str, n, rfl, hn⟩⟩

/-- C66: without a text (a wrong date, a panic, a year that JSON cannot hold) the exit code is not 0 and no file is touched: an
existing output file survives. -/
theorem c66_no_text (w : World) (k : Nat) (h : c.text cfg files nowFrom nowTo flags = none) :
    (c.run cfg files nowFrom nowTo flags sys).exit ≠ 0 ∧
    (w.after ((c.run cfg files nowFrom nowTo flags sys).effects.take k)).files = w.files := by
  have hr := (run_text c cfg files nowFrom nowTo flags sys).2 h
  exact ⟨hr.1, prints_files _ _ fun e he => hr.2 e (List.mem_of_mem_take he)⟩

/-- C66: exit code 0 means that there is a text and that the output file holds exactly this text, whatever was there before; or,
without an output file, that the text (for caldays with a line feed) was sent to standard output. -/
theorem c66_success (w : World) (h : (c.run cfg files nowFrom nowTo flags sys).exit = 0) :
    let v := w.after (c.run cfg files nowFrom nowTo flags sys).effects
    ∃ str, c.text cfg files nowFrom nowTo flags = some str ∧
      (flags.output ≠ "" → v.files flags.output = some (utf8 str) ∧ v.stdout = w.stdout) ∧
      (flags.output = "" → v.files = w.files ∧ v.stdout = w.stdout ++ (utf8 (str ++ c.ending)).take sys.printed) := by
  have hr := run_text c cfg files nowFrom nowTo flags sys
  cases ht : c.text cfg files nowFrom nowTo flags with
  | none => exact absurd h (hr.2 ht).1
  | some str =>
    rw [hr.1 str ht] at h ⊢
    exact ⟨str, rfl, output_success sys flags.output str c.ending w h⟩

/-- C66: after a run that was killed anywhere (with any system behaviour), a further run of any command on the same output file
that ends with exit code 0 leaves exactly its text there: nothing of the killed run remains. -/
theorem c66_rerun (c' : Command) (flags' : Flags) (sys' : System) (ho : flags'.output = flags.output) (hne : flags.output ≠ "")
    (w : World) (k : Nat) (h : (c'.run cfg files nowFrom nowTo flags' sys').exit = 0) :
    ∃ str, c'.text cfg files nowFrom nowTo flags' = some str ∧
    ((w.after ((c.run cfg files nowFrom nowTo flags sys).effects.take k)).after
      (c'.run cfg files nowFrom nowTo flags' sys').effects).files flags.output = some (utf8 str) := by
  obtain ⟨str, h1, h2, -⟩ := c66_success c' cfg files nowFrom nowTo flags' sys'
    (w.after ((c.run cfg files nowFrom nowTo flags sys).effects.take k)) h
  rw [ho] at h2
  exact ⟨str, h1, (h2 hne).1⟩

/-- C66, limits: replacing a file is not atomic. Killed right after opening, a run leaves the output file empty; and with standard
output failing at once a run without output file ends with exit code 0 although nothing was printed. -/
theorem c66_limits (w : World) (str : List Char) (ht : c.text cfg files nowFrom nowTo flags = some str) :
    (flags.output ≠ "" → sys.openFails = false →
      (w.after ((c.run cfg files nowFrom nowTo flags sys).effects.take 1)).files flags.output = some []) ∧
    (flags.output = "" → sys.printed = 0 → (c.run cfg files nowFrom nowTo flags sys).exit = 0 ∧
      (w.after (c.run cfg files nowFrom nowTo flags sys).effects).stdout = w.stdout) := by
  rw [(run_text c cfg files nowFrom nowTo flags sys).1 str ht]
  refine ⟨?_, ?_⟩
  · intro hne ho
    have hp : 0 < flags.output.length := by
      rw [Nat.pos_iff_ne_zero, ne_eq, String.length_eq_zero_iff]; exact hne
    unfold output
    simp [hp, ho, World.after, Effect.apply]
  · intro he hp
    rw [he]
    unfold output
    simp [hp, World.after, Effect.apply]

end

/-- C66: `utf8` is UTF-8 as Lean has it, and different texts have different bytes. -/
theorem c66_utf8 (l m : List Char) : (utf8 l).toByteArray = (String.ofList l).toByteArray ∧ (utf8 l = utf8 m → l = m) :=
  ⟨by rw [String.toByteArray_ofList]; rfl, utf8_injective⟩

/-- A text in a file written by a run that was killed: a prefix of the text. -/
theorem crash_prefix (c : Command) (cfg : Config) (files : Int → AstroFile) (nowFrom nowTo : Int) (flags : Flags) (sys : System)
    (w : World) (k : Nat) (p : List Char) (hn : w.files flags.output = none)
    (hp : (w.after ((c.run cfg files nowFrom nowTo flags sys).effects.take k)).files flags.output = some (utf8 p)) :
    ∃ q, c.text cfg files nowFrom nowTo flags = some (p ++ q) := by
  rcases (c66_crash c cfg files nowFrom nowTo flags sys w k).2 with h | ⟨str, n, ht, h⟩
  · rw [hp, hn] at h; cases h
  · rw [hp] at h
    simp only [Option.some.injEq] at h
    obtain ⟨q, hq⟩ := utf8_prefix (l := p) (m := str) (b := (utf8 str).drop n) (by
      show utf8 p ++ _ = utf8 str
      rw [h, List.take_append_drop])
    exact ⟨q, by rw [ht, hq]⟩

/-- C66: a killed run of caldays is noticed. If the file did not exist before, then whatever text it holds is not JSON unless it
is the complete text. -/
theorem c66_detect_caldays (cfg : Config) (files : Int → AstroFile) (nowFrom nowTo : Int) (flags : Flags)
    (sys : System) (w : World) (k : Nat) (p : List Char) (hn : w.files flags.output = none)
    (hp : (w.after ((Command.caldays.run cfg files nowFrom nowTo flags sys).effects.take k)).files flags.output = some (utf8 p))
    (hj : readJson p ≠ none) : Command.caldays.text cfg files nowFrom nowTo flags = some p := by
  obtain ⟨q, hq⟩ := crash_prefix .caldays cfg files nowFrom nowTo flags sys w k p hn hp
  obtain ⟨j, hj⟩ := Option.ne_none_iff_exists'.1 hj
  have ht : calDaysText cfg files nowFrom nowTo flags.fromDate flags.toDate = some (p ++ q) := hq
  have ht' := ht
  unfold calDaysText actionCalDays at ht'
  cases hi : cliInit nowFrom nowTo flags.fromDate flags.toDate with
  | none => rw [hi] at ht'; simp at ht'
  | some d =>
    rw [hi] at ht'
    cases hl : getCalDays cfg files d.1 d.2 with
    | none => simp [hl] at ht'
    | some l =>
      obtain ⟨fields, hf, -⟩ := (c57_text cfg files nowFrom nowTo _ _ d.1 d.2 hi l hl).2 _ ht
      rw [readJson_truncated hf j hj, List.append_nil] at hq
      exact hq

/-- Lines cut off: only whole lines can be read. -/
theorem lines_truncated (ls : List (String × String)) (h : ∀ l ∈ ls, GoodLine l) (p : List Char)
    (hp : p <+: ls.flatMap fun l => icsLine l ++ ['\r', '\n']) (hr : readLines p ≠ none) :
    ∃ k, p = (ls.take k).flatMap fun l => icsLine l ++ ['\r', '\n'] := by
  induction ls generalizing p with
  | nil => exact ⟨0, by simpa using hp⟩
  | cons l ls ih =>
    rw [List.flatMap_cons] at hp
    have hgl := h l (by simp)
    have hin : ∀ c ∈ icsLine l, c ≠ '\r' ∧ c ≠ '\n' := by
      intro c hc
      unfold icsLine at hc
      rcases List.mem_append.1 hc with hc | hc
      · exact hgl.2.2.2.2.1 c hc
      · rcases List.mem_cons.1 hc with rfl | hc
        · exact ⟨by decide, by decide⟩
        · exact hgl.2.2.2.2.2 c hc
    by_cases hle : p.length ≤ (icsLine l ++ ['\r', '\n']).length
    · have hpl : p <+: icsLine l ++ ['\r', '\n'] := List.prefix_of_prefix_length_le hp (List.prefix_append _ _) hle
      by_cases h0 : p = []
      · exact ⟨0, by simp [h0]⟩
      · by_cases h1 : p = icsLine l ++ ['\r', '\n']
        · exact ⟨1, by simp [h1]⟩
        · exact absurd (readLines_cut hin p hpl h0 h1) hr
    · obtain ⟨p', rfl⟩ : icsLine l ++ ['\r', '\n'] <+: p := List.prefix_of_prefix_length_le (List.prefix_append _ _) hp (by omega)
      have hp' := (List.prefix_append_right_inj _).1 hp
      have hh : ∀ c : Char, (∀ x ∈ ls, x.1.toList.head? ≠ some c) → c ≠ '\r' → p'.head? ≠ some c := by
        intro c hc hr' he
        cases p' with
        | nil => simp at he
        | cons a p' =>
          simp only [List.head?_cons, Option.some.injEq] at he
          subst he
          cases ls with
          | nil => simp at hp'
          | cons m ls =>
            rw [List.flatMap_cons] at hp'
            have hm := hc m (by simp)
            have hm2 := (h m (by simp)).2.1
            unfold icsLine at hp'
            generalize m.1.toList = n at *
            cases n with
            | nil => exact hm2 rfl
            | cons x n =>
              simp only [List.cons_append, List.cons_prefix_cons] at hp'
              exact hm (by simp [hp'.1])
      rw [List.append_assoc, List.cons_append, List.cons_append, List.nil_append, readLines_line _ hin _
        (hh ' ' (fun x hx => (h x (by simp [hx])).2.2.1) (by decide)) (hh '\t' (fun x hx => (h x (by simp [hx])).2.2.2.1) (by decide))] at hr
      obtain ⟨k, hk⟩ := ih (fun x hx => h x (by simp [hx])) p' hp' (by intro e; rw [e] at hr; simp at hr)
      exact ⟨k + 1, by rw [List.take_succ_cons, List.flatMap_cons, ← hk]⟩

theorem ics_truncated (ls : List (String × String)) (h : ∀ l ∈ ls, GoodLine l) (p : List Char)
    (hp : p <+: ls.flatMap fun l => icsLine l ++ ['\r', '\n']) (hr : readIcs p ≠ none)
    (hf : readIcs (ls.flatMap fun l => icsLine l ++ ['\r', '\n']) ≠ none) :
    p = ls.flatMap fun l => icsLine l ++ ['\r', '\n'] := by
  have key : ∀ ls : List (String × String), (∀ l ∈ ls, GoodLine l) →
      readIcs (ls.flatMap fun l => icsLine l ++ ['\r', '\n']) = readCalendar ls := by
    intro ls h
    have hc := contents_lines _ h
    have e : readIcs (ls.flatMap fun l => icsLine l ++ ['\r', '\n']) = (do
        let lines ← readLines (ls.flatMap fun l => icsLine l ++ ['\r', '\n'])
        lines.mapM readContent).bind readCalendar := by
      unfold readIcs
      simp only [Option.bind_eq_bind, Option.bind_assoc]
    rw [e, hc]; rfl
  obtain ⟨k, rfl⟩ := lines_truncated ls h p hp (by
    intro e; apply hr; unfold readIcs; rw [e]; rfl)
  rw [key _ fun l hl => h l (List.mem_of_mem_take hl)] at hr
  rw [key _ h] at hf
  obtain ⟨c, hc⟩ := Option.ne_none_iff_exists'.1 hr
  by_cases hd : ls.drop k = []
  · have e := List.take_append_drop k ls
    rw [hd, List.append_nil] at e
    rw [e]
  · exfalso
    apply hf
    rw [← List.take_append_drop k ls]
    exact readCalendar_more _ _ hd hc

/-- C66: a killed run of ical is noticed likewise: what the file holds is not a calendar unless it is the complete one. -/
theorem c66_detect_ical (cfg : Config) (files : Int → AstroFile) (stamps : Nat → Stamp) (hst : ∀ i, GoodStamp (stamps i))
    (nowFrom nowTo : Int) (flags : Flags) (a b : Time) (hi : cliInit nowFrom nowTo flags.fromDate flags.toDate = some (a, b))
    (h0 : 0 ≤ a.year) (h9 : b.year ≤ 9998) (sys : System) (w : World) (k : Nat) (p : List Char) (hn : w.files flags.output = none)
    (hp : (w.after (((Command.ical stamps).run cfg files nowFrom nowTo flags sys).effects.take k)).files flags.output = some (utf8 p))
    (hj : readIcs p ≠ none) : (Command.ical stamps).text cfg files nowFrom nowTo flags = some p := by
  obtain ⟨q, hq⟩ := crash_prefix (.ical stamps) cfg files nowFrom nowTo flags sys w k p hn hp
  have ht : icalText cfg files stamps nowFrom nowTo flags.fromDate flags.toDate = some (p ++ q) := hq
  have ht' := ht
  unfold icalText actionIcal at ht'
  rw [hi] at ht'
  cases hl : getCalDays cfg files a b with
  | none => simp [hl] at ht'
  | some l =>
    simp only [hl, Option.map_some, Option.bind_eq_bind, Option.bind_some, Option.some.injEq] at ht'
    obtain ⟨es, -, -, -, hg⟩ := ical_lines hst hi h0 h9 hl
    have := ics_truncated (vCalendarLines (icalComponents l) stamps) hg p ⟨q, ht'.symm⟩ hj (by
      show readIcs (icsText (icalComponents l) stamps) ≠ none
      rw [readIcs_text _ _ hg]; simp)
    rw [hq, ← ht', this]; rfl

/-- C66: a run of caldays with both dates given, on the embedded data, that can write its file: the exit code is 0 and the file
holds JSON with exactly the days of the range under their years. -/
theorem c66_caldays_file (cfg : Config) (nowFrom nowTo : Int) (flags : Flags) (hf : flags.fromDate ≠ "") (ht : flags.toDate ≠ "")
    (ho : flags.output ≠ "") (a b : Time) (hi : cliInit nowFrom nowTo flags.fromDate flags.toDate = some (a, b)) (sys : System)
    (w : World) (hs : sys.openFails = false)
    (hall : ∀ str, Command.caldays.text cfg embeddedFiles nowFrom nowTo flags = some str → (utf8 str).length ≤ sys.sizes.length) :
    let r := Command.caldays.run cfg embeddedFiles nowFrom nowTo flags sys
    r.exit = 0 ∧ ∃ str fields l, (w.after r.effects).files flags.output = some (utf8 str) ∧ readJson str = some (.obj fields) ∧
      getCalDays cfg embeddedFiles a b = some l ∧ IsYears (.obj fields) fun y => l.filter fun c => decide (c.Date.year = y) := by
  intro r
  obtain ⟨str, hstr⟩ := Option.ne_none_iff_exists'.1 (c57_written cfg nowFrom nowTo _ _ hf ht a b hi)
  obtain ⟨l, hl⟩ := Option.ne_none_iff_exists'.1 (c53_never_panics cfg a b).2
  have hr : r = output sys flags.output str Command.caldays.ending := (run_text .caldays cfg embeddedFiles nowFrom nowTo flags sys).1 str hstr
  have hw : ∀ (sizes : List Nat) (x : List UInt8), x.length ≤ sizes.length → (writes sizes x).2 = true := by
    intro sizes
    induction sizes with
    | nil => intro x hx; cases x with
      | nil => rfl
      | cons _ _ => simp at hx
    | cons n sizes ih =>
      intro x hx
      cases x with
      | nil => rfl
      | cons c x =>
        simp only [writes]
        apply ih
        simp only [List.length_cons, List.length_drop] at hx ⊢
        omega
  have he : r.exit = 0 := by
    rw [hr]
    unfold output
    have hp : 0 < flags.output.length := by
      rw [Nat.pos_iff_ne_zero, ne_eq, String.length_eq_zero_iff]; exact ho
    simp [hp, hs, hw _ _ (hall str hstr)]
  refine ⟨he, ?_⟩
  obtain ⟨str', h1, h2, -⟩ := c66_success .caldays cfg embeddedFiles nowFrom nowTo flags sys w he
  obtain ⟨fields, h3, -, -, h4⟩ := (c57_text cfg _ nowFrom nowTo _ _ a b hi l hl).2 str' h1
  exact ⟨str', fields, l, (h2 ho).1, h3, hl, h4⟩

/-- The hypotheses of `c66_success`, `c66_rerun` and `c66_limits` are met, and not by an empty text: a run of caldays that writes its file in
three portions. -/
example : let flags : Flags := ⟨"2100-01-01", "2100-01-06", "out.json"⟩
    let sys : System := ⟨false, [3, 10, 10 ^ 6], 0, ""⟩
    let r := Command.caldays.run .default (fun _ => .missing) 2016 2016 flags sys
    r.exit = 0 ∧ r.effects.length = 4 := by
  decide +kernel

/-- A wrong date: exit code 1, and the file stays; the hypothesis of `c66_no_text`. -/
example : let flags : Flags := ⟨"2100-02-30", "2100-03-06", "out.json"⟩
    Command.caldays.text .default (fun _ => .missing) 2016 2016 flags = none ∧
    (Command.caldays.run .default (fun _ => .missing) 2016 2016 flags ⟨false, [], 100, "day out of range"⟩).exit = 1 := by
  decide +kernel

/-- A full disk: exit code 1 and a cut file, to which `c66_detect_caldays` applies: it holds the text `{"2100` and cannot be read. -/
example : let flags : Flags := ⟨"2100-01-01", "2100-01-06", "out.json"⟩
    let r := Command.caldays.run .default (fun _ => .missing) 2016 2016 flags ⟨false, [5], 0, ""⟩
    r.exit = 1 ∧ ((World.mk (fun _ => none) []).after r.effects).files "out.json" = some (utf8 "{\"2100".toList) ∧
      readJson "{\"2100".toList = none := by
  decide +kernel

/-- A killed run of ical: after the first portion the file holds `BEGIN:VC`, which is no calendar; the other hypotheses of
`c66_detect_ical` are met too. -/
example : let flags : Flags := ⟨"2100-01-01", "2100-01-06", "out.ics"⟩
    let r := (Command.ical demoStamps).run .default (fun _ => .missing) 2016 2016 flags ⟨false, [7, 10 ^ 6], 0, ""⟩
    r.exit = 0 ∧ ((World.mk (fun _ => none) []).after (r.effects.take 2)).files "out.ics" = some (utf8 "BEGIN:VC".toList) ∧
      readIcs "BEGIN:VC".toList = none ∧ (∀ i, GoodStamp (demoStamps i)) ∧
      cliInit 2016 2016 flags.fromDate flags.toDate = some (date 2100 1 1 0 0, date 2100 1 6 0 0) := by
  refine ⟨by decide +kernel, by decide +kernel, by decide +kernel, demoStamps_good, by decide +kernel⟩

end Verif.Props
