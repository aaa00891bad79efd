import Verif.Model.Main
import Verif.Spec.CommandLine
import Verif.Props.AlmanacIcs
/-
C78: what comes of a command line.
-/
set_option autoImplicit false

namespace Verif.Props
open Verif.Go Verif.Model Verif.Model.Unmarshal Verif.Spec Verif.Lemmas
open Verif.Spec.CommandLine (Options Says Dashed)

/-- The options of the commands. -/
def optionNames : List String := ["from", "to", "output"]

/-! ### Words -/

theorem flagWord_apart {dash name : String} (hd : dash = "-" ∨ dash = "--") (hn : name ∈ optionNames) :
    flagWord (dash ++ name) = .flag name none := by
  unfold optionNames at hn
  simp only [List.mem_cons, List.not_mem_nil, or_false] at hn
  rcases hd with rfl | rfl <;> rcases hn with rfl | rfl | rfl <;> decide

theorem flagWord_joined {dash name : String} (value : String) (hd : dash = "-" ∨ dash = "--") (hn : name ∈ optionNames) :
    flagWord (dash ++ name ++ "=" ++ value) = .flag name (some value) := by
  unfold optionNames at hn
  simp only [List.mem_cons, List.not_mem_nil, or_false] at hn
  unfold flagWord
  simp only [String.toList_append]
  rcases hd with rfl | rfl <;> rcases hn with rfl | rfl | rfl <;>
    simp [flagName, List.dropWhile, List.takeWhile, String.ofList_toList]

theorem flagWord_plain {s : String} (h : ¬ Dashed s) : flagWord s = .plain := by
  unfold flagWord
  split
  · exact absurd ⟨"-", by rw [← String.toList_inj]; assumption⟩ h
  · rename_i name _ hs
    exact absurd ⟨String.ofList ('-' :: name), by rw [← String.toList_inj]; simpa using hs⟩ h
  · rename_i c name _ _ hs
    exact absurd ⟨String.ofList (c :: name), by rw [← String.toList_inj]; simpa using hs⟩ h
  · rfl

theorem dashed_option {dash name rest : String} (hd : dash = "-" ∨ dash = "--") : Dashed (dash ++ name ++ rest) := by
  rcases hd with rfl | rfl
  · exact ⟨name ++ rest, by rw [← String.toList_inj]; simp⟩
  · exact ⟨"-" ++ name ++ rest, by rw [← String.toList_inj]; simp⟩

theorem optionName_formal {name : String} (hn : name ∈ optionNames) : commandFlags name = some .string ∧ appFlags name = none := by
  unfold optionNames at hn
  simp only [List.mem_cons, List.not_mem_nil, or_false] at hn
  rcases hn with rfl | rfl | rfl <;> decide

/-- The options of a command, followed by other words. -/
theorem parse_options {words : List String} {opts : List (String × String)} (h : Options optionNames words opts) (tail : List String) :
    parseFlags commandFlags (words ++ tail) = (parseFlags commandFlags tail).map fun (set, left) => (opts ++ set, left) := by
  induction h with
  | none => simp
  | apart dash name value hd hn h ih =>
    rw [List.cons_append, List.cons_append, parseFlags.eq_def]
    simp only [flagWord_apart hd hn, (optionName_formal hn).1, ih, Option.map_map]
    rfl
  | joined dash name value hd hn h ih =>
    rw [List.cons_append, parseFlags.eq_def]
    simp only [flagWord_joined value hd hn, (optionName_formal hn).1, ih, Option.map_map]
    rfl

theorem lastSet_append (a b : List (String × String)) (name : String) :
    lastSet (a ++ b) name = (lastSet b name).or (lastSet a name) := by
  have key : ∀ (b : List (String × String)) (o : Option String),
      b.foldl (fun old (n, v) => if n = name then some v else old) o = (lastSet b name).or o := by
    intro b
    induction b with
    | nil => intro o; simp [lastSet]
    | cons x b ih =>
      intro o
      unfold lastSet
      simp only [List.foldl_cons]
      rw [ih, ih (if x.1 = name then some x.2 else none), Option.or_assoc]
      congr 1
      split <;> simp
  unfold lastSet
  rw [List.foldl_append, key]
  rfl

theorem lastSet_none {opts : List (String × String)} {name : String} (h : ∀ o ∈ opts, o.1 ≠ name) : lastSet opts name = none := by
  induction opts with
  | nil => rfl
  | cons x opts ih =>
    rw [← List.singleton_append, lastSet_append, ih fun o ho => h o (List.mem_cons_of_mem _ ho)]
    simp [lastSet, h x List.mem_cons_self]

theorem lastSet_says {opts : List (String × String)} {name value : String} (h : Says opts name value) :
    (lastSet opts name).getD "" = value := by
  cases h with
  | missing name h => rw [lastSet_none h]; rfl
  | given name value h =>
    rw [lastSet_append, ← List.singleton_append, lastSet_append, lastSet_none h]
    simp [lastSet]

theorem options_names {words : List String} {opts : List (String × String)} (h : Options optionNames words opts) :
    ∀ o ∈ opts, o.1 ∈ optionNames := by
  induction h with
  | none => simp
  | apart dash name value hd hn h ih => simpa [hn] using ih
  | joined dash name value hd hn h ih => simpa [hn] using ih

theorem options_help {words : List String} {opts : List (String × String)} (h : Options optionNames words opts) :
    (twoForms opts "help" "h" || boolSet opts "help" "h") = false := by
  have h1 : lastSet opts "help" = none := lastSet_none fun o ho he => by
    have := options_names h o ho; rw [he] at this; revert this; decide
  have h2 : lastSet opts "h" = none := lastSet_none fun o ho he => by
    have := options_names h o ho; rw [he] at this; revert this; decide
  simp [twoForms, boolSet, h1, h2]

/-! ### Versions of the library -/

/-- A version of the library hands well written options to `flag` as they are. -/
def Keeps (arrange : List String → List String) : Prop :=
  ∀ words opts, Options optionNames words opts → (∀ o ∈ opts, ¬ Dashed o.2) → arrange words = words

theorem arrange2016_flag {s : String} (hd : Dashed s) (h1 : s ≠ "-") (h2 : s ≠ "--") (rest : List String) :
    arrange2016 (s :: rest) = s :: rest := by
  obtain ⟨t, ht⟩ := hd
  have hh : s.toList.head? = some '-' := by rw [ht]; simp
  unfold arrange2016
  simp [h1, h2, hh]

theorem option_flag {dash name rest : String} (hd : dash = "-" ∨ dash = "--") (hn : name ∈ optionNames) :
    dash ++ name ++ rest ≠ "-" ∧ dash ++ name ++ rest ≠ "--" := by
  unfold optionNames at hn
  simp only [List.mem_cons, List.not_mem_nil, or_false] at hn
  constructor <;> rw [ne_eq, ← String.toList_inj] <;>
    rcases hd with rfl | rfl <;> rcases hn with rfl | rfl | rfl <;> simp

theorem arrange2016_options {words : List String} {opts : List (String × String)} (h : Options optionNames words opts) (hne : opts ≠ [])
    (rest : List String) : arrange2016 (words ++ rest) = words ++ rest := by
  cases h with
  | none => exact absurd rfl hne
  | apart dash name value hd hn h =>
    have e : dash ++ name ++ "" = dash ++ name := String.append_empty
    exact arrange2016_flag (e ▸ dashed_option hd) (e ▸ (option_flag hd hn).1) (e ▸ (option_flag hd hn).2) _
  | joined dash name value hd hn h =>
    rw [String.append_assoc]
    exact arrange2016_flag (dashed_option hd) (option_flag hd hn).1 (option_flag hd hn).2 _

/-- C78: the versions of 2016 do. -/
theorem keeps_2016 : Keeps arrange2016 := by
  intro words opts h _
  by_cases hne : opts = []
  · subst hne; cases h; rfl
  · simpa using arrange2016_options h hne []

theorem mem_arrange2016 {words : List String} {x : String} (h : x ∈ arrange2016 words) : x ∈ words := by
  unfold arrange2016 at h
  simp only at h
  split at h
  · exact h
  · rw [List.mem_append, List.mem_append] at h
    rcases h with (h | h) | h
    · exact (List.takeWhile_sublist _).subset ((List.dropWhile_sublist _).subset h)
    · exact (List.takeWhile_sublist _).subset ((List.takeWhile_sublist _).subset h)
    · exact (List.dropWhile_sublist _).subset h

/-! ### The commands -/

theorem invoke_command (cli : Cli) (words : List String) :
    invoke cli ("caldays" :: words) = invokeCommand cli false words ∧ invoke cli ("ical" :: words) = invokeCommand cli true words := by
  constructor
  · rw [invoke, parseFlags.eq_def]
    simp only [show flagWord "caldays" = .plain by decide]
    rfl
  · rw [invoke, parseFlags.eq_def]
    simp only [show flagWord "ical" = .plain by decide]
    rfl

/-- The name of a command. -/
def Command.name : Command → String
  | .caldays => "caldays"
  | .ical _ => "ical"

/-- The command and the clock readings and random numbers of its run. -/
def Command.Uses (c : Command) (stamps : Nat → Stamp) : Prop := ∀ s, c = .ical s → s = stamps

theorem runMain_command {c : Command} {stamps : Nat → Stamp} (hu : c.Uses stamps) (cli : Cli) (cfg : Config) (files : Int → AstroFile)
    (nowFrom nowTo : Int) (words : List String) (sys : System) {set : List (String × String)} {left : List String}
    (hp : parseFlags commandFlags (cli.arrange words) = some (set, left)) (hh : (twoForms set "help" "h" || boolSet set "help" "h") = false) :
    runMain cli cfg files stamps nowFrom nowTo (c.name :: words) sys =
      c.run cfg files nowFrom nowTo ⟨(lastSet set "from").getD "", (lastSet set "to").getD "", (lastSet set "output").getD ""⟩ sys := by
  cases c with
  | caldays =>
    rw [runMain, show Command.caldays.name = "caldays" from rfl, (invoke_command cli words).1, invokeCommand]
    simp only [hp, hh]
    rfl
  | ical s =>
    obtain rfl := hu s rfl
    rw [runMain, show (Command.ical s).name = "ical" from rfl, (invoke_command cli words).2, invokeCommand]
    simp only [hp, hh]
    rfl

section
variable (cli : Cli) (cfg : Config) (files : Int → AstroFile) (stamps : Nat → Stamp) (nowFrom nowTo : Int) (sys : System)

/-- C78: with any version of the library that keeps well written options: a command followed by options, in any order and any of the
four forms, works with the values they say; of several values for one option the last counts, an option left out is empty. -/
theorem c78_options (hk : Keeps cli.arrange) {c : Command} (hu : c.Uses stamps) {words : List String} {opts : List (String × String)}
    (h : Options optionNames words opts) (hv : ∀ o ∈ opts, ¬ Dashed o.2) {f t o : String} (hf : Says opts "from" f) (ht : Says opts "to" t)
    (ho : Says opts "output" o) :
    runMain cli cfg files stamps nowFrom nowTo (c.name :: words) sys = c.run cfg files nowFrom nowTo ⟨f, t, o⟩ sys := by
  have hp : parseFlags commandFlags (cli.arrange words) = some (opts, []) := by
    rw [hk words opts h hv]
    simpa [parseFlags] using parse_options h []
  rw [runMain_command hu cli cfg files nowFrom nowTo words sys hp (options_help h), lastSet_says hf, lastSet_says ht, lastSet_says ho]

/-- C78: with the library of 2016, words after a command that are neither options nor their values are ignored, and so is everything
that follows them: options after a stray word have no effect. -/
theorem c78_stray (ha : cli.arrange = arrange2016) {c : Command} (hu : c.Uses stamps) {words : List String} {opts : List (String × String)}
    (h : Options optionNames words opts) (hne : opts ≠ []) {x : String} (hx : ¬ Dashed x) (rest : List String) :
    runMain cli cfg files stamps nowFrom nowTo (c.name :: (words ++ x :: rest)) sys =
      runMain cli cfg files stamps nowFrom nowTo (c.name :: words) sys := by
  have hp1 : parseFlags commandFlags (cli.arrange (words ++ x :: rest)) = some (opts, x :: rest) := by
    rw [ha, arrange2016_options h hne, parse_options h, parseFlags.eq_def]
    simp [flagWord_plain hx]
  have hp2 : parseFlags commandFlags (cli.arrange words) = some (opts, []) := by
    have := arrange2016_options h hne []
    rw [List.append_nil] at this
    rw [ha, this]
    simpa [parseFlags] using parse_options h []
  rw [runMain_command hu cli cfg files nowFrom nowTo _ sys hp1 (options_help h),
    runMain_command hu cli cfg files nowFrom nowTo _ sys hp2 (options_help h)]

/-- C78: with the library of 2016, dates written after the command without their options are ignored. -/
theorem c78_plain (ha : cli.arrange = arrange2016) {c : Command} (hu : c.Uses stamps) {words : List String} (hx : ∀ x ∈ words, ¬ Dashed x) :
    runMain cli cfg files stamps nowFrom nowTo (c.name :: words) sys = runMain cli cfg files stamps nowFrom nowTo [c.name] sys := by
  have key : ∀ words : List String, (∀ x ∈ words, ¬ Dashed x) → parseFlags commandFlags (cli.arrange words) = some ([], words) := by
    intro words hx
    have he : arrange2016 words = words := by
      have hd : ∀ x ∈ words, (x.toList.head? = some '-') = False := by
        intro x hm
        rw [eq_iff_iff, iff_false]
        intro hh
        obtain ⟨rest, hr⟩ := List.head?_eq_some_iff.1 hh
        exact hx x hm ⟨String.ofList rest, by rw [← String.toList_inj]; simpa using hr⟩
      unfold arrange2016
      simp only
      rw [if_pos]
      rw [List.dropWhile_eq_nil_iff]
      intro x hm
      have := hd x ((List.takeWhile_sublist _).subset hm)
      simp only [this]
      simp
    rw [ha, he]
    cases words with
    | nil => rfl
    | cons x words => rw [parseFlags.eq_def]; simp [flagWord_plain (hx x List.mem_cons_self)]
  rw [runMain_command hu cli cfg files nowFrom nowTo _ sys (key words hx) (by rfl),
    runMain_command hu cli cfg files nowFrom nowTo _ sys (key [] (by simp)) (by rfl)]

/-! ### Wrong command lines -/

/-- A run that does nothing but print. -/
def OnlyPrints (r : Run) : Prop := r.exit = 0 ∧ ∃ b, r.effects = [.print b]

theorem onlyPrints_world {r : Run} (h : OnlyPrints r) (w : World) : (w.after r.effects).files = w.files := by
  obtain ⟨-, b, hb⟩ := h
  rw [hb]; rfl

theorem message_prints {words : List String} (h : invoke cli words = .message) :
    OnlyPrints (runMain cli cfg files stamps nowFrom nowTo words sys) := by
  rw [runMain, h]
  exact ⟨rfl, _, rfl⟩

/-- C78: options before the command: whatever follows, something is printed, no file is touched and the exit code is 0. -/
theorem c78_before {words : List String} {opts : List (String × String)} (h : Options optionNames words opts) (hne : opts ≠ [])
    (rest : List String) : OnlyPrints (runMain cli cfg files stamps nowFrom nowTo (words ++ rest) sys) := by
  apply message_prints
  unfold invoke
  cases h with
  | none => exact absurd rfl hne
  | apart dash name value hd hn h =>
    rw [List.cons_append, parseFlags.eq_def]
    simp [flagWord_apart hd hn, (optionName_formal hn).2]
  | joined dash name value hd hn h =>
    rw [List.cons_append, parseFlags.eq_def]
    simp [flagWord_joined value hd hn, (optionName_formal hn).2]

theorem flagWord_other {dash name : String} (hd : dash = "-" ∨ dash = "--") (h0 : name ≠ "") (h1 : ¬ Dashed name) (h2 : '=' ∉ name.toList) :
    flagWord (dash ++ name) = .flag name none := by
  have hf : ∀ c cs, name.toList = c :: cs → flagName (c :: cs) = .flag name none := by
    intro c cs hc
    have hn : ¬ (c = '-' ∨ c = '=') := by
      rintro (rfl | rfl)
      · exact h1 ⟨String.ofList cs, by rw [← String.toList_inj]; simpa using hc⟩
      · exact h2 (by rw [hc]; exact List.mem_cons_self)
    have hdrop : cs.dropWhile (· ≠ '=') = [] := by
      rw [List.dropWhile_eq_nil_iff]
      intro x hx
      simp only [ne_eq, decide_not, Bool.not_eq_true', decide_eq_false_iff_not]
      rintro rfl
      exact h2 (by rw [hc]; exact List.mem_cons_of_mem _ hx)
    simp only [flagName, hn, if_false, hdrop, ← hc, String.ofList_toList]
  cases hc : name.toList with
  | nil => exact absurd (by rw [← String.toList_inj, hc]; rfl) h0
  | cons c cs =>
    have hn : c ≠ '-' := by
      rintro rfl
      exact h1 ⟨String.ofList cs, by rw [← String.toList_inj]; simpa using hc⟩
    rw [← hf c cs hc]
    unfold flagWord
    simp only [String.toList_append, hc]
    rcases hd with rfl | rfl
    · simp only [show "-".toList = ['-'] by decide, List.singleton_append]
      split
      · rename_i heq; simp at heq; exact absurd heq.1 hn
      · rename_i heq; simp at heq; exact absurd heq.1 hn
      · rename_i heq; simp only [List.cons.injEq, true_and] at heq; rw [← heq.1, ← heq.2]
      · rename_i heq; exact absurd rfl (heq c cs)
    · simp only [show "--".toList = ['-', '-'] by decide, List.cons_append, List.nil_append]

/-- C78: with the library of 2016, an unknown option among the options of a command (a misspelt one, for instance), or an option
without a value at the end: something is printed, no file is touched and the exit code is 0. -/
theorem c78_unknown_option (ha : cli.arrange = arrange2016) (c : Command) {words : List String} {opts : List (String × String)}
    (h : Options optionNames words opts) {dash name : String} (hd : dash = "-" ∨ dash = "--") (h0 : name ≠ "") (h1 : ¬ Dashed name)
    (h2 : '=' ∉ name.toList) (rest : List String) (hn : name ∉ optionNames ∧ name ≠ "help" ∧ name ≠ "h" ∨ name ∈ optionNames ∧ rest = []) :
    OnlyPrints (runMain cli cfg files stamps nowFrom nowTo (c.name :: (words ++ (dash ++ name) :: rest)) sys) := by
  have hw := flagWord_other hd h0 h1 h2
  have hp : parseFlags commandFlags (cli.arrange (words ++ (dash ++ name) :: rest)) = none := by
    have harr : arrange2016 (words ++ (dash ++ name) :: rest) = words ++ (dash ++ name) :: rest := by
      by_cases hne : opts = []
      · subst hne
        cases h
        have hname : name.toList ≠ [] := by rw [ne_eq, ← String.toList_empty, String.toList_inj]; exact h0
        refine arrange2016_flag (String.append_empty (s := dash ++ name) ▸ dashed_option hd) ?_ ?_ rest
        · intro he
          rw [he] at hw
          rw [show flagWord "-" = .plain by decide] at hw
          cases hw
        · intro he
          rw [he] at hw
          rw [show flagWord "--" = .terminator by decide] at hw
          cases hw
      · exact arrange2016_options h hne _
    rw [ha, harr, parse_options h, parseFlags.eq_def]
    simp only [hw]
    rcases hn with ⟨g1, g2, g3⟩ | ⟨g1, rfl⟩
    · have : commandFlags name = none := by
        unfold commandFlags optionNames at *
        rw [if_neg g1, if_neg (by simp [g2, g3])]
      simp [this]
    · simp [(optionName_formal g1).1]
  apply message_prints
  cases c with
  | caldays => rw [show Command.caldays.name = "caldays" from rfl, (invoke_command _ _).1, invokeCommand, hp]
  | ical s => rw [show (Command.ical s).name = "ical" from rfl, (invoke_command _ _).2, invokeCommand, hp]

theorem timeString_iso {y m d : Nat} (hy : y ≤ 9999) (hd : IsDate (date y m d 0 0).day y m d) :
    timeString (date y m d 0 0) = (isoDate y m d).toList ++ " 00:00:00 +0000 UTC".toList := by
  obtain ⟨e1, e2, e3⟩ := isDate_unique (civil_spec (date y m d 0 0)) hd
  have := hd
  obtain ⟨-, -, -, d1, d2, m1, m2⟩ := this
  have hm := monthDays_le (y : Int) (m : Int)
  unfold timeString isoDate
  simp only [e1, e2, e3]
  rw [appendInt_pad _ 3 (by omega) (by omega), appendInt_pad _ 1 (by omega) (by omega), appendInt_pad _ 1 (by omega) (by omega)]
  simp

/-- The text printed without a command, given the two entries. -/
def dumpSays (a b : String) : String :=
  "(map[string]time.Time) (len=2) {\n" ++ a ++ " 00:00:00 +0000 UTC" ++ ",\n" ++ b ++ " 00:00:00 +0000 UTC" ++ "\n}\n"

theorem dumpText_says {now : Nat} (hnow : now ≤ 9999) (toFirst : Bool) :
    let a := " (string) (len=8) \"fromDate\": (time.Time) " ++ isoDate now 1 1
    let b := " (string) (len=6) \"toDate\": (time.Time) " ++ isoDate now 12 31
    dumpText toFirst (date now 1 1 0 0) (date now 12 31 0 0) = (if toFirst then dumpSays b a else dumpSays a b).toList := by
  have e1 := timeString_iso (m := 1) (d := 1) hnow (date_day (by decide) (by decide) (by decide) (by show (1 : Int) ≤ 31; decide)).1
  have e2 := timeString_iso (m := 12) (d := 31) hnow (date_day (by decide) (by decide) (by decide) (by show (31 : Int) ≤ 31; decide)).1
  simp only [Nat.cast_one, Nat.cast_ofNat] at e1 e2
  unfold dumpText dumpSays
  rw [e1, e2]
  cases toFirst <;> simp only [String.toList_append, List.append_assoc, if_true, if_false, Bool.false_eq_true]

/-- C78: no command, or a first word that is neither a command nor starts with a minus sign (a misspelt command, for instance): no file
is touched, the exit code is 0, and the first and the last day of the clock's year are printed, in an order that may vary. -/
theorem c78_no_command {words : List String} (h : ∀ x rest, words = x :: rest → ¬ Dashed x ∧ x ∉ ["caldays", "ical", "help", "h"])
    {now : Nat} (hnow : now ≤ 9999) (w : World) (r : Run) (hr : r = runMain cli cfg files stamps now now words sys) :
    r.exit = 0 ∧ (w.after r.effects).files = w.files ∧ ∃ text : String, (w.after r.effects).stdout = w.stdout ++ (utf8 text.toList).take sys.printed ∧
      let a := " (string) (len=8) \"fromDate\": (time.Time) " ++ isoDate now 1 1
      let b := " (string) (len=6) \"toDate\": (time.Time) " ++ isoDate now 12 31
      text = dumpSays a b ∨ text = dumpSays b a := by
  have hi : invoke cli words = .dump := by
    unfold invoke
    cases words with
    | nil => rfl
    | cons x rest =>
      obtain ⟨h1, h2⟩ := h x rest rfl
      simp only [List.mem_cons, List.not_mem_nil, or_false, not_or] at h2
      rw [parseFlags.eq_def]
      simp only [flagWord_plain h1]
      simp only [show (twoForms [] "help" "h" || twoForms [] "version" "v" || boolSet [] "help" "h" || boolSet [] "version" "v") = false from rfl]
      simp [h2.1, h2.2.1, h2.2.2.1, h2.2.2.2]
  have hc : cliInit (now : Int) (now : Int) "" "" = some (date now 1 1 0 0, date now 12 31 0 0) := rfl
  have hrun : r = ⟨[.print ((utf8 (dumpText cli.toFirst (date now 1 1 0 0) (date now 12 31 0 0))).take sys.printed)], 0⟩ := by
    rw [hr, runMain, hi]; simp only [hc]
  rw [dumpText_says hnow] at hrun
  subst hrun
  refine ⟨rfl, rfl, _, rfl, ?_⟩
  cases cli.toFirst
  · exact .inl rfl
  · exact .inr rfl

/-! ### Files -/

theorem flagName_value {cs : List Char} {name value : String} (h : flagName cs = .flag name (some value)) :
    ∃ b, cs = b ++ '=' :: value.toList := by
  unfold flagName at h
  split at h
  · cases h
  · rename_i c cs
    split at h
    · cases h
    · split at h
      · cases h
      · rename_i x v hv
        cases h
        have hx : x = '=' := by
          have := List.head?_dropWhile_not (p := (· ≠ '=')) (l := cs)
          rw [hv] at this
          simpa using this
        refine ⟨c :: cs.takeWhile (· ≠ '='), ?_⟩
        rw [hx] at hv
        rw [List.cons_append, String.toList_ofList, ← hv, List.takeWhile_append_dropWhile]

theorem flagWord_value {s name value : String} (h : flagWord s = .flag name (some value)) : ∃ b, s = b ++ "=" ++ value := by
  unfold flagWord at h
  split at h
  · cases h
  · rename_i cs _ hs
    obtain ⟨b, rfl⟩ := flagName_value h
    exact ⟨"--" ++ String.ofList b, by rw [← String.toList_inj, hs]; simp⟩
  · rename_i c cs _ _ hs
    obtain ⟨b, hb⟩ := flagName_value h
    exact ⟨"-" ++ String.ofList b, by rw [← String.toList_inj, hs, hb]; simp⟩
  · cases h

/-- The words stand for a value. -/
def Written (words : List String) (value : String) : Prop := ∃ a ∈ words, a = value ∨ ∃ b, a = b ++ "=" ++ value

theorem Written.cons {words : List String} {value : String} (h : Written words value) (x : String) : Written (x :: words) value := by
  obtain ⟨a, ha, h⟩ := h
  exact ⟨a, List.mem_cons_of_mem _ ha, h⟩

theorem parse_written (formal : String → Option FlagKind) (words : List String) {set : List (String × String)} {left : List String}
    (h : parseFlags formal words = some (set, left)) :
    (∀ x ∈ left, x ∈ words) ∧ ∀ o ∈ set, formal o.1 = some .string → Written words o.2 := by
  fun_induction parseFlags formal words generalizing set left with
  | case1 => cases h; simp
  | case2 => cases h; simp
  | case3 => cases h; exact ⟨fun x hx => List.mem_cons_of_mem _ hx, by simp⟩
  | case4 => cases h
  | case5 => cases h
  | case6 => cases h
  | case7 s rest name value hw hb b hp ih =>
    rw [Option.map_eq_some_iff] at h
    obtain ⟨⟨set', left'⟩, h', he⟩ := h
    cases he
    obtain ⟨i1, i2⟩ := ih h'
    refine ⟨fun x hx => List.mem_cons_of_mem _ (i1 x hx), fun o ho hf => ?_⟩
    rw [List.mem_cons] at ho
    rcases ho with rfl | ho
    · rw [hb] at hf; cases hf
    · exact (i2 o ho hf).cons _
  | case8 s rest name hn v hw ih =>
    rw [Option.map_eq_some_iff] at h
    obtain ⟨⟨set', left'⟩, h', he⟩ := h
    cases he
    obtain ⟨i1, i2⟩ := ih h'
    refine ⟨fun x hx => List.mem_cons_of_mem _ (i1 x hx), fun o ho hf => ?_⟩
    rw [List.mem_cons] at ho
    rcases ho with rfl | ho
    · exact ⟨s, List.mem_cons_self, .inr (flagWord_value hw)⟩
    · exact (i2 o ho hf).cons _
  | case9 s name hn v rest hw ih =>
    rw [Option.map_eq_some_iff] at h
    obtain ⟨⟨set', left'⟩, h', he⟩ := h
    cases he
    obtain ⟨i1, i2⟩ := ih h'
    refine ⟨fun x hx => List.mem_cons_of_mem _ (List.mem_cons_of_mem _ (i1 x hx)), fun o ho hf => ?_⟩
    rw [List.mem_cons] at ho
    rcases ho with rfl | ho
    · exact ⟨v, by simp, .inl rfl⟩
    · exact ((i2 o ho hf).cons _).cons _
  | case10 => cases h

theorem lastSet_mem {set : List (String × String)} {name value : String} (h : lastSet set name = some value) : (name, value) ∈ set := by
  induction set with
  | nil => cases h
  | cons x set ih =>
    rw [← List.singleton_append, lastSet_append] at h
    cases hl : lastSet set name with
    | some v =>
      rw [hl] at h
      cases h
      exact List.mem_cons_of_mem _ (ih hl)
    | none =>
      rw [hl] at h
      simp only [lastSet, List.foldl_cons, List.foldl_nil, Option.none_or] at h
      split at h
      · rename_i hx; cases h; rw [← hx]; exact List.mem_cons_self
      · cases h

/-- A command touches no file but its output file. -/
theorem run_effects (c : Command) (flags : Flags) : ∀ e ∈ (c.run cfg files nowFrom nowTo flags sys).effects,
    (∃ b, e = .print b) ∨ flags.output ≠ "" ∧ (e = .create flags.output ∨ ∃ b, e = .append flags.output b) := by
  intro e he
  cases ht : c.text cfg files nowFrom nowTo flags with
  | none => exact .inl (((run_text c cfg files nowFrom nowTo flags sys).2 ht).2 e he)
  | some str =>
    rw [(run_text c cfg files nowFrom nowTo flags sys).1 str ht] at he
    unfold output at he
    split at he
    · rename_i hl
      have hne : flags.output ≠ "" := by rintro h; rw [h] at hl; revert hl; decide
      split at he
      · simp at he
      · simp only [List.mem_cons, List.mem_map] at he
        rcases he with rfl | ⟨b, -, rfl⟩
        · exact .inr ⟨hne, .inl rfl⟩
        · exact .inr ⟨hne, .inr ⟨b, rfl⟩⟩
    · simp only [List.mem_cons, List.not_mem_nil, or_false] at he
      exact .inl ⟨_, he⟩

theorem other_file (w : World) (es : List Effect) (path p : String)
    (h : ∀ e ∈ es, (∃ b, e = .print b) ∨ e = .create path ∨ ∃ b, e = .append path b) (hp : p ≠ path) : (w.after es).files p = w.files p := by
  induction es generalizing w with
  | nil => rfl
  | cons e es ih =>
    show ((e.apply w).after es).files p = _
    rw [ih _ fun e he => h e (List.mem_cons_of_mem _ he)]
    rcases h e List.mem_cons_self with ⟨b, rfl⟩ | rfl | ⟨b, rfl⟩
    · rfl
    · simp [Effect.apply, hp]
    · simp [Effect.apply, hp]

/-- C78: whatever the words, the version and the moment the run is killed: if a file has changed, the words have the name of a command
in them and the name of that file, as a word or after an equals sign. A run with an exit code other than 0 has the name of a command in
its words. -/
theorem c78_files (ha : ∀ words, ∀ x ∈ cli.arrange words, x ∈ words) (words : List String) (w : World) (k : Nat) (p : String) (r : Run)
    (hr : r = runMain cli cfg files stamps nowFrom nowTo words sys) :
    ((w.after (r.effects.take k)).files p ≠ w.files p → ("caldays" ∈ words ∨ "ical" ∈ words) ∧ p ≠ "" ∧ Written words p) ∧
    (r.exit ≠ 0 → "caldays" ∈ words ∨ "ical" ∈ words ∨ "help" ∈ words ∨ "h" ∈ words) := by
  have prints : ∀ b : List UInt8, ∀ n : Int, r = ⟨[.print b], n⟩ → (w.after (r.effects.take k)).files p = w.files p := by
    rintro b n rfl
    rw [prints_files]
    intro e he
    have := List.mem_of_mem_take he
    simp only [List.mem_cons, List.not_mem_nil, or_false] at this
    exact ⟨b, this⟩
  have command : ∀ (c : Command) (ical : Bool) (args left : List String), (∀ x ∈ args, x ∈ words) → (c.name ∈ words) →
      (∀ flags, invokeCommand cli ical args = .command ical flags → r = c.run cfg files nowFrom nowTo flags sys) →
      (invokeCommand cli ical args = .message → ∃ b, r = ⟨[.print b], 0⟩) →
      ((w.after (r.effects.take k)).files p ≠ w.files p → ("caldays" ∈ words ∨ "ical" ∈ words) ∧ p ≠ "" ∧ Written words p) := by
    intro c ical args left hargs hname hcmd hmsg hch
    have hn : "caldays" ∈ words ∨ "ical" ∈ words := by
      cases c with
      | caldays => exact .inl hname
      | ical s => exact .inr hname
    unfold invokeCommand at hcmd hmsg
    cases hp : parseFlags commandFlags (cli.arrange args) with
    | none =>
      rw [hp] at hmsg
      obtain ⟨b, hb⟩ := hmsg rfl
      exact absurd (prints b 0 hb) hch
    | some q =>
      obtain ⟨set, left⟩ := q
      simp only [hp] at hcmd hmsg
      split at hmsg
      · obtain ⟨b, hb⟩ := hmsg rfl
        exact absurd (prints b 0 hb) hch
      · rename_i hh
        rw [if_neg hh] at hcmd
        have hrun := hcmd _ rfl
        have heff : ∀ e ∈ r.effects.take k, (∃ b, e = .print b) ∨ (lastSet set "output").getD "" ≠ "" ∧
            (e = .create ((lastSet set "output").getD "") ∨ ∃ b, e = .append ((lastSet set "output").getD "") b) := by
          intro e he
          rw [hrun] at he
          exact run_effects cfg files nowFrom nowTo sys c _ e (List.mem_of_mem_take he)
        by_cases hne : (lastSet set "output").getD "" = ""
        · exfalso
          apply hch
          rw [prints_files]
          intro e he
          rcases heff e he with h | ⟨h, -⟩
          · exact h
          · exact absurd hne h
        · have hpo : p = (lastSet set "output").getD "" := by
            by_contra hp'
            exact hch (other_file w _ _ p (fun e he => (heff e he).imp_right And.right) hp')
          refine ⟨hn, by rw [hpo]; exact hne, ?_⟩
          cases hl : lastSet set "output" with
          | none => rw [hl] at hne; exact absurd rfl hne
          | some v =>
            rw [hpo, hl]
            obtain ⟨a, ha', h⟩ := (parse_written _ _ hp).2 _ (lastSet_mem hl) (show commandFlags "output" = _ by decide)
            exact ⟨a, hargs a (ha _ a ha'), h⟩
  have hcases : ∃ i, invoke cli words = i := ⟨_, rfl⟩
  obtain ⟨i, hi⟩ := hcases
  have hi' := hi
  rw [runMain, hi] at hr
  unfold invoke at hi
  cases hp : parseFlags appFlags words with
  | none =>
    rw [hp] at hi; cases hi
    subst hr
    exact ⟨fun h => absurd (prints _ _ rfl) h, fun h => absurd rfl h⟩
  | some q =>
    obtain ⟨set, left⟩ := q
    have hleft := (parse_written _ _ hp).1
    simp only [hp] at hi
    split at hi
    · cases hi
      subst hr
      exact ⟨fun h => absurd (prints _ _ rfl) h, fun h => absurd rfl h⟩
    · split at hi
      · cases hi
        subst hr
        exact ⟨fun h => absurd (prints _ _ rfl) h, fun h => absurd rfl h⟩
      · rename_i name args
        have hargs : ∀ x ∈ args, x ∈ words := fun x hx => hleft x (List.mem_cons_of_mem _ hx)
        have hname : name ∈ words := hleft name List.mem_cons_self
        split at hi
        · rename_i hc; subst hc
          refine ⟨command .caldays false args [] hargs hname ?_ ?_, fun _ => .inl hname⟩
          · intro flags hf
            rw [hr, ← hi, hf]; rfl
          · intro hm
            rw [hr, ← hi, hm]; exact ⟨_, rfl⟩
        · split at hi
          · rename_i hc; subst hc
            refine ⟨command (.ical stamps) true args [] hargs hname ?_ ?_, fun _ => .inr (.inl hname)⟩
            · intro flags hf
              rw [hr, ← hi, hf]; rfl
            · intro hm
              rw [hr, ← hi, hm]; exact ⟨_, rfl⟩
          · split at hi
            · rename_i hc
              cases hi
              subst hr
              refine ⟨fun h => absurd (prints _ _ rfl) h, fun _ => ?_⟩
              rcases hc with rfl | rfl
              · exact .inr (.inr (.inl hname))
              · exact .inr (.inr (.inr hname))
            · cases hi
              have hc : cliInit nowFrom nowTo "" "" = some (date nowFrom 1 1 0 0, date nowTo 12 31 0 0) := rfl
              simp only [hc] at hr
              subst hr
              exact ⟨fun h => absurd (prints _ _ rfl) h, fun h => absurd rfl h⟩

end

/-! ### From the command line to the almanac -/

section
variable (cli : Cli) (hkeep : Keeps cli.arrange) {cfg : Config} (hs : Shipped cfg) {kattika : Int → Int}
  (hk : Almanac.Kattikas cfg.table kattika) {first last y1 y2 : Int} (h1 : Almanac.InYear first y1) (h2 : Almanac.InYear last y2)
  (hy1 : 1290 ≤ y1) (hy2 : y2 ≤ 4115) {nowFrom nowTo : Int} (stamps : Nat → Stamp) {words : List String} {opts : List (String × String)}
  (h : Options optionNames words opts) (hv : ∀ o ∈ opts, ¬ Dashed o.2) {f t path : String} (hf : Says opts "from" f) (ht : Says opts "to" t)
  (ho : Says opts "output" path) (af : Almanac.Asks f nowFrom 1 1 first) (at' : Almanac.Asks t nowTo 12 31 last) (sys : System) (w : World)
  (r : Run)
include hkeep hs hk h1 h2 hy1 hy2 h hv hf ht ho af at'

/-- C78: the whole program, from the words of the command line: `caldays` with options asking for days of the years 1290 to 4115 leaves,
if the exit code is 0, JSON showing exactly the almanac of these days in the file named by the options, or sends it to standard output
if none is named. -/
theorem c78_caldays (hr : r = runMain cli cfg (dataFile .bits64) stamps nowFrom nowTo ("caldays" :: words) sys) (he : r.exit = 0) :
    ∃ str j, readJson str = some j ∧ CalDaysShow cfg.table kattika first last j ∧
      (path ≠ "" → (w.after r.effects).files path = some (utf8 str) ∧ (w.after r.effects).stdout = w.stdout) ∧
      (path = "" → (w.after r.effects).files = w.files ∧
        (w.after r.effects).stdout = w.stdout ++ (utf8 (str ++ ['\n'])).take sys.printed) :=
  c72_caldays_flags hs hk h1 h2 hy1 hy2 ⟨f, t, path⟩ af at' sys w r
    (hr.trans (c78_options cli cfg _ stamps nowFrom nowTo sys hkeep (c := .caldays) (fun _ h => nomatch h) h hv hf ht ho)) he

/-- C78: the same for `ical` and iCalendar objects. -/
theorem c78_ical (hst : ∀ i, GoodStamp (stamps i))
    (hr : r = runMain cli cfg (dataFile .bits64) stamps nowFrom nowTo ("ical" :: words) sys) (he : r.exit = 0) :
    ∃ str cal, readIcs str = some cal ∧ Almanac.ShowsIcs cfg.table kattika first last cal ∧
      (path ≠ "" → (w.after r.effects).files path = some (utf8 str) ∧ (w.after r.effects).stdout = w.stdout) ∧
      (path = "" → (w.after r.effects).files = w.files ∧
        (w.after r.effects).stdout = w.stdout ++ (utf8 str).take sys.printed) :=
  c72_ical_flags stamps ⟨f, t, path⟩ af at' hs hk h1 h2 hy1 hy2 hst sys w r
    (hr.trans (c78_options cli cfg _ stamps nowFrom nowTo sys hkeep (c := .ical stamps) (fun _ h => by cases h; rfl) h hv hf ht ho)) he

end

/-! ### Concrete cases -/

theorem not_dashed {s : String} (h : s.toList.head? ≠ some '-') : ¬ Dashed s := by
  rintro ⟨t, rfl⟩; simp at h

/-- The words `--to=2016-07-31 -from 2015-07-01 --from 2016-07-01 -output=out.json`. -/
theorem july_options : Options optionNames ["--to=2016-07-31", "-from", "2015-07-01", "--from", "2016-07-01", "-output=out.json"]
    [("to", "2016-07-31"), ("from", "2015-07-01"), ("from", "2016-07-01"), ("output", "out.json")] :=
  .joined "--" "to" "2016-07-31" (.inr rfl) (by decide) <| .apart "-" "from" "2015-07-01" (.inl rfl) (by decide) <|
    .apart "--" "from" "2016-07-01" (.inr rfl) (by decide) <| .joined "-" "output" "out.json" (.inl rfl) (by decide) .none

/-- C78: they ask for July 2016 and the file out.json; and with a stray word before the last option the output is printed instead. -/
example (text : List String → String) (sys : System) (w : World) :
    let cli : Cli := ⟨arrange2016, text, fun _ => 0, true⟩
    let main := fun words => runMain cli .official (dataFile .bits64) (fun _ => ⟨"", ⟨0, 0⟩⟩) 2016 2016 words sys
    main ("caldays" :: ["--to=2016-07-31", "-from", "2015-07-01", "--from", "2016-07-01", "-output=out.json"]) =
      Command.caldays.run .official (dataFile .bits64) 2016 2016 ⟨"2016-07-01", "2016-07-31", "out.json"⟩ sys ∧
    main ["caldays", "--from", "2016-07-01", "2016-07-31", "--output", "out.json"] =
      Command.caldays.run .official (dataFile .bits64) 2016 2016 ⟨"2016-07-01", "", ""⟩ sys ∧
    main ["caldays", "2016-07-01", "2016-07-31"] = Command.caldays.run .official (dataFile .bits64) 2016 2016 ⟨"", "", ""⟩ sys ∧
    OnlyPrints (main ["--from", "2016-07-01", "caldays"]) ∧ OnlyPrints (main ["caldays", "--from", "2016-07-01", "--out", "out.json"]) ∧
    OnlyPrints (main ["caldays", "--output"]) ∧ (main ["calday", "--output", "out.json"]).exit = 0 ∧
    (w.after (main ["calday", "--output", "out.json"]).effects).files = w.files := by
  have u : Command.caldays.Uses fun _ => ⟨"", ⟨0, 0⟩⟩ := fun _ h => nomatch h
  have one : Options optionNames ["--from", "2016-07-01"] [("from", "2016-07-01")] :=
    .apart "--" "from" "2016-07-01" (.inr rfl) (by decide) .none
  refine ⟨?_, ?_, ?_, ?_, ?_, ?_, ?_⟩
  · refine c78_options _ _ _ _ _ _ sys keeps_2016 (c := .caldays) u july_options ?_ ?_ ?_ ?_
    · intro o ho
      simp only [List.mem_cons, List.not_mem_nil, or_false] at ho
      rcases ho with rfl | rfl | rfl | rfl <;> exact not_dashed (by decide)
    · exact .given (before := [("to", "2016-07-31"), ("from", "2015-07-01")]) (after := [("output", "out.json")]) _ _ (by decide)
    · exact .given (before := []) _ _ (by decide)
    · exact .given (before := [("to", "2016-07-31"), ("from", "2015-07-01"), ("from", "2016-07-01")]) (after := []) _ _ (by decide)
  · rw [show (["caldays", "--from", "2016-07-01", "2016-07-31", "--output", "out.json"] : List String) =
      Command.caldays.name :: (["--from", "2016-07-01"] ++ "2016-07-31" :: ["--output", "out.json"]) from rfl]
    refine (c78_stray _ _ _ _ _ _ sys rfl (c := .caldays) u one (by simp) (not_dashed (by decide)) _).trans ?_
    refine c78_options _ _ _ _ _ _ sys keeps_2016 (c := .caldays) u one ?_ (.given (before := []) _ _ (by simp)) (.missing _ (by decide))
      (.missing _ (by decide))
    intro o ho
    simp only [List.mem_cons, List.not_mem_nil, or_false] at ho
    subst ho; exact not_dashed (by decide)
  · refine (c78_plain _ _ _ _ _ _ sys rfl (c := .caldays) u (words := ["2016-07-01", "2016-07-31"]) ?_).trans ?_
    · intro x hx
      simp only [List.mem_cons, List.not_mem_nil, or_false] at hx
      rcases hx with rfl | rfl <;> exact not_dashed (by decide)
    · exact c78_options _ _ _ _ _ _ sys keeps_2016 (c := .caldays) u .none (by simp) (.missing _ (by simp)) (.missing _ (by simp))
        (.missing _ (by simp))
  · exact c78_before _ _ _ _ _ _ sys one (by simp) ["caldays"]
  · exact c78_unknown_option _ _ _ _ _ _ sys rfl .caldays one (dash := "--") (name := "out") (.inr rfl) (by decide) (not_dashed (by decide))
      (by decide) ["out.json"] (.inl ⟨by decide, by decide, by decide⟩)
  · exact c78_unknown_option _ _ _ _ _ _ sys rfl .caldays .none (dash := "--") (name := "output") (.inr rfl) (by decide)
      (not_dashed (by decide)) (by decide) [] (.inr ⟨by decide, rfl⟩)
  · have := c78_no_command (⟨arrange2016, text, fun _ => 0, true⟩ : Cli) .official (dataFile .bits64) (fun _ => ⟨"", ⟨0, 0⟩⟩) sys
      (words := ["calday", "--output", "out.json"]) (by rintro x rest h; cases h; exact ⟨not_dashed (by decide), by decide⟩)
      (now := 2016) (by decide) w _ rfl
    exact ⟨this.1, this.2.1⟩

/-- C78: with the library of 2016 a file name before its option is taken for its value. -/
example : invoke ⟨arrange2016, fun _ => "", fun _ => 0, true⟩ ["ical", "x.ics", "--output"] = .command true ⟨"", "", "x.ics"⟩ := by decide +kernel

/-- C78: a run of `ical --output x.ics` may change x.ics but leaves y.ics alone; a run of `-version -output=x.ics` changes nothing. -/
example (cfg : Config) (files : Int → AstroFile) (stamps : Nat → Stamp) (nowFrom nowTo : Int) (sys : System) (w : World) (k : Nat) :
    let main := fun words => runMain ⟨arrange2016, fun _ => "", fun _ => 0, true⟩ cfg files stamps nowFrom nowTo words sys
    (w.after ((main ["ical", "--output", "x.ics"]).effects.take k)).files "y.ics" = w.files "y.ics" ∧
    (w.after ((main ["-version", "-output=x.ics"]).effects.take k)).files = w.files ∧ (main ["-version", "-output=x.ics"]).exit = 0 := by
  have key := fun words p => c78_files ⟨arrange2016, fun _ => "", fun _ => 0, true⟩ cfg files stamps nowFrom nowTo sys
    (fun _ _ => mem_arrange2016) words w k p _ rfl
  refine ⟨?_, ?_, ?_⟩
  · by_contra h
    obtain ⟨-, -, a, ha, h⟩ := (key _ _).1 h
    simp only [List.mem_cons, List.not_mem_nil, or_false] at ha
    have he : ∀ b : String, a = b ++ "=" ++ "y.ics" → '=' ∈ a.toList := by rintro b rfl; simp
    rcases ha with rfl | rfl | rfl <;> rcases h with h | ⟨b, hb⟩ <;> first | exact absurd h (by decide) | exact absurd (he b hb) (by decide)
  · funext p
    by_contra h
    exact absurd ((key _ _).1 h).1 (by decide)
  · by_contra h
    exact absurd ((key _ "").2 h) (by decide)

end Verif.Props
