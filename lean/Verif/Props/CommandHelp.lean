import Verif.Props.CommandLine
/-
C78: the option `help` of the commands, and the on/off options of the program.
-/
set_option autoImplicit false

namespace Verif.Props
open Verif.Go Verif.Model Verif.Model.Unmarshal Verif.Spec Verif.Lemmas
open Verif.Spec.CommandLine (Options Says Dashed Switch On Off)

/-- The on/off options of the program; the first two are those of the commands, too. -/
def switchNames : List String := ["help", "h", "version", "v"]

theorem flagWord_switch {name word : String} {value : Option String} (hn : name ∈ switchNames) (h : Switch name word value) :
    flagWord word = .flag name value := by
  unfold switchNames at hn
  simp only [List.mem_cons, List.not_mem_nil, or_false] at hn
  cases h with
  | bare dash hd => rcases hd with rfl | rfl <;> rcases hn with rfl | rfl | rfl | rfl <;> decide
  | valued dash value hd =>
    unfold flagWord
    simp only [String.toList_append]
    rcases hd with rfl | rfl <;> rcases hn with rfl | rfl | rfl | rfl <;>
      simp [flagName, List.dropWhile, List.takeWhile, String.ofList_toList]

theorem switch_dashed {name word : String} {value : Option String} (h : Switch name word value) : Dashed word := by
  cases h with
  | bare dash hd => exact String.append_empty (s := dash ++ name) ▸ dashed_option hd
  | valued dash value hd => rw [String.append_assoc]; exact dashed_option hd

/-- The version of 2016 leaves words alone that begin with options or a switch. -/
theorem arrange2016_switch {words : List String} {opts : List (String × String)} (h : Options optionNames words opts) {name word : String}
    {value : Option String} (hn : name ∈ switchNames) (hs : Switch name word value) (rest : List String) :
    arrange2016 (words ++ word :: rest) = words ++ word :: rest := by
  by_cases hne : opts = []
  · subst hne
    cases h
    have hw := flagWord_switch hn hs
    refine arrange2016_flag (switch_dashed hs) ?_ ?_ rest
    · rintro rfl
      rw [show flagWord "-" = .plain by decide] at hw; cases hw
    · rintro rfl
      rw [show flagWord "--" = .terminator by decide] at hw; cases hw
  · exact arrange2016_options h hne _

theorem parseBool_on {value : Option String} (h : On value) : parseBool (value.getD "true") = some true := by
  rcases h with rfl | ⟨v, hv, rfl⟩
  · decide
  · simp only [List.mem_cons, List.not_mem_nil, or_false] at hv
    rcases hv with rfl | rfl | rfl | rfl | rfl | rfl <;> decide

theorem parseBool_off {value : Option String} (h : Off value) : parseBool (value.getD "true") = some false := by
  obtain ⟨v, hv, rfl⟩ := h
  simp only [List.mem_cons, List.not_mem_nil, or_false] at hv
  rcases hv with rfl | rfl | rfl | rfl | rfl | rfl <;> decide

theorem parseBool_other {value : Option String} (h1 : ¬ On value) (h2 : ¬ Off value) : parseBool (value.getD "true") = none := by
  cases value with
  | none => exact absurd (.inl rfl) h1
  | some v =>
    have g1 : v ∉ ["1", "t", "T", "true", "TRUE", "True"] := fun hm => h1 (.inr ⟨v, by
      simp only [List.mem_cons, List.not_mem_nil, or_false] at hm ⊢; tauto, rfl⟩)
    have g2 : v ∉ ["0", "f", "F", "false", "FALSE", "False"] := fun hm => h2 ⟨v, by
      simp only [List.mem_cons, List.not_mem_nil, or_false] at hm ⊢; tauto, rfl⟩
    unfold parseBool
    rw [Option.getD_some, if_neg g1, if_neg g2]

theorem helpName_formal {name : String} (hn : name = "help" ∨ name = "h") : commandFlags name = some .bool ∧ name ∈ switchNames := by
  rcases hn with rfl | rfl <;> decide

theorem parse_help {name word : String} {value : Option String} (hn : name = "help" ∨ name = "h") (hs : Switch name word value) {b : Bool}
    (hb : parseBool (value.getD "true") = some b) (rest : List String) : parseFlags commandFlags (word :: rest) =
      (parseFlags commandFlags rest).map fun (set, left) => ((name, value.getD "true") :: set, left) := by
  rw [parseFlags.eq_def]
  simp only [flagWord_switch (helpName_formal hn).2 hs, (helpName_formal hn).1, hb]

theorem parse_help_bad {name word : String} {value : Option String} (hn : name = "help" ∨ name = "h") (hs : Switch name word value)
    (hb : parseBool (value.getD "true") = none) (rest : List String) : parseFlags commandFlags (word :: rest) = none := by
  rw [parseFlags.eq_def]
  simp only [flagWord_switch (helpName_formal hn).2 hs, (helpName_formal hn).1, hb]

/-- The options of a command say nothing about `help`. -/
theorem options_no_help {words : List String} {opts : List (String × String)} (h : Options optionNames words opts) {name : String}
    (hn : name = "help" ∨ name = "h") : lastSet opts name = none :=
  lastSet_none fun o ho he => by
    have := options_names h o ho
    rw [he] at this
    revert this
    rcases hn with rfl | rfl <;> decide

theorem lastSet_one (name other value : String) : lastSet [(name, value)] other = if name = other then some value else none := by
  simp [lastSet]

section
variable (cli : Cli) (cfg : Config) (files : Int → AstroFile) (stamps : Nat → Stamp) (nowFrom nowTo : Int) (sys : System)

theorem command_prints (c : Command) {words : List String} (h : ∀ set left, parseFlags commandFlags (cli.arrange words) = some (set, left) →
    (twoForms set "help" "h" || boolSet set "help" "h") = true) :
    OnlyPrints (runMain cli cfg files stamps nowFrom nowTo (c.name :: words) sys) := by
  apply message_prints
  have key : ∀ b, invokeCommand cli b words = .message := by
    intro b
    unfold invokeCommand
    cases hp : parseFlags commandFlags (cli.arrange words) with
    | none => rfl
    | some r =>
      obtain ⟨set, left⟩ := r
      simp only [h set left hp, if_true]
  cases c with
  | caldays => rw [show Command.caldays.name = "caldays" from rfl, (invoke_command _ _).1, key]
  | ical s => rw [show (Command.ical s).name = "ical" from rfl, (invoke_command _ _).2, key]

/-- C78: with the library of 2016, a command with the option `help` (or `h`) among its options, switched on, only prints. -/
theorem c78_help_on (ha : cli.arrange = arrange2016) (c : Command) {before after : List String} {o1 o2 : List (String × String)}
    (h1 : Options optionNames before o1) (h2 : Options optionNames after o2) {name word : String} {value : Option String}
    (hn : name = "help" ∨ name = "h") (hs : Switch name word value) (hv : On value) :
    OnlyPrints (runMain cli cfg files stamps nowFrom nowTo (c.name :: (before ++ word :: after)) sys) := by
  apply command_prints
  intro set left hp
  have hl : parseFlags commandFlags (after ++ []) = some (o2, []) := by rw [parse_options h2 []]; simp [parseFlags]
  rw [List.append_nil] at hl
  rw [ha, arrange2016_switch h1 (helpName_formal hn).2 hs, parse_options h1, parse_help hn hs (parseBool_on hv), hl] at hp
  simp only [Option.map_some, Option.some.injEq, Prod.mk.injEq] at hp
  obtain ⟨rfl, rfl⟩ := hp
  have hg : lastSet (o1 ++ (name, value.getD "true") :: o2) name = some (value.getD "true") := by
    rw [lastSet_append, ← List.singleton_append, lastSet_append, options_no_help h2 hn, lastSet_one]
    simp
  have hb := parseBool_on hv
  rcases hn with rfl | rfl <;> simp [boolSet, hg, hb]

/-- C78: switched off, it has no effect. -/
theorem c78_help_off (ha : cli.arrange = arrange2016) {c : Command} (hu : c.Uses stamps) {before after : List String}
    {o1 o2 : List (String × String)} (h1 : Options optionNames before o1) (h2 : Options optionNames after o2) {name word : String}
    {value : Option String} (hn : name = "help" ∨ name = "h") (hs : Switch name word value) (hv : Off value) {f t o : String}
    (hf : Says (o1 ++ o2) "from" f) (ht : Says (o1 ++ o2) "to" t) (ho : Says (o1 ++ o2) "output" o) :
    runMain cli cfg files stamps nowFrom nowTo (c.name :: (before ++ word :: after)) sys = c.run cfg files nowFrom nowTo ⟨f, t, o⟩ sys := by
  have hl : parseFlags commandFlags (after ++ []) = some (o2, []) := by rw [parse_options h2 []]; simp [parseFlags]
  rw [List.append_nil] at hl
  have hp : parseFlags commandFlags (cli.arrange (before ++ word :: after)) = some (o1 ++ (name, value.getD "true") :: o2, []) := by
    rw [ha, arrange2016_switch h1 (helpName_formal hn).2 hs, parse_options h1, parse_help hn hs (parseBool_off hv), hl]
    rfl
  have hother : ∀ other, other ≠ name → lastSet (o1 ++ (name, value.getD "true") :: o2) other = lastSet (o1 ++ o2) other := by
    intro other hne
    rw [lastSet_append, ← List.singleton_append, lastSet_append, lastSet_append, lastSet_one, if_neg (fun h => hne h.symm)]
    simp
  have hg : lastSet (o1 ++ (name, value.getD "true") :: o2) name = some (value.getD "true") := by
    rw [lastSet_append, ← List.singleton_append, lastSet_append, options_no_help h2 hn, lastSet_one]
    simp
  have hno : ∀ other, (other = "help" ∨ other = "h") → lastSet (o1 ++ o2) other = none := by
    intro other h
    rw [lastSet_append, options_no_help h1 h, options_no_help h2 h]; rfl
  have hb := parseBool_off hv
  rw [runMain_command hu cli cfg files nowFrom nowTo _ sys hp ?_]
  · rw [hother "from" (by rcases hn with rfl | rfl <;> decide), hother "to" (by rcases hn with rfl | rfl <;> decide),
      hother "output" (by rcases hn with rfl | rfl <;> decide), lastSet_says hf, lastSet_says ht, lastSet_says ho]
  · rcases hn with rfl | rfl
    · have := hother "h" (by decide)
      rw [hno "h" (.inr rfl)] at this
      simp [twoForms, boolSet, hg, hb, this]
    · have := hother "help" (by decide)
      rw [hno "help" (.inl rfl)] at this
      simp [twoForms, boolSet, hg, hb, this]

/-- C78: with any other value the command only prints, whatever follows. -/
theorem c78_help_other (ha : cli.arrange = arrange2016) (c : Command) {before : List String} {o1 : List (String × String)}
    (h1 : Options optionNames before o1) {name word : String} {value : Option String} (hn : name = "help" ∨ name = "h")
    (hs : Switch name word value) (g1 : ¬ On value) (g2 : ¬ Off value) (rest : List String) :
    OnlyPrints (runMain cli cfg files stamps nowFrom nowTo (c.name :: (before ++ word :: rest)) sys) := by
  apply command_prints
  intro set left hp
  rw [ha, arrange2016_switch h1 (helpName_formal hn).2 hs, parse_options h1, parse_help_bad hn hs (parseBool_other g1 g2)] at hp
  cases hp

/-- C78: with both `help` and `h` the command only prints, even if both are switched off. -/
theorem c78_help_both (ha : cli.arrange = arrange2016) (c : Command) {before middle after : List String} {o1 o2 o3 : List (String × String)}
    (h1 : Options optionNames before o1) (h2 : Options optionNames middle o2) (h3 : Options optionNames after o3) {n1 n2 w1 w2 : String}
    {v1 v2 : Option String} (hn : n1 = "help" ∧ n2 = "h" ∨ n1 = "h" ∧ n2 = "help") (s1 : Switch n1 w1 v1) (s2 : Switch n2 w2 v2) :
    OnlyPrints (runMain cli cfg files stamps nowFrom nowTo (c.name :: (before ++ w1 :: (middle ++ w2 :: after))) sys) := by
  have m1 : n1 = "help" ∨ n1 = "h" := by rcases hn with ⟨rfl, rfl⟩ | ⟨rfl, rfl⟩ <;> simp
  have m2 : n2 = "help" ∨ n2 = "h" := by rcases hn with ⟨rfl, rfl⟩ | ⟨rfl, rfl⟩ <;> simp
  apply command_prints
  intro set left hp
  have hl : parseFlags commandFlags (after ++ []) = some (o3, []) := by rw [parse_options h3 []]; simp [parseFlags]
  rw [List.append_nil] at hl
  rw [ha, arrange2016_switch h1 (helpName_formal m1).2 s1, parse_options h1] at hp
  cases b1 : parseBool (v1.getD "true") with
  | none => rw [parse_help_bad m1 s1 b1] at hp; cases hp
  | some b1' =>
    rw [parse_help m1 s1 b1, parse_options h2] at hp
    cases b2 : parseBool (v2.getD "true") with
    | none => rw [parse_help_bad m2 s2 b2] at hp; cases hp
    | some b2' =>
      rw [parse_help m2 s2 b2, hl] at hp
      simp only [Option.map_some, Option.some.injEq, Prod.mk.injEq] at hp
      obtain ⟨rfl, rfl⟩ := hp
      have g1 : (lastSet (o1 ++ (n1, v1.getD "true") :: (o2 ++ (n2, v2.getD "true") :: o3)) n1).isSome = true := by
        rw [lastSet_append, ← List.singleton_append, lastSet_append, lastSet_one]
        cases lastSet (o2 ++ (n2, v2.getD "true") :: o3) n1 <;> simp
      have g2 : (lastSet (o1 ++ (n1, v1.getD "true") :: (o2 ++ (n2, v2.getD "true") :: o3)) n2).isSome = true := by
        rw [lastSet_append, ← List.singleton_append, lastSet_append, lastSet_append, ← List.singleton_append (l := o3), lastSet_append,
          lastSet_one n2, if_pos rfl]
        cases lastSet o3 n2 <;> simp
      rcases hn with ⟨rfl, rfl⟩ | ⟨rfl, rfl⟩ <;> simp [twoForms, g1, g2]

/-- C78: the program's own options `help` and `version`, switched on, before a command or alone: the program only prints. -/
theorem c78_program_on {name word : String} {value : Option String} (hn : name ∈ switchNames) (hs : Switch name word value) (hv : On value)
    (rest : List String) (hr : ∀ x tail, rest = x :: tail → ¬ Dashed x) :
    OnlyPrints (runMain cli cfg files stamps nowFrom nowTo (word :: rest) sys) := by
  apply message_prints
  have hl : parseFlags appFlags rest = some ([], rest) := by
    cases rest with
    | nil => rfl
    | cons x tail => rw [parseFlags.eq_def]; simp only [flagWord_plain (hr x tail rfl)]
  have hb := parseBool_on hv
  have hf : appFlags name = some .bool := if_pos hn
  have hp : parseFlags appFlags (word :: rest) = some ([(name, value.getD "true")], rest) := by
    rw [parseFlags.eq_def]
    simp only [flagWord_switch hn hs, hf, hb, hl]
    rfl
  have ht : (twoForms [(name, value.getD "true")] "help" "h" || twoForms [(name, value.getD "true")] "version" "v" ||
      boolSet [(name, value.getD "true")] "help" "h" || boolSet [(name, value.getD "true")] "version" "v") = true := by
    unfold switchNames at hn
    simp only [List.mem_cons, List.not_mem_nil, or_false] at hn
    rcases hn with rfl | rfl | rfl | rfl <;> simp [boolSet, lastSet_one, hb]
  unfold invoke
  simp only [hp, ht, if_true]

end

/-- C78: `ical --output x.ics -help`, `ical -help=false --output x.ics`, `ical -h=no`, `ical -h=false -help=false` and `-v ical`. -/
example (cfg : Config) (files : Int → AstroFile) (stamps : Nat → Stamp) (nowFrom nowTo : Int) (sys : System) :
    let main := fun words => runMain ⟨arrange2016, fun _ => "", fun _ => 0, true⟩ cfg files stamps nowFrom nowTo words sys
    OnlyPrints (main ["ical", "--output", "x.ics", "-help"]) ∧
    main ["ical", "-help=false", "--output", "x.ics"] = (Command.ical stamps).run cfg files nowFrom nowTo ⟨"", "", "x.ics"⟩ sys ∧
    OnlyPrints (main ["ical", "-h=no"]) ∧ OnlyPrints (main ["ical", "-h=false", "-help=false"]) ∧ OnlyPrints (main ["-v", "ical"]) := by
  have one : Options optionNames ["--output", "x.ics"] [("output", "x.ics")] := .apart "--" "output" "x.ics" (.inr rfl) (by decide) .none
  refine ⟨?_, ?_, ?_, ?_, ?_⟩
  · exact c78_help_on _ _ _ _ _ _ sys rfl (.ical stamps) one .none (name := "help") (.inl rfl) (.bare "-" (.inl rfl)) (.inl rfl)
  · exact c78_help_off _ _ _ _ _ _ sys rfl (c := .ical stamps) (fun _ h => by cases h; rfl) .none one (name := "help") (.inl rfl)
      (.valued "-" "false" (.inl rfl)) ⟨"false", by decide, rfl⟩ (.missing _ (by decide)) (.missing _ (by decide))
      (.given (before := []) (after := []) _ _ (by simp))
  · refine c78_help_other _ _ _ _ _ _ sys rfl (.ical stamps) .none (name := "h") (.inr rfl) (.valued "-" "no" (.inl rfl)) ?_ ?_ []
    · rintro (h | ⟨v, hv, h⟩)
      · cases h
      · cases h; revert hv; decide
    · rintro ⟨v, hv, h⟩
      cases h; revert hv; decide
  · exact c78_help_both _ _ _ _ _ _ sys rfl (.ical stamps) .none .none .none (.inr ⟨rfl, rfl⟩) (.valued "-" "false" (.inl rfl))
      (.valued "-" "false" (.inl rfl))
  · exact c78_program_on _ _ _ _ _ _ sys (name := "v") (by decide) (.bare "-" (.inl rfl)) (.inl rfl) ["ical"]
      (by rintro x tail h; cases h; exact not_dashed (by decide))

end Verif.Props
