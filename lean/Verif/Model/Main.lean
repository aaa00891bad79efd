import Verif.Model.CliRun
/-
Model of `main` in suriya/suriya.go:192-233: from the words of the command line to the actions.
The words are parsed by the library codegangsta/cli, whose source is not in the repository, on top of Go's package `flag`.
The model follows version 1 of that library: the words before the command are parsed with the flags of the program, those after
it with the flags of the command and `help`; whatever goes wrong, a text is printed and `App.Run` returns an error, which line
232 ignores.
What differs between versions is a parameter: the order in which the words after a command are handed to `flag`, the texts of the
help, and the exit code of the command `help`. Simplifications: words are texts, not arbitrary bytes; the list of words is without
the name of the program.
-/
set_option autoImplicit false

namespace Verif.Model
open Verif.Go

/-! ### Package flag -/

/-- The kinds of flags. -/
inductive FlagKind where
  | string
  | bool
deriving DecidableEq

/-- What package `flag` takes a word for. -/
inductive FlagWord where
  | plain                                         -- not a flag
  | terminator                                    -- "--"
  | bad                                           -- bad flag syntax
  | flag (name : String) (value : Option String)
deriving DecidableEq

/-- `(*FlagSet).parseOne`: a word after its minus signs. -/
def flagName : List Char → FlagWord
  | [] => .bad
  | c :: cs =>
    if c = '-' ∨ c = '=' then .bad
    else
      match cs.dropWhile (· ≠ '=') with
      | [] => .flag (String.ofList (c :: cs)) none
      | _ :: value => .flag (String.ofList (c :: cs.takeWhile (· ≠ '='))) (some (String.ofList value))

/-- `(*FlagSet).parseOne`: one word. -/
def flagWord (s : String) : FlagWord :=
  match s.toList with
  | ['-', '-'] => .terminator
  | '-' :: '-' :: name => flagName name
  | '-' :: c :: name => flagName (c :: name)
  | _ => .plain

/-- Go `strconv.ParseBool`. -/
def parseBool (s : String) : Option Bool :=
  if s ∈ ["1", "t", "T", "true", "TRUE", "True"] then some true
  else if s ∈ ["0", "f", "F", "false", "FALSE", "False"] then some false
  else none

/-- `(*FlagSet).Parse`: the flags set, in order, and the words that are left; `none` is an error. -/
def parseFlags (formal : String → Option FlagKind) : List String → Option (List (String × String) × List String)
  | [] => some ([], [])
  | s :: rest =>
    match flagWord s with
    | .plain => some ([], s :: rest)
    | .terminator => some ([], rest)
    | .bad => none
    | .flag name value =>
      match formal name with
      | none => none
      | some .bool =>
        match parseBool (value.getD "true") with
        | none => none
        | some _ => (parseFlags formal rest).map fun (set, left) => ((name, value.getD "true") :: set, left)
      | some .string =>
        match value, rest with
        | some v, rest => (parseFlags formal rest).map fun (set, left) => ((name, v) :: set, left)
        | none, v :: rest => (parseFlags formal rest).map fun (set, left) => ((name, v) :: set, left)
        | none, [] => none

/-- The value of a flag that was set: the last one. -/
def lastSet (set : List (String × String)) (name : String) : Option String :=
  set.foldl (fun old (n, v) => if n = name then some v else old) none

/-! ### Library cli -/

/-- The flags that the library adds to a program, and to a command (only `help`). -/
def appFlags (name : String) : Option FlagKind :=
  if name ∈ ["help", "h", "version", "v"] then some .bool else none

/-- suriya/suriya.go:197-210 and the flag added by the library. -/
def commandFlags (name : String) : Option FlagKind :=
  if name ∈ ["from", "to", "output"] then some .string
  else if name ∈ ["help", "h"] then some .bool
  else none

/-- What depends on the version of the library, and the order in which Go walks through a map. -/
structure Cli where
  arrange : List String → List String      -- the words after a command as they are handed to `flag`
  text : List String → String              -- what is printed instead of an action, by the words of the command line
  helpExit : List String → Int             -- the exit code of the command `help`
  toFirst : Bool                           -- whether the map printed by line 229 gives the last day first

/-- Both forms of a flag with two names are used: an error of `normalizeFlags`. -/
def twoForms (set : List (String × String)) (long short : String) : Bool :=
  (lastSet set long).isSome && (lastSet set short).isSome

/-- `Context.Bool`, for a flag with two names. -/
def boolSet (set : List (String × String)) (long short : String) : Bool :=
  ((lastSet set long).bind parseBool).getD false || ((lastSet set short).bind parseBool).getD false

/-- What comes of the words of a command line. -/
inductive Invocation where
  | message                                     -- an error, the help or the version is printed
  | help                                        -- the command `help`
  | dump                                        -- no command: suriya/suriya.go:227-230
  | command (ical : Bool) (flags : Flags)
deriving DecidableEq

/-- `Command.Run` for the commands of suriya/suriya.go:212-225. -/
def invokeCommand (cli : Cli) (ical : Bool) (words : List String) : Invocation :=
  match parseFlags commandFlags (cli.arrange words) with
  | none => .message
  | some (set, _) =>
    if twoForms set "help" "h" || boolSet set "help" "h" then .message
    else .command ical ⟨(lastSet set "from").getD "", (lastSet set "to").getD "", (lastSet set "output").getD ""⟩

/-- `App.Run`. -/
def invoke (cli : Cli) (words : List String) : Invocation :=
  match parseFlags appFlags words with
  | none => .message
  | some (set, left) =>
    if twoForms set "help" "h" || twoForms set "version" "v" || boolSet set "help" "h" || boolSet set "version" "v" then .message
    else
      match left with
      | [] => .dump
      | name :: words =>
        if name = "caldays" then invokeCommand cli false words
        else if name = "ical" then invokeCommand cli true words
        else if name = "help" ∨ name = "h" then .help
        else .dump

/-- `time.Time.String` for whole seconds of the years 0 to 9999 in UTC. -/
def timeString (t : Time) : List Char :=
  let (y, m, d) := (t.year, t.month, t.dayOfMonth)
  appendInt y 4 ++ '-' :: appendInt m 2 ++ '-' :: appendInt d 2 ++ " 00:00:00 +0000 UTC".toList

/-- `spew.Dump` of the map of suriya/suriya.go:229. -/
def dumpText (toFirst : Bool) (fromDate toDate : Time) : List Char :=
  let f := " (string) (len=8) \"fromDate\": (time.Time) ".toList ++ timeString fromDate
  let t := " (string) (len=6) \"toDate\": (time.Time) ".toList ++ timeString toDate
  "(map[string]time.Time) (len=2) {\n".toList ++ (if toFirst then t ++ ",\n".toList ++ f else f ++ ",\n".toList ++ t) ++ "\n}\n".toList

/-- suriya/suriya.go:192-233 `main`, for the words after the name of the program. -/
def runMain (cli : Cli) (cfg : Config) (files : Int → AstroFile) (stamps : Nat → Stamp) (nowFrom nowTo : Int) (words : List String)
    (sys : System) : Run :=
  match invoke cli words with
  | .message => ⟨[.print ((utf8 (cli.text words).toList).take sys.printed)], 0⟩
  | .help => ⟨[.print ((utf8 (cli.text words).toList).take sys.printed)], cli.helpExit words⟩
  | .dump =>
    match cliInit nowFrom nowTo "" "" with
    | none => ⟨[.print ((utf8 sys.errorText.toList).take sys.printed)], 1⟩
    | some (fromDate, toDate) => ⟨[.print ((utf8 (dumpText cli.toFirst fromDate toDate)).take sys.printed)], 0⟩
  | .command false flags => runCalDays cfg files nowFrom nowTo flags sys
  | .command true flags => runIcal cfg files stamps nowFrom nowTo flags sys

/-- The order of the versions of 2016 (`Command.Run`): what lies before the first flag is put behind the last; nothing after "--"
is taken for a flag. -/
def arrange2016 (words : List String) : List String :=
  let head := words.takeWhile (· ≠ "--")
  let terminated := words.dropWhile (· ≠ "--")
  let isFlag := fun (s : String) => s.toList.head? = some '-' && s ≠ "-"
  let plain := head.takeWhile (!isFlag ·)
  let flags := head.dropWhile (!isFlag ·)
  if flags = [] then words else flags ++ plain ++ terminated

end Verif.Model
