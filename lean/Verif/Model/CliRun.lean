import Verif.Model.Json
import Verif.Model.Ical
/-
Model of what the two commands of suriya/suriya.go do to the outside world: standard output, the output file and the exit
code. A run is the list of its effects in order; the process may be killed between any two of them.
What the operating system does is an input: whether the file can be opened, how many bytes each write takes before it fails,
and how much of what is printed arrives. Simplifications: a file is its path (no links, no other writers); the texts of error
messages are an input; flags are taken as parsed by the library `cli` (Model/Main); standard error (`log.Printf`, panics) is left out, as is
`f.Close`, whose error is ignored.
-/
set_option autoImplicit false

namespace Verif.Model
open Verif.Go

/-- The bytes of a Go string: UTF-8. -/
def utf8 (text : List Char) : List UInt8 := text.flatMap String.utf8EncodeChar

/-- Files by path, and what has been printed. -/
structure World where
  files : String → Option (List UInt8)
  stdout : List UInt8

/-- One change of the world. -/
inductive Effect where
  | create (path : String)                      -- os.OpenFile with O_CREATE|O_TRUNC|O_WRONLY
  | append (path : String) (b : List UInt8)     -- one write to the opened file
  | print (b : List UInt8)                      -- to standard output

def Effect.apply (w : World) : Effect → World
  | .create path => { w with files := fun p => if p = path then some [] else w.files p }
  | .append path b => { w with files := fun p => if p = path then some ((w.files p).getD [] ++ b) else w.files p }
  | .print b => { w with stdout := w.stdout ++ b }

/-- The world after some effects. -/
def World.after (w : World) (effects : List Effect) : World := effects.foldl Effect.apply w

/-- The operating system's part in one run. -/
structure System where
  openFails : Bool          -- `os.OpenFile` returns an error
  sizes : List Nat          -- the k-th write takes `sizes[k] + 1` bytes; the write after the last one fails
  printed : Nat             -- the number of bytes printed before standard output fails
  errorText : String        -- text of the error for a wrong date

/-- `(*os.File).Write`: writes until everything is written or a write fails; the flag says that all is written. -/
def writes : (sizes : List Nat) → List UInt8 → List (List UInt8) × Bool
  | _, [] => ([], true)
  | [], _ :: _ => ([], false)
  | n :: sizes, b :: rest =>
    let (ws, ok) := writes sizes (rest.drop n)
    ((b :: rest.take n) :: ws, ok)

/-- What a run does and its exit code. -/
structure Run where
  effects : List Effect
  exit : Int

/-- suriya/suriya.go:69-84 and 172-187: the output of `str`; errors of `fmt.Printf` (lines 83 and 186) are ignored. -/
def output (sys : System) (path : String) (str : List Char) (ending : List Char) : Run :=
  if 0 < path.length then
    if sys.openFails then ⟨[], 1⟩
    else
      let (ws, ok) := writes sys.sizes (utf8 str)
      ⟨.create path :: ws.map (.append path), if ok then 0 else 1⟩
  else ⟨[.print ((utf8 (str ++ ending)).take sys.printed)], 0⟩

/-- The flags of both commands, suriya/suriya.go:197-210. -/
structure Flags where
  fromDate : String
  toDate : String
  output : String
deriving DecidableEq

/-- suriya/suriya.go:48-87 `actionCalDays`. The exit code of a panic is 2. -/
def runCalDays (cfg : Config) (files : Int → AstroFile) (nowFrom nowTo : Int) (flags : Flags) (sys : System) : Run :=
  match cliInit nowFrom nowTo flags.fromDate flags.toDate with
  | none => ⟨[.print ((utf8 sys.errorText.toList).take sys.printed)], 1⟩
  | some (fromDate, toDate) =>
    match getCalDays cfg files fromDate toDate with
    | none => ⟨[], 2⟩
    | some cal_days =>
      match groupsJson (daysByYear cal_days) with
      | none => ⟨[], 1⟩
      | some j => output sys flags.output j.text ['\n']

/-- suriya/suriya.go:89-190 `actionIcal`. The error of `Encode` (line 169) is ignored; it cannot occur on a buffer. -/
def runIcal (cfg : Config) (files : Int → AstroFile) (stamps : Nat → Stamp) (nowFrom nowTo : Int) (flags : Flags) (sys : System) :
    Run :=
  match cliInit nowFrom nowTo flags.fromDate flags.toDate with
  | none => ⟨[.print ((utf8 sys.errorText.toList).take sys.printed)], 1⟩
  | some (fromDate, toDate) =>
    match getCalDays cfg files fromDate toDate with
    | none => ⟨[], 2⟩
    | some cal_days => output sys flags.output (icsText (icalComponents cal_days) stamps) []

end Verif.Model
