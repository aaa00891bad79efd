/-
Model of utils/get-astromoons.sh, the script that fetched the files of data/astro.

A run is a row of events; the answers of `date +%s` are a parameter, one for each call. A step of the model is one pass through
the outer or the inner loop, so that a script that is stopped has done a prefix of the events of some number of steps.

Simplifications: numbers stay below 2^63; words contain no blanks and none of the characters that the shell expands, and the words
tested by line 11 are not operators of `[`; the exit status of `curl` is not used by the script and does not occur.
-/
set_option autoImplicit false

namespace Verif.Model.GetAstro

/-- What the script does. -/
inductive Event where
  | clock (seconds : Int)                 -- `date +%s` gave this
  | print (text : String)                 -- `echo`
  | sleep                                 -- `sleep 1`
  | fetch (url file : String)             -- `curl -s url > file`
deriving DecidableEq

/-- The number of some digits in a base up to ten; `none` if there is no digit or one is too great. -/
def digits (base : Nat) (cs : List Char) : Option Nat :=
  if cs ≠ [] ∧ cs.all (fun c => c.isDigit && decide (c.toNat - 48 < base)) = true then
    some (cs.foldl (fun n c => base * n + (c.toNat - 48)) 0)
  else none

/-- A sign before the digits, for both kinds of numbers. -/
def signed (number : List Char → Option Nat) : List Char → Option Int
  | '-' :: cs => (number cs).map fun n => -(n : Int)
  | '+' :: cs => (number cs).map fun n => (n : Int)
  | cs => (number cs).map fun n => (n : Int)

/-- A number in `[ … -le … ]`: decimal. -/
def testNumber (word : String) : Option Int := signed (digits 10) word.toList

/-- A number in `((…))`: octal after a leading 0. Words that the shell reads in another way (names, 0x, …) are no numbers of `[`
and so do not get there. -/
def arithNumber (word : String) : Option Int :=
  signed (fun cs => match cs with
    | '0' :: c :: cs => digits 8 (c :: cs)
    | cs => digits 10 cs) word.toList

/-- Line 44 `((year += 1))`: an error leaves the variable as it is. -/
def nextYear (year : String) : String :=
  match arithNumber year with
  | some n => toString (n + 1)
  | none => year

/-- The environment variables and arguments. -/
structure Args where
  clientId : String
  clientSecret : String
  fromYear : String
  toYear : String

/-- Line 43, the address. -/
def url (a : Args) (year : String) : String :=
  "http://api.aerisapi.com/sunmoon/moonphases/london,uk?from=" ++ year ++ "/01/01&to=" ++ year ++ "/12/31&limit=250&client_id=" ++
    a.clientId ++ "&client_secret=" ++ a.clientSecret

/-- Line 43, the file. -/
def file (year : String) : String := "astro-" ++ year ++ ".json"

/-- Where the script is. -/
inductive At where
  | top                  -- line 27
  | waiting (d : Int)    -- line 34
  | fetching             -- line 43
deriving DecidableEq

/-- The variables. `calls` counts the calls of `date`. -/
structure State where
  pos : At
  year : String
  lastBatchStart : Int
  reqPerMin : Nat
  calls : Nat

/-- Lines 27-48: one step; `none` is the end of the script. -/
def step (a : Args) (date : Nat → Int) (s : State) : Option (List Event × State) :=
  match s.pos with
  | .top =>
    match testNumber s.year, testNumber a.toYear with
    | some y, some t =>
      if y ≤ t then
        if s.reqPerMin > 10 then
          some ([.print (s.year ++ " ... "), .clock (date s.calls)],
            { s with pos := .waiting (date s.calls - s.lastBatchStart), calls := s.calls + 1 })
        else some ([.print (s.year ++ " ... ")], { s with pos := .fetching })
      else none
    | _, _ => none
  | .waiting d =>
    if d < 61 then
      some ([.print ("\r" ++ s.year ++ " ... wait: " ++ toString (60 - d) ++ " "), .sleep, .clock (date s.calls)],
        { s with pos := .waiting (date s.calls - s.lastBatchStart), calls := s.calls + 1 })
    else
      some ([.clock (date s.calls)],
        { s with pos := .fetching, lastBatchStart := date s.calls, reqPerMin := 0, calls := s.calls + 1 })
  | .fetching =>
    some ([.fetch (url a s.year) (file s.year), .print "OK\n"],
      { s with pos := .top, year := nextYear s.year, reqPerMin := s.reqPerMin + 1 })

/-- Some number of steps: the events, and the state unless the script ended. -/
def steps (a : Args) (date : Nat → Int) : Nat → State → List Event × Option State
  | 0, s => ([], some s)
  | n + 1, s =>
    match step a date s with
    | none => ([], none)
    | some (es, s') => let r := steps a date n s'; (es ++ r.1, r.2)

/-- Lines 19-25. -/
def start (a : Args) (date : Nat → Int) : State := ⟨.top, a.fromYear, date 0, 0, 1⟩

/-- The script up to some number of steps: the events, and the exit code if it ended. -/
def run (a : Args) (date : Nat → Int) (n : Nat) : List Event × Option Int :=
  if a.clientId = "" ∨ a.clientSecret = "" ∨ a.fromYear = "" ∨ a.toYear = "" then
    ([.print "Usage: CLIENT_ID=appid CLIENT_SECRET=secretkey ./get-astromoons.sh FROM_YEAR TO_YEAR\n"], some 1)
  else
    let r := steps a date n (start a date)
    (.clock (date 0) :: r.1, match r.2 with | none => some 0 | some _ => none)

end Verif.Model.GetAstro
