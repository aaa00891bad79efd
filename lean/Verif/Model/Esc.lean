import Mathlib.Data.List.Basic
/-
Model of the embedded files, data.go:29-71 and 150-166 (`prepare` and `FSByte(false, name)`), as a transition system:
any number of calls of `FSByte` run concurrently, one atomic step at a time, in any order (sequentially consistent
interleaving; theorem c38_no_race justifies this under the Go memory model). `sync.Once` is modelled by its
implementation (fast path, mutex, second check, `done` set before the unlock).
A file comes with the outcome of decoding it (Model/Gzip.lean decodes), and `path.Clean` and `path.Base` are parameters
(Model/Path.lean has them); Model/EscFS.lean puts all together. A panic inside the function passed to `Do` and `useLocal = true` are not modelled.
-/
set_option autoImplicit false

namespace Verif.Model.Esc

/-- An error value. -/
inductive Err where
  | notExist
  | other (msg : String)
deriving DecidableEq, Repr

/-- The constant part of data.go:29-38 `_escFile`, with the outcome of decoding `compressed`: the error of
`gzip.NewReader`, or what `ioutil.ReadAll` returns (data read so far and error). -/
structure EscFile where
  size : Int
  newReader : Option Err
  readAll : List UInt8 × Option Err

/-- The variable part of `_escFile`: data.go:35-37 with the state of the `sync.Once`. -/
structure FileState where
  done : Bool := false
  holder : Option Nat := none
  data : List UInt8 := []
  name : String := ""

/-- Where a call of `FSByte` is. -/
inductive PC where
  | idle       -- not started
  | fast       -- once.Do: `o.done.Load() == 0`
  | lock       -- once.doSlow: `o.m.Lock()`
  | recheck    -- `o.done == 0` under the lock
  | setName    -- data.go:55-58
  | newReader  -- data.go:59-64
  | readAll    -- data.go:65
  | setDone    -- `o.done.Store(1)`
  | unlock     -- `o.m.Unlock()`
  | checkErr   -- data.go:67-70, 161-164
  | readData   -- data.go:165
  | returned (data : List UInt8) (err : Option Err)
deriving DecidableEq, Repr

/-- A call: its position and the local variable `err` of `prepare` (data.go:53). -/
structure Call where
  pc : PC := .idle
  err : Option Err := none

/-- What does not change: the table `_escData`, the two `path` functions, and the argument of each call. -/
structure Env where
  escData : String → Option EscFile
  clean : String → String
  base : String → String
  arg : Nat → String

structure State where
  file : String → FileState
  call : Nat → Call

def State.init : State := { file := fun _ => {}, call := fun _ => {} }

/-- The key under which call `i` looks up its file. -/
def Env.key (env : Env) (i : Nat) : String := env.clean (env.arg i)

def State.setCall (s : State) (i : Nat) (c : Call) : State :=
  { s with call := fun j => if j = i then c else s.call j }

def State.setFile (s : State) (k : String) (f : FileState) : State :=
  { s with file := fun k' => if k' = k then f else s.file k' }

def State.goto (s : State) (i : Nat) (pc : PC) : State := s.setCall i { s.call i with pc := pc }

/-- One step of call `i`; `none` if it has returned or waits for the mutex. -/
def step (env : Env) (s : State) (i : Nat) : Option State :=
  let c := s.call i
  let k := env.key i
  let f := s.file k
  match env.escData k with
  | none =>
    match c.pc with
    | .idle => some (s.goto i (.returned [] (some .notExist)))
    | _ => none
  | some e =>
    match c.pc with
    | .idle => some (s.goto i .fast)
    | .fast => some (s.goto i (if f.done then .checkErr else .lock))
    | .lock => if f.holder = none then some ((s.setFile k { f with holder := some i }).goto i .recheck) else none
    | .recheck => some (s.goto i (if f.done then .unlock else .setName))
    | .setName =>
      some ((s.setFile k { f with name := env.base (env.arg i) }).goto i (if e.size = 0 then .setDone else .newReader))
    | .newReader =>
      match e.newReader with
      | some err => some (s.setCall i { pc := .setDone, err := some err })
      | none => some (s.goto i .readAll)
    | .readAll => some ((s.setFile k { f with data := e.readAll.1 }).setCall i { pc := .setDone, err := e.readAll.2 })
    | .setDone => some ((s.setFile k { f with done := true }).goto i .unlock)
    | .unlock => some ((s.setFile k { f with holder := none }).goto i .checkErr)
    | .checkErr =>
      match c.err with
      | some err => some (s.goto i (.returned [] (some err)))
      | none => some (s.goto i .readData)
    | .readData => some (s.goto i (.returned f.data none))
    | .returned _ _ => none

/-- Run a schedule, the list of calls that take a step; a call that cannot move is skipped. -/
def run (env : Env) (s : State) (schedule : List Nat) : State :=
  schedule.foldl (fun s i => (step env s i).getD s) s

end Verif.Model.Esc
