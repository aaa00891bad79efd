import Verif.Model.Esc
/-
Specification vocabulary for reading embedded files: what decoding a file once, alone, gives. Nothing here models code.
-/
set_option autoImplicit false

namespace Verif.Spec.Esc
open Verif.Model.Esc

/-- The data decoding yields: nothing for an empty file or an unreadable header, else what could be read. -/
def outData (e : EscFile) : List UInt8 :=
  if e.size = 0 then [] else match e.newReader with | some _ => [] | none => e.readAll.1

/-- The error decoding yields. -/
def outErr (e : EscFile) : Option Err :=
  if e.size = 0 then none else match e.newReader with | some x => some x | none => e.readAll.2

/-- Call `i` has returned `data` and `err`. -/
def Returned (s : State) (i : Nat) (data : List UInt8) (err : Option Err) : Prop := (s.call i).pc = .returned data err

/-- Call `i` has not started. -/
def Idle (s : State) (i : Nat) : Prop := (s.call i).pc = .idle

/-- Steps a call still has to take, at most. -/
def stepsLeft : PC → Nat
  | .idle => 11 | .fast => 10 | .lock => 9 | .recheck => 8 | .setName => 7 | .newReader => 6 | .readAll => 5
  | .setDone => 4 | .unlock => 3 | .checkErr => 2 | .readData => 1 | .returned _ _ => 0

end Verif.Spec.Esc
