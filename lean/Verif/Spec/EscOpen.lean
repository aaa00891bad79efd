import Verif.Model.EscOpen
/-
Specification vocabulary for opened files: which operations concern a handle, and how to read results. Nothing here models
code.
-/
set_option autoImplicit false

namespace Verif.Spec.EscOpen
open Verif.Model.EscOpen
open Verif.Model.Esc (EscFile Err)

/-- The operation is one on handle `h`. -/
def isOn (h : Nat) : Op → Bool
  | .read h' _ => h' == h
  | .seek h' _ _ => h' == h
  | .stat h' => h' == h
  | .readdir h' _ => h' == h
  | .close h' => h' == h
  | _ => false

/-- The operation stores into a slice. -/
def isStore : Op → Bool
  | .store _ _ _ => true
  | _ => false

/-- The name by which the operation asks for a file. -/
def asked : Op → Option String
  | .openFile name => some name
  | .openIn dir name => some (dir ++ name)
  | .fsByte name => some name
  | .fsMustByte name => some name
  | .fsString name => some name
  | .fsMustString name => some name
  | _ => none

/-- The results of the operations on handle `h`. -/
def resultsOn (h : Nat) (ops : List Op) (rs : List Res) : List Res :=
  ((ops.zip rs).filter fun p => isOn h p.1).map (·.2)

/-- The bytes a result brings. -/
def bytesOf : Res → List UInt8
  | .bytes b => b
  | .slice _ b => b
  | _ => []

/-- In state `s`, handle `h` is open on the file with key `k`, at position `p`. -/
def OpenAt (s : State) (h : Nat) (k : String) (p : Int) : Prop :=
  s.handles[h]? = some ⟨k, p⟩ ∧ (s.file k).done = true

end Verif.Spec.EscOpen
