import Verif.Model.CliRun
import Verif.Spec.AlmanacText
/-
Specification of the exit code, for C66 and C78: what is asked for can be done.
-/
set_option autoImplicit false

namespace Verif.Spec
open Verif.Model

/-- The option is missing or gives an existing date. -/
def GoodDate (flag : String) : Prop :=
  flag = "" ∨ ∃ (day : Int) (y m d : Nat), y ≤ 9999 ∧ flag = isoDate y m d ∧ IsDate day y m d

/-- The system opens the output file and takes `n` bytes. -/
def Takes (sys : System) (n : Nat) : Prop :=
  sys.openFails = false ∧ n ≤ (sys.sizes.map (· + 1)).sum

end Verif.Spec
