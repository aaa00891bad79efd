import Lean
/-
A tactic that closes `a = b` with the proof term `Eq.refl a` and leaves the check that `b` reduces to `a` to the kernel alone.
-/
set_option autoImplicit false

namespace Verif.Lemmas
open Lean Elab Tactic

elab "kernel_rfl" : tactic => do
  let g ← getMainGoal
  let t ← instantiateMVars (← g.getType)
  let some (α, a, _) := t.eq? | throwError "not an equation"
  g.assign (mkApp2 (mkConst ``Eq.refl [1]) α a)

end Verif.Lemmas
