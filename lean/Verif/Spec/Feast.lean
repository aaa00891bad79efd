import Verif.Spec.Almanac
/-
The days kept for an uposatha of the almanac, as in `Almanac.IsFestival`.
-/
set_option autoImplicit false

namespace Verif.Spec.Almanac

/-- The feast `name` on `day` belongs to the uposatha `u`. -/
def FeastOf (u : Uposatha) (day : Int) (name : String) : Prop :=
  u.puja = some .magha ∧ day = u.day ∧ name = "Māgha Pūjā" ∨
  u.puja = some .vesakha ∧ day = u.day ∧ name = "Vesākha Pūjā" ∨
  u.puja = some .asalha ∧ day = u.day ∧ name = "Āsāḷha Pūjā" ∨
  u.puja = some .asalha ∧ day = u.day + 1 ∧ name = "First day of Vassa" ∨
  u.puja = some .pavarana ∧ day = u.day ∧ name = "Pavāraṇā Day" ∨
  u.puja = some .pavarana ∧ day = u.day ∧ name = "Last day of Vassa"

theorem isFestival_iff (exceptions : Int → Option Bool) (kattika : Int → Int) (day : Int) (name : String) :
    IsFestival exceptions kattika day name ↔ ∃ u, IsUposatha exceptions kattika u ∧ FeastOf u day name := Iff.rfl

end Verif.Spec.Almanac
