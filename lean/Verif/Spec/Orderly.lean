import Verif.Spec.Events
/-
Specification: orderly years.
-/
set_option autoImplicit false

namespace Verif.Spec
open Verif.Go Verif.Model

/-- The year is not both adhikamāsa and adhikavāra, and its Kattika comes at most 118 days before the year begins. -/
structure Orderly (cfg : Config) (y : Int) : Prop where
  exclusive : ¬ ((SuriyaYear.init y).isAdhikamasa = true ∧ (SuriyaYear.init y).isAdhikavara cfg = true)
  notEarly : daysSinceEpoch y - 118 ≤ (calculatePreviousKattika cfg y).day

end Verif.Spec
