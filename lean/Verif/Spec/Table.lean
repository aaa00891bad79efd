import Verif.Spec.Events
/-
Specification vocabulary for the exception table. Nothing here models code of /repo.
-/
set_option autoImplicit false

namespace Verif.Spec
open Verif.Go Verif.Model

/-- `cfg` has at most `n` entries in its exception table, and none of them marks an adhikamāsa year as adhikavāra. -/
structure SmallTable (cfg : Config) (n : Nat) : Prop where
  few : ∃ years : List Int, years.length ≤ n ∧ ∀ y, cfg.exceptions y ≠ none → y ∈ years
  sound : ∀ y, cfg.exceptions y = some true → (SuriyaYear.init y).isAdhikamasa = false

/-- The settings after a caller has set the entries of `entries` (later ones first) in `cfg`. -/
def withEntries (cfg : Config) (entries : List (Int × Bool)) : Config :=
  { cfg with exceptions := fun y => match entries.lookup y with
      | some b => some b
      | none => cfg.exceptions y }

end Verif.Spec
