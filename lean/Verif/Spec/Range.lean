import Verif.Spec.Days
/-
Specification vocabulary for ranges of days. Nothing here models code of /repo.
-/
set_option autoImplicit false

namespace Verif.Spec
open Verif.Go Verif.Model

/-- Both bounds are in UTC, the first in 1900 or later. -/
structure UtcRange (fromDate toDate : Time) : Prop where
  utcFrom : fromDate.offset = 0
  utcTo : toDate.offset = 0
  first : 1900 ≤ fromDate.year

/-- Everything generated for a year from 1900 to `last` is dated in that year. -/
def DatedInYear (cfg : Config) (last : Int) : Prop :=
  ∀ y, 1900 ≤ y → y ≤ last → ∀ e ∈ generateSolarYear cfg y, e.getDate.year = y

/-- The two ranges contain the same instants of the UTC day `d`. -/
def SameOnDay (d : Int) (from1 to1 from2 to2 : Time) : Prop :=
  ∀ t : Time, t.offset = 0 → t.day = d → (Within from1 to1 t ↔ Within from2 to2 t)

end Verif.Spec
