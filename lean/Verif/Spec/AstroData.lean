import Verif.Spec.Calendar
import Verif.Model.AstroData
/-
Specification vocabulary for the embedded astronomical data. Nothing here models code of /repo.
-/
set_option autoImplicit false

namespace Verif.Spec
open Verif.Go Verif.Model

/-- The four phases in their order in time. -/
def phases : List String := ["new", "waxing", "full", "waning"]

/-- The place of a phase in the lunation. -/
def phaseIndex (p : String) : Nat := phases.idxOf p

/-- All moons of the embedded data, file by file. -/
def embeddedMoons : List AstroMoon :=
  embeddedTable.flatMap fun e => (e.2.getD []).map fun n =>
    { Phase := (phases[n % 10]?).getD "", Date := (aerisMoon n).DateTimeISO.utc }

/-- The years whose embedded file holds no data. -/
def emptyYears : List Int := [1900, 1901, 1970, 2034, 2035, 2036, 2037, 2038, 2039, 2040]

/-- The years whose embedded file lacks a moon at the end of December although the next year has data. -/
def shortYears : List Int :=
  [1910, 1916, 1927, 1929, 1933, 1946, 1952, 1965, 1967, 1971, 1986, 1988, 1990, 2005, 2007, 2009, 2028, 2030]

/-- Two moons follow each other as the quarters of the moon do: next phase, 6.5 to 8.3 days later. -/
def NextQuarter (a b : AstroMoon) : Prop :=
  phaseIndex b.Phase = (phaseIndex a.Phase + 1) % 4 ∧
    2 * (b.Date.nanos - a.Date.nanos) ≥ 13 * nsPerDay ∧ 10 * (b.Date.nanos - a.Date.nanos) ≤ 83 * nsPerDay

/-- Between two moons one quarter is missing: opposite phase, 13 to 16.6 days later, over the turn of the year. -/
def OneMissing (a b : AstroMoon) : Prop :=
  phaseIndex b.Phase = (phaseIndex a.Phase + 2) % 4 ∧
    b.Date.nanos - a.Date.nanos ≥ 13 * nsPerDay ∧ 10 * (b.Date.nanos - a.Date.nanos) ≤ 166 * nsPerDay ∧
    a.Date.month = 12 ∧ a.Date.dayOfMonth ≤ 25 ∧ 6 ≤ b.Date.dayOfMonth ∧ b.Date.month = 1

instance (a b : AstroMoon) : Decidable (NextQuarter a b) := by unfold NextQuarter; infer_instance
instance (a b : AstroMoon) : Decidable (OneMissing a b) := by unfold OneMissing; infer_instance

/-- How the embedded moons follow each other. -/
def EmbeddedNext (a b : AstroMoon) : Prop :=
  if a.Date.year = 1969 ∧ b.Date.year = 1971 then a.Date.month = 12 ∧ b.Date.month = 1
  else if a.Date.year ∈ shortYears ∧ b.Date.year ≠ a.Date.year then OneMissing a b
  else NextQuarter a b

instance (a b : AstroMoon) : Decidable (EmbeddedNext a b) := by unfold EmbeddedNext; infer_instance

/-- The uposathas of 1902..2032 without 1970 for which the embedded data lacks the moon. -/
def uncovered : List Time :=
  [date 1910 12 30 0 0, date 1929 12 30 0 0, date 1933 12 31 0 0, date 1952 12 30 0 0, date 1967 12 30 0 0,
   date 1971 12 31 0 0, date 1986 12 30 0 0, date 1990 12 31 0 0, date 2005 12 30 0 0, date 2009 12 31 0 0,
   date 2028 12 30 0 0]

/-- The moon `m` falls on a day from `lo` to `hi` days after the day of `t`. -/
def DaysAfter (lo hi : Int) (t : Time) (m : AstroMoon) : Prop := t.day + lo ≤ m.Date.day ∧ m.Date.day ≤ t.day + hi

end Verif.Spec
