import Verif.Spec.Events
/-
Specification vocabulary for settings that change while the program runs. Nothing here models code of /repo.
-/
set_option autoImplicit false

namespace Verif.Spec
open Verif.Go Verif.Model

/-- The answers to "is the year `z` adhikavāra" that can come from settings changing as in `reads`: the rule of the
calendar, when the switch was off or the year was not in the table; an entry of a table; or `false`, when the year
was in one table and not in another. -/
inductive Seen (reads : Nat → Config) (z : Int) : Bool → Prop
  | rule (j : Nat) (h : (reads j).useExceptions = false ∨ (reads j).exceptions z = none) :
      Seen reads z (SuriyaYear.init z).isAdhikavaraRule
  | entry (i j : Nat) (b : Bool) (h : (reads i).useExceptions = true) (hb : (reads j).exceptions z = some b) :
      Seen reads z b
  | lost (i j k : Nat) (h : (reads i).useExceptions = true) (hj : (reads j).exceptions z ≠ none)
      (hk : (reads k).exceptions z = none) : Seen reads z false

/-- The settings in which the year `z` is adhikavāra exactly if `f z`. -/
def answers (f : Int → Bool) : Config := { useExceptions := true, exceptions := fun z => some (f z) }

/-- The events of the year `y` generated from the full moon `seed` with the settings `cfg`. -/
def eventsFrom (cfg : Config) (y : Int) (seed : UposathaMoon) : List CalendarEvent :=
  (generateLoop cfg y ((daysSinceEpoch (y + 1) - seed.Date.day).toNat + 1) seed []).getD []

/-- The full moon of Kattika at `d`. -/
def kattikaMoon (d : Time) : UposathaMoon :=
  { Date := d, Phase := "full", S_Number := 8, S_Total := 8, U_Days := 15, M_Days := 29, LunarMonth := 12,
    LunarSeason := 3, LunarYear := d.year + 543 }

end Verif.Spec
