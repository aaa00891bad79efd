import Verif.Model.CalDay
import Mathlib.Logic.Function.Iterate
/-
Specification vocabulary for the events of a solar year: how to read a list of calendar events, the sequence of
uposathas after a Kattika full moon and the names of the major events. Nothing here models code of /repo.
-/
set_option autoImplicit false

namespace Verif.Spec
open Verif.Go Verif.Model

/-- The uposathas of a list of events, in order. -/
def uposathasOf (es : List CalendarEvent) : List UposathaMoon :=
  es.filterMap fun | .uposatha m => some m | _ => none

/-- The half moons of a list of events, in order. -/
def halvesOf (es : List CalendarEvent) : List HalfMoon :=
  es.filterMap fun | .half m => some m | _ => none

/-- The major events of a list of events, in order. -/
def majorsOf (es : List CalendarEvent) : List MajorEvent :=
  es.filterMap fun | .major m => some m | _ => none

/-- The `k`-th uposatha after the Kattika full moon from which the year `y` is generated. -/
def moonAfterKattika (cfg : Config) (y : Int) (k : Nat) : UposathaMoon :=
  (fun u : UposathaMoon => u.nextUposatha cfg)^[k] (kattikaSeed cfg y)

/-- The uposatha as it appears in calendars: confirmed (status 2). -/
def published (u : UposathaMoon) : UposathaMoon := { u with Status := 2 }

/-- The major events attached to an uposatha: name and days after the uposatha. -/
def pujas (event : String) : List (String × Int) :=
  if event = "magha" then [("Māgha Pūjā", 0)]
  else if event = "vesakha" then [("Vesākha Pūjā", 0)]
  else if event = "asalha" then [("Āsāḷha Pūjā", 0), ("First day of Vassa", 1)]
  else if event = "pavarana" then [("Pavāraṇā Day", 0), ("Last day of Vassa", 0)]
  else []

/-- A named major event on a day. -/
def majorOn (t : Time) (name : String) : MajorEvent :=
  { Date := t, Calendar := 0, Summary := name, Description := name }

/-- The two settings of the library as shipped. -/
def Shipped (cfg : Config) : Prop := cfg = .default ∨ cfg = .official

/-- In the years `a` to `b` the settings `cfg` make no year both adhikamāsa and adhikavāra, and the Kattika full moon from
which the events of a year are generated falls on one of the `w` days before that year. -/
structure Steady (cfg : Config) (w a b : Int) : Prop where
  exclusive : ∀ y, a ≤ y → y ≤ b →
    ¬ ((SuriyaYear.init y).isAdhikamasa = true ∧ (SuriyaYear.init y).isAdhikavara cfg = true)
  notEarly : ∀ y, a ≤ y → y ≤ b → daysSinceEpoch y - w ≤ (calculatePreviousKattika cfg y).day
  notLate : ∀ y, a ≤ y → y ≤ b → (calculatePreviousKattika cfg y).day < daysSinceEpoch y

end Verif.Spec
