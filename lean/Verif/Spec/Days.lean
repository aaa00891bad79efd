import Verif.Spec.Events
/-
Specification vocabulary for lists of calendar days. Nothing here models code of /repo.
-/
set_option autoImplicit false

namespace Verif.Spec
open Verif.Go Verif.Model

/-- The instant at which the local day of `t` begins. -/
def dayStart (t : Time) : Int := t.nanos - t.sinceMidnight

/-- The astronomical moons of a list of events, in order. -/
def astrosOf (es : List CalendarEvent) : List AstroMoon :=
  es.filterMap fun | .astro m => some m | _ => none

/-- The plain events of a list of events, in order. -/
def plainOf (es : List CalendarEvent) : List Event :=
  es.filterMap fun | .event m => some m | _ => none

/-- The events of the day starting at instant `s`. -/
def onDay (s : Int) (es : List CalendarEvent) : List CalendarEvent :=
  es.filter fun e => decide (dayStart e.getDate = s)

/-- The calendar day `c` holds exactly the events `es` of its day: the last uposatha, half moon and astronomical moon,
all major and plain events in order; it carries the date of the last event. -/
structure Holds (es : List CalendarEvent) (c : CalDay) : Prop where
  date : es.getLast?.map CalendarEvent.getDate = some c.Date
  uposatha : c.UposathaMoon = (uposathasOf es).getLast?.toList
  half : c.HalfMoon = (halvesOf es).getLast?.toList
  astro : c.AstroMoon = (astrosOf es).getLast?.toList
  majors : c.MajorEvents = majorsOf es
  plain : c.Events = plainOf es

/-- `d` is neither before `fromDate` nor after `toDate`. -/
def Within (fromDate toDate d : Time) : Prop := fromDate.nanos ≤ d.nanos ∧ d.nanos ≤ toDate.nanos

instance (a b d : Time) : Decidable (Within a b d) := by unfold Within; infer_instance

/-- The years from `a` to `b`. -/
def yearsFrom (a b : Int) : List Int := (List.range (b - a + 1).toNat).map fun (i : Nat) => a + (i : Int)

/-- The calendar events of the years of a date range that lie in the range, year by year. -/
def calendarEventsIn (cfg : Config) (fromDate toDate : Time) : List CalendarEvent :=
  (yearsFrom fromDate.year toDate.year).flatMap fun y =>
    (generateSolarYear cfg y).filter fun e => decide (Within fromDate toDate e.getDate)

end Verif.Spec
