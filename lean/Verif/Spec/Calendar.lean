import Verif.Spec.Days
import Verif.Spec.Suriya
/-
Specification vocabulary for the claims about lunar years, astronomical moons and icalendars. The code's own
quantities appear only as data. Nothing here models code of /repo.
-/
set_option autoImplicit false

namespace Verif.Spec
open Verif.Go Verif.Model

/-- The tithi (0..29) of the day with horakhun `h`: the number of elapsed tithis modulo 30. -/
def tithiOfDay (h : Int) : Int := (h + (11 * h + 650) / 692) % 30

/-- Extra tithis (tithis minus days) of the era elapsed at the New Year of `su`. -/
def extraTithis (su : SuriyaYear) : Int := 30 * su.Masaken + su.Tithi - su.Horakhun

/-- Permanent surplus days before year `y`: Suriya leap years with Avoman 126 that are not adhikamāsa. -/
def surplusDays (y : Int) : Int :=
  countYears (fun z => (SuriyaYear.init z).isSuriyaLeap && decide ((SuriyaYear.init z).Avoman = 126) &&
    !(SuriyaYear.init z).isAdhikamasa) 638 (y - 638).toNat

/-- `d` is the distance back from `y` to the nearest earlier year with property `p`. -/
def IsDistance (p : Int → Bool) (y d : Int) : Prop :=
  1 ≤ d ∧ p (y - d) = true ∧ ∀ e, 1 ≤ e → e < d → p (y - e) = false

/-- The month after month `m`; `extra` says that the year has a second Asalha month (13). -/
inductive MonthAfter (extra : Bool) : Int → Int → Prop
  | leave13 : MonthAfter extra 13 9
  | enter13 : extra = true → MonthAfter extra 8 13
  | skip13 : extra = false → MonthAfter extra 8 9
  | wrap : MonthAfter extra 12 1
  | next {m : Int} : 1 ≤ m → m ≤ 11 → m ≠ 8 → MonthAfter extra m (m + 1)

/-- Season, number in the season and season total of the `k`-th uposatha (from 0) of a lunar year whose hot
season has `hot` uposathas. -/
def seasonOf (hot k : Nat) : Int × Int × Int :=
  if k < 8 then (1, k + 1, 8)
  else if k < 8 + hot then (2, k - 8 + 1, hot)
  else (3, k - 8 - hot + 1, 8)

/-- What the file of one year contributes: nothing for an unsuccessful response or one with an error code, otherwise
its moons in range with their phases; `none` (a panic) for undecodable data or a phase code outside 0..3. -/
def contribution (fromDate toDate : Time) : AstroFile → Option (List AstroMoon)
  | .missing => some []
  | .undecodable => none
  | .resp success errorCode response =>
    if success = true ∧ errorCode = "" then
      (response.filter fun r => decide (Within fromDate toDate r.DateTimeISO)).mapM fun r =>
        (["new", "waxing", "full", "waning"][r.Code.toNat]?).bind fun p =>
          if 0 ≤ r.Code then some { Phase := p, Date := r.DateTimeISO.utc } else none
    else some []

/-- The files are present for the years 1900 to 2040 and no others, as in the embedded data. -/
def EmbeddedYears (files : Int → AstroFile) : Prop := ∀ y, files y = .missing ↔ (y < 1900 ∨ 2040 < y)

/-- The events of a day that go into the icalendar: all but the astronomical moon. -/
def icalDayEvents (c : CalDay) : List CalendarEvent :=
  c.UposathaMoon.map .uposatha ++ c.HalfMoon.map .half ++ c.MajorEvents.map .major ++ c.Events.map .event

end Verif.Spec
