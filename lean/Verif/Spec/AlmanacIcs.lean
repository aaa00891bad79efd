import Verif.Spec.Almanac
import Verif.Spec.Ical
/-
How an iCalendar object shows the entries of the almanac. Nothing here models code of /repo.
-/
set_option autoImplicit false

namespace Verif.Spec.Almanac

def seasonText (season : Int) : String := if season = 1 then "Hemanta" else if season = 2 then "Gimha" else "Vassāna"

/-- The text of an uposatha. -/
def uposathaText (u : Uposatha) : String :=
  (if u.full then "Full" else "New") ++ " Moon - " ++ toString u.fortnight ++ " day " ++ seasonText u.season ++ " " ++
    toString u.number ++ "/" ++ toString u.total

/-- An entry of the almanac: its day and its text. The half moon after the last full moon of a lunar year is left out when the civil
year changes between the two. -/
def IsEntry (exceptions : Int → Option Bool) (kattika : Int → Int) (day : Int) (text : String) : Prop :=
  (∃ u, IsUposatha exceptions kattika u ∧ day = u.day ∧ text = uposathaText u) ∨
  (∃ u, IsUposatha exceptions kattika u ∧ day = u.day + 8 ∧ text = (if u.full then "Waning Moon" else "Waxing Moon") ∧
    ¬ (u.month = 12 ∧ u.full = true ∧ ∃ y, InYear u.day y ∧ ¬ InYear (u.day + 8) y)) ∨
  IsFestival exceptions kattika day text

/-- The event is a whole day with this summary. -/
def WholeDay (props : List (String × String)) (day : Int) (text : String) : Prop :=
  (∃ v, prop props "DTSTART;VALUE=DATE" = some v ∧ IsIcsDate v day) ∧
  (∃ v, prop props "DTEND;VALUE=DATE" = some v ∧ IsIcsDate v (day + 1)) ∧
  (prop props "SUMMARY").bind readText = some text

/-- The calendar shows exactly the almanac from day `first` to day `last`, in ascending order. -/
structure ShowsIcs (exceptions : Int → Option Bool) (kattika : Int → Int) (first last : Int) (cal : Calendar) : Prop where
  only : ∀ p ∈ cal.events, ∃ day text, WholeDay p day text ∧ first ≤ day ∧ day ≤ last ∧ IsEntry exceptions kattika day text
  all : ∀ day text, IsEntry exceptions kattika day text → first ≤ day → day ≤ last → ∃ p ∈ cal.events, WholeDay p day text
  orderly : cal.events.Pairwise fun p q => ∀ day text day' text', WholeDay p day text → WholeDay q day' text' →
    day ≤ day' ∧ ¬ (day = day' ∧ text = text')

end Verif.Spec.Almanac
