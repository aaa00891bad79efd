import Verif.Spec.Feast
import Verif.Spec.AlmanacText
import Verif.Spec.AlmanacIcs
/-
Which entries of the almanac are shown when the list of a civil year starts after the full moon of Kattika that belongs to it, however
late that is. Nothing here models code of /repo.
-/
set_option autoImplicit false

namespace Verif.Spec.Almanac
open Verif.Model

/-- The uposatha is after the Kattika full moon of its civil year. -/
def Shown (kattika : Int → Int) (u : Uposatha) : Prop := ∃ y, InYear u.day y ∧ kattika y < u.day

/-- The uposatha before the half moon is after the Kattika full moon of the half moon's civil year. -/
def ShownHalf (kattika : Int → Int) (u : Uposatha) : Prop := ∃ y, InYear (u.day + 8) y ∧ kattika y < u.day

/-- The full moon of the third month in a lunar year with an extra month, if the new moon before it is in the civil year before. -/
def Doubled (exceptions : Int → Option Bool) (u : Uposatha) : Prop :=
  ∃ y, u.year = y + 543 ∧ kindOf exceptions y = .extraMonth ∧ u.month = 3 ∧ u.full = true ∧ InYear u.day y ∧ ¬ InYear (u.day - 15) y

/-- The uposatha as it is written: the year is one too high if the Kattika full moon is in the same civil year, and Māgha Pūjā is written
with a doubled full moon too. -/
def Written (exceptions : Int → Option Bool) (kattika : Int → Int) (u w : Uposatha) : Prop :=
  ∃ y, InYear u.day y ∧ (InYear (kattika y) y ∧ w.year = u.year + 1 ∨ ¬ InYear (kattika y) y ∧ w.year = u.year) ∧
    (Doubled exceptions u ∧ w.puja = some .magha ∨ ¬ Doubled exceptions u ∧ w.puja = u.puja) ∧
    w = { u with year := w.year, puja := w.puja }

/-- The JSON text shows exactly these entries from day `first` to day `last`. -/
structure ShowsFrom (exceptions : Int → Option Bool) (kattika : Int → Int) (first last : Int) (text : Json) : Prop where
  orderly : Orderly text
  unrepeated : Unrepeated text
  /-- Nothing else. -/
  uposathaOnly : ∀ day x, Entry text "UposathaMoon" day x →
    first ≤ day ∧ day ≤ last ∧ ∃ u w, IsUposatha exceptions kattika u ∧ Shown kattika u ∧ u.day = day ∧
      Written exceptions kattika u w ∧ ShowsUposatha x w
  halfOnly : ∀ day x, Entry text "HalfMoon" day x →
    first ≤ day ∧ day ≤ last ∧ ∃ u, IsUposatha exceptions kattika u ∧ ShownHalf kattika u ∧ day = u.day + 8 ∧ ShowsHalf x day (!u.full)
  festivalOnly : ∀ day x, Entry text "MajorEvents" day x →
    first ≤ day ∧ day ≤ last ∧ ∃ u w name, IsUposatha exceptions kattika u ∧ Shown kattika u ∧
      Written exceptions kattika u w ∧ FeastOf w day name ∧ ShowsFestival x day name
  noEvents : ∀ day x, ¬ Entry text "Events" day x
  /-- Everything. -/
  uposathaAll : ∀ u w, IsUposatha exceptions kattika u → Shown kattika u → Written exceptions kattika u w → first ≤ u.day → u.day ≤ last →
    ∃ x, Entry text "UposathaMoon" u.day x ∧ ShowsUposatha x w
  halfAll : ∀ u, IsUposatha exceptions kattika u → ShownHalf kattika u → first ≤ u.day + 8 → u.day + 8 ≤ last →
    ∃ x, Entry text "HalfMoon" (u.day + 8) x ∧ ShowsHalf x (u.day + 8) (!u.full)
  festivalAll : ∀ u w day name, IsUposatha exceptions kattika u → Shown kattika u → Written exceptions kattika u w → FeastOf w day name →
    first ≤ day → day ≤ last →
    ∃ x, Entry text "MajorEvents" day x ∧ ShowsFestival x day name

/-- An entry shown: its day and its text. -/
def IsEntryShown (exceptions : Int → Option Bool) (kattika : Int → Int) (day : Int) (text : String) : Prop :=
  ∃ u, IsUposatha exceptions kattika u ∧
    (Shown kattika u ∧ day = u.day ∧ text = uposathaText u ∨
     ShownHalf kattika u ∧ day = u.day + 8 ∧ text = (if u.full then "Waning Moon" else "Waxing Moon") ∨
     Shown kattika u ∧ ∃ w, Written exceptions kattika u w ∧ FeastOf w day text)

/-- The calendar shows exactly these entries from day `first` to day `last`, in ascending order. -/
structure ShowsIcsFrom (exceptions : Int → Option Bool) (kattika : Int → Int) (first last : Int) (cal : Verif.Spec.Calendar) : Prop where
  only : ∀ p ∈ cal.events, ∃ day text, WholeDay p day text ∧ first ≤ day ∧ day ≤ last ∧ IsEntryShown exceptions kattika day text
  all : ∀ day text, IsEntryShown exceptions kattika day text → first ≤ day → day ≤ last → ∃ p ∈ cal.events, WholeDay p day text
  orderly : cal.events.Pairwise fun p q => ∀ day text day' text', WholeDay p day text → WholeDay q day' text' →
    day ≤ day' ∧ ¬ (day = day' ∧ text = text')

end Verif.Spec.Almanac
