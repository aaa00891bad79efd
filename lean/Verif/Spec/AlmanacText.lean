import Verif.Spec.Almanac
import Verif.Spec.Json
import Verif.Spec.Text
/-
How a JSON text shows the entries of the almanac. Nothing here models code of /repo.
-/
set_option autoImplicit false

namespace Verif.Spec.Almanac
open Verif.Model

/-- The date a command works with: the one given, as a text, or, if none is given, the day `m`/`d` of the clock's year. -/
def Asks (flag : String) (now m d date : Int) : Prop :=
  (flag = "" ∧ IsDate date now m d) ∨ ∃ y' m' d' : Nat, y' ≤ 9999 ∧ flag = isoDate y' m' d' ∧ IsDate date y' m' d'

/-- The field holds the beginning of the day, YYYY-MM-DDT00:00:00Z. -/
def HasDay (j : Json) (name : String) (day : Int) : Prop :=
  ∃ y m d : Nat, y ≤ 9999 ∧ IsDate day y m d ∧
    field j name = some (.str (String.ofList (pad 4 y ++ '-' :: pad 2 m ++ '-' :: pad 2 d ++ "T00:00:00Z".toList)))

/-- The name of a festival in the object of an uposatha. -/
def eventName : Option Puja → String
  | none => ""
  | some .magha => "magha"
  | some .vesakha => "vesakha"
  | some .asalha => "asalha"
  | some .pavarana => "pavarana"

/-- The object of an uposatha. -/
structure ShowsUposatha (j : Json) (u : Uposatha) : Prop where
  date : HasDay j "Date" u.day
  phase : field j "Phase" = some (.str (if u.full then "full" else "new"))
  month : field j "LunarMonth" = some (.num u.month)
  year : field j "LunarYear" = some (.num u.year)
  fortnight : field j "U_Days" = some (.num u.fortnight)
  monthDays : field j "M_Days" = some (.num u.monthDays)
  season : field j "LunarSeason" = some (.num u.season)
  number : field j "S_Number" = some (.num u.number)
  total : field j "S_Total" = some (.num u.total)
  added : field j "HasAdhikavara" = some (.bool u.added)
  event : field j "Event" = some (.str (eventName u.puja))

/-- The object of a half moon. -/
structure ShowsHalf (j : Json) (day : Int) (waxing : Bool) : Prop where
  date : HasDay j "Date" day
  phase : field j "Phase" = some (.str (if waxing then "waxing" else "waning"))

/-- The object of a festival. -/
structure ShowsFestival (j : Json) (day : Int) (name : String) : Prop where
  date : HasDay j "Date" day
  summary : field j "Summary" = some (.str name)

/-- `x` is an item of the list `name` of the day `day`, which is itself an item of the list of its civil year. -/
def Entry (text : Json) (name : String) (day : Int) (x : Json) : Prop :=
  ∃ (y : Int) (days : List Json) (c : Json) (t : Verif.Go.Time) (items : List Json),
    InYear day y ∧ field text (toString y) = some (.arr days) ∧ c ∈ days ∧ HasTime c "Date" t ∧ t.day = day ∧
    field c name = some (.arr items) ∧ x ∈ items

/-- The days of each year are in ascending order, each once. -/
def Orderly (text : Json) : Prop :=
  ∀ (y : Int) (days : List Json), field text (toString y) = some (.arr days) →
    days.Pairwise fun c c' => ∀ t t', HasTime c "Date" t → HasTime c' "Date" t' → t.day < t'.day

/-- No list of a day holds an item twice. -/
def Unrepeated (text : Json) : Prop :=
  ∀ (y : Int) (days : List Json) (c : Json) (name : String) (items : List Json), field text (toString y) = some (.arr days) →
    c ∈ days → name ∈ ["UposathaMoon", "HalfMoon", "AstroMoon", "MajorEvents"] → field c name = some (.arr items) → items.Nodup

/-- The JSON text shows exactly the almanac from day `first` to day `last`. The half moon after the last full moon of a lunar
year is missing when the civil year changes between the two. -/
structure Shows (exceptions : Int → Option Bool) (kattika : Int → Int) (first last : Int) (text : Json) : Prop where
  orderly : Orderly text
  unrepeated : Unrepeated text
  /-- Nothing else. -/
  uposathaOnly : ∀ day x, Entry text "UposathaMoon" day x →
    first ≤ day ∧ day ≤ last ∧ ∃ u, IsUposatha exceptions kattika u ∧ u.day = day ∧ ShowsUposatha x u
  halfOnly : ∀ day x, Entry text "HalfMoon" day x →
    first ≤ day ∧ day ≤ last ∧ ∃ w, IsHalf exceptions kattika day w ∧ ShowsHalf x day w
  festivalOnly : ∀ day x, Entry text "MajorEvents" day x →
    first ≤ day ∧ day ≤ last ∧ ∃ name, IsFestival exceptions kattika day name ∧ ShowsFestival x day name
  noEvents : ∀ day x, ¬ Entry text "Events" day x
  /-- Everything. -/
  uposathaAll : ∀ u, IsUposatha exceptions kattika u → first ≤ u.day → u.day ≤ last →
    ∃ x, Entry text "UposathaMoon" u.day x ∧ ShowsUposatha x u
  halfAll : ∀ u, IsUposatha exceptions kattika u → first ≤ u.day + 8 → u.day + 8 ≤ last →
    ((∃ x, Entry text "HalfMoon" (u.day + 8) x ∧ ShowsHalf x (u.day + 8) (!u.full)) ↔
      ¬ (u.month = 12 ∧ u.full = true ∧ ∃ y, InYear u.day y ∧ ¬ InYear (u.day + 8) y))
  festivalAll : ∀ day name, IsFestival exceptions kattika day name → first ≤ day → day ≤ last →
    ∃ x, Entry text "MajorEvents" day x ∧ ShowsFestival x day name

end Verif.Spec.Almanac
