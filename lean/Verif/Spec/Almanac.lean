import Verif.Spec.Gregorian
import Mathlib.Algebra.BigOperators.Group.List.Basic
/-
The lunar calendar of Thailand as a printed almanac: from one known full moon, the rules for long years and the lengths
of the months. Nothing here refers to the code of /repo or to its model.
-/
set_option autoImplicit false

namespace Verif.Spec.Almanac

/-! ### long years -/

/-- The number of the day on which the year `y` begins, in days of the era of 638: 292207 days are 800 years. -/
def eraDay (y : Int) : Int := (292207 * (y - 638) + 373) / 800 + 1

/-- The age of the moon at that time in tithis, of which there are 703 to 692 days. -/
def moonAge (y : Int) : Int := (eraDay y + (11 * eraDay y + 650) / 692) % 30

/-- The fraction of a tithi already gone. -/
def excess (y : Int) : Int := (11 * eraDay y + 650) % 692

/-- The year begins near a new moon: in the last six or the first six tithis of a month. -/
def nearNewMoon (y : Int) : Bool := decide (moonAge y ≤ 5) || decide (24 ≤ moonAge y)

/-- The year gets a second eighth month: it is the last of its neighbours to begin near a new moon. -/
def monthDue (y : Int) : Bool := nearNewMoon y && !nearNewMoon (y + 1)

/-- A day is due: the fraction is small; the limit is lower in a solar leap year. -/
def dayDue (y : Int) : Bool := decide (excess y ≤ if eraDay (y + 1) - eraDay y = 366 then 126 else 136)

/-- The year gets a day more in its eighth month: a day is due, or was due in the year before, which had the extra month
instead. A table of exceptions has precedence. -/
def dayAdded (exceptions : Int → Option Bool) (y : Int) : Bool :=
  match exceptions y with
  | some b => b
  | none => !monthDue y && (dayDue y || (monthDue (y - 1) && dayDue (y - 1)))

/-- Plain years, years with an extra day and years with an extra month. -/
inductive Kind where
  | plain
  | extraDay
  | extraMonth
deriving DecidableEq, Repr

def kindOf (exceptions : Int → Option Bool) (y : Int) : Kind :=
  if monthDue y then .extraMonth else if dayAdded exceptions y then .extraDay else .plain

/-! ### months -/

/-- The months of a lunar year with their days. A month ends with its full moon. The second eighth month is called 13. -/
def monthsOf : Kind → List (Int × Int)
  | .plain =>
    [(1, 30), (2, 29), (3, 30), (4, 29), (5, 30), (6, 29), (7, 30), (8, 29), (9, 30), (10, 29), (11, 30), (12, 29)]
  | .extraDay =>
    [(1, 30), (2, 29), (3, 30), (4, 29), (5, 30), (6, 29), (7, 30), (8, 30), (9, 30), (10, 29), (11, 30), (12, 29)]
  | .extraMonth =>
    [(1, 30), (2, 29), (3, 30), (4, 29), (5, 30), (6, 29), (7, 30), (8, 29), (13, 30), (9, 30), (10, 29), (11, 30), (12, 29)]

/-- The three seasons: cold, hot and rainy. -/
def season (month : Int) : Int := if month ≤ 4 then 1 else if month ≤ 8 ∨ month = 13 then 2 else 3

inductive Puja where
  | magha
  | vesakha
  | asalha
  | pavarana
deriving DecidableEq, Repr

/-- The full moons with a festival. In a year with an extra month the first two are a month later, Āsāḷha Pūjā is in the second
eighth month. -/
def pujaOf (k : Kind) (month : Int) : Option Puja :=
  if month = 11 then some .pavarana
  else if k = .extraMonth then
    if month = 4 then some .magha else if month = 7 then some .vesakha else if month = 13 then some .asalha else none
  else
    if month = 3 then some .magha else if month = 6 then some .vesakha else if month = 8 then some .asalha else none

/-- An uposatha: the last day of a fortnight. -/
structure Uposatha where
  day : Int             -- day number
  full : Bool           -- full or new moon
  month : Int
  year : Int            -- Buddhist era
  fortnight : Int       -- days of the fortnight that ends
  monthDays : Int       -- days of the month
  season : Int
  number : Int          -- in the season
  total : Int           -- in the season
  added : Bool          -- the month has the added day; written at the new moon only
  puja : Option Puja
deriving DecidableEq, Repr

/-- The uposathas of a lunar year, in days after the last full moon of the year before; without the year. The waxing fortnight
has 15 days. -/
def uposathas (k : Kind) : List Uposatha :=
  (List.range (monthsOf k).length).flatMap fun i =>
    match (monthsOf k)[i]? with
    | none => []
    | some (month, days) =>
      let before := (monthsOf k).take i
      let start := (before.map Prod.snd).sum
      let rank : Int := (before.filter fun m => season m.1 = season month).length
      let total : Int := ((monthsOf k).filter fun m => season m.1 = season month).length
      [{ day := start + days - 15, full := false, month := month, year := 0, fortnight := days - 15, monthDays := days,
         season := season month, number := 2 * rank + 1, total := 2 * total, added := decide (k = .extraDay ∧ month = 8),
         puja := none },
       { day := start + days, full := true, month := month, year := 0, fortnight := 15, monthDays := days,
         season := season month, number := 2 * rank + 2, total := 2 * total, added := false, puja := pujaOf k month }]

/-! ### the almanac -/

/-- `kattika y` is the day of the full moon of Kattika before the year `y`, the last day of a lunar year: 25 November 2015 before
2016, and each lunar year has the days of its months. -/
structure Kattikas (exceptions : Int → Option Bool) (kattika : Int → Int) : Prop where
  anchor : IsDate (kattika 2016) 2015 11 25
  step : ∀ y, kattika (y + 1) = kattika y + ((monthsOf (kindOf exceptions y)).map Prod.snd).sum

section
variable (exceptions : Int → Option Bool) (kattika : Int → Int)

/-- `u` is an uposatha of the almanac. -/
def IsUposatha (u : Uposatha) : Prop :=
  ∃ y, ∃ e ∈ uposathas (kindOf exceptions y), u = { e with day := kattika y + e.day, year := y + 543 }

/-- The eighth day of a fortnight: a waxing half moon after the new moon, a waning one after the full moon. -/
def IsHalf (day : Int) (waxing : Bool) : Prop :=
  ∃ u, IsUposatha exceptions kattika u ∧ day = u.day + 8 ∧ waxing = !u.full

/-- The festivals and the rains retreat, which lasts from the day after Āsāḷha Pūjā to Pavāraṇā. -/
def IsFestival (day : Int) (name : String) : Prop :=
  ∃ u, IsUposatha exceptions kattika u ∧
    (u.puja = some .magha ∧ day = u.day ∧ name = "Māgha Pūjā" ∨
     u.puja = some .vesakha ∧ day = u.day ∧ name = "Vesākha Pūjā" ∨
     u.puja = some .asalha ∧ day = u.day ∧ name = "Āsāḷha Pūjā" ∨
     u.puja = some .asalha ∧ day = u.day + 1 ∧ name = "First day of Vassa" ∨
     u.puja = some .pavarana ∧ day = u.day ∧ name = "Pavāraṇā Day" ∨
     u.puja = some .pavarana ∧ day = u.day ∧ name = "Last day of Vassa")

/-- The day is in the civil year `y`. -/
def InYear (day y : Int) : Prop := ∃ m d, IsDate day y m d

end

end Verif.Spec.Almanac
