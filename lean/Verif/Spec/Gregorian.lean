/-
Independent specification of the proleptic Gregorian calendar, by the leap rule alone.
-/
set_option autoImplicit false

namespace Verif.Spec

/-- Leap years of the Gregorian calendar. -/
def LeapYear (y : Int) : Prop := (4 ∣ y ∧ ¬ 100 ∣ y) ∨ 400 ∣ y

instance (y : Int) : Decidable (LeapYear y) := by unfold LeapYear; infer_instance

/-- Length of a year in days. -/
def yearDays (y : Int) : Int := if LeapYear y then 366 else 365

/-- Length of month `m` of year `y`. -/
def monthDays (y m : Int) : Int :=
  if m = 2 then (if LeapYear y then 29 else 28)
  else if m = 4 ∨ m = 6 ∨ m = 9 ∨ m = 11 then 30
  else 31

/-- `jan1 y d`: January 1 of year `y` is day `d`, where 1 January of year 1 is day 0. -/
inductive Jan1 : Int → Int → Prop
  | one : Jan1 1 0
  | succ {y d} : Jan1 y d → Jan1 (y + 1) (d + yearDays y)
  | pred {y d} : Jan1 (y + 1) (d + yearDays y) → Jan1 y d

/-- First day of month `m` of year `y`: by adding up the month lengths. -/
inductive MonthStart : Int → Int → Int → Prop
  | jan {y d} : Jan1 y d → MonthStart y 1 d
  | succ {y m d} : 1 ≤ m → m < 12 → MonthStart y m d → MonthStart y (m + 1) (d + monthDays y m)

/-- Day number `n` is the civil date `y`-`m`-`d`. -/
def IsDate (n y m d : Int) : Prop :=
  ∃ s, MonthStart y m s ∧ n = s + (d - 1) ∧ 1 ≤ d ∧ d ≤ monthDays y m ∧ 1 ≤ m ∧ m ≤ 12

end Verif.Spec
