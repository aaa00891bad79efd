/-
Independent specification of the Suriyayatra year quantities (Eade, "Rules for Interpolation in the
Thai Calendar"): everything is stated by the division identities, not by the program's formulas.
-/
set_option autoImplicit false

namespace Verif.Spec

/-- The quantities of the New Year of Chulasakkarat year `cs`:
292207 days per 800 years from an era offset of 373/800 day; 11 avoman per day from 650, one extra
tithi per 692; 30 tithis per month; 3232-day apogee cycle from 2611. -/
structure YearQuantities (cs horakhun kammacubala avoman masaken tithi uccabala : Int) : Prop where
  era : 800 * (horakhun - 1) + (800 - kammacubala) = 292207 * cs + 373
  kammacubala_range : 1 ≤ kammacubala ∧ kammacubala ≤ 800
  /-- `30*masaken + tithi - horakhun` extra tithis have been completed, `avoman` is what is left over. -/
  tithis : 692 * (30 * masaken + tithi - horakhun) + avoman = 11 * horakhun + 650
  avoman_range : 0 ≤ avoman ∧ avoman < 692
  tithi_range : 0 ≤ tithi ∧ tithi < 30
  apogee : ∃ k, 3232 * k + uccabala = horakhun + 2611
  uccabala_range : 0 ≤ uccabala ∧ uccabala < 3232

/-- Number of years in `[start, start + n)` with property `p`. -/
def countYears (p : Int → Bool) (start : Int) (n : Nat) : Nat :=
  ((List.range n).filter fun (i : Nat) => p (start + i)).length

end Verif.Spec
