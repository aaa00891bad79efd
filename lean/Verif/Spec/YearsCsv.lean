import Verif.Spec.YearText
import Verif.Spec.Calendar
import Verif.Spec.Gregorian
import Verif.Spec.Text
import Verif.Model.YearsCsv
/-
Reading a table of lines with fields separated by semicolons, and what a line of the table of years says.
-/
set_option autoImplicit false

namespace Verif.Spec
open Verif.Go Verif.Model

/-- The parts of a text between the separators. -/
def splitAtChar (sep : Char) : List Char → List (List Char)
  | [] => [[]]
  | c :: rest =>
    if c = sep then [] :: splitAtChar sep rest
    else match splitAtChar sep rest with
      | part :: parts => (c :: part) :: parts
      | [] => [[c]]

/-- The fields of all lines; every line is ended by a line feed. -/
def readCsv (text : List Char) : Option (List (List String)) :=
  let lines := splitAtChar '\n' text
  if lines.getLast? = some [] then some (lines.dropLast.map fun l => (splitAtChar ';' l).map String.ofList) else none

/-- The number in a column. -/
def column (row : List String) (k : Nat) : Option Int :=
  match row[k]? with
  | some s => match readInt s.toList with
    | some (i, []) => some i
    | _ => none
  | none => none

/-- A distance column: the distance to the last year before `y` with property `p`, or -1 if there is none within `limit` years. -/
def DistanceColumn (row : List String) (k : Nat) (limit : Int) (p : Int → Bool) (y : Int) : Prop :=
  ∃ r, column row k = some r ∧
    ((r ≤ limit ∧ IsDistance p y r) ∨ (r = -1 ∧ ∀ e, 1 ≤ e → e ≤ limit → p (y - e) = false))

/-- The line of the year `y`. -/
structure IsCsvRow (cfg : Config) (row : List String) (y : Int) : Prop where
  length : row.length = 14
  ce : column row 0 = some y
  be : column row 1 = some (y + 543)
  kammacubala : column row 2 = some (SuriyaYear.init y).Kammacubala
  avoman : column row 3 = some (SuriyaYear.init y).Avoman
  tithi : column row 4 = some (SuriyaYear.init y).Tithi
  posAdhikamasa : ∃ n, column row 5 = some n ∧ 1 ≤ n ∧ n ≤ 19 ∧ (1794 ≤ y → (y - 1794) % 19 + 1 = n)
  adhikamasa : (SuriyaYear.init y).isAdhikamasa = true →
    DistanceColumn row 6 7 (fun z => (SuriyaYear.init z).isAdhikamasa) y
  notAdhikamasa : (SuriyaYear.init y).isAdhikamasa = false → row[6]? = some ""
  posAdhikavara : ∃ n, column row 7 = some n ∧ 1 ≤ n ∧ n ≤ 57 ∧ (1414 ≤ y → (y - 1414) % 57 + 1 = n)
  adhikavara : (SuriyaYear.init y).isAdhikavara cfg = true →
    DistanceColumn row 8 13 (fun z => (SuriyaYear.init z).isAdhikavara cfg) y
  notAdhikavara : (SuriyaYear.init y).isAdhikavara cfg = false →
    row[8]? = some (if (SuriyaYear.init y).wouldBeAdhikavara then "x" else "")
  asalha : 0 ≤ ((SuriyaYear.init y).asalhaPuja cfg).year → ((SuriyaYear.init y).asalhaPuja cfg).year ≤ 9999 →
    ∃ yy m d : Nat, IsDate ((SuriyaYear.init y).asalhaPuja cfg).day yy m d ∧ row[9]? = some (isoDate yy m d)
  recorded : ∀ t, (y, t) ∈ testYears →
    row[10]? = some t.Asalha ∧ (row[11]? = some "OK" ↔ row[9]? = some t.Asalha) ∧ (row[11]? = some "FAIL" ↔ row[9]? ≠ some t.Asalha) ∧
    row[12]? = some t.Source ∧ row[13]? = some t.Comments
  unrecorded : (∀ t, (y, t) ∉ testYears) → ∀ k, 10 ≤ k → k < 14 → row[k]? = some ""

end Verif.Spec
