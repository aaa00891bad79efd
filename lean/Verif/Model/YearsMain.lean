import Verif.Model.YearsCsv
import Verif.Model.CliRun
/-
Model of the rest of utils/years-csv.go: `yearsCsvSimple`, which is never called, and `main`. The program does not compile
(Model/YearsCsv); `BE_Year` is taken for `BE_year` here too.
-/
set_option autoImplicit false

namespace Verif.Model
open Verif.Go

/-- utils/years-csv.go:32-39: the column `dV` of `yearsCsvSimple`, which has no "x". -/
def simpleDV (cfg : Config) (su : SuriyaYear) : Option String :=
  if su.isAdhikavara cfg then (su.deltaAdhikavara cfg).map toString else some ""

/-- utils/years-csv.go:41-51: `Sprintf` with nine values for seven verbs. The seventh verb is `%s`, and its value is an int: package fmt
writes `%!s(int=…)`. The two values left over are written after the line feed of the format, as `%!(EXTRA int=…, int=…)`. -/
def simpleLine (cfg : Config) (year : Int) : Option (List Char) := do
  let su := SuriyaYear.init year
  let dM ← csvDM su
  let dV ← simpleDV cfg su
  some (String.toList (toString su.Year) ++ ',' :: String.toList (toString su.BE_Year) ++ ',' :: String.toList (toString su.adhikamasaCyclePos) ++
    ',' :: dM.toList ++ ',' :: String.toList (toString su.adhikavaraCyclePos) ++ ',' :: dV.toList ++
    ',' :: "%!s(int=".toList ++ String.toList (toString su.Kammacubala) ++ ")\n".toList ++
    "%!(EXTRA int=".toList ++ String.toList (toString su.Avoman) ++ ", int=".toList ++ String.toList (toString su.Tithi) ++ [')'])

/-- utils/years-csv.go:18-55 `yearsCsvSimple`. -/
def yearsCsvSimple (cfg : Config) (firstYear lastYear : Int) : Option (List Char) :=
  (((List.range (lastYear - firstYear + 1).toNat).map fun (i : Nat) => firstYear + (i : Int)).mapM (simpleLine cfg)).map fun rows =>
    "CE year,BE year,nM,dM,nV,dV,K,A,T\n".toList ++ rows.flatten

/-- utils/years-csv.go:181-197 `main`. If `os.Create` fails, `panic` ends the program with exit code 2 (the deferred `Close` of a nil
file does nothing). `UseExceptions = false` makes the settings those of `.default`. The file is created before the text is calculated. If
writing fails, the number of bytes written and the error are printed and the program goes on to its end, exit code 0. `none`: a loop of
a Delta function does not end. -/
def yearsMain (sys : System) : Option Run :=
  if sys.openFails then some ⟨[], 2⟩
  else
    match yearsCsv .default 1970 2041 with
    | none => none
    | some text =>
      let (ws, ok) := writes sys.sizes (utf8 text)
      some ⟨.create "years.csv" :: ws.map (.append "years.csv") ++
        (if ok then [] else [.print ((utf8 (String.toList (toString ws.flatten.length) ++ ' ' :: sys.errorText.toList ++ ['\n'])).take sys.printed)]), 0⟩

end Verif.Model
