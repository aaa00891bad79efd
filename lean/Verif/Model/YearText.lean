import Verif.Model.Year
/-
Model of the texts of a year, suriya_year.go. `%d` and `strconv.Itoa` write decimal digits after a minus sign if the number is
negative, as `toString` does.
-/
set_option autoImplicit false

namespace Verif.Model
namespace SuriyaYear

/-- suriya_year.go:53-56 `String`. -/
def string (su : SuriyaYear) : String := toString su.Year

/-- suriya_year.go:92-105 `SuriyaValuesString`. -/
def suriyaValuesString (su : SuriyaYear) : String :=
  "CE: " ++ toString su.Year ++ "\n" ++
  "BE: " ++ toString su.BE_Year ++ "\n" ++
  "CS: " ++ toString su.CS_Year ++ "\n" ++
  "Horakhun: " ++ toString su.Horakhun ++ "\n" ++
  "Kammacubala: " ++ toString su.Kammacubala ++ "\n" ++
  "Uccabala: " ++ toString su.Uccabala ++ "\n" ++
  "Avoman: " ++ toString su.Avoman ++ "\n" ++
  "Masaken: " ++ toString su.Masaken ++ "\n" ++
  "Tithi: " ++ toString su.Tithi ++ "\n"

end SuriyaYear
end Verif.Model
