import Verif.Model.AstroData
import Verif.Spec.Text
/-
The text of a data file, as the moon phase service wrote it: the response for one year in JSON, without spaces. The moons are
the numbers of the data table (see Model/AstroData.lean). Nothing here models code of /repo.
-/
set_option autoImplicit false

namespace Verif.Spec
open Verif.Go Verif.Model

/-- The English name of a quarter. -/
def quarterName : Nat → String
  | 0 => "new moon"
  | 1 => "first quarter"
  | 2 => "full moon"
  | 3 => "last quarter"
  | _ => ""

/-- Seconds from 1970-01-01T00:00:00Z to a moment. -/
def unixSeconds (t : Time) : Int := t.nanos / 1000000000 - 62135596800

/-- `2015-01-05T04:54:08+00:00` for a moon of the table. -/
def momentText (n : Nat) : String :=
  isoDate (n / 10 ^ 12) (n / 10 ^ 10) (n / 10 ^ 8) ++
    String.ofList ('T' :: pad 2 (n / 10 ^ 6) ++ ':' :: pad 2 (n / 10 ^ 4) ++ ':' :: pad 2 (n / 10 ^ 2) ++ "+0".toList ++
      pad 1 (n / 10) ++ ":00".toList)

/-- One moon: its moment, given twice, its code and its name. -/
def rowText (n : Nat) : String :=
  "{\"timestamp\":" ++ toString (unixSeconds (aerisMoon n).DateTimeISO) ++ ",\"dateTimeISO\":\"" ++ momentText n ++
    "\",\"code\":" ++ String.ofList (pad 1 n) ++ ",\"name\":\"" ++ quarterName (n % 10) ++ "\"}"

/-- A file: the moons of a year, or the message that there are none. -/
def fileText : Option (List Nat) → String
  | none => "{\"success\":true,\"error\":{\"code\":\"warn_no_data\",\"description\":\"No data was returned for the request.\"}," ++
      "\"response\":[]}"
  | some rows => "{\"success\":true,\"error\":null,\"response\":[" ++ ",".intercalate (rows.map rowText) ++ "]}"

/-- The bytes of a text of ASCII characters. -/
def asciiBytes (s : String) : List Nat := s.toList.map Char.toNat

end Verif.Spec
