import Verif.Spec.Json
/-
A reader for lines `label: number`.
-/
set_option autoImplicit false

namespace Verif.Spec

/-- Read the given characters. -/
def readWord : List Char → List Char → Option (List Char)
  | [], text => some text
  | c :: word, d :: text => if c = d then readWord word text else none
  | _ :: _, [] => none

/-- Read a number with an optional minus sign. -/
def readInt : List Char → Option (Int × List Char)
  | '-' :: text => (readNat text).map fun (k, rest) => (-(k : Int), rest)
  | text => (readNat text).map fun (k, rest) => ((k : Int), rest)

/-- Read one line for each label and nothing more. -/
def readTable : List String → List Char → Option (List Int)
  | [], [] => some []
  | [], _ :: _ => none
  | label :: labels, text => do
    let text ← readWord (label.toList ++ [':', ' ']) text
    let (i, text) ← readInt text
    let text ← readWord ['\n'] text
    let is ← readTable labels text
    some (i :: is)

/-- The values of a year as the paper names them. -/
def yearLabels : List String := ["CE", "BE", "CS", "Horakhun", "Kammacubala", "Uccabala", "Avoman", "Masaken", "Tithi"]

end Verif.Spec
