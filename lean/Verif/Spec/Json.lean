import Mathlib.Data.List.Forall2
import Verif.Model.Json
import Verif.Spec.Text
import Verif.Spec.Gregorian
/-
A reader for JSON texts (RFC 8259) without white space and with integers as the only numbers, and the meaning of the
texts read. Nothing here models code of /repo.
-/
set_option autoImplicit false

namespace Verif.Spec
open Verif.Go Verif.Model

/-- The value of a decimal digit. -/
def digitVal (c : Char) : Option Nat :=
  if '0' ≤ c ∧ c ≤ '9' then some (c.toNat - '0'.toNat) else none

/-- The value of a hexadecimal digit. -/
def hexVal (c : Char) : Option Nat :=
  if '0' ≤ c ∧ c ≤ '9' then some (c.toNat - '0'.toNat)
  else if 'a' ≤ c ∧ c ≤ 'f' then some (c.toNat - 'a'.toNat + 10)
  else if 'A' ≤ c ∧ c ≤ 'F' then some (c.toNat - 'A'.toNat + 10)
  else none

/-- Read decimal digits as long as there are any, after digits of value `acc`. -/
def readDigits (acc : Nat) : List Char → Nat × List Char
  | [] => (acc, [])
  | c :: rest =>
    match digitVal c with
    | some d => readDigits (acc * 10 + d) rest
    | none => (acc, c :: rest)

/-- Read a number of one digit or more. -/
def readNat : List Char → Option (Nat × List Char)
  | [] => none
  | c :: rest => (digitVal c).map fun d => readDigits d rest

/-- Read a string after its opening quote. -/
def readChars : List Char → Option (List Char × List Char)
  | [] => none
  | '"' :: rest => some ([], rest)
  | '\\' :: 'u' :: a :: b :: c :: d :: rest => do
    let n := ((← hexVal a) * 16 + (← hexVal b)) * 256 + (← hexVal c) * 16 + (← hexVal d)
    let (s, rest) ← readChars rest
    some (Char.ofNat n :: s, rest)
  | '\\' :: c :: rest => do
    let x ← (if c = '"' ∨ c = '\\' ∨ c = '/' then some c
      else if c = 'n' then some '\n' else if c = 'r' then some '\r' else if c = 't' then some '\t'
      else if c = 'b' then some (Char.ofNat 8) else if c = 'f' then some (Char.ofNat 12) else none)
    let (s, rest) ← readChars rest
    some (x :: s, rest)
  | '\\' :: [] => none
  | c :: rest => do
    let (s, rest) ← readChars rest
    some (c :: s, rest)

mutual
/-- Read a value; the first argument bounds the depth of the recursion. -/
def readValue : Nat → List Char → Option (Json × List Char)
  | 0, _ => none
  | n + 1, text =>
    match text with
    | 't' :: 'r' :: 'u' :: 'e' :: rest => some (.bool true, rest)
    | 'f' :: 'a' :: 'l' :: 's' :: 'e' :: rest => some (.bool false, rest)
    | '"' :: rest => (readChars rest).map fun (s, rest) => (.str (String.ofList s), rest)
    | '[' :: ']' :: rest => some (.arr [], rest)
    | '[' :: rest => (readItems n rest).map fun (l, rest) => (.arr l, rest)
    | '{' :: '}' :: rest => some (.obj [], rest)
    | '{' :: rest => (readFields n rest).map fun (l, rest) => (.obj l, rest)
    | '-' :: rest => (readNat rest).map fun (k, rest) => (.num (-k), rest)
    | text => (readNat text).map fun (k, rest) => (.num k, rest)

/-- Read the items of an array and the closing bracket. -/
def readItems : Nat → List Char → Option (List Json × List Char)
  | 0, _ => none
  | n + 1, text => do
    let (x, rest) ← readValue n text
    match rest with
    | ']' :: rest => some ([x], rest)
    | ',' :: rest => (readItems n rest).map fun (l, rest) => (x :: l, rest)
    | _ => none

/-- Read the fields of an object and the closing bracket. -/
def readFields : Nat → List Char → Option (List (String × Json) × List Char)
  | 0, _ => none
  | n + 1, text =>
    match text with
    | '"' :: rest => do
      let (k, rest) ← readChars rest
      match rest with
      | ':' :: rest => do
        let (x, rest) ← readValue n rest
        match rest with
        | '}' :: rest => some ([(String.ofList k, x)], rest)
        | ',' :: rest => (readFields n rest).map fun (l, rest) => ((String.ofList k, x) :: l, rest)
        | _ => none
      | _ => none
    | _ => none
end

/-- Read a whole text. -/
def readJson (text : List Char) : Option Json :=
  match readValue (text.length + 1) text with
  | some (j, []) => some j
  | _ => none

/-- A field of an object. -/
def field (j : Json) (name : String) : Option Json :=
  match j with
  | .obj fields => fields.lookup name
  | _ => none

/-! ### what the texts mean -/

/-- The text of a fraction of a second of `ns` nanoseconds: none, or a point and as few digits as possible. -/
def IsFractionText (s : List Char) (ns : Nat) : Prop :=
  (ns = 0 ∧ s = []) ∨ ∃ k d, 1 ≤ k ∧ k ≤ 9 ∧ d < 10 ^ k ∧ d % 10 ≠ 0 ∧ ns = d * 10 ^ (9 - k) ∧ s = '.' :: pad k d

/-- The text of an instant in UTC, YYYY-MM-DDThh:mm:ss, perhaps a fraction of a second, and Z. -/
def IsTime (s : String) (t : Time) : Prop :=
  ∃ (y m d hh mm ss ns : Nat) (fraction : List Char), y ≤ 9999 ∧ hh < 24 ∧ mm < 60 ∧ ss < 60 ∧ IsFractionText fraction ns ∧
    IsDate t.day y m d ∧ t.sinceMidnight = (((hh * 60 + mm) * 60 + ss : Nat) : Int) * nsPerSec + ns ∧ t.offset = 0 ∧
    s = String.ofList (pad 4 y ++ '-' :: pad 2 m ++ '-' :: pad 2 d ++ 'T' :: pad 2 hh ++ ':' :: pad 2 mm ++
      ':' :: pad 2 ss ++ fraction ++ ['Z'])

/-- The field `name` holds the instant `t`. -/
def HasTime (j : Json) (name : String) (t : Time) : Prop := ∃ s, field j name = some (.str s) ∧ IsTime s t

/-- The JSON object of an uposatha. -/
structure IsUposatha (j : Json) (m : UposathaMoon) : Prop where
  date : HasTime j "Date" m.Date
  calendar : field j "Calendar" = some (.num m.Calendar)
  status : field j "Status" = some (.num m.Status)
  phase : field j "Phase" = some (.str m.Phase)
  event : field j "Event" = some (.str m.Event)
  sNumber : field j "S_Number" = some (.num m.S_Number)
  sTotal : field j "S_Total" = some (.num m.S_Total)
  uDays : field j "U_Days" = some (.num m.U_Days)
  mDays : field j "M_Days" = some (.num m.M_Days)
  lunarMonth : field j "LunarMonth" = some (.num m.LunarMonth)
  lunarSeason : field j "LunarSeason" = some (.num m.LunarSeason)
  lunarYear : field j "LunarYear" = some (.num m.LunarYear)
  hasAdhikavara : field j "HasAdhikavara" = some (.bool m.HasAdhikavara)
  source : field j "Source" = some (.str m.Source)
  comments : field j "Comments" = some (.str m.Comments)

/-- The JSON object of a half moon. -/
structure IsHalfMoon (j : Json) (m : HalfMoon) : Prop where
  date : HasTime j "Date" m.Date
  phase : field j "Phase" = some (.str m.Phase)

/-- The JSON object of an astronomical moon. -/
structure IsAstroMoon (j : Json) (m : AstroMoon) : Prop where
  date : HasTime j "Date" m.Date
  phase : field j "Phase" = some (.str m.Phase)

/-- The JSON object of an event. -/
structure IsEvent (j : Json) (e : Event) : Prop where
  date : HasTime j "Date" e.Date
  calendar : field j "Calendar" = some (.num e.Calendar)
  summary : field j "Summary" = some (.str e.Summary)
  description : field j "Description" = some (.str e.Description)

/-- The field `name` holds the list `l`; it is missing if the list is empty. -/
def HasList {α : Type} (j : Json) (name : String) (is : Json → α → Prop) (l : List α) : Prop :=
  (l = [] ∧ field j name = none) ∨ (l ≠ [] ∧ ∃ items, field j name = some (.arr items) ∧ List.Forall₂ is items l)

/-- The JSON object of a day. -/
structure IsDay (j : Json) (c : CalDay) : Prop where
  date : HasTime j "Date" c.Date
  uposatha : HasList j "UposathaMoon" IsUposatha c.UposathaMoon
  half : HasList j "HalfMoon" IsHalfMoon c.HalfMoon
  astro : HasList j "AstroMoon" IsAstroMoon c.AstroMoon
  major : HasList j "MajorEvents" IsEvent c.MajorEvents
  events : HasList j "Events" IsEvent c.Events

/-- The JSON object with the days of each year. -/
def IsYears (j : Json) (daysOf : Int → List CalDay) : Prop := ∀ y, HasList j (toString y) IsDay (daysOf y)

end Verif.Spec
