import Verif.Model.Cli
/-
Model of the JSON text written by suriya/suriya.go:62-83 (`json.Marshal` of the days grouped by year), for the types of
cal_day.go:13-25, uposatha_moon.go:10-26, half_moon.go:10-13, astro_moon.go:19-22 and event.go:13-18.
This is the documented behaviour of package encoding/json: fields in the order of declaration under their Go names,
`omitempty` for the slices of `CalDay`, map keys sorted, HTML characters escaped, no white space.
`time.Time.MarshalJSON`: RFC 3339 with nanoseconds, an error for years outside 0..9999. Go 1.20 and later also reject
offsets of a day or more, which no time of the calendar has (all are in UTC).
-/
set_option autoImplicit false

namespace Verif.Model
open Verif.Go

/-- A JSON value; the only numbers are Go `int`s. -/
inductive Json where
  | bool (b : Bool)
  | num (i : Int)
  | str (s : String)
  | arr (items : List Json)
  | obj (fields : List (String × Json))

/-- A lower case hexadecimal digit. -/
def hexDigit (n : Nat) : Char := if n < 10 then Char.ofNat (48 + n) else Char.ofNat (87 + n)

/-- encoding/json `encodeState.string` with HTML escaping: one character. (Since Go 1.22 backspace and form feed have
short forms; no text of the calendar contains them.) -/
def jsonChar (c : Char) : List Char :=
  if c = '"' ∨ c = '\\' then ['\\', c]
  else if c = '\n' then ['\\', 'n']
  else if c = '\r' then ['\\', 'r']
  else if c = '\t' then ['\\', 't']
  else if c.toNat < 32 ∨ c = '<' ∨ c = '>' ∨ c = '&' ∨ c.toNat = 0x2028 ∨ c.toNat = 0x2029 then
    ['\\', 'u', hexDigit (c.toNat / 4096 % 16), hexDigit (c.toNat / 256 % 16), hexDigit (c.toNat / 16 % 16),
      hexDigit (c.toNat % 16)]
  else [c]

/-- encoding/json: a string with its quotes. -/
def jsonString (s : String) : List Char := '"' :: s.toList.flatMap jsonChar ++ ['"']

mutual
/-- encoding/json: the text of a value. -/
def Json.text : Json → List Char
  | .bool b => if b then ['t', 'r', 'u', 'e'] else ['f', 'a', 'l', 's', 'e']
  | .num i => (toString i).toList
  | .str s => jsonString s
  | .arr items => '[' :: textItems items
  | .obj fields => '{' :: textFields fields

/-- The items of an array and the closing bracket. -/
def textItems : List Json → List Char
  | [] => [']']
  | x :: rest => x.text ++ textMoreItems rest

def textMoreItems : List Json → List Char
  | [] => [']']
  | x :: rest => ',' :: x.text ++ textMoreItems rest

/-- The fields of an object and the closing bracket. -/
def textFields : List (String × Json) → List Char
  | [] => ['}']
  | (k, x) :: rest => jsonString k ++ ':' :: x.text ++ textMoreFields rest

def textMoreFields : List (String × Json) → List Char
  | [] => ['}']
  | (k, x) :: rest => ',' :: jsonString k ++ ':' :: x.text ++ textMoreFields rest
end

/-! ### times -/

/-- Go `time.appendInt(x, width)` for `0 ≤ x`: decimal, filled with zeros on the left. -/
def appendInt (x : Int) (width : Nat) : List Char :=
  let digits := (toString x).toList
  List.replicate (width - digits.length) '0' ++ digits

/-- Remove the zeros at the end. -/
def trimZeros (l : List Char) : List Char := (l.reverse.dropWhile (· = '0')).reverse

/-- Go `t.Format(time.RFC3339Nano)` for years 0..9999. -/
def rfc3339 (t : Time) : List Char :=
  let clock := t.sinceMidnight
  let sec := clock / nsPerSec
  let nanos := clock % nsPerSec
  let zone := t.offset.tdiv 60
  appendInt t.year 4 ++ '-' :: appendInt t.month 2 ++ '-' :: appendInt t.dayOfMonth 2 ++
    'T' :: appendInt (sec / 3600) 2 ++ ':' :: appendInt (sec / 60 % 60) 2 ++ ':' :: appendInt (sec % 60) 2 ++
    (if nanos = 0 then [] else '.' :: trimZeros (appendInt nanos 9)) ++
    (if t.offset = 0 then ['Z']
     else (if zone < 0 then '-' else '+') :: appendInt (zone.natAbs / 60) 2 ++ ':' :: appendInt (zone.natAbs % 60) 2)

/-- `time.Time.MarshalJSON`; `none` is the error. -/
def timeJson (t : Time) : Option Json :=
  if 0 ≤ t.year ∧ t.year ≤ 9999 then some (.str (String.ofList (rfc3339 t))) else none

/-! ### the types of the calendar -/

/-- uposatha_moon.go:10-26. -/
def uposathaJson (m : UposathaMoon) : Option Json := do
  let date ← timeJson m.Date
  some (.obj [("Date", date), ("Calendar", .num m.Calendar), ("Status", .num m.Status), ("Phase", .str m.Phase),
    ("Event", .str m.Event), ("S_Number", .num m.S_Number), ("S_Total", .num m.S_Total), ("U_Days", .num m.U_Days),
    ("M_Days", .num m.M_Days), ("LunarMonth", .num m.LunarMonth), ("LunarSeason", .num m.LunarSeason),
    ("LunarYear", .num m.LunarYear), ("HasAdhikavara", .bool m.HasAdhikavara), ("Source", .str m.Source),
    ("Comments", .str m.Comments)])

/-- half_moon.go:10-13. -/
def halfJson (m : HalfMoon) : Option Json := do
  let date ← timeJson m.Date
  some (.obj [("Date", date), ("Phase", .str m.Phase)])

/-- astro_moon.go:19-22. -/
def astroJson (m : AstroMoon) : Option Json := do
  let date ← timeJson m.Date
  some (.obj [("Phase", .str m.Phase), ("Date", date)])

/-- event.go:13-18, also for major_event.go:18. -/
def eventJson (e : Event) : Option Json := do
  let date ← timeJson e.Date
  some (.obj [("Date", date), ("Calendar", .num e.Calendar), ("Summary", .str e.Summary),
    ("Description", .str e.Description)])

/-- A field with `json:",omitempty"` holding a slice. -/
def omitempty {α : Type} (name : String) (f : α → Option Json) (s : List α) : Option (List (String × Json)) :=
  if s.length = 0 then some [] else (s.mapM f).map fun items => [(name, .arr items)]

/-- cal_day.go:13-20. -/
def calDayJson (c : CalDay) : Option Json := do
  let date ← timeJson c.Date
  let uposatha ← omitempty "UposathaMoon" uposathaJson c.UposathaMoon
  let half ← omitempty "HalfMoon" halfJson c.HalfMoon
  let astro ← omitempty "AstroMoon" astroJson c.AstroMoon
  let major ← omitempty "MajorEvents" eventJson c.MajorEvents
  let events ← omitempty "Events" eventJson c.Events
  some (.obj (("Date", date) :: uposatha ++ half ++ astro ++ major ++ events))

/-- suriya/suriya.go:62: `json.Marshal` of the map; the keys are sorted. `none` is the error. -/
def groupsJson (m : List (String × List CalDay)) : Option Json :=
  ((m.mergeSort fun a b => decide (a.1 ≤ b.1)).mapM fun (g : String × List CalDay) =>
    (g.2.mapM calDayJson).map fun days => (g.1, Json.arr days)).map Json.obj

/-- suriya/suriya.go:48-83 `actionCalDays`: the text written; `none` is an exit or a panic. Without the line feed that
line 83 adds on standard output. -/
def calDaysText (cfg : Config) (files : Int → AstroFile) (nowFrom nowTo : Int) (fromFlag toFlag : String) :
    Option (List Char) := do
  let m ← actionCalDays cfg files nowFrom nowTo fromFlag toFlag
  let j ← groupsJson m
  some j.text

end Verif.Model
