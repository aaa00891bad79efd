import Verif.Spec.Json
import Verif.Model.Ical
/-
Reading an iCalendar text (RFC 5545): unfolding and splitting into content lines (3.1), the values of type TEXT (3.3.11),
DATE (3.3.4) and DATE-TIME in UTC (3.3.5), and a VCALENDAR object holding VEVENT components (3.6). The part of a line
before the first colon is taken as one name including its parameters; quoted parameter values do not occur.
-/
set_option autoImplicit false

namespace Verif.Spec
open Verif.Go Verif.Model

/-- The content lines: unfolded, each ended by CR LF, without any other CR or LF. -/
def readLines : List Char → Option (List (List Char))
  | [] => some []
  | '\r' :: '\n' :: ' ' :: rest => readLines rest
  | '\r' :: '\n' :: '\t' :: rest => readLines rest
  | '\r' :: '\n' :: rest => (readLines rest).map ([] :: ·)
  | c :: rest =>
    if c = '\r' ∨ c = '\n' then none
    else match readLines rest with
      | some (l :: ls) => some ((c :: l) :: ls)
      | _ => none

/-- Name and value of a content line. -/
def readLine : List Char → Option (List Char × List Char)
  | [] => none
  | ':' :: value => some ([], value)
  | c :: rest => (readLine rest).map fun (name, value) => (c :: name, value)

/-- A line as texts; the name is not empty. -/
def readContent (line : List Char) : Option (String × String) := do
  let (name, value) ← readLine line
  if name = [] then none else some (String.ofList name, String.ofList value)

/-- A VCALENDAR object: its properties and the properties of its events. -/
structure Calendar where
  props : List (String × String)
  events : List (List (String × String))

/-- The events up to the end of the calendar; `current` holds the properties of an event begun. -/
def readEvents : Option (List (String × String)) → List (String × String) → Option (List (List (String × String)))
  | _, [] => none
  | none, l :: rest =>
    if l = ("BEGIN", "VEVENT") then readEvents (some []) rest
    else if l = ("END", "VCALENDAR") ∧ rest = [] then some []
    else none
  | some props, l :: rest =>
    if l = ("END", "VEVENT") then (readEvents none rest).map (props :: ·)
    else if l.1 = "BEGIN" ∨ l.1 = "END" then none
    else readEvents (some (props ++ [l])) rest

/-- The lines of a calendar object. -/
def readCalendar : List (String × String) → Option Calendar
  | [] => none
  | l :: rest =>
    if l = ("BEGIN", "VCALENDAR") then
      let isProp := fun l : String × String => decide (l.1 ≠ "BEGIN" ∧ l.1 ≠ "END")
      (readEvents none (rest.dropWhile isProp)).map fun events => ⟨rest.takeWhile isProp, events⟩
    else none

/-- The calendar written as `text`. -/
def readIcs (text : List Char) : Option Calendar := do
  let lines ← readLines text
  let contents ← lines.mapM readContent
  readCalendar contents

/-- The value of a property that occurs once. -/
def prop (props : List (String × String)) (name : String) : Option String :=
  match props.filter fun l => l.1 = name with
  | [l] => some l.2
  | _ => none

/-- The text meant by a value of type TEXT: escapes resolved; comma, semicolon and control characters may not stand
alone. -/
def readTextChars : List Char → Option (List Char)
  | [] => some []
  | '\\' :: c :: rest =>
    if c = '\\' ∨ c = ';' ∨ c = ',' then (readTextChars rest).map (c :: ·)
    else if c = 'n' ∨ c = 'N' then (readTextChars rest).map ('\n' :: ·)
    else none
  | c :: rest =>
    if c = '\\' ∨ c = ';' ∨ c = ',' ∨ c.toNat < 32 ∨ c.toNat = 127 then none else (readTextChars rest).map (c :: ·)

/-- See `readTextChars`. -/
def readText (s : String) : Option String := (readTextChars s.toList).map String.ofList

/-- `s` is a value of type DATE: year, month and day of the day with number `n`. -/
def IsIcsDate (s : String) (n : Int) : Prop :=
  ∃ y m d : Nat, y ≤ 9999 ∧ IsDate n y m d ∧ s = String.ofList (pad 4 y ++ pad 2 m ++ pad 2 d)

/-- `s` is a value of type DATE-TIME in UTC: the second in which `t` lies. -/
def IsIcsTime (s : String) (t : Time) : Prop :=
  ∃ (n : Int) (y m d hh mm ss : Nat), y ≤ 9999 ∧ hh < 24 ∧ mm < 60 ∧ ss < 60 ∧ IsDate n y m d ∧
    n * nsPerDay + (hh * 3600 + mm * 60 + ss) * nsPerSec ≤ t.nanos ∧
    t.nanos < n * nsPerDay + (hh * 3600 + mm * 60 + ss + 1) * nsPerSec ∧
    s = String.ofList (pad 4 y ++ pad 2 m ++ pad 2 d ++ 'T' :: pad 2 hh ++ pad 2 mm ++ pad 2 ss ++ ['Z'])

/-- The length of a text in octets of UTF-8. -/
def octets (l : List Char) : Nat := (l.map Char.utf8Size).sum

/-- The form of a UUID: 36 characters, hexadecimal digits and hyphens. -/
def IsUuid (s : String) : Prop := s.toList.length = 36 ∧ ∀ c ∈ s.toList, c ∈ "0123456789abcdef-".toList

/-- What is assumed of the UIDs and the clock. -/
def GoodStamp (s : Stamp) : Prop :=
  IsUuid s.uid ∧ 0 ≤ (⟨s.now.nanos, 0⟩ : Time).year ∧ (⟨s.now.nanos, 0⟩ : Time).year ≤ 9999

/-- The properties of a VEVENT for the all-day event `e`. -/
structure IsVEvent (props : List (String × String)) (e : CalendarEvent) (s : Stamp) : Prop where
  names : (props.map Prod.fst).Nodup
  start : ∃ v, prop props "DTSTART;VALUE=DATE" = some v ∧ IsIcsDate v e.getDate.day
  stop : ∃ v, prop props "DTEND;VALUE=DATE" = some v ∧ IsIcsDate v (e.getDate.day + 1)
  summary : (prop props "SUMMARY").bind readText = some e.string
  uid : prop props "UID" = some s.uid
  stamp : ∃ v, prop props "DTSTAMP" = some v ∧ IsIcsTime v s.now

end Verif.Spec
