import Verif.Go.Num
import Verif.Model.Cli
import Verif.Model.EscFS
import Verif.Model.Utf8
/-
Model of astro_moon.go:65 `json.Unmarshal(data, &resp)` with the types of aeris_moon.go:9-25: the scanner and the decoder of Go's
package encoding/json and `time.Time.UnmarshalJSON` (as of Go 1.20; before, hours of one digit and some more forms were accepted).
Texts are lists of characters; `Model/Utf8` reads them from bytes. Any error gives `none`: the decoder goes on after some errors, but
the code panics in every case.
-/
set_option autoImplicit false

namespace Verif.Model.Unmarshal
open Verif.Go

/-! ### encoding/json scanner -/

/-- A JSON value. Numbers are kept as written, strings as between the quotes. -/
inductive JVal where
  | null
  | bool (b : Bool)
  | num (text : List Char)
  | str (raw : List Char)
  | arr (items : List JVal)
  | obj (fields : List (List Char × JVal))

/-- encoding/json `isSpace`. -/
def isSpace (c : Char) : Bool := c = ' ' || c = '\t' || c = '\r' || c = '\n'

def skipSpace (t : List Char) : List Char := t.dropWhile isSpace

def isDigit (c : Char) : Bool := decide ('0' ≤ c) && decide (c ≤ '9')

/-- The value of a hexadecimal digit. -/
def hexVal (c : Char) : Option Nat :=
  if '0' ≤ c ∧ c ≤ '9' then some (c.toNat - 48)
  else if 'a' ≤ c ∧ c ≤ 'f' then some (c.toNat - 87)
  else if 'A' ≤ c ∧ c ≤ 'F' then some (c.toNat - 55)
  else none

/-- The rest of a string after its opening quote: `stateInString`, `stateInStringEsc`, …. -/
def scanString : List Char → Option (List Char × List Char)
  | [] => none
  | '"' :: rest => some ([], rest)
  | '\\' :: 'u' :: a :: b :: c :: d :: rest =>
    if (hexVal a).isSome && (hexVal b).isSome && (hexVal c).isSome && (hexVal d).isSome then
      (scanString rest).map fun p => ('\\' :: 'u' :: a :: b :: c :: d :: p.1, p.2)
    else none
  | '\\' :: c :: rest =>
    if c ∈ ['b', 'f', 'n', 'r', 't', '\\', '/', '"'] then (scanString rest).map fun p => ('\\' :: c :: p.1, p.2) else none
  | c :: rest => if c.toNat < 32 ∨ c = '\\' then none else (scanString rest).map fun p => (c :: p.1, p.2)

/-- One digit or more. -/
def scanDigits (t : List Char) : Option (List Char × List Char) :=
  match t.takeWhile isDigit with
  | [] => none
  | ds => some (ds, t.dropWhile isDigit)

/-- `state0`, `state1`: a zero alone, or digits without a leading zero. -/
def scanWhole (t : List Char) : Option (List Char × List Char) :=
  match t with
  | '0' :: rest => some (['0'], rest)
  | t => scanDigits t

/-- `stateDot`, `stateDot0`. -/
def scanFraction (t : List Char) : Option (List Char × List Char) :=
  match t with
  | '.' :: rest => (scanDigits rest).map fun p => ('.' :: p.1, p.2)
  | t => some ([], t)

/-- `stateE`, `stateESign`, `stateE0`. -/
def scanExponent (t : List Char) : Option (List Char × List Char) :=
  match t with
  | e :: rest =>
    if e = 'e' ∨ e = 'E' then
      match rest with
      | s :: rest' =>
        if s = '+' ∨ s = '-' then (scanDigits rest').map fun p => (e :: s :: p.1, p.2)
        else (scanDigits rest).map fun p => (e :: p.1, p.2)
      | [] => none
    else some ([], t)
  | [] => some ([], [])

/-- A number without sign. -/
def scanUnsigned (t : List Char) : Option (List Char × List Char) :=
  match scanWhole t with
  | none => none
  | some (a, t) =>
    match scanFraction t with
    | none => none
    | some (b, t) => (scanExponent t).map fun p => (a ++ b ++ p.1, p.2)

/-- A number. -/
def scanNumber (t : List Char) : Option (List Char × List Char) :=
  match t with
  | '-' :: rest => (scanUnsigned rest).map fun p => ('-' :: p.1, p.2)
  | t => scanUnsigned t

mutual
/-- `stateBeginValue`: a value after white space; the first argument bounds the depth of the recursion. -/
def scanValue : Nat → List Char → Option (JVal × List Char)
  | 0, _ => none
  | n + 1, t =>
    match skipSpace t with
    | 'n' :: 'u' :: 'l' :: 'l' :: rest => some (.null, rest)
    | 't' :: 'r' :: 'u' :: 'e' :: rest => some (.bool true, rest)
    | 'f' :: 'a' :: 'l' :: 's' :: 'e' :: rest => some (.bool false, rest)
    | '"' :: rest => (scanString rest).map fun p => (.str p.1, p.2)
    | '[' :: rest =>
      match skipSpace rest with
      | ']' :: rest => some (.arr [], rest)
      | _ => (scanItems n rest).map fun p => (.arr p.1, p.2)
    | '{' :: rest =>
      match skipSpace rest with
      | '}' :: rest => some (.obj [], rest)
      | _ => (scanFields n rest).map fun p => (.obj p.1, p.2)
    | t => (scanNumber t).map fun p => (.num p.1, p.2)

/-- The items of an array and the closing bracket. -/
def scanItems : Nat → List Char → Option (List JVal × List Char)
  | 0, _ => none
  | n + 1, t =>
    match scanValue n t with
    | none => none
    | some (v, rest) =>
      match skipSpace rest with
      | ']' :: rest => some ([v], rest)
      | ',' :: rest => (scanItems n rest).map fun p => (v :: p.1, p.2)
      | _ => none

/-- The fields of an object and the closing bracket. -/
def scanFields : Nat → List Char → Option (List (List Char × JVal) × List Char)
  | 0, _ => none
  | n + 1, t =>
    match skipSpace t with
    | '"' :: rest =>
      match scanString rest with
      | none => none
      | some (k, rest) =>
        match skipSpace rest with
        | ':' :: rest =>
          match scanValue n rest with
          | none => none
          | some (v, rest) =>
            match skipSpace rest with
            | '}' :: rest => some ([(k, v)], rest)
            | ',' :: rest => (scanFields n rest).map fun p => ((k, v) :: p.1, p.2)
            | _ => none
        | _ => none
    | _ => none
end

/-- The reading of the whole text. -/
def scanText (t : List Char) : Option JVal :=
  match scanValue (2 * t.length + 2) t with
  | some (v, rest) => if skipSpace rest = [] then some v else none
  | none => none

/-- encoding/json `pushParseState`: never more than so many arrays and objects are open. -/
def nestedWithin : Nat → JVal → Bool
  | 0, .arr _ => false
  | 0, .obj _ => false
  | n + 1, .arr items => items.all fun v => nestedWithin n v
  | n + 1, .obj fields => fields.all fun f => nestedWithin n f.2
  | _, _ => true

/-- encoding/json `maxNestingDepth`. -/
def maxNestingDepth : Nat := 10000

/-- encoding/json `checkValid`. -/
def scan (t : List Char) : Option JVal :=
  match scanText t with
  | some v => if nestedWithin maxNestingDepth v then some v else none
  | none => none

/-! ### strings -/

/-- encoding/json `getu4` on four hexadecimal digits. -/
def hex4 (a b c d : Char) : Nat :=
  (((hexVal a).getD 0 * 16 + (hexVal b).getD 0) * 16 + (hexVal c).getD 0) * 16 + (hexVal d).getD 0

/-- encoding/json `unquote`, the escapes one by one: a character or the number of a `\u` escape. -/
def unescape : List Char → List (Char ⊕ Nat)
  | '\\' :: 'u' :: a :: b :: c :: d :: rest => .inr (hex4 a b c d) :: unescape rest
  | '\\' :: c :: rest =>
    .inl (if c = 'b' then Char.ofNat 8 else if c = 'f' then Char.ofNat 12 else if c = 'n' then '\n' else if c = 'r' then '\r'
      else if c = 't' then '\t' else c) :: unescape rest
  | c :: rest => .inl c :: unescape rest
  | [] => []

/-- encoding/json `unquote`: pairs of surrogates are joined, lone surrogates replaced. -/
def joinSurrogates : List (Char ⊕ Nat) → List Char
  | [] => []
  | .inl c :: rest => c :: joinSurrogates rest
  | .inr r :: .inr r' :: rest =>
    if 0xD800 ≤ r ∧ r < 0xDC00 ∧ 0xDC00 ≤ r' ∧ r' < 0xE000 then
      Char.ofNat (0x10000 + (r - 0xD800) * 0x400 + (r' - 0xDC00)) :: joinSurrogates rest
    else (if 0xD800 ≤ r ∧ r < 0xE000 then Char.ofNat 0xFFFD else Char.ofNat r) :: joinSurrogates (.inr r' :: rest)
  | .inr r :: rest => (if 0xD800 ≤ r ∧ r < 0xE000 then Char.ofNat 0xFFFD else Char.ofNat r) :: joinSurrogates rest

/-- encoding/json `unquote`. -/
def unquote (raw : List Char) : List Char := joinSurrogates (unescape raw)

/-- encoding/json `foldRune`, for the comparison of names with ASCII letters. -/
def foldChar (c : Char) : Char :=
  if 'A' ≤ c ∧ c ≤ 'Z' then Char.ofNat (c.toNat + 32)
  else if c.toNat = 0x17F then 's'
  else if c.toNat = 0x212A then 'k'
  else c

/-- encoding/json: a key names a field if they are equal but for case. -/
def sameName (key : List Char) (name : String) : Bool := (unquote key).map foldChar == name.toList.map foldChar

/-! ### time.Time.UnmarshalJSON -/

/-- time `parseUint`: all characters are digits, the number is in the range. -/
def parseUint (ds : List Char) (lo hi : Int) : Option Int :=
  if ds.all isDigit then
    let x : Int := ds.foldl (fun a c => a * 10 + ((c.toNat : Int) - 48)) 0
    if x < lo ∨ hi < x then none else some x
  else none

/-- time `parseNanoseconds` on the digits after the point. -/
def nanoseconds (ds : List Char) : Int :=
  let ds := ds.take 9
  ds.foldl (fun a c => a * 10 + ((c.toNat : Int) - 48)) 0 * 10 ^ (9 - ds.length)

/-- time `parseRFC3339`, the fraction of a second. -/
def parseFraction (t : List Char) : Int × List Char :=
  match t with
  | '.' :: rest =>
    match rest.takeWhile isDigit with
    | [] => (0, t)
    | ds => (nanoseconds ds, rest.dropWhile isDigit)
  | t => (0, t)

/-- time `parseRFC3339`, the offset in seconds. -/
def parseOffset (t : List Char) : Option Int :=
  match t with
  | ['Z'] => some 0
  | [s, a, b, ':', c, d] =>
    match parseUint [a, b] 0 23, parseUint [c, d] 0 59 with
    | some hr, some mm => if s = '+' then some ((hr * 60 + mm) * 60) else if s = '-' then some (-((hr * 60 + mm) * 60)) else none
    | _, _ => none
  | _ => none

/-- time `parseRFC3339` and `parseStrictRFC3339`. -/
def parseRFC3339 (s : List Char) : Option Time :=
  match s with
  | y1 :: y2 :: y3 :: y4 :: '-' :: m1 :: m2 :: '-' :: d1 :: d2 :: 'T' :: h1 :: h2 :: ':' :: i1 :: i2 :: ':' :: s1 :: s2 :: rest => do
    let year ← parseUint [y1, y2, y3, y4] 0 9999
    let month ← parseUint [m1, m2] 1 12
    let day ← parseUint [d1, d2] 1 (daysIn month year)
    let hour ← parseUint [h1, h2] 0 23
    let min ← parseUint [i1, i2] 0 59
    let sec ← parseUint [s1, s2] 0 59
    let (nsec, rest) := parseFraction rest
    let offset ← parseOffset rest
    some (date year month day ((hour * 3600 + min * 60 + sec) * nsPerSec + nsec) offset)
  | _ => none

/-! ### the decoder for the types of aeris_moon.go -/

/-- The zero `time.Time`. -/
def zeroTime : Time := { nanos := 0, offset := 0 }

/-- aeris_moon.go:9-14. -/
structure Moon where
  Timestamp : Int := 0
  DateTimeISO : Time := zeroTime
  Code : Int := 0
  Name : List Char := []
deriving DecidableEq, Repr

/-- aeris_moon.go:16-19. -/
structure RespError where
  Code : List Char := []
  Description : List Char := []
deriving DecidableEq, Repr

/-- aeris_moon.go:21-25. -/
structure Resp where
  Success : Bool := false
  Error : RespError := {}
  Response : List Moon := []
deriving DecidableEq, Repr

/-- strconv `ParseInt(s, 10, 64)` on a number of the JSON grammar, with the test in `literalStore` whether the number is an `int`. -/
def parseInt (s : IntSize) (t : List Char) : Option Int :=
  let (neg, ds) : Bool × List Char := match t with
    | '-' :: ds => (true, ds)
    | ds => (false, ds)
  if ds ≠ [] ∧ ds.all isDigit then
    let x : Int := ds.foldl (fun a c => a * 10 + ((c.toNat : Int) - 48)) 0
    let x := if neg then -x else x
    if -s.half ≤ x ∧ x < s.half then some x else none
  else none

/-- encoding/json `literalStore` into a `bool`; `null` changes nothing. -/
def storeBool (old : Bool) : JVal → Option Bool
  | .null => some old
  | .bool b => some b
  | _ => none

/-- `literalStore` into an `int`. -/
def storeInt (s : IntSize) (old : Int) : JVal → Option Int
  | .null => some old
  | .num t => parseInt s t
  | _ => none

/-- `literalStore` into a `string`. -/
def storeString (old : List Char) : JVal → Option (List Char)
  | .null => some old
  | .str raw => some (unquote raw)
  | _ => none

/-- time `UnmarshalJSON`; it looks at the text between the quotes without resolving escapes. -/
def storeTime (old : Time) : JVal → Option Time
  | .null => some old
  | .str raw => parseRFC3339 raw
  | _ => none

/-- encoding/json `object` into an `AerisMoon`, one field. -/
def storeMoonField (s : IntSize) (m : Moon) (key : List Char) (v : JVal) : Option Moon :=
  if sameName key "timestamp" then (storeInt s m.Timestamp v).map fun x => { m with Timestamp := x }
  else if sameName key "dateTimeISO" then (storeTime m.DateTimeISO v).map fun x => { m with DateTimeISO := x }
  else if sameName key "code" then (storeInt s m.Code v).map fun x => { m with Code := x }
  else if sameName key "name" then (storeString m.Name v).map fun x => { m with Name := x }
  else some m

/-- encoding/json `value` into an `AerisMoon`. -/
def storeMoon (s : IntSize) (old : Moon) : JVal → Option Moon
  | .null => some old
  | .obj fields => fields.foldlM (fun m f => storeMoonField s m f.1 f.2) old
  | _ => none

/-- encoding/json `object` into an `AerisError`, one field. -/
def storeErrorField (e : RespError) (key : List Char) (v : JVal) : Option RespError :=
  if sameName key "code" then (storeString e.Code v).map fun x => { e with Code := x }
  else if sameName key "description" then (storeString e.Description v).map fun x => { e with Description := x }
  else some e

/-- encoding/json `value` into an `AerisError`. -/
def storeError (old : RespError) : JVal → Option RespError
  | .null => some old
  | .obj fields => fields.foldlM (fun m f => storeErrorField m f.1 f.2) old
  | _ => none

/-- A slice of moons while it is filled: the elements of its array that were ever written, and its length. -/
structure Slice where
  array : List Moon := []
  length : Nat := 0

/-- The elements of a slice. -/
def Slice.items (l : Slice) : List Moon := l.array.take l.length

/-- encoding/json `array` into a slice, the elements: those in the array are overwritten one by one, also behind the old length; the
array grows only when all of it is in use, and then keeps its elements. -/
def overwrite (s : IntSize) : List Moon → List JVal → Option (List Moon)
  | old, [] => some old
  | old, v :: vs =>
    match storeMoon s (old.headD {}) v with
    | none => none
    | some m => (overwrite s old.tail vs).map fun ms => m :: ms

/-- encoding/json `value` into a `[]AerisMoon`. `null` and the empty array give a new slice. -/
def storeMoons (s : IntSize) (old : Slice) : JVal → Option Slice
  | .null => some {}
  | .arr [] => some {}
  | .arr items => (overwrite s old.array items).map fun a => { array := a, length := items.length }
  | _ => none

/-- An `AerisResp` while it is filled. -/
structure Filling where
  Success : Bool := false
  Error : RespError := {}
  Response : Slice := {}

/-- The response so far. -/
def Filling.resp (r : Filling) : Resp := { Success := r.Success, Error := r.Error, Response := r.Response.items }

/-- encoding/json `object` into an `AerisResp`, one field. -/
def storeRespField (s : IntSize) (r : Filling) (key : List Char) (v : JVal) : Option Filling :=
  if sameName key "success" then (storeBool r.Success v).map fun x => { r with Success := x }
  else if sameName key "error" then (storeError r.Error v).map fun x => { r with Error := x }
  else if sameName key "Response" then (storeMoons s r.Response v).map fun x => { r with Response := x }
  else some r

/-- encoding/json `value` into an `AerisResp`. -/
def storeResp (s : IntSize) (old : Filling) : JVal → Option Filling
  | .null => some old
  | .obj fields => fields.foldlM (fun r f => storeRespField s r f.1 f.2) old
  | _ => none

/-- astro_moon.go:64-65: `var resp AerisResp; json.Unmarshal(data, &resp)`. -/
def unmarshal (s : IntSize) (text : List Char) : Option Resp :=
  match scan text with
  | none => none
  | some v => (storeResp s {} v).map Filling.resp

/-- The decoded response as `GetAstroMoons` uses it. -/
def Resp.file (r : Resp) : AstroFile :=
  .resp r.Success (String.ofList r.Error.Code) (r.Response.map fun m => { DateTimeISO := m.DateTimeISO, Code := m.Code })

/-- astro_moon.go:57-68 with the embedded strings of data.go: the file of a year, decompressed and decoded. -/
def dataFile (s : IntSize) (year : Int) : AstroFile :=
  match escFind (astroPath year) with
  | some (.file y) =>
    match escFiles.lookup y with
    | none => .missing
    | some d =>
      match Gzip.decode (d.compressed.toList.map Char.toNat) with
      | none => .missing
      | some data =>
        match unmarshal s (Utf8.decodeUtf8 data) with
        | none => .undecodable
        | some r => r.file
  | some .dir => .undecodable
  | none => .missing

end Verif.Model.Unmarshal
