import Verif.Spec.JsonGrammar
import Verif.Spec.Rfc3339
/-
What a JSON text says about the records of aeris_moon.go. Only the types of the model are used: `JVal`, `Moon`, `RespError`, `Resp`.
-/
set_option autoImplicit false

namespace Verif.Spec.Decode
open Verif.Go Verif.Spec Verif.Spec.Grammar
open Verif.Model.Unmarshal (JVal Moon RespError Resp)

/-! ### strings -/

/-- `v` is the number of the hexadecimal digit `c`. -/
def IsHexDigit (c : Char) (v : Nat) : Prop := v < 16 ∧ (c = Nat.digitChar v ∨ c = (Nat.digitChar v).toUpper)

/-- `n` is the number of four hexadecimal digits. -/
def IsHex4 (l : List Char) (n : Nat) : Prop :=
  ∃ a b c d p q r s, IsHexDigit a p ∧ IsHexDigit b q ∧ IsHexDigit c r ∧ IsHexDigit d s ∧ l = [a, b, c, d] ∧
    n = p * 4096 + q * 256 + r * 16 + s

/-- The first half of a pair of surrogates. -/
def High (n : Nat) : Prop := 0xD800 ≤ n ∧ n ≤ 0xDBFF

/-- The second half. -/
def Low (n : Nat) : Prop := 0xDC00 ≤ n ∧ n ≤ 0xDFFF

/-- The escapes of two characters (RFC 8259, section 7). -/
def shortEscapes : List (Char × Nat) :=
  [('"', 0x22), ('\\', 0x5C), ('/', 0x2F), ('b', 0x08), ('f', 0x0C), ('n', 0x0A), ('r', 0x0D), ('t', 0x09)]

/-- The characters that a string of JSON stands for. A surrogate without its other half stands for U+FFFD. -/
inductive Means : List Char → List Char → Prop where
  | nil : Means [] []
  | plain {c : Char} {l s : List Char} (h : c ≠ '"' ∧ c ≠ '\\' ∧ 32 ≤ c.toNat) (t : Means l s) : Means (c :: l) (c :: s)
  | short {c : Char} {n : Nat} {l s : List Char} (h : (c, n) ∈ shortEscapes) (t : Means l s) : Means ('\\' :: c :: l) (Char.ofNat n :: s)
  | unicode {n : Nat} {x l s : List Char} (h : IsHex4 x n) (hn : ¬ High n ∧ ¬ Low n) (t : Means l s) :
      Means ('\\' :: 'u' :: (x ++ l)) (Char.ofNat n :: s)
  | pair {m n : Nat} {x y l s : List Char} (hx : IsHex4 x m) (hm : High m) (hy : IsHex4 y n) (hn : Low n) (t : Means l s) :
      Means ('\\' :: 'u' :: (x ++ '\\' :: 'u' :: (y ++ l))) (Char.ofNat (0x10000 + (m - 0xD800) * 0x400 + (n - 0xDC00)) :: s)
  | lone {n : Nat} {x l s : List Char} (h : IsHex4 x n)
      (hn : Low n ∨ High n ∧ ∀ y m r, IsHex4 y m → Low m → l ≠ '\\' :: 'u' :: (y ++ r)) (t : Means l s) :
      Means ('\\' :: 'u' :: (x ++ l)) (Char.ofNat 0xFFFD :: s)

/-- A character without case: the letters of ASCII, and the long s and the kelvin sign, which Unicode pairs with them. -/
def caseless (c : Char) : Char := if c.toNat = 0x17F then 's' else if c.toNat = 0x212A then 'k' else c.toLower

/-- A key as written names a field, whatever its case. -/
def Named (key : List Char) (name : String) : Prop := ∃ s, Means key s ∧ s.map caseless = name.toList.map caseless

/-! ### fields -/

abbrev Members : Type := List (List Char × JVal)

/-- No value but perhaps `null` is given. -/
def Absent (fs : Members) (name : String) : Prop := ∀ f ∈ fs, Named f.1 name → f.2 = .null

/-- The last value given, apart from `null`. -/
def Last (fs : Members) (name : String) (v : JVal) : Prop :=
  v ≠ .null ∧ ∃ pre key post, fs = pre ++ (key, v) :: post ∧ Named key name ∧ Absent post name

/-- An `int` written without fraction and exponent. -/
def IsInt (s : IntSize) (v : JVal) (x : Int) : Prop :=
  ∃ k n : Nat, 1 ≤ k ∧ n < 10 ^ k ∧ ((v = .num (pad k n) ∧ x = n) ∨ (v = .num ('-' :: pad k n) ∧ x = -n)) ∧ -s.half ≤ x ∧ x < s.half

/-- A string. -/
def IsString (v : JVal) (s : List Char) : Prop := ∃ raw, v = .str raw ∧ Means raw s

/-- An instant. -/
def IsInstant (v : JVal) (t : Time) : Prop := ∃ raw, v = .str raw ∧ IsRfc3339 raw t

/-- Every value given under a name is `null` or of the type `R`, and `x` is the last one, or `zero` if there is none. -/
def HasField {α : Type} (fs : Members) (name : String) (R : JVal → α → Prop) (zero x : α) : Prop :=
  (∀ f ∈ fs, Named f.1 name → f.2 = .null ∨ ∃ y, R f.2 y) ∧ ((Absent fs name ∧ x = zero) ∨ ∃ v, Last fs name v ∧ R v x)

/-- An object that gives a moon. -/
structure IsMoonObject (s : IntSize) (fs : Members) (m : Moon) : Prop where
  timestamp : HasField fs "timestamp" (IsInt s) 0 m.Timestamp
  dateTimeISO : HasField fs "dateTimeISO" IsInstant { nanos := 0, offset := 0 } m.DateTimeISO
  code : HasField fs "code" (IsInt s) 0 m.Code
  name : HasField fs "name" IsString [] m.Name

/-- A value that gives a moon: an object, or `null` for a moon without anything. -/
def IsMoon (s : IntSize) (v : JVal) (m : Moon) : Prop := (v = .null ∧ m = {}) ∨ ∃ fs, v = .obj fs ∧ IsMoonObject s fs m

/-- A list of moons. -/
def IsMoons (s : IntSize) (v : JVal) (ms : List Moon) : Prop := ∃ vs, v = .arr vs ∧ List.Forall₂ (IsMoon s) vs ms

/-- An object that gives an error. -/
def IsError (v : JVal) (e : RespError) : Prop :=
  ∃ fs, v = .obj fs ∧ HasField fs "code" IsString [] e.Code ∧ HasField fs "description" IsString [] e.Description

/-- A boolean. -/
def IsBool (v : JVal) (b : Bool) : Prop := v = .bool b

/-- An object that gives a response. -/
structure IsRespObject (s : IntSize) (fs : Members) (r : Resp) : Prop where
  success : HasField fs "success" IsBool false r.Success
  error : HasField fs "error" IsError {} r.Error
  response : HasField fs "response" (IsMoons s) [] r.Response

/-- No two members have this name. -/
def Once (fs : Members) (name : String) : Prop := fs.Pairwise fun f g => ¬ (Named f.1 name ∧ Named g.1 name)

/-! ### keys given more than once -/

open Classical in
/-- The values given under a name, in their order. -/
noncomputable def given (fs : Members) (name : String) : List JVal := (fs.filter fun f => decide (Named f.1 name)).map (·.2)

/-- The members of an object. -/
def members : JVal → Members
  | .obj fs => fs
  | _ => []

/-- An error given in parts: each a `null` or an object, all their members together. -/
def IsErrorInParts (vs : List JVal) (e : RespError) : Prop :=
  (∀ v ∈ vs, v = .null ∨ ∃ fs, v = .obj fs) ∧ HasField (vs.flatMap members) "code" IsString [] e.Code ∧
    HasField (vs.flatMap members) "description" IsString [] e.Description

/-- A list of moons given in layers: each a `null` or a list of moons. A `null` or an empty list takes everything away. Of the lists
after the last of these, the last one says how many moons there are, but each moon has the members that any of the lists gives in
its place. -/
def IsMoonsInLayers (s : IntSize) (vs : List JVal) (ms : List Moon) : Prop :=
  (∀ v ∈ vs, v = .null ∨ ∃ l, IsMoons s v l) ∧
    ∃ (before : List JVal) (layers : List (List JVal)), vs = before ++ layers.map .arr ∧ (∀ l ∈ layers, l ≠ []) ∧
      (before = [] ∨ ∃ b, before = b ++ [.null] ∨ before = b ++ [.arr []]) ∧ ms.length = (layers.getLast?.getD []).length ∧
      ∀ (i : Nat) (m : Moon), ms[i]? = some m → IsMoonObject s (layers.flatMap fun l => members (l.getD i .null)) m

/-- An object that gives a response, with any keys given any number of times. -/
structure IsRespInParts (s : IntSize) (fs : Members) (r : Resp) : Prop where
  success : HasField fs "success" IsBool false r.Success
  error : IsErrorInParts (given fs "error") r.Error
  response : IsMoonsInLayers s (given fs "response") r.Response

/-- A value of the grammar: strings and keys and numbers in it are as the grammar says. -/
def Wellformed (v : JVal) : Prop := ∃ t, Text v t

/-- A number of the table that is a moon: a valid date and time and one of the four quarters. -/
def IsRow (n : Nat) : Prop :=
  n / 10 ^ 12 ≤ 9999 ∧ 1 ≤ n / 10 ^ 10 % 100 ∧ n / 10 ^ 10 % 100 ≤ 12 ∧ 1 ≤ n / 10 ^ 8 % 100 ∧
    ((n / 10 ^ 8 % 100 : Nat) : Int) ≤ monthDays (n / 10 ^ 12 : Nat) (n / 10 ^ 10 % 100 : Nat) ∧
    n / 10 ^ 6 % 100 < 24 ∧ n / 10 ^ 4 % 100 < 60 ∧ n / 10 ^ 2 % 100 < 60 ∧ n % 10 < 4

end Verif.Spec.Decode
