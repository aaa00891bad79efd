/-
Model of the reading of UTF-8 by Go's package unicode/utf8, as encoding/json uses it: `DecodeRune`, and U+FFFD for every byte that
begins no character. (encoding/json replaces wrong bytes when it resolves the escapes of a string; outside of strings a wrong byte is
a syntax error, and so is U+FFFD. So the replacement can come first.)
-/
set_option autoImplicit false

namespace Verif.Model.Utf8

/-- unicode/utf8 `acceptRanges`: the second byte after the first byte `b`. -/
def acceptSecond (b x : Nat) : Bool :=
  let lo := if b = 0xE0 then 0xA0 else if b = 0xF0 then 0x90 else 0x80
  let hi := if b = 0xED then 0x9F else if b = 0xF4 then 0x8F else 0xBF
  decide (lo ≤ x) && decide (x ≤ hi)

/-- unicode/utf8: `locb`, `hicb`. -/
def continues (x : Nat) : Bool := decide (0x80 ≤ x) && decide (x ≤ 0xBF)

/-- unicode/utf8 `DecodeRune`: the rune and its width; `none` is `RuneError` with width 1. -/
def decodeRune : List Nat → Option (Nat × Nat)
  | [] => none
  | b :: rest =>
    if b < 0x80 then some (b, 1)
    else if b < 0xC2 then none
    else if b < 0xE0 then
      match rest with
      | x :: _ => if acceptSecond b x then some ((b % 0x20) * 0x40 + x % 0x40, 2) else none
      | _ => none
    else if b < 0xF0 then
      match rest with
      | x :: y :: _ => if acceptSecond b x && continues y then some ((b % 0x10) * 0x1000 + x % 0x40 * 0x40 + y % 0x40, 3) else none
      | _ => none
    else if b < 0xF5 then
      match rest with
      | x :: y :: z :: _ =>
        if acceptSecond b x && continues y && continues z then
          some ((b % 0x08) * 0x40000 + x % 0x40 * 0x1000 + y % 0x40 * 0x40 + z % 0x40, 4)
        else none
      | _ => none
    else none

/-- The characters of bytes; the first argument bounds the number of steps. -/
def decodeSteps : Nat → List Nat → List Char
  | 0, _ => []
  | _, [] => []
  | n + 1, b :: rest =>
    match decodeRune (b :: rest) with
    | some (r, width) => Char.ofNat r :: decodeSteps n (rest.drop (width - 1))
    | none => Char.ofNat 0xFFFD :: decodeSteps n rest

/-- The text that encoding/json sees in bytes. -/
def decodeUtf8 (bytes : List Nat) : List Char := decodeSteps bytes.length bytes

end Verif.Model.Utf8
