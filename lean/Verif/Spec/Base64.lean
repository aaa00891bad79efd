import Verif.Spec.Deflate
/-
RFC 4648, section 4: base64 with padding, as a relation between texts and bytes and as an encoder. Characters are their codes.
-/
set_option autoImplicit false

namespace Verif.Spec.Base64
open Verif.Spec.Deflate (bitsOfNum)

/-- Table 1: the characters of the values 0 to 63. -/
def alphabet : List Nat := "ABCDEFGHIJKLMNOPQRSTUVWXYZabcdefghijklmnopqrstuvwxyz0123456789+/".toList.map Char.toNat

/-- The character of a value. -/
def char (v : Nat) : Nat := alphabet.getD v 0

/-- The bits of numbers of `n` bits one after the other, the most significant bit of each first. -/
def stream (n : Nat) (l : List Nat) : List Bool := l.flatMap fun v => (bitsOfNum n v).reverse

/-- The text, apart from line ends, spells groups of six bits, padded with `=` to a multiple of four characters, and the bytes are these
bits but for the two left over for each padding character. -/
def IsBase64 (text data : List Nat) : Prop :=
  ∃ (vs : List Nat) (pads : Nat), (text.filter fun c => c ≠ 10 ∧ c ≠ 13) = vs.map char ++ List.replicate pads 61 ∧
    (∀ v ∈ vs, v < 64) ∧ pads ≤ 2 ∧ (vs.length + pads) % 4 = 0 ∧
    (∀ b ∈ data, b < 256) ∧ 8 * data.length + 2 * pads = 6 * vs.length ∧ stream 8 data = (stream 6 vs).take (8 * data.length)

/-- The encoder, by groups of 24 bits. -/
def encode : List Nat → List Nat
  | [] => []
  | [a] => [char (a / 4), char (a % 4 * 16), 61, 61]
  | [a, b] => [char (a / 4), char ((a * 256 + b) / 16 % 64), char (b % 16 * 4), 61]
  | a :: b :: c :: rest =>
    let n := a * 65536 + b * 256 + c
    char (n / 262144) :: char (n / 4096 % 64) :: char (n / 64 % 64) :: char (n % 64) :: encode rest

end Verif.Spec.Base64
