/-
RFC 3629: the bytes of a character, and what is read from bytes of which some may be wrong. Nothing here models code of /repo.
-/
set_option autoImplicit false

namespace Verif.Spec.Utf8

/-- Section 3: the bytes of a character. -/
def encodeChar (c : Char) : List Nat :=
  let n := c.toNat
  if n < 0x80 then [n]
  else if n < 0x800 then [0xC0 + n / 0x40, 0x80 + n % 0x40]
  else if n < 0x10000 then [0xE0 + n / 0x1000, 0x80 + n / 0x40 % 0x40, 0x80 + n % 0x40]
  else [0xF0 + n / 0x40000, 0x80 + n / 0x1000 % 0x40, 0x80 + n / 0x40 % 0x40, 0x80 + n % 0x40]

/-- The bytes of a text. -/
def encode (text : List Char) : List Nat := text.flatMap encodeChar

/-- The text read from bytes: a byte with which no character begins there counts as U+FFFD. -/
inductive Reads : List Nat → List Char → Prop
  | nil : Reads [] []
  | char (c : Char) (bytes : List Nat) (text : List Char) (h : Reads bytes text) : Reads (encodeChar c ++ bytes) (c :: text)
  | wrong (b : Nat) (bytes : List Nat) (text : List Char) (hb : ∀ c, ¬ encodeChar c <+: b :: bytes) (h : Reads bytes text) :
      Reads (b :: bytes) (Char.ofNat 0xFFFD :: text)

end Verif.Spec.Utf8
