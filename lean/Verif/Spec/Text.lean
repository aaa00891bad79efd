/-
Specification of the textual form of numbers and dates. Nothing here models code of /repo.
-/
set_option autoImplicit false

namespace Verif.Spec

/-- The decimal digit `n % 10`. -/
def digitOf (n : Nat) : Char := Char.ofNat (48 + n % 10)

/-- The last `k` decimal digits of `n`. -/
def pad (k n : Nat) : List Char :=
  match k with
  | 0 => []
  | k + 1 => pad k (n / 10) ++ [digitOf n]

/-- ISO 8601 calendar date YYYY-MM-DD. -/
def isoDate (y m d : Nat) : String := String.ofList (pad 4 y ++ '-' :: pad 2 m ++ '-' :: pad 2 d)

/-- An ASCII character of a word: a letter, a digit or `_`. -/
def WordChar (c : Char) : Prop :=
  'a' ≤ c ∧ c ≤ 'z' ∨ 'A' ≤ c ∧ c ≤ 'Z' ∨ '0' ≤ c ∧ c ≤ '9' ∨ c = '_'

instance (c : Char) : Decidable (WordChar c) := by unfold WordChar; infer_instance

/-- Place `i` is the beginning of the text or comes after a character that is not of a word. -/
def StartsWord (l : List Char) (i : Nat) : Prop := ∀ j, i = j + 1 → ∀ c, l[j]? = some c → ¬ WordChar c

open Classical in
noncomputable instance (l : List Char) (i : Nat) : Decidable (StartsWord l i) := inferInstance

end Verif.Spec
