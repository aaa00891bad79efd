import Verif.Go.Time
import Verif.Spec.Gregorian
import Verif.Spec.Text
/-
The texts of an instant after RFC 3339: a civil date, a time of day, perhaps a decimal fraction of a second, and the offset from UTC.
Only the forms with the capital letters T and Z and without a leap second are meant. Nothing here models code of /repo.
-/
set_option autoImplicit false

namespace Verif.Spec
open Verif.Go

/-- A fraction of a second, cut off to nanoseconds; there may be none. -/
def IsFraction (s : List Char) (ns : Nat) : Prop :=
  (s = [] ∧ ns = 0) ∨ ∃ k n, 1 ≤ k ∧ n < 10 ^ k ∧ s = '.' :: pad k n ∧ ns = n * 10 ^ 9 / 10 ^ k

/-- `Z` or `+hh:mm` or `-hh:mm`, in seconds. -/
def IsOffset (s : List Char) (offset : Int) : Prop :=
  (s = ['Z'] ∧ offset = 0) ∨ ∃ hh mm : Nat, hh < 24 ∧ mm < 60 ∧
    ((s = '+' :: (pad 2 hh ++ ':' :: pad 2 mm) ∧ offset = ((hh * 60 + mm) * 60 : Nat)) ∨
      (s = '-' :: (pad 2 hh ++ ':' :: pad 2 mm) ∧ offset = -((hh * 60 + mm) * 60 : Nat)))

/-- YYYY-MM-DDThh:mm:ss, a fraction and an offset. -/
def IsRfc3339 (s : List Char) (t : Time) : Prop :=
  ∃ y m d hh mm ss ns : Nat, ∃ frac off : List Char, y ≤ 9999 ∧ hh < 24 ∧ mm < 60 ∧ ss < 60 ∧ IsDate t.day y m d ∧
    t.sinceMidnight = ((hh * 60 + mm) * 60 + ss : Nat) * nsPerSec + ns ∧ IsFraction frac ns ∧ IsOffset off t.offset ∧
    s = pad 4 y ++ ('-' :: (pad 2 m ++ ('-' :: (pad 2 d ++ ('T' :: (pad 2 hh ++ (':' :: (pad 2 mm ++ (':' :: (pad 2 ss ++
      (frac ++ off)))))))))))

end Verif.Spec
