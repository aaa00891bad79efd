import Verif.Spec.Suriya
set_option autoImplicit false

namespace Verif.Lemmas
open Verif.Spec

theorem countYears_zero (p : Int → Bool) (s : Int) : countYears p s 0 = 0 := rfl

theorem countYears_succ (p : Int → Bool) (s : Int) (n : Nat) :
    countYears p s (n + 1) = countYears p s n + (if p (s + n) then 1 else 0) := by
  unfold countYears
  rw [List.range_succ, List.filter_append, List.length_append]
  congr 1
  by_cases h : p (s + n) = true <;> simp [h]

theorem countYears_eq_zero {p : Int → Bool} {s : Int} {n : Nat}
    (h : ∀ y, s ≤ y → y < s + n → p y = false) : countYears p s n = 0 := by
  induction n with
  | zero => rfl
  | succ n ih =>
    rw [countYears_succ, ih (fun y h1 h2 => h y h1 (by omega)), h (s + n) (by omega) (by omega)]; rfl

end Verif.Lemmas
