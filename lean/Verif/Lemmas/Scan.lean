/-
Checking a decidable predicate on a whole finite interval of integers by kernel evaluation.
-/
set_option autoImplicit false

namespace Verif.Lemmas

/-- `p a && p (a+1) && … && p (a+n-1)`. -/
def scanAll (p : Int → Bool) : Nat → Int → Bool
  | 0, _ => true
  | n + 1, a => p a && scanAll p n (a + 1)

theorem scanAll_spec {p : Int → Bool} : ∀ {n : Nat} {a : Int}, scanAll p n a = true →
    ∀ y, a ≤ y → y < a + n → p y = true := by
  intro n
  induction n with
  | zero => intro a _ y h1 h2; omega
  | succ n ih =>
    intro a h y h1 h2
    simp only [scanAll, Bool.and_eq_true] at h
    by_cases e : y = a
    · subst e; exact h.1
    · exact ih h.2 y (by omega) (by omega)

end Verif.Lemmas
