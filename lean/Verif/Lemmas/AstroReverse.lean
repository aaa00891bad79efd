import Verif.Lemmas.AstroCompare
/-
Helper lemmas: kernel comparison of the embedded moons with the calculated uposathas, from the uposathas' side.
-/
set_option autoImplicit false

namespace Verif.Lemmas
open Verif.Go Verif.Model Verif.Spec Verif.Props

/-- The days of `uncovered`. -/
def uncoveredDays : List Nat := [697610, 704550, 706012, 712951, 718429, 719891, 725369, 726831, 732309, 733771, 740710]

theorem uncovered_eq : uncovered = uncoveredDays.map fun d : Nat => ⟨(d : Int) * nsPerDay, 0⟩ := by decide +kernel

/-- Every uposatha of the year has its moon, or is one of the exceptions. -/
def uposathasCovered (cfg : Config) (y k : Int) : Bool :=
  go k.toNat (yearN y.toNat) (yearN (y.toNat + 1)) (rowsOf y ++ (rowsOf (y - 1) ++ rowsOf (y + 1))) true
    (offsN (fa y) (fv cfg y))
where
  go (k lo hi : Nat) (rows : List Nat) : Bool → List Nat → Bool
    | _, [] => true
    | cur, o :: r => (Nat.ble (k + o + 1) lo || (Nat.ble hi (k + o) || (uncoveredDays.any (fun d => Nat.beq (k + o) d) ||
        rows.any fun n => Nat.beq (n % 10) (bif cur then 0 else 2) && (Nat.ble (k + o) (secs n / 86400 + 1) &&
          Nat.ble (secs n / 86400) (k + o + 2))))) && go k lo hi rows (!cur) r

theorem reverse_default : scanCfg .default (fun y k => y == 1970 || uposathasCovered .default y k) 131 1902 694288 = true := by
  decide +kernel

theorem reverse_official : scanCfg .official (fun y k => y == 1970 || uposathasCovered .official y k) 4 1994 727894 = true := by
  decide +kernel

theorem reverse {cfg : Config} (hs : Shipped cfg) {y : Int} (h1 : 1902 ≤ y) (h2 : y ≤ 2032) (h3 : y ≠ 1970) :
    uposathasCovered cfg y (katDay cfg y) = true := by
  have h := scanCfg_spec (katDay_1902 .default (Or.inl rfl)) reverse_default y h1 (by omega)
  simp only [Bool.or_eq_true, beq_iff_eq, h3, false_or] at h
  rcases hs with rfl | rfl
  · exact h
  · by_cases hy : y < 1994 ∨ 1997 < y
    · have e := official_eq hy
      unfold uposathasCovered at h ⊢
      rw [e.1, e.2]; exact h
    · have := scanCfg_spec katDay_1994 reverse_official y (by omega) (by omega)
      simpa [h3] using this

theorem reverse_go {k lo hi : Nat} {rows : List Nat} : ∀ {os : List Nat} {cur : Bool},
    uposathasCovered.go k lo hi rows cur os = true → ∀ i o, os[i]? = some o → lo ≤ k + o → k + o < hi →
      k + o ∈ uncoveredDays ∨ ∃ n ∈ rows, n % 10 = (if decide (i % 2 = 0) = cur then 0 else 2) ∧
        k + o ≤ secs n / 86400 + 1 ∧ secs n / 86400 ≤ k + o + 2
  | [], _, _, i, o, h, _, _ => by simp at h
  | o' :: r, cur, h, 0, o, he, h1, h2 => by
    simp only [List.getElem?_cons_zero, Option.some.injEq] at he
    subst he
    unfold uposathasCovered.go at h
    simp only [Bool.and_eq_true, Bool.or_eq_true, Nat.ble_eq, List.any_eq_true, Nat.beq_eq] at h
    rcases h.1 with h | h | ⟨d, hd, h⟩ | ⟨n, hn, h⟩
    · omega
    · omega
    · left; rw [h]; exact hd
    · right
      refine ⟨n, hn, ?_, h.2⟩
      rw [h.1]
      cases cur <;> simp
  | o' :: r, cur, h, i + 1, o, he, h1, h2 => by
    simp only [List.getElem?_cons_succ] at he
    unfold uposathasCovered.go at h
    rw [Bool.and_eq_true] at h
    rcases reverse_go h.2 i o he h1 h2 with h | ⟨n, hn, hc, h⟩
    · exact Or.inl h
    · refine Or.inr ⟨n, hn, ?_, h⟩
      rw [hc]
      rcases Nat.mod_two_eq_zero_or_one i with hi | hi
      · have : (i + 1) % 2 = 1 := by omega
        cases cur <;> simp [hi, this]
      · have : (i + 1) % 2 = 0 := by omega
        cases cur <;> simp [hi, this]

/-- No full or new moon of the data is near the exceptions. -/
theorem uncovered_none : uncoveredDays.all (fun d => (rowsOf (yearYday d).1 ++ rowsOf ((yearYday d).1 + 1)).all fun n =>
    Nat.beq (n % 2) 1 || (Nat.ble (secs n / 86400 + 2) d || Nat.ble (d + 3) (secs n / 86400))) = true := by
  decide +kernel

end Verif.Lemmas
