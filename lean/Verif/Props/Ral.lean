import Verif.Model.Ral
import Verif.Lemmas.Float
/-
C39, C40: the degree helpers.
-/
set_option autoImplicit false

namespace Verif.Props
open Verif.Go Verif.Model Verif.Spec Verif.Lemmas

/-! ### C40 -/

/-- C40: values up to 360, negative ones included, are returned as they are. -/
theorem c40_small (d : ℚ) (h : d ≤ 360) (f : Bool := false) : normalizeDegree d f = d := by
  unfold normalizeDegree; rw [if_pos h]

/-- C40: every larger value is reduced without rounding to its remainder modulo 360, in [0, 360). -/
theorem c40_reduce (d : ℚ) (hd : IsFloat d) (h : 360 < d) (hb : d < 2 ^ 56) (fused : Bool := false) :
    normalizeDegree d fused = d - 360 * ⌊d / 360⌋ ∧ 0 ≤ normalizeDegree d fused ∧ normalizeDegree d fused < 360 := by
  obtain ⟨c, rfl⟩ : ∃ c, d = 8 * c := ⟨d / 8, by ring⟩
  have hc : IsFloat c := by
    obtain ⟨n, e, hn, he⟩ := hd
    refine ⟨n, e - 3, hn, ?_⟩
    rw [zpow_sub₀ (by norm_num), ← mul_div_assoc, ← he]; norm_num
  have up : ∀ {q : ℚ}, IsFloat q → IsFloat (8 * q) := by
    rintro q ⟨n, e, hn, rfl⟩
    refine ⟨n, e + 3, hn, ?_⟩
    rw [zpow_add₀ (by norm_num)]; norm_num; ring
  have hpos : 0 < c := by linarith
  have hcb : c < 2 ^ 53 := by norm_num at hb ⊢; linarith
  have habs : |c| < 2 ^ 53 := by rw [abs_of_pos hpos]; exact hcb
  have hq := floor_fl_quot hc habs (d := 45) (by norm_num)
  push_cast at hq
  have e45 : 8 * c / 360 = c / 45 := by ring
  have f1 := Int.floor_le (c / 45)
  have f2 := Int.lt_floor_add_one (c / 45)
  have f0 : 1 ≤ ⌊c / 45⌋ := by rw [Int.le_floor]; push_cast; rw [le_div_iff₀ (by norm_num)]; linarith
  rw [e45]
  have key : normalizeDegree (8 * c) fused = 8 * c - 360 * ⌊c / 45⌋ := by
    unfold normalizeDegree
    rw [if_neg (by linarith), e45, hq]
    generalize ⌊c / 45⌋ = f at *
    rw [le_div_iff₀ (by norm_num)] at f1
    have hfb : f * 45 < 2 ^ 53 := by
      have : (f : ℚ) * 45 < 2 ^ 53 := by linarith
      exact_mod_cast this
    rw [fl_int f (by rw [abs_of_nonneg (by omega)]; omega)]
    have hf : IsFloat ((f * 45 : ℤ) : ℚ) := isFloat_int (by rw [abs_of_nonneg (by omega)]; exact hfb)
    have e : (f : ℚ) * 360 = 8 * ((f * 45 : ℤ) : ℚ) := by push_cast; ring
    have e' : fl ((f : ℚ) * 360) = f * 360 := by rw [e, IsFloat.fl_eq (up hf)]
    rw [mulSub_exact fused e']
    have f0' : (1 : ℚ) ≤ f := by exact_mod_cast f0
    have hs := (fl_sub_int hc habs (m := f * 45) (by
      push_cast
      rw [abs_of_nonneg (by linarith), abs_of_pos hpos]; linarith)).1
    have hs' : IsFloat (c - ((f * 45 : ℤ) : ℚ)) := by rw [← hs]; exact isFloat_fl _
    rw [show 8 * c - (f : ℚ) * 360 = 8 * (c - ((f * 45 : ℤ) : ℚ)) by push_cast; ring, IsFloat.fl_eq (up hs')]
    push_cast; ring
  refine ⟨key, ?_, ?_⟩ <;> rw [key]
  · rw [le_div_iff₀ (by norm_num)] at f1; linarith
  · rw [div_lt_iff₀ (by norm_num)] at f2; linarith

/-- C40: the bound is sharp: just above it the product is rounded, and the result is 16 in place of 8, unless the operations are fused. -/
theorem c40_sharp : IsFloat (2 ^ 56 + 112) ∧ (2 ^ 56 + 112 : ℚ) - 360 * ⌊(2 ^ 56 + 112 : ℚ) / 360⌋ = 8 ∧
    normalizeDegree (2 ^ 56 + 112) = 16 ∧ normalizeDegree (2 ^ 56 + 112) true = 8 := by
  refine ⟨⟨2 ^ 52 + 7, 4, by norm_num, by norm_num⟩, ?_, ?_, ?_⟩ <;> decide +kernel

/-- C40: two turns and 5 degrees; an even number above 2^53; values left alone. -/
example : normalizeDegree 725 = 5 ∧ normalizeDegree (2 ^ 53 + 2) = 34 ∧ normalizeDegree 360 = 360 ∧ normalizeDegree (-10) = -10 := by
  refine ⟨?_, ?_, c40_small _ (by norm_num), c40_small _ (by norm_num)⟩
  on_goal 2 =>
    rw [(c40_reduce (2 ^ 53 + 2) ⟨2 ^ 52 + 1, 1, by norm_num, by norm_num⟩ (by norm_num) (by norm_num)).1]
    norm_num
  have h : IsFloat 725 := isFloat_int (n := 725) (by norm_num)
  rw [(c40_reduce 725 h (by norm_num) (by norm_num)).1]
  norm_num

/-! ### C39 -/

theorem ral_parts {d : ℚ} (hd : IsFloat d) (h0 : 0 ≤ d) (hb : d < 2 ^ 53) :
    degreeToRal d = (⌊d⌋ / 30, ⌊d⌋ % 30, ⌊fl ((d - ⌊d⌋) * 60)⌋) ∧ IsFloat (d - ⌊d⌋) := by
  have habs : |d| < 2 ^ 53 := by rw [abs_of_nonneg h0]; exact hb
  have f1 := Int.floor_le d
  have f2 := Int.lt_floor_add_one d
  have f0 : 0 ≤ ⌊d⌋ := Int.floor_nonneg.2 h0
  have f0' : (0 : ℚ) ≤ ⌊d⌋ := by exact_mod_cast f0
  have hfb : ⌊d⌋ ≤ 2 ^ 53 := by
    have : (⌊d⌋ : ℚ) ≤ 2 ^ 53 := by linarith
    exact_mod_cast this
  have hs := fl_sub_int hd habs (m := ⌊d⌋) (by
    rw [abs_of_nonneg (by linarith), abs_of_nonneg h0]; linarith)
  refine ⟨?_, hs.2⟩
  unfold degreeToRal
  have hq := floor_fl_quot hd habs (d := 30) (by norm_num)
  push_cast at hq
  have hx : ⌊d / 30⌋ = ⌊d⌋ / 30 := by
    have := Int.floor_div_natCast d 30
    simpa using this
  rw [hq, hx, fl_int _ (by rw [abs_of_nonneg f0]; exact hfb), hs.1, Int.tmod_eq_emod_of_nonneg f0]

/-- C39: rasi and angsa are the floor of the degree, split by 30; the lipda is in 0..59. -/
theorem c39_ranges (d : ℚ) (hd : IsFloat d) (h0 : 0 ≤ d) (hb : d < 2 ^ 53) (x y z : Int) (h : degreeToRal d = (x, y, z)) :
    30 * x + y = ⌊d⌋ ∧ 0 ≤ y ∧ y < 30 ∧ 0 ≤ z ∧ z < 60 := by
  obtain ⟨h1, h2⟩ := ral_parts hd h0 hb
  rw [h1] at h
  simp only [Prod.mk.injEq] at h
  obtain ⟨rfl, rfl, rfl⟩ := h
  have f1 := Int.floor_le d
  have f2 := Int.lt_floor_add_one d
  refine ⟨by omega, by omega, by omega, ?_, ?_⟩
  · rw [Int.le_floor]
    push_cast
    have := le_fl_of_int (k := 0) (q := (d - ⌊d⌋) * 60) (by norm_num) (by push_cast; linarith)
    simpa using this
  · rw [Int.floor_lt]
    push_cast
    have hr : |d - ⌊d⌋| < 2 ^ 53 := by
      have : (1 : ℚ) < 2 ^ 53 := by norm_num
      rw [abs_of_nonneg (by linarith)]; linarith
    have hg := gap h2 hr (m := 1) (by push_cast; linarith)
    rw [abs_of_nonneg (by linarith)] at hg
    push_cast at hg
    have he := abs_le.1 (fl_err ((d - ⌊d⌋) * 60))
    rw [abs_of_nonneg (by linarith)] at he
    have : (d - ⌊d⌋) * 60 / 2 ^ 53 = (d - ⌊d⌋) / 2 ^ 53 * 60 := by ring
    rw [this] at he
    linarith [he.2]

/-- C39: 247 degrees and 43/64. -/
example : IsFloat (247 + 43 / 64) ∧ degreeToRal (247 + 43 / 64) = (8, 7, 40) :=
  ⟨⟨15851, -6, by norm_num, by norm_num⟩, by decide +kernel⟩

/-- C39: from 8 degrees on the lipda is exactly the whole arc minutes of the remainder. -/
theorem c39_exact (d : ℚ) (hd : IsFloat d) (h8 : 8 ≤ d) (hb : d < 2 ^ 53) :
    (degreeToRal d).2.2 = ⌊(d - ⌊d⌋) * 60⌋ := by
  obtain ⟨h1, h2⟩ := ral_parts hd (by linarith) hb
  rw [h1]
  show ⌊fl ((d - ⌊d⌋) * 60)⌋ = _
  have f1 := Int.floor_le d
  have f2 := Int.lt_floor_add_one d
  have g1 := Int.floor_le ((d - ⌊d⌋) * 60)
  have g2 := Int.lt_floor_add_one ((d - ⌊d⌋) * 60)
  have g0 : 0 ≤ ⌊(d - ⌊d⌋) * 60⌋ := Int.floor_nonneg.2 (by linarith)
  have g3 : ⌊(d - ⌊d⌋) * 60⌋ < 60 := by rw [Int.floor_lt]; push_cast; linarith
  rw [Int.floor_eq_iff]
  refine ⟨le_fl_of_int (by rw [abs_of_nonneg g0]; omega) g1, ?_⟩
  -- the remainder is a multiple of 2^-49
  obtain ⟨n, k, hn, hq⟩ := IsFloat.dyadic hd (by rw [abs_of_pos (by linarith)]; exact hb)
  have hp : (0 : ℚ) < 2 ^ k := by positivity
  have hk : k ≤ 49 := by
    by_contra hk
    have h50 : (2 : ℚ) ^ 50 ≤ 2 ^ k := pow_le_pow_right₀ (by norm_num) (by omega)
    have hn' : (n : ℚ) < 2 ^ 53 := by
      have := lt_of_le_of_lt (le_abs_self n) hn
      exact_mod_cast this
    rw [hq, le_div_iff₀ hp] at h8
    nlinarith
  generalize hF : ⌊d⌋ = F at *
  generalize hG : ⌊(d - F) * 60⌋ = G at *
  have e : (d - F) * 60 = ((60 * (n - F * 2 ^ k) : ℤ) : ℚ) / 2 ^ k := by rw [hq]; push_cast; field_simp
  have hgap : 4 / 2 ^ 49 ≤ (G : ℚ) + 1 - (d - F) * 60 := by
    have hlt : 60 * (n - F * 2 ^ k) < (G + 1) * 2 ^ k := by
      have := g2
      rw [e, div_lt_iff₀ hp] at this
      exact_mod_cast this
    have e2 : (G : ℚ) + 1 - (d - F) * 60 = (((G + 1) * 2 ^ k - 60 * (n - F * 2 ^ k) : ℤ) : ℚ) / 2 ^ k := by
      rw [e]; push_cast; field_simp
    rw [e2, div_le_div_iff₀ (by positivity) hp]
    rcases Nat.lt_or_ge k 2 with hk2 | hk2
    · have h1 : (1 : ℚ) ≤ (((G + 1) * 2 ^ k - 60 * (n - F * 2 ^ k) : ℤ) : ℚ) := by
        have : (1 : ℤ) ≤ (G + 1) * 2 ^ k - 60 * (n - F * 2 ^ k) := by omega
        exact_mod_cast this
      have h2 : (2 : ℚ) ^ k ≤ 2 ^ 1 := pow_le_pow_right₀ (by norm_num) (by omega)
      nlinarith
    · obtain ⟨j, rfl⟩ : ∃ j, k = j + 2 := ⟨k - 2, by omega⟩
      have e3 : (G + 1) * 2 ^ (j + 2) - 60 * (n - F * 2 ^ (j + 2)) =
          4 * ((G + 1) * 2 ^ j - 15 * (n - F * 2 ^ (j + 2))) := by rw [pow_add]; ring
      rw [e3]
      have h1 : (1 : ℚ) ≤ (((G + 1) * 2 ^ j - 15 * (n - F * 2 ^ (j + 2)) : ℤ) : ℚ) := by
        have : (1 : ℤ) ≤ (G + 1) * 2 ^ j - 15 * (n - F * 2 ^ (j + 2)) := by omega
        exact_mod_cast this
      have h2 : (2 : ℚ) ^ (j + 2) ≤ 2 ^ 49 := pow_le_pow_right₀ (by norm_num) hk
      push_cast at h1 ⊢
      nlinarith
  have he := abs_le.1 (fl_err ((d - F) * 60))
  rw [abs_of_nonneg (by linarith)] at he
  have : (d - F) * 60 / 2 ^ 53 < 4 / 2 ^ 49 := by
    rw [div_lt_div_iff₀ (by positivity) (by positivity)]
    nlinarith
  linarith [he.2]

/-- C39: the lipda of that value, 40 and 5/16 cut off. -/
example : (degreeToRal (247 + 43 / 64)).2.2 = ⌊((247 + 43 / 64 : ℚ) - ⌊(247 + 43 / 64 : ℚ)⌋) * 60⌋ :=
  c39_exact _ ⟨15851, -6, by norm_num, by norm_num⟩ (by norm_num) (by norm_num)

/-- The float64 value of the literal 0.35. -/
def d035 : ℚ := 6305039478318694 / 2 ^ 54

example : fl (35 / 100) = d035 := by unfold d035; decide +kernel

/-- C39: below 8 degrees the lipda can be one too many: 0.35 is below 21 arc minutes and yet gets 21. -/
theorem c39_inexact_035 : degreeToRal d035 = (0, 0, 21) ∧ d035 * 60 < 21 := by
  unfold d035; decide +kernel

/-- C39: the bound 8 cannot be lowered by a factor of two. -/
theorem c39_inexact_4 : ∃ d : ℚ, IsFloat d ∧ 4 ≤ d ∧ d < 8 ∧ degreeToRal d = (0, 4, 46) ∧ (d - 4) * 60 < 46 := by
  refine ⟨((4 * 2 ^ 50 + (46 * 2 ^ 48 - 1) / 15 : ℤ) : ℚ) / 2 ^ 50,
    ⟨4 * 2 ^ 50 + (46 * 2 ^ 48 - 1) / 15, -50, by norm_num, by norm_num⟩, by norm_num, by norm_num, ?_, by norm_num⟩
  decide +kernel

/-- C39: `RalToDegree` is the float64 nearest to the degree truncated to four decimals; `z` may be negative. -/
theorem c39_ral_to_degree (x y z : Int) (hN : |30 * x + y| ≤ 2 ^ 38) (hz : |z| ≤ 60) (fused : Bool := false) :
    ralToDegree x y z fused = fl (((⌊((30 * x + y : Int) + (z : ℚ) / 60) * 10000⌋ : ℤ) : ℚ) / 10000) := by
  unfold ralToDegree
  generalize 30 * x + y = N at *
  rw [abs_le] at hN hz
  have e1 : fl ((N : ℚ)) = N := fl_int N (by rw [abs_le]; omega)
  have e2 : fl ((N : ℚ) * 10000) = N * 10000 := by
    have := fl_int (N * 10000) (by rw [abs_le]; omega)
    push_cast at this; exact this
  have e3 : fl ((z * 10000 : Int) : ℚ) = ((z * 10000 : Int) : ℚ) := fl_int _ (by rw [abs_le]; omega)
  rw [e1, mulAdd_exact fused e2, e3]
  have hfl : ⌊((N : ℚ) + (z : ℚ) / 60) * 10000⌋ = N * 10000 + (500 * z) / 3 := by
    have : ((N : ℚ) + (z : ℚ) / 60) * 10000 = ((N * 10000 : ℤ) : ℚ) + ((500 * z : ℤ) : ℚ) / (3 : ℕ) := by push_cast; ring
    rw [this, Int.floor_intCast_add, Int.floor_div_natCast, Int.floor_intCast]; rfl
  rw [hfl]
  have hk := Int.mul_ediv_add_emod (500 * z) 3
  have hk1 := Int.emod_nonneg (500 * z) (show (3 : ℤ) ≠ 0 by norm_num)
  have hk2 := Int.emod_lt_of_pos (500 * z) (show (0 : ℤ) < 3 by norm_num)
  generalize (500 * z) / 3 = k at *
  generalize (500 * z) % 3 = t at *
  have hq : ((z * 10000 : Int) : ℚ) / 60 = k + t / 3 := by
    have : ((3 * k + t : ℤ) : ℚ) = ((500 * z : ℤ) : ℚ) := by rw [hk]
    push_cast at this ⊢
    linarith
  have ht0 : (0 : ℚ) ≤ t := by exact_mod_cast hk1
  have ht2 : (t : ℚ) ≤ 2 := by
    have : t ≤ 2 := by omega
    exact_mod_cast this
  have hkb : |(k : ℚ)| ≤ 10001 := by
    have : |k| ≤ 10001 := by rw [abs_le]; omega
    rw [← Int.cast_abs]; exact_mod_cast this
  have hNb : |(N : ℚ)| ≤ 2 ^ 38 := by
    have : |N| ≤ 2 ^ 38 := by rw [abs_le]; omega
    rw [← Int.cast_abs]; exact_mod_cast this
  rw [abs_le] at hkb hNb
  rw [hq]
  have w1 : (k : ℚ) ≤ fl (k + t / 3) :=
    le_fl_of_int (by
      have : |k| ≤ 10001 := by rw [abs_le]; omega
      omega) (by linarith)
  have w2 := (abs_le.1 (fl_err ((k : ℚ) + t / 3))).2
  have w3 : |(k : ℚ) + t / 3| ≤ 10002 := by rw [abs_le]; constructor <;> linarith
  have w4 : |(k : ℚ) + t / 3| / 2 ^ 53 ≤ 1 / 1000 := by
    rw [div_le_div_iff₀ (by positivity) (by norm_num)]; norm_num; linarith
  generalize fl ((k : ℚ) + t / 3) = w at *
  have hM : ⌊fl ((N : ℚ) * 10000 + w)⌋ = N * 10000 + k := by
    rw [Int.floor_eq_iff]
    push_cast
    constructor
    · have := le_fl_of_int (k := N * 10000 + k) (q := (N : ℚ) * 10000 + w)
        (by rw [abs_le]; omega) (by push_cast; linarith)
      push_cast at this; exact this
    · have v2 := (abs_le.1 (fl_err ((N : ℚ) * 10000 + w))).2
      have v3 : |(N : ℚ) * 10000 + w| / 2 ^ 53 ≤ 31 / 100 := by
        have : |(N : ℚ) * 10000 + w| ≤ 2 ^ 38 * 10000 + 10003 := by rw [abs_le]; constructor <;> linarith
        rw [div_le_div_iff₀ (by positivity) (by norm_num)]
        norm_num at this ⊢
        linarith
      linarith
  rw [hM]

/-- C39: 8 rasi, 7 angsa, 40 lipda are 247.6666 degrees. -/
example : ralToDegree 8 7 40 = fl (2476666 / 10000) := by decide +kernel

/-- The truncation to four decimals loses at most two thirds of the last place. -/
theorem trunc_bounds (N z : Int) : (((N : ℚ) + (z : ℚ) / 60) * 10000 - 2 / 3 ≤ ⌊((N : ℚ) + (z : ℚ) / 60) * 10000⌋) ∧
    ((⌊((N : ℚ) + (z : ℚ) / 60) * 10000⌋ : ℚ) ≤ ((N : ℚ) + (z : ℚ) / 60) * 10000) := by
  refine ⟨?_, Int.floor_le _⟩
  have hfl : ⌊((N : ℚ) + (z : ℚ) / 60) * 10000⌋ = N * 10000 + (500 * z) / 3 := by
    have : ((N : ℚ) + (z : ℚ) / 60) * 10000 = ((N * 10000 : ℤ) : ℚ) + ((500 * z : ℤ) : ℚ) / (3 : ℕ) := by push_cast; ring
    rw [this, Int.floor_intCast_add, Int.floor_div_natCast, Int.floor_intCast]; rfl
  rw [hfl]
  have hk : 500 * z ≤ 3 * ((500 * z) / 3) + 2 := by omega
  generalize (500 * z) / 3 = k at *
  have : (500 : ℚ) * z ≤ 3 * k + 2 := by exact_mod_cast hk
  push_cast
  linarith

/-- C39: converting to rasi, angsa, lipda and back loses less than one arc minute and one ten-thousandth of a degree,
and gains at most 2^-49 of a degree, nothing from 8 degrees on. -/
theorem c39_round_trip (d : ℚ) (hd : IsFloat d) (h0 : 0 ≤ d) (hb : d < 2 ^ 38) :
    let r := ralToDegree (degreeToRal d).1 (degreeToRal d).2.1 (degreeToRal d).2.2
    d - (1 / 60 + 1 / 10000) < r ∧ r ≤ d + 1 / 2 ^ 49 ∧ (8 ≤ d → r ≤ d) := by
  intro r
  have hb53 : d < 2 ^ 53 := by
    have : (2 : ℚ) ^ 38 < 2 ^ 53 := by norm_num
    linarith
  obtain ⟨hN, -, -, hz0, hz1⟩ := c39_ranges d hd h0 hb53 (degreeToRal d).1 (degreeToRal d).2.1 (degreeToRal d).2.2 rfl
  have f1 := Int.floor_le d
  have f2 := Int.lt_floor_add_one d
  have hzz : (degreeToRal d).2.2 = ⌊fl ((d - ⌊d⌋) * 60)⌋ := by rw [(ral_parts hd h0 hb53).1]
  have hex := c39_exact d hd
  have hNb : |⌊d⌋| ≤ 2 ^ 38 := by
    have h1 : 0 ≤ ⌊d⌋ := Int.floor_nonneg.2 h0
    have h2 : (⌊d⌋ : ℚ) ≤ 2 ^ 38 := by linarith
    have h2 : ⌊d⌋ ≤ 2 ^ 38 := by exact_mod_cast h2
    rw [abs_of_nonneg h1]; exact h2
  have hr : r = fl (((⌊((⌊d⌋ : Int) + ((degreeToRal d).2.2 : ℚ) / 60) * 10000⌋ : ℤ) : ℚ) / 10000) := by
    have := c39_ral_to_degree (degreeToRal d).1 (degreeToRal d).2.1 (degreeToRal d).2.2 (by rw [hN]; exact hNb)
      (by rw [abs_of_nonneg hz0]; omega)
    rw [hN] at this
    exact this
  clear_value r
  generalize (degreeToRal d).2.2 = z at *
  obtain ⟨t1, t2⟩ := trunc_bounds ⌊d⌋ z
  have hz0' : (0 : ℚ) ≤ z := by exact_mod_cast hz0
  have hz1' : (z : ℚ) ≤ 60 := by
    have : z ≤ 60 := by omega
    exact_mod_cast this
  have zl : (d - ⌊d⌋) * 60 - 1 < z := by
    have g1 := Int.floor_le ((d - ⌊d⌋) * 60)
    have g2 := Int.lt_floor_add_one ((d - ⌊d⌋) * 60)
    have g0 : 0 ≤ ⌊(d - ⌊d⌋) * 60⌋ := Int.floor_nonneg.2 (by linarith)
    have g3 : ⌊(d - ⌊d⌋) * 60⌋ < 60 := by rw [Int.floor_lt]; push_cast; linarith
    have := le_fl_of_int (k := ⌊(d - ⌊d⌋) * 60⌋) (by rw [abs_of_nonneg g0]; omega) g1
    have : ⌊(d - ⌊d⌋) * 60⌋ ≤ z := by rw [hzz, Int.le_floor]; exact this
    have : (⌊(d - ⌊d⌋) * 60⌋ : ℚ) ≤ z := by exact_mod_cast this
    linarith
  have zu : (z : ℚ) ≤ (d - ⌊d⌋) * 60 + 60 / 2 ^ 53 := by
    have g1 := Int.floor_le (fl ((d - ⌊d⌋) * 60))
    rw [← hzz] at g1
    have g2 := (abs_le.1 (fl_err ((d - ⌊d⌋) * 60))).2
    rw [abs_of_nonneg (by linarith)] at g2
    have : (d - ⌊d⌋) * 60 / 2 ^ 53 ≤ 60 / 2 ^ 53 := by
      apply div_le_div_of_nonneg_right _ (by positivity)
      linarith
    linarith
  have T0 : (0 : ℚ) ≤ (⌊((⌊d⌋ : ℚ) + (z : ℚ) / 60) * 10000⌋ : ℤ) := by
    have : 0 ≤ ⌊((⌊d⌋ : ℚ) + (z : ℚ) / 60) * 10000⌋ := by
      have : (0 : ℚ) ≤ ⌊d⌋ := by exact_mod_cast Int.floor_nonneg.2 h0
      exact Int.floor_nonneg.2 (by positivity)
    exact_mod_cast this
  generalize hT : ⌊((⌊d⌋ : ℚ) + (z : ℚ) / 60) * 10000⌋ = T at *
  have hTd : (T : ℚ) / 10000 ≤ d + 1 / 2 ^ 53 := by
    rw [div_le_iff₀ (by norm_num)]
    linarith
  have he := abs_le.1 (fl_err ((T : ℚ) / 10000))
  rw [abs_of_nonneg (by positivity), ← hr] at he
  refine ⟨?_, ?_, ?_⟩
  · have h1 : (T : ℚ) / 10000 / 2 ^ 53 < 1 / 30000 := by
      rw [div_lt_div_iff₀ (by positivity) (by norm_num)]
      norm_num at hTd hb ⊢
      linarith
    have h2 : (T : ℚ) / 10000 ≥ ⌊d⌋ + z / 60 - 2 / 30000 := by
      rw [ge_iff_le, le_div_iff₀ (by norm_num)]; linarith
    linarith [he.1]
  · by_cases h8 : 8 ≤ d
    · have hle : (T : ℚ) / 10000 ≤ d := by
        have := hex h8 hb53
        have g1 := Int.floor_le ((d - ⌊d⌋) * 60)
        rw [← this] at g1
        rw [div_le_iff₀ (by norm_num)]
        linarith
      have := fl_mono hle
      rw [IsFloat.fl_eq hd, ← hr] at this
      have h3 : (0 : ℚ) ≤ 1 / 2 ^ 49 := by positivity
      linarith
    · have h1 : (T : ℚ) / 10000 / 2 ^ 53 ≤ 9 / 2 ^ 53 := by
        apply div_le_div_of_nonneg_right _ (by positivity)
        norm_num at hTd ⊢
        linarith
      norm_num at *
      linarith [he.2]
  · intro h8
    have hle : (T : ℚ) / 10000 ≤ d := by
      have := hex h8 hb53
      have g1 := Int.floor_le ((d - ⌊d⌋) * 60)
      rw [← this] at g1
      rw [div_le_iff₀ (by norm_num)]
      linarith
    have := fl_mono hle
    rwa [IsFloat.fl_eq hd, ← hr] at this

/-- C39: there and back loses less than an arc minute and a truncation. -/
example : let r := ralToDegree (degreeToRal (247 + 43 / 64)).1 (degreeToRal (247 + 43 / 64)).2.1 (degreeToRal (247 + 43 / 64)).2.2
    247 + 43 / 64 - (1 / 60 + 1 / 10000) < r ∧ r ≤ 247 + 43 / 64 := by
  have h := c39_round_trip (247 + 43 / 64) ⟨15851, -6, by norm_num, by norm_num⟩ (by norm_num) (by norm_num)
  exact ⟨h.1, h.2.2 (by norm_num)⟩

/-- C39: for negative degrees that are not whole multiples of 30 the parts are 30 degrees short. -/
theorem c39_negative (d : ℚ) (hd : IsFloat d) (h0 : d < 0) (hb : -(2 ^ 53) < d) (x y z : Int)
    (h : degreeToRal d = (x, y, z)) :
    30 * x + y = (if ⌊d⌋ % 30 = 0 then ⌊d⌋ else ⌊d⌋ - 30) ∧ -30 < y ∧ y ≤ 0 := by
  have habs : |d| < 2 ^ 53 := by rw [abs_of_neg h0]; linarith
  have hq := floor_fl_quot hd habs (d := 30) (by norm_num)
  push_cast at hq
  have hx : ⌊d / 30⌋ = ⌊d⌋ / 30 := by
    have := Int.floor_div_natCast d 30
    simpa using this
  have hn : ⌊d⌋ < 0 := by rw [Int.floor_lt]; exact_mod_cast h0
  unfold degreeToRal at h
  simp only [Prod.mk.injEq] at h
  obtain ⟨rfl, rfl, -⟩ := h
  rw [hq, hx]
  generalize ⌊d⌋ = n at *
  rw [Int.tmod_eq_emod]
  split <;> split <;> omega

example : degreeToRal (-1 / 2) = (-1, -1, 30) ∧ ralToDegree (-1) (-1) 30 = -61 / 2 ∧
    degreeToRal (-1 / 2 ^ 60) = (-1, -1, 60) := by decide +kernel

example : degreeToRalString (247 + 43 / 64) = "8:7°40'" := by decide +kernel

end Verif.Props
