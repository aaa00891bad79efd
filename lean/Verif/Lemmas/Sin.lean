import Verif.Model.Sin
import Verif.Lemmas.Float
import Verif.Lemmas.SinTaylor
import Mathlib.Analysis.Real.Pi.Bounds
import Mathlib.Tactic.IntervalCases
import Mathlib.Analysis.SpecialFunctions.Trigonometric.Bounds
/-
The error of the model of `math.Sin`.
-/
set_option autoImplicit false

namespace Verif.Lemmas
open Verif.Go Verif.Model

theorem fl_near {q C e : ℚ} (h : |q - C| + |q| / 2 ^ 53 ≤ e) : |fl q - C| ≤ e := by
  have h1 := fl_err q
  have h2 := abs_add_le (fl q - q) (q - C)
  rw [sub_add_sub_cancel] at h2
  linarith

theorem fl_within {q B : ℚ} (h : |q| ≤ B) : |fl q - q| ≤ B / 2 ^ 53 := by
  have h1 := fl_err q
  have : |q| / 2 ^ 53 ≤ B / 2 ^ 53 := by apply div_le_div_of_nonneg_right h; positivity
  linarith

/-- One step of Horner's scheme: `p` and `zz` and `c` near `P` and `Z` and `C`. -/
theorem horner_step (f : Bool) {p P zz Z c C e d g B : ℚ} (h1 : |p - P| ≤ e) (h2 : |zz - Z| ≤ d) (h3 : |c - C| ≤ g) (hP : |P| ≤ B)
    (hB : B + |C| ≤ 1) (hZ : |zz| ≤ 1) (hZ' : |Z| ≤ 1) (hc : |c| ≤ 1) (he : e ≤ 1) :
    |mulAdd f p zz c - (P * Z + C)| ≤ e + d + g + 1 / 2 ^ 50 ∧ |P * Z + C| ≤ B + |C| := by
  have hC := abs_nonneg C
  have hd : 0 ≤ d := (abs_nonneg _).trans h2
  have hp : |p| ≤ 2 := by
    have := abs_add_le (p - P) P
    rw [sub_add_cancel] at this
    linarith
  have hpz : |p * zz| ≤ 2 := by
    rw [abs_mul]
    calc |p| * |zz| ≤ 2 * 1 := mul_le_mul hp hZ (abs_nonneg _) (by norm_num)
      _ = 2 := by norm_num
  obtain ⟨r, hr, er⟩ := mulAdd_split f p zz c
  have r1 := fl_or_within hr hpz
  clear hr
  rw [er]
  have hr : |r + c| ≤ 4 := by
    rw [abs_le] at *
    constructor <;> linarith
  have r2 := fl_within hr
  generalize fl (r + c) = w at *
  have hm : |p * zz - P * Z| ≤ e + d := by
    have e1 : p * zz - P * Z = (p - P) * zz + P * (zz - Z) := by ring
    rw [e1]
    refine (abs_add_le _ _).trans ?_
    rw [abs_mul, abs_mul]
    have a1 : |p - P| * |zz| ≤ e * 1 := mul_le_mul h1 hZ (abs_nonneg _) ((abs_nonneg _).trans h1)
    have a2 : |P| * |zz - Z| ≤ 1 * d := mul_le_mul (by linarith) h2 (abs_nonneg _) (by norm_num)
    linarith
  constructor
  · norm_num at r1 r2 ⊢
    rw [abs_le] at *
    constructor <;> linarith
  · refine (abs_add_le _ _).trans ?_
    rw [abs_mul]
    have : |P| * |Z| ≤ |P| * 1 := mul_le_mul_of_nonneg_left hZ' (abs_nonneg _)
    linarith

theorem abs_le_one_of_near {c C g : ℚ} (h : |c - C| ≤ g) (h' : |C| + g ≤ 1) : |c| ≤ 1 := by
  have := abs_add_le (c - C) C
  rw [sub_add_cancel] at this
  linarith

theorem horner_sin (f1 f2 f3 f4 f5 : Bool) {zz Z d : ℚ} (h : |zz - Z| ≤ d) (hZ : |zz| ≤ 1) (hZ' : |Z| ≤ 1) (hd : d ≤ 1 / 100) :
    |horner [f1, f2, f3, f4, f5] zz sinCoeffs - ((((((1 / 6227020800 * Z) - 1 / 39916800) * Z + 1 / 362880) * Z - 1 / 5040) * Z + 1 / 120) * Z - 1 / 6)| ≤
      5 * d + 5 / 10 ^ 12 ∧
    |((((((1 / 6227020800 * Z) - 1 / 39916800) * Z + 1 / 362880) * Z - 1 / 5040) * Z + 1 / 120) * Z - 1 / 6)| ≤ 1 / 5 := by
  simp only [horner, sinCoeffs, List.zip_cons_cons, List.zip_nil_left, List.foldl]
  have k0 : |fl 1.58962301576546568060e-10 - 1 / 6227020800| ≤ 2 / 10 ^ 12 := fl_near (by norm_num [abs_of_pos, abs_of_neg])
  have k1 : |fl (-2.50507477628578072866e-8) - (-1 / 39916800)| ≤ 15 / 10 ^ 13 := fl_near (by norm_num [abs_of_pos, abs_of_neg])
  have k2 : |fl 2.75573136213857245213e-6 - 1 / 362880| ≤ 6 / 10 ^ 13 := fl_near (by norm_num [abs_of_pos, abs_of_neg])
  have k3 : |fl (-1.98412698295895385996e-4) - (-1 / 5040)| ≤ 2 / 10 ^ 13 := fl_near (by norm_num [abs_of_pos, abs_of_neg])
  have k4 : |fl 8.33333333332211858878e-3 - 1 / 120| ≤ 2 / 10 ^ 14 := fl_near (by norm_num [abs_of_pos, abs_of_neg])
  have k5 : |fl (-1.66666666666666307295e-1) - (-1 / 6)| ≤ 1 / 10 ^ 14 := fl_near (by norm_num [abs_of_pos, abs_of_neg])
  generalize fl 1.58962301576546568060e-10 = c0 at *
  generalize fl (-2.50507477628578072866e-8) = c1 at *
  generalize fl 2.75573136213857245213e-6 = c2 at *
  generalize fl (-1.98412698295895385996e-4) = c3 at *
  generalize fl 8.33333333332211858878e-3 = c4 at *
  generalize fl (-1.66666666666666307295e-1) = c5 at *
  have s1 := horner_step f1 (B := 1 / 6227020800) k0 h k1 (by norm_num) (by norm_num) hZ hZ' (abs_le_one_of_near k1 (by norm_num)) (by norm_num)
  have s2 := horner_step f2 s1.1 h k2 s1.2 (by norm_num) hZ hZ' (abs_le_one_of_near k2 (by norm_num)) (by norm_num; linarith)
  have s3 := horner_step f3 s2.1 h k3 s2.2 (by norm_num) hZ hZ' (abs_le_one_of_near k3 (by norm_num)) (by norm_num; linarith)
  have s4 := horner_step f4 s3.1 h k4 s3.2 (by norm_num) hZ hZ' (abs_le_one_of_near k4 (by norm_num)) (by norm_num; linarith)
  have s5 := horner_step f5 s4.1 h k5 s4.2 (by norm_num) hZ hZ' (abs_le_one_of_near k5 (by norm_num)) (by norm_num; linarith)
  have e : ((((((1 / 6227020800 * Z) - 1 / 39916800) * Z + 1 / 362880) * Z - 1 / 5040) * Z + 1 / 120) * Z - 1 / 6 : ℚ) =
    (((((1 / 6227020800 * Z) + -1 / 39916800) * Z + 1 / 362880) * Z + -1 / 5040) * Z + 1 / 120) * Z + -1 / 6 := by ring
  rw [e]
  refine ⟨s5.1.trans ?_, s5.2.trans ?_⟩
  · norm_num
    linarith
  · norm_num [abs_of_pos, abs_of_neg]

theorem horner_cos (f1 f2 f3 f4 f5 : Bool) {zz Z d : ℚ} (h : |zz - Z| ≤ d) (hZ : |zz| ≤ 1) (hZ' : |Z| ≤ 1) (hd : d ≤ 1 / 100) :
    |horner [f1, f2, f3, f4, f5] zz cosCoeffs -
        ((((((-1 / 87178291200 * Z) + 1 / 479001600) * Z - 1 / 3628800) * Z + 1 / 40320) * Z - 1 / 720) * Z + 1 / 24)| ≤
      5 * d + 1 / 10 ^ 12 ∧
    |((((((-1 / 87178291200 * Z) + 1 / 479001600) * Z - 1 / 3628800) * Z + 1 / 40320) * Z - 1 / 720) * Z + 1 / 24)| ≤ 1 / 20 := by
  simp only [horner, cosCoeffs, List.zip_cons_cons, List.zip_nil_left, List.foldl]
  have k0 : |fl (-1.13585365213876817300e-11) - (-1 / 87178291200)| ≤ 2 / 10 ^ 13 := fl_near (by norm_num [abs_of_pos, abs_of_neg])
  have k1 : |fl 2.08757008419747316778e-9 - 1 / 479001600| ≤ 2 / 10 ^ 13 := fl_near (by norm_num [abs_of_pos, abs_of_neg])
  have k2 : |fl (-2.75573141792967388112e-7) - (-1 / 3628800)| ≤ 1 / 10 ^ 13 := fl_near (by norm_num [abs_of_pos, abs_of_neg])
  have k3 : |fl 2.48015872888517045348e-5 - 1 / 40320| ≤ 1 / 10 ^ 13 := fl_near (by norm_num [abs_of_pos, abs_of_neg])
  have k4 : |fl (-1.38888888888730564116e-3) - (-1 / 720)| ≤ 1 / 10 ^ 13 := fl_near (by norm_num [abs_of_pos, abs_of_neg])
  have k5 : |fl 4.16666666666665929218e-2 - 1 / 24| ≤ 1 / 10 ^ 14 := fl_near (by norm_num [abs_of_pos, abs_of_neg])
  generalize fl (-1.13585365213876817300e-11) = c0 at *
  generalize fl 2.08757008419747316778e-9 = c1 at *
  generalize fl (-2.75573141792967388112e-7) = c2 at *
  generalize fl 2.48015872888517045348e-5 = c3 at *
  generalize fl (-1.38888888888730564116e-3) = c4 at *
  generalize fl 4.16666666666665929218e-2 = c5 at *
  have s1 := horner_step f1 (B := 1 / 87178291200) k0 h k1 (by norm_num [abs_of_pos, abs_of_neg]) (by norm_num) hZ hZ' (abs_le_one_of_near k1 (by norm_num)) (by norm_num)
  have s2 := horner_step f2 s1.1 h k2 s1.2 (by norm_num) hZ hZ' (abs_le_one_of_near k2 (by norm_num)) (by norm_num; linarith)
  have s3 := horner_step f3 s2.1 h k3 s2.2 (by norm_num) hZ hZ' (abs_le_one_of_near k3 (by norm_num)) (by norm_num; linarith)
  have s4 := horner_step f4 s3.1 h k4 s3.2 (by norm_num) hZ hZ' (abs_le_one_of_near k4 (by norm_num)) (by norm_num; linarith)
  have s5 := horner_step f5 s4.1 h k5 s4.2 (by norm_num) hZ hZ' (abs_le_one_of_near k5 (by norm_num)) (by norm_num; linarith)
  have e : ((((((-1 / 87178291200 * Z) + 1 / 479001600) * Z - 1 / 3628800) * Z + 1 / 40320) * Z - 1 / 720) * Z + 1 / 24 : ℚ) =
    (((((-1 / 87178291200 * Z) + 1 / 479001600) * Z + -1 / 3628800) * Z + 1 / 40320) * Z + -1 / 720) * Z + 1 / 24 := by ring
  rw [e]
  refine ⟨s5.1.trans ?_, s5.2.trans ?_⟩
  · norm_num
    linarith
  · norm_num [abs_of_pos, abs_of_neg]

/-- The polynomial of sine over the rational numbers. -/
def sinPolyQ (z : ℚ) : ℚ :=
  z + z * z ^ 2 * ((((((1 / 6227020800 * z ^ 2) - 1 / 39916800) * z ^ 2 + 1 / 362880) * z ^ 2 - 1 / 5040) * z ^ 2 + 1 / 120) * z ^ 2 - 1 / 6)

/-- The polynomial of cosine over the rational numbers. -/
def cosPolyQ (z : ℚ) : ℚ :=
  1 - 1 / 2 * z ^ 2 + z ^ 2 * z ^ 2 *
    ((((((-1 / 87178291200 * z ^ 2) + 1 / 479001600) * z ^ 2 - 1 / 3628800) * z ^ 2 + 1 / 40320) * z ^ 2 - 1 / 720) * z ^ 2 + 1 / 24)

theorem sinPolyQ_cast (z : ℚ) : ((sinPolyQ z : ℚ) : ℝ) = sinPoly (z : ℝ) := by
  unfold sinPolyQ sinPoly
  push_cast
  ring

theorem cosPolyQ_cast (z : ℚ) : ((cosPolyQ z : ℚ) : ℝ) = cosPoly (z : ℝ) := by
  unfold cosPolyQ cosPoly
  push_cast
  ring

theorem mul_close {a A b B e f M N : ℚ} (h1 : |a - A| ≤ e) (h2 : |b - B| ≤ f) (ha : |a| ≤ M) (hB : |B| ≤ N) :
    |a * b - A * B| ≤ M * f + e * N := by
  have e1 : a * b - A * B = a * (b - B) + (a - A) * B := by ring
  rw [e1]
  refine (abs_add_le _ _).trans ?_
  rw [abs_mul, abs_mul]
  have := (abs_nonneg _).trans h1
  have := (abs_nonneg _).trans ha
  have a1 : |a| * |b - B| ≤ M * f := mul_le_mul ha h2 (abs_nonneg _) this
  have a2 : |a - A| * |B| ≤ e * N := mul_le_mul h1 hB (abs_nonneg _) (by assumption)
  linarith

theorem abs_mul_le {a b M N : ℚ} (ha : |a| ≤ M) (hb : |b| ≤ N) : |a * b| ≤ M * N := by
  rw [abs_mul]
  exact mul_le_mul ha hb (abs_nonneg _) ((abs_nonneg _).trans ha)

theorem abs_le_of_near {a A e M : ℚ} (h : |a - A| ≤ e) (hA : |A| ≤ M) : |a| ≤ M + e := by
  have := abs_add_le (a - A) A
  rw [sub_add_cancel] at this
  linarith

/-- The square used by both kernels. -/
theorem zz_close {z : ℚ} (h : |z| ≤ 8 / 10) :
    |fl (z * z) - z ^ 2| ≤ 1 / 2 ^ 53 ∧ |fl (z * z)| ≤ 65 / 100 ∧ |z ^ 2| ≤ 64 / 100 := by
  have h1 : |z * z| ≤ 8 / 10 * (8 / 10) := abs_mul_le h h
  have h2 : |z ^ 2| ≤ 64 / 100 := by
    rw [pow_two]
    linarith
  have h3 : |fl (z * z) - z ^ 2| ≤ 1 / 2 ^ 53 := by
    rw [pow_two]
    exact fl_within (by linarith)
  refine ⟨h3, (abs_le_of_near h3 h2).trans (by norm_num), h2⟩

theorem sinKernel_poly (fu : Fusing) {z : ℚ} (h : |z| ≤ 8 / 10) : |sinKernel fu z - sinPolyQ z| ≤ 6 / 10 ^ 12 := by
  obtain ⟨h1, h2, h3⟩ := zz_close h
  obtain ⟨p1, p2⟩ := horner_sin fu.sin1 fu.sin2 fu.sin3 fu.sin4 fu.sin5 h1 (h2.trans (by norm_num)) (h3.trans (by norm_num)) (by norm_num)
  unfold sinKernel sinPolyQ
  simp only
  generalize fl (z * z) = zz at *
  generalize horner [fu.sin1, fu.sin2, fu.sin3, fu.sin4, fu.sin5] zz sinCoeffs = H at *
  generalize ((((((1 / 6227020800 * z ^ 2) - 1 / 39916800) * z ^ 2 + 1 / 362880) * z ^ 2 - 1 / 5040) * z ^ 2 + 1 / 120) * z ^ 2 - 1 / 6 : ℚ) = P at *
  have q1 : |z * zz - z * z ^ 2| ≤ 1 / 2 ^ 53 := by
    have := mul_close (e := 0) (by simp : |z - z| ≤ 0) h1 h h3
    norm_num at this ⊢
    linarith
  have q2 : |z * zz| ≤ 1 := (abs_mul_le h h2).trans (by norm_num)
  have q3 := fl_within q2
  have q4 : |fl (z * zz) - z * z ^ 2| ≤ 2 / 2 ^ 53 := by
    have := abs_add_le (fl (z * zz) - z * zz) (z * zz - z * z ^ 2)
    rw [sub_add_sub_cancel] at this
    norm_num at this q1 q3 ⊢
    linarith
  have q5 : |fl (z * zz)| ≤ 8 / 10 * (64 / 100) + 2 / 2 ^ 53 := abs_le_of_near q4 (abs_mul_le h h3)
  generalize fl (z * zz) = A at *
  have q6 := mul_close q4 p1 q5 p2
  have q7 : |A * H| ≤ 1 := by
    refine (abs_mul_le q5 (abs_le_of_near p1 p2)).trans ?_
    norm_num
  obtain ⟨b, hb, eb⟩ := mulAdd_split fu.sin6 A H z
  have q8 := fl_or_within hb q7
  clear hb
  rw [eb, add_comm b z]
  have q9 : |b| ≤ 1 := by
    have := abs_le_of_near q8 (abs_mul_le q5 (abs_le_of_near p1 p2))
    refine this.trans ?_
    norm_num
  have q10 : |z + b| ≤ 2 := (abs_add_le _ _).trans (by linarith)
  have q11 := fl_within q10
  norm_num at q11 q8 q6 ⊢
  rw [abs_le] at q11 q8 q6 ⊢
  constructor <;> linarith

theorem cosKernel_poly (fu : Fusing) {z : ℚ} (h : |z| ≤ 8 / 10) : |cosKernel fu z - cosPolyQ z| ≤ 6 / 10 ^ 12 := by
  obtain ⟨h1, h2, h3⟩ := zz_close h
  obtain ⟨p1, p2⟩ := horner_cos fu.cos1 fu.cos2 fu.cos3 fu.cos4 fu.cos5 h1 (h2.trans (by norm_num)) (h3.trans (by norm_num)) (by norm_num)
  unfold cosKernel cosPolyQ
  simp only
  generalize fl (z * z) = zz at *
  generalize horner [fu.cos1, fu.cos2, fu.cos3, fu.cos4, fu.cos5] zz cosCoeffs = H at *
  generalize ((((((-1 / 87178291200 * z ^ 2) + 1 / 479001600) * z ^ 2 - 1 / 3628800) * z ^ 2 + 1 / 40320) * z ^ 2 - 1 / 720) * z ^ 2 + 1 / 24 : ℚ) = P at *
  generalize z ^ 2 = Z at *
  have q1 := mul_close h1 h1 h2 h3
  have q2 : |zz * zz| ≤ 1 := (abs_mul_le h2 h2).trans (by norm_num)
  have q3 := fl_within q2
  have q4 : |fl (zz * zz) - Z * Z| ≤ 3 / 2 ^ 53 := by
    have := abs_add_le (fl (zz * zz) - zz * zz) (zz * zz - Z * Z)
    rw [sub_add_sub_cancel] at this
    norm_num at this q1 q3 ⊢
    linarith
  have q5 : |fl (zz * zz)| ≤ 64 / 100 * (64 / 100) + 3 / 2 ^ 53 := abs_le_of_near q4 (abs_mul_le h3 h3)
  generalize fl (zz * zz) = A at *
  have q6 := mul_close q4 p1 q5 p2
  have q7 : |A * H| ≤ 1 := by
    refine (abs_mul_le q5 (abs_le_of_near p1 p2)).trans ?_
    norm_num
  obtain ⟨w, hw, ew⟩ := mulSub_split fu.half 1 (1 / 2) zz
  rw [ew]
  obtain ⟨b, hb, eb⟩ := mulAdd_split fu.cos6 A H (fl (1 - w))
  have q8 := fl_or_within hb q7
  clear hb
  rw [eb, add_comm b]
  have q9 : |b| ≤ 1 := by
    have := abs_le_of_near q8 (abs_mul_le q5 (abs_le_of_near p1 p2))
    refine this.trans ?_
    norm_num
  have r1 : |1 / 2 * zz| ≤ 1 := by
    rw [abs_le] at h2 ⊢
    constructor <;> linarith
  have r2 := fl_or_within hw r1
  clear hw
  have r3 : |1 - w| ≤ 3 := by
    rw [abs_le] at *
    constructor <;> linarith
  have r4 := fl_within r3
  generalize fl (1 - w) = v at *
  have r5 : |v + b| ≤ 5 := by
    rw [abs_le] at *
    constructor <;> linarith
  have r6 := fl_within r5
  generalize fl (v + b) = r at *
  norm_num at r2 r4 r6 q8 q6 h1 ⊢
  rw [abs_le] at r2 r4 r6 q8 q6 h1 ⊢
  constructor <;> linarith

theorem cast_abs_le {q B : ℚ} (h : |q| ≤ B) : |(q : ℝ)| ≤ (B : ℝ) := by
  rw [← Rat.cast_abs]
  exact_mod_cast h

theorem sinKernel_close (fu : Fusing) {z : ℚ} (h : |z| ≤ 8 / 10) : |((sinKernel fu z : ℚ) : ℝ) - Real.sin z| ≤ 7 / 10 ^ 12 := by
  have h1 : |((sinKernel fu z : ℚ) : ℝ) - sinPoly z| ≤ 6 / 10 ^ 12 := by
    rw [← sinPolyQ_cast]
    have := cast_abs_le (sinKernel_poly fu h)
    push_cast at this
    exact this
  have h' : |(z : ℝ)| ≤ 8 / 10 := by
    have := cast_abs_le h
    push_cast at this
    exact this
  have h2 := sin_close z (h'.trans (by norm_num))
  rw [abs_le] at *
  constructor <;> linarith

theorem cosKernel_close (fu : Fusing) {z : ℚ} (h : |z| ≤ 8 / 10) : |((cosKernel fu z : ℚ) : ℝ) - Real.cos z| ≤ 7 / 10 ^ 12 := by
  have h1 : |((cosKernel fu z : ℚ) : ℝ) - cosPoly z| ≤ 6 / 10 ^ 12 := by
    rw [← cosPolyQ_cast]
    have := cast_abs_le (cosKernel_poly fu h)
    push_cast at this
    exact this
  have h' : |(z : ℝ)| ≤ 8 / 10 := by
    have := cast_abs_le h
    push_cast at this
    exact this
  have h2 := cos_close z (h'.trans (by norm_num))
  rw [abs_le] at *
  constructor <;> linarith

theorem sinKernel_neg (fu : Fusing) (z : ℚ) : sinKernel fu (-z) = -sinKernel fu z := by
  unfold sinKernel
  simp only [mul_neg, neg_mul, neg_neg, fl_neg]
  rw [mulAdd_neg]

theorem fl_nonneg {q : ℚ} (h : 0 ≤ q) : 0 ≤ fl q := by
  have := fl_mono h
  rwa [fl_zero] at this

/-- The half of the octant of the argument: `j/2`. -/
def redK (x : ℚ) : ℕ := (⌊fl (x * fl (4 / goPi))⌋.toNat + 1) / 2

/-- The reduced argument. -/
def redZ (fu : Fusing) (x : ℚ) : ℚ :=
  mulSub fu.part3 (mulSub fu.part2 (mulSub fu.part1 x (2 * redK x : ℕ) pi4a) (2 * redK x : ℕ) pi4b) (2 * redK x : ℕ) pi4c

theorem four_over_pi : |fl (4 / goPi) - 4 / goPi| ≤ 2 / 2 ^ 53 ∧ fl (4 / goPi) ≤ 2 ∧ 1 ≤ fl (4 / goPi) := by
  have h : |4 / goPi| ≤ 2 := by unfold goPi; norm_num
  have h1 := fl_within h
  refine ⟨h1, ?_, ?_⟩
  · rw [abs_le] at h1
    have := h1.2
    unfold goPi at this ⊢
    norm_num at this ⊢
    linarith
  · rw [abs_le] at h1
    have := h1.1
    unfold goPi at this ⊢
    norm_num at this ⊢
    linarith

theorem octant_le {x : ℚ} (h : x ≤ 1000) : ⌊fl (x * fl (4 / goPi))⌋ ≤ 2000 := by
  obtain ⟨-, h2, h1⟩ := four_over_pi
  have : x * fl (4 / goPi) ≤ 1000 * 2 := by
    rcases le_total 0 x with hx | hx
    · exact mul_le_mul h h2 (by linarith) (by norm_num)
    · have : x * fl (4 / goPi) ≤ 0 := mul_nonpos_of_nonpos_of_nonneg hx (by linarith)
      linarith
  have h3 : fl (x * fl (4 / goPi)) ≤ ((2000 : ℤ) : ℚ) := fl_le_of_int (by norm_num) (by norm_num; linarith)
  exact Int.floor_le_iff.mpr (by linarith)

theorem goSin_pos (fu : Fusing) {x : ℚ} (h : 0 < x) (hx : x ≤ 1000) :
    goSin fu x = if redK x % 4 = 0 then sinKernel fu (redZ fu x) else if redK x % 4 = 1 then cosKernel fu (redZ fu x)
      else if redK x % 4 = 2 then -sinKernel fu (redZ fu x) else -cosKernel fu (redZ fu x) := by
  have ho := octant_le hx
  unfold goSin redZ redK
  rw [if_neg h.ne']
  simp only [not_lt.mpr h.le, decide_false, if_false]
  generalize ⌊fl (x * fl (4 / goPi))⌋ = t at *
  have hn : t.toNat ≤ 2000 := by omega
  generalize t.toNat = n at *
  have hi (m : ℕ) (hm : m ≤ 3000) : fl (m : ℚ) = m := by
    have := fl_int (m : ℤ) (by rw [abs_of_nonneg (by omega)]; omega)
    exact_mod_cast this
  have e1 : (if n % 2 = 1 then (n + 1, fl (fl (n : ℚ) + 1)) else (n, fl (n : ℚ))) = (2 * ((n + 1) / 2), ((2 * ((n + 1) / 2) : ℕ) : ℚ)) := by
    split
    · have e : 2 * ((n + 1) / 2) = n + 1 := by omega
      rw [e, hi n (by omega)]
      have := hi (n + 1) (by omega)
      push_cast at this ⊢
      rw [this]
    · have e : 2 * ((n + 1) / 2) = n := by omega
      rw [e, hi n (by omega)]
  rw [e1]
  simp only
  generalize (n + 1) / 2 = k at *
  have hk : k % 4 = 0 ∨ k % 4 = 1 ∨ k % 4 = 2 ∨ k % 4 = 3 := by omega
  rcases hk with hk | hk | hk | hk
  · have : 2 * k % 8 = 0 := by omega
    simp [this, hk]
  · have : 2 * k % 8 = 2 := by omega
    simp [this, hk]
  · have : 2 * k % 8 = 4 := by omega
    simp [this, hk]
  · have : 2 * k % 8 = 6 := by omega
    simp [this, hk]

theorem goSin_neg (fu : Fusing) {x : ℚ} (h : 0 < x) : goSin fu (-x) = -goSin fu x := by
  unfold goSin
  have h1 : -x ≠ 0 := by linarith
  have h2 : -x < 0 := by linarith
  rw [if_neg h.ne', if_neg h1]
  simp only [h2, not_lt.mpr h.le, decide_true, decide_false, if_true, if_false, neg_neg]
  generalize (if ⌊fl (x * fl (4 / goPi))⌋.toNat % 2 = 1 then _ else _ : ℕ × ℚ) = w
  obtain ⟨j, y⟩ := w
  simp only
  by_cases h3 : 3 < j % 8
  · simp [h3]
  · simp [h3]

theorem redK_near {x : ℚ} (h : 0 ≤ x) (hx : x ≤ 1000) :
    |x - redK x * (goPi / 2)| ≤ 787 / 1000 ∧ (2 * redK x : ℕ) ≤ (2001 : ℕ) := by
  have ho := octant_le hx
  obtain ⟨f1, f2, f3⟩ := four_over_pi
  have hpos : 0 ≤ fl (x * fl (4 / goPi)) := fl_nonneg (mul_nonneg h (by linarith))
  have hb : |x * fl (4 / goPi)| ≤ 2000 := by
    rw [abs_of_nonneg (mul_nonneg h (by linarith))]
    calc x * fl (4 / goPi) ≤ 1000 * 2 := mul_le_mul hx f2 (by linarith) (by norm_num)
      _ = 2000 := by norm_num
  have hr := fl_within hb
  have hm : |x * fl (4 / goPi) - x * (4 / goPi)| ≤ 2000 / 2 ^ 53 := by
    rw [← mul_sub, abs_mul, abs_of_nonneg h]
    calc x * |fl (4 / goPi) - 4 / goPi| ≤ 1000 * (2 / 2 ^ 53) := mul_le_mul hx f1 (abs_nonneg _) (by norm_num)
      _ = 2000 / 2 ^ 53 := by norm_num
  unfold redK
  have hf1 := Int.floor_le (fl (x * fl (4 / goPi)))
  have hf2 := Int.lt_floor_add_one (fl (x * fl (4 / goPi)))
  have hf3 : 0 ≤ ⌊fl (x * fl (4 / goPi))⌋ := Int.floor_nonneg.mpr hpos
  generalize ⌊fl (x * fl (4 / goPi))⌋ = t at *
  generalize fl (x * fl (4 / goPi)) = r at *
  generalize fl (4 / goPi) = m at *
  have hp : 314 / 100 < goPi ∧ goPi < 3142 / 1000 := by unfold goPi; norm_num
  obtain ⟨k, hk⟩ : ∃ k : ℕ, k = (t.toNat + 1) / 2 := ⟨_, rfl⟩
  rw [← hk]
  refine ⟨?_, by omega⟩
  have hk1 : (t : ℤ) ≤ 2 * k := by omega
  have hk2 : 2 * (k : ℤ) ≤ t + 1 := by omega
  have hk1' : (t : ℚ) ≤ 2 * k := by exact_mod_cast hk1
  have hk2' : 2 * (k : ℚ) ≤ t + 1 := by exact_mod_cast hk2
  have hd : |x * (4 / goPi) - 2 * k| ≤ 1 + 1 / 10 ^ 11 := by
    norm_num at hr hm ⊢
    rw [abs_le] at hr hm ⊢
    constructor <;> linarith
  have e : x - k * (goPi / 2) = (x * (4 / goPi) - 2 * k) * (goPi / 4) := by
    have : goPi ≠ 0 := by linarith [hp.1]
    field_simp
    ring
  rw [e, abs_mul, abs_of_pos (by linarith : 0 < goPi / 4)]
  calc |x * (4 / goPi) - 2 * k| * (goPi / 4) ≤ (1 + 1 / 10 ^ 11) * (3142 / 1000 / 4) :=
        mul_le_mul hd (by linarith) (by linarith) (by norm_num)
    _ ≤ 787 / 1000 := by norm_num

theorem redZ_near (fu : Fusing) {x : ℚ} (h : 0 ≤ x) (hx : x ≤ 1000) : |redZ fu x - (x - redK x * (goPi / 2))| ≤ 1 / 10 ^ 12 := by
  obtain ⟨h1, h2⟩ := redK_near h hx
  unfold redZ
  have h3 : (((2 * redK x : ℕ) : ℕ) : ℚ) ≤ 2001 := by exact_mod_cast h2
  have h4 : (0 : ℚ) ≤ ((2 * redK x : ℕ) : ℚ) := by positivity
  have e : (redK x : ℚ) * (goPi / 2) = ((2 * redK x : ℕ) : ℚ) * (goPi / 4) := by push_cast; ring
  rw [e] at h1 ⊢
  generalize ((2 * redK x : ℕ) : ℚ) = y at *
  have ha : |pi4a - 785398125648498535156 / 10 ^ 21| ≤ 1 / 2 ^ 53 := fl_near (by norm_num)
  have hb : |pi4b - 377489470793079817668 / 10 ^ 28| ≤ 1 / 2 ^ 76 := fl_near (by norm_num)
  have hc : |pi4c - 269515142907905952645 / 10 ^ 35| ≤ 1 / 2 ^ 90 := fl_near (by norm_num)
  generalize pi4a = A at *
  generalize pi4b = B at *
  generalize pi4c = C at *
  have hy (P Q e : ℚ) (hq : |P - Q| ≤ e) : |y * P - y * Q| ≤ 2001 * e := by
    rw [← mul_sub, abs_mul, abs_of_nonneg h4]
    exact mul_le_mul h3 hq (abs_nonneg _) (by norm_num)
  have a1 := hy _ _ _ ha
  have b1 := hy _ _ _ hb
  have c1 := hy _ _ _ hc
  have a2 : |y * A| ≤ 1600 := by
    rw [abs_le] at *
    norm_num at *
    constructor <;> linarith
  have b2 : |y * B| ≤ 1 / 1000 := by
    rw [abs_le] at *
    norm_num at *
    constructor <;> linarith
  have c2 : |y * C| ≤ 1 / 1000 := by
    rw [abs_le] at *
    norm_num at *
    constructor <;> linarith
  obtain ⟨u, hu, eu⟩ := mulSub_split fu.part1 x y A
  rw [eu]
  obtain ⟨v, hv, ev⟩ := mulSub_split fu.part2 (fl (x - u)) y B
  rw [ev]
  obtain ⟨w, hw, ew⟩ := mulSub_split fu.part3 (fl (fl (x - u) - v)) y C
  rw [ew]
  have a3 := fl_or_within hu a2
  have b3 := fl_or_within hv b2
  have c3 := fl_or_within hw c2
  clear hu hv hw eu ev ew
  have hp : goPi / 4 = 314159265358979323846264338327950288419716939937510582097494459 / 10 ^ 62 / 4 := rfl
  rw [hp] at h1 ⊢
  norm_num at a1 b1 c1 a3 b3 c3 h1
  rw [abs_le] at a1 b1 c1 a3 b3 c3 h1
  have d1 : |x - u| ≤ 1 := by
    rw [abs_le]
    constructor <;> linarith
  have d2 := fl_within d1
  generalize fl (x - u) = r at *
  norm_num at d2
  rw [abs_le] at d1 d2
  have e1 : |r - v| ≤ 2 := by
    rw [abs_le]
    constructor <;> linarith
  have e2 := fl_within e1
  generalize fl (r - v) = s at *
  norm_num at e2
  rw [abs_le] at e1 e2
  have f1 : |s - w| ≤ 3 := by
    rw [abs_le]
    constructor <;> linarith
  have f2 := fl_within f1
  generalize fl (s - w) = q at *
  norm_num at f2 ⊢
  rw [abs_le] at f2 ⊢
  constructor <;> linarith

theorem redZ_small (fu : Fusing) {x : ℚ} (h : 0 ≤ x) (hx : x ≤ 1000) : |redZ fu x| ≤ 788 / 1000 := by
  have h1 := (redK_near h hx).1
  have h2 := redZ_near fu h hx
  rw [abs_le] at *
  norm_num at *
  constructor <;> linarith

theorem goPi_close : |(goPi : ℝ) - Real.pi| ≤ 1 / 10 ^ 19 := by
  have h1 := Real.pi_gt_d20
  have h2 := Real.pi_lt_d20
  unfold goPi
  push_cast
  rw [abs_le]
  norm_num at h1 h2 ⊢
  constructor <;> linarith

/-- The reduced argument in real numbers. -/
theorem redZ_real (fu : Fusing) {x : ℚ} (h : 0 ≤ x) (hx : x ≤ 1000) :
    |(redZ fu x : ℝ) - ((x : ℝ) - redK x * (Real.pi / 2))| ≤ 2 / 10 ^ 12 := by
  have h1 := cast_abs_le (redZ_near fu h hx)
  have h2 : ((2 * redK x : ℕ) : ℝ) ≤ (2001 : ℝ) := by exact_mod_cast (redK_near h hx).2
  have h3 : (0 : ℝ) ≤ ((redK x : ℕ) : ℝ) := by positivity
  have h4 := goPi_close
  push_cast at h1 h2
  have h5 : |(redK x : ℝ) * ((goPi : ℝ) - Real.pi)| ≤ 2001 * (1 / 10 ^ 19) := by
    rw [abs_mul, abs_of_nonneg h3]
    exact mul_le_mul (by linarith) h4 (abs_nonneg _) (by norm_num)
  rw [abs_le] at h1 h5 ⊢
  norm_num at h1 h5 ⊢
  constructor <;> linarith

theorem sin_shift (k : ℕ) (z : ℝ) : Real.sin (z + k * (Real.pi / 2)) =
    if k % 4 = 0 then Real.sin z else if k % 4 = 1 then Real.cos z else if k % 4 = 2 then -Real.sin z else -Real.cos z := by
  obtain ⟨n, hn⟩ : ∃ n, k = k % 4 + 4 * n := ⟨k / 4, by omega⟩
  have hr : k % 4 < 4 := by omega
  generalize k % 4 = r at *
  subst hn
  have e : z + ((r + 4 * n : ℕ) : ℝ) * (Real.pi / 2) = (z + r * (Real.pi / 2)) + n * (2 * Real.pi) := by push_cast; ring
  rw [e, Real.sin_add_nat_mul_two_pi]
  interval_cases r
  · simp
  · simp [Real.sin_add_pi_div_two]
  · have : z + ((2 : ℕ) : ℝ) * (Real.pi / 2) = z + Real.pi := by push_cast; ring
    rw [this, Real.sin_add_pi]
    simp
  · have : z + ((3 : ℕ) : ℝ) * (Real.pi / 2) = (z + Real.pi / 2) + Real.pi := by push_cast; ring
    rw [this, Real.sin_add_pi, Real.sin_add_pi_div_two]
    simp

/-- For arguments of up to a thousand radians the sine of Go is the sine up to 10⁻¹¹. -/
theorem goSin_close_pos (fu : Fusing) {x : ℚ} (h : 0 < x) (hx : x ≤ 1000) : |(goSin fu x : ℝ) - Real.sin x| ≤ 1 / 10 ^ 11 := by
  have h1 := redZ_real fu h.le hx
  have hz : |redZ fu x| ≤ 8 / 10 := (redZ_small fu h.le hx).trans (by norm_num)
  have hs := sinKernel_close fu hz
  have hc := cosKernel_close fu hz
  rw [goSin_pos fu h hx]
  have h2 : |Real.sin (redZ fu x + redK x * (Real.pi / 2)) - Real.sin x| ≤ 2 / 10 ^ 12 := by
    refine (Real.abs_sin_sub_sin_le _ _).trans ?_
    refine le_trans (le_of_eq ?_) h1
    congr 1
    ring
  rw [sin_shift] at h2
  split
  · simp_all only [if_true]
    rw [abs_le] at *
    norm_num at *
    constructor <;> linarith
  · split
    · simp_all only [if_true, if_false]
      rw [abs_le] at *
      norm_num at *
      constructor <;> linarith
    · split
      · simp_all only [if_true, if_false]
        push_cast
        rw [abs_le] at *
        norm_num at *
        constructor <;> linarith
      · simp_all only [if_false]
        push_cast
        rw [abs_le] at *
        norm_num at *
        constructor <;> linarith

theorem goSin_close (fu : Fusing) {x : ℚ} (hx : |x| ≤ 1000) : |(goSin fu x : ℝ) - Real.sin x| ≤ 1 / 10 ^ 11 := by
  rcases lt_trichotomy x 0 with h | h | h
  · have h1 := goSin_close_pos fu (x := -x) (by linarith) (by rw [abs_le] at hx; linarith)
    have h2 := goSin_neg fu (x := -x) (by linarith)
    rw [neg_neg] at h2
    rw [h2]
    push_cast at h1 ⊢
    rw [Real.sin_neg] at h1
    rw [← abs_neg]
    refine le_trans (le_of_eq ?_) h1
    congr 1
    ring
  · subst h
    simp [goSin]
  · exact goSin_close_pos fu h (by rw [abs_le] at hx; linarith)

theorem cosKernel_le_one (fu : Fusing) {z : ℚ} (h : |z| ≤ 8 / 10) : cosKernel fu z ≤ 1 := by
  obtain ⟨h1, h2, h3⟩ := zz_close h
  obtain ⟨p1, p2⟩ := horner_cos fu.cos1 fu.cos2 fu.cos3 fu.cos4 fu.cos5 h1 (h2.trans (by norm_num)) (h3.trans (by norm_num)) (by norm_num)
  have p3 := abs_le_of_near p1 p2
  have hz : 0 ≤ fl (z * z) := fl_nonneg (mul_self_nonneg z)
  unfold cosKernel
  simp only
  generalize fl (z * z) = zz at *
  generalize horner [fu.cos1, fu.cos2, fu.cos3, fu.cos4, fu.cos5] zz cosCoeffs = H at *
  rw [abs_of_nonneg hz] at h2
  have p4 : |H| ≤ 1 / 10 := p3.trans (by norm_num)
  have w1 : |1 / 2 * zz| = 1 / 2 * zz := abs_of_nonneg (by linarith)
  obtain ⟨w, hw, ew⟩ := mulSub_split fu.half 1 (1 / 2) zz
  rw [ew]
  have w2 := fl_or_err hw
  rw [w1] at w2
  have w3 : 0 ≤ w := by
    rcases hw with rfl | rfl
    · exact fl_nonneg (by linarith)
    · linarith
  clear hw ew
  have a1 := fl_err (zz * zz)
  rw [abs_of_nonneg (mul_self_nonneg zz)] at a1
  have a2 : zz * zz ≤ zz * (65 / 100) := mul_le_mul_of_nonneg_left h2 hz
  have a3 : 0 ≤ fl (zz * zz) := fl_nonneg (mul_self_nonneg zz)
  generalize fl (zz * zz) = A at *
  have a4 : A ≤ zz := by
    norm_num at a1
    rw [abs_le] at a1
    linarith
  have b1 : |A * H| ≤ zz * (1 / 10) := abs_mul_le (by rwa [abs_of_nonneg a3]) p4
  obtain ⟨b, hb, eb⟩ := mulAdd_split fu.cos6 A H (fl (1 - w))
  rw [eb, add_comm b]
  have b2 := fl_or_within hb b1
  clear hb eb
  generalize A * H = c at *
  have b3 : b ≤ w := by
    norm_num at b2 w2
    rw [abs_le] at b1 b2 w2
    linarith
  have w4 : w ≤ 1 := by
    norm_num at w2
    rw [abs_le] at w2
    linarith
  have v1 : |1 - w| ≤ 1 := by
    rw [abs_le]
    constructor <;> linarith
  have v2 := fl_within v1
  generalize fl (1 - w) = v at *
  have v3 : v + b ≤ 1 + 1 / 2 ^ 53 := by
    rw [abs_le] at v2
    linarith
  have v4 := fl_mono v3
  have v5 : fl (1 + 1 / 2 ^ 53) = 1 := by decide +kernel
  rwa [v5] at v4

theorem cosKernel_pos (fu : Fusing) {z : ℚ} (h : |z| ≤ 8 / 10) : 0 < cosKernel fu z := by
  have h1 := cosKernel_close fu h
  have h' := cast_abs_le h
  push_cast at h'
  have h2 := Real.one_sub_sq_div_two_le_cos (x := z)
  have h3 : (z : ℝ) ^ 2 ≤ (8 / 10) ^ 2 := by
    rw [← sq_abs]
    exact pow_le_pow_left₀ (abs_nonneg _) h' 2
  have h4 : (0 : ℝ) < (cosKernel fu z : ℝ) := by
    rw [abs_le] at h1
    norm_num at h1 h3
    linarith
  exact_mod_cast h4

theorem abs_cosKernel_le (fu : Fusing) {z : ℚ} (h : |z| ≤ 8 / 10) : |cosKernel fu z| ≤ 1 := by
  have h1 := cosKernel_le_one fu h
  have h2 := cosKernel_pos fu h
  rw [abs_of_pos h2]
  exact h1

theorem abs_sinKernel_le (fu : Fusing) {z : ℚ} (h : |z| ≤ 8 / 10) : |sinKernel fu z| ≤ 1 := by
  have h1 := sinKernel_close fu h
  have h' := cast_abs_le h
  push_cast at h'
  have h2 : |Real.sin z| ≤ |(z : ℝ)| := Real.abs_sin_le_abs
  have h3 : |(sinKernel fu z : ℝ)| ≤ ((1 : ℚ) : ℝ) := by
    have := abs_add_le ((sinKernel fu z : ℝ) - Real.sin z) (Real.sin z)
    rw [sub_add_cancel] at this
    norm_num at h1 ⊢
    linarith
  rw [← Rat.cast_abs] at h3
  exact_mod_cast h3

theorem sinKernel_nonneg (fu : Fusing) {z : ℚ} (h : |z| ≤ 8 / 10) (h0 : 0 ≤ z) : 0 ≤ sinKernel fu z := by
  obtain ⟨h1, h2, h3⟩ := zz_close h
  obtain ⟨p1, p2⟩ := horner_sin fu.sin1 fu.sin2 fu.sin3 fu.sin4 fu.sin5 h1 (h2.trans (by norm_num)) (h3.trans (by norm_num)) (by norm_num)
  have p3 := abs_le_of_near p1 p2
  unfold sinKernel
  simp only
  generalize fl (z * z) = zz at *
  generalize horner [fu.sin1, fu.sin2, fu.sin3, fu.sin4, fu.sin5] zz sinCoeffs = H at *
  have p4 : |H| ≤ 1 / 2 := p3.trans (by norm_num)
  obtain ⟨b, hb, eb⟩ := mulAdd_split fu.sin6 (fl (z * zz)) H z
  rw [eb]
  apply fl_nonneg
  have a1 : |z * zz| ≤ z * (65 / 100) := abs_mul_le (by rw [abs_of_nonneg h0]) h2
  have a2 := fl_within a1
  have a3 : |fl (z * zz)| ≤ z := by
    have := abs_le_of_near a2 a1
    norm_num at this
    linarith
  generalize fl (z * zz) = A at *
  have b1 : |A * H| ≤ z * (1 / 2) := abs_mul_le a3 p4
  have b2 := fl_or_within hb b1
  have b3 := abs_le_of_near b2 b1
  rw [abs_le] at b3
  norm_num at b3
  linarith

theorem abs_goSin_le (fu : Fusing) {x : ℚ} (hx : |x| ≤ 1000) : |goSin fu x| ≤ 1 := by
  have key {x : ℚ} (h : 0 < x) (hx : x ≤ 1000) : |goSin fu x| ≤ 1 := by
    have hz : |redZ fu x| ≤ 8 / 10 := (redZ_small fu h.le hx).trans (by norm_num)
    have hs := abs_sinKernel_le fu hz
    have hc := abs_cosKernel_le fu hz
    rw [goSin_pos fu h hx]
    split
    · exact hs
    · split
      · exact hc
      · split
        · rwa [abs_neg]
        · rwa [abs_neg]
  rw [abs_le] at hx
  rcases lt_trichotomy x 0 with h | h | h
  · have h1 := key (x := -x) (by linarith) (by linarith)
    have h2 := goSin_neg fu (x := -x) (by linarith)
    rw [neg_neg] at h2
    rwa [h2, abs_neg]
  · subst h
    simp [goSin]
  · exact key h hx.2

/-- The argument of the sine, in radians. -/
theorem radians_le {a B : ℚ} (h : |a| ≤ B) : |fl (a * fl (goPi / 180))| ≤ B / 50 := by
  have h1 : |fl (goPi / 180)| ≤ 1 / 55 := by
    have : |fl (goPi / 180) - 0| ≤ 1 / 55 := fl_near (by unfold goPi; norm_num)
    simpa using this
  have hB : 0 ≤ B := (abs_nonneg _).trans h
  have h2 : |a * fl (goPi / 180)| ≤ B * (1 / 55) := abs_mul_le h h1
  have h3 := abs_le_of_near (fl_within h2) h2
  refine h3.trans ?_
  norm_num
  linarith

theorem radians_close {a : ℚ} (h : |a| ≤ 50000) :
    |((fl (a * fl (goPi / 180)) : ℚ) : ℝ) - (a : ℝ) * (Real.pi / 180)| ≤ 1 / 10 ^ 12 := by
  have h1 : |fl (goPi / 180) - goPi / 180| ≤ 1 / 55 / 2 ^ 53 := fl_within (by unfold goPi; norm_num)
  have h2 : |a * fl (goPi / 180) - a * (goPi / 180)| ≤ 50000 * (1 / 55 / 2 ^ 53) := by
    rw [← mul_sub]
    exact abs_mul_le h h1
  have h3 : |a * fl (goPi / 180)| ≤ 50000 * (1 / 50) := by
    refine abs_mul_le h ?_
    have : |fl (goPi / 180) - 0| ≤ 1 / 55 := fl_near (by unfold goPi; norm_num)
    rw [sub_zero] at this
    linarith
  have h4 := fl_within h3
  have h5 : |fl (a * fl (goPi / 180)) - a * (goPi / 180)| ≤ 50000 * (1 / 50) / 2 ^ 53 + 50000 * (1 / 55 / 2 ^ 53) := by
    have := abs_add_le (fl (a * fl (goPi / 180)) - a * fl (goPi / 180)) (a * fl (goPi / 180) - a * (goPi / 180))
    rw [sub_add_sub_cancel] at this
    linarith
  have h6 := cast_abs_le h5
  have h7 := goPi_close
  have h8 := cast_abs_le h
  push_cast at h6 h8
  have h9 : |(a : ℝ) * (((goPi : ℝ) - Real.pi) / 180)| ≤ 50000 * (1 / 10 ^ 19 / 180) := by
    rw [abs_mul]
    refine mul_le_mul h8 ?_ (abs_nonneg _) (by norm_num)
    rw [abs_div]
    norm_num at h7 ⊢
    linarith
  rw [abs_le] at h6 h9 ⊢
  norm_num at h6 h9 ⊢
  constructor <;> linarith

theorem sinDegrees_close (fu : Fusing) {a : ℚ} (h : |a| ≤ 50000) : |(sinDegrees fu a : ℝ) - Real.sin ((a : ℝ) * (Real.pi / 180))| ≤ 2 / 10 ^ 11 := by
  have h1 : |fl (a * fl (goPi / 180))| ≤ 1000 := (radians_le h).trans (by norm_num)
  have h2 := goSin_close fu h1
  have h3 := (Real.abs_sin_sub_sin_le _ _).trans (radians_close h)
  unfold sinDegrees
  rw [abs_le] at *
  norm_num at *
  constructor <;> linarith

theorem abs_sinDegrees_le (fu : Fusing) {a : ℚ} (h : |a| ≤ 50000) : |sinDegrees fu a| ≤ 1 :=
  abs_goSin_le fu ((radians_le h).trans (by norm_num))

theorem sinDegrees_nonneg (fu : Fusing) {a : ℚ} (h0 : 0 ≤ a) (h : a ≤ 180) : 0 ≤ sinDegrees fu a := by
  unfold sinDegrees
  have hr : 0 ≤ fl (goPi / 180) := fl_nonneg (by unfold goPi; norm_num)
  have hx0 : 0 ≤ fl (a * fl (goPi / 180)) := fl_nonneg (mul_nonneg h0 hr)
  have hx1 : fl (a * fl (goPi / 180)) ≤ fl (180 * fl (goPi / 180)) := fl_mono (mul_le_mul_of_nonneg_right h hr)
  generalize fl (a * fl (goPi / 180)) = x at *
  have hpi : fl (180 * fl (goPi / 180)) ≤ 1000 := by decide +kernel
  have hx : x ≤ 1000 := hx1.trans hpi
  rcases hx0.eq_or_lt with h2 | h2
  · rw [← h2]
    simp [goSin]
  have hz : |redZ fu x| ≤ 8 / 10 := (redZ_small fu h2.le hx).trans (by norm_num)
  have hk : redK x ≤ 2 := by
    unfold redK
    have hm : 0 ≤ fl (4 / goPi) := by linarith [four_over_pi.2.2]
    have h3 : fl (x * fl (4 / goPi)) ≤ fl (fl (180 * fl (goPi / 180)) * fl (4 / goPi)) := fl_mono (mul_le_mul_of_nonneg_right hx1 hm)
    have h4 : fl (fl (180 * fl (goPi / 180)) * fl (4 / goPi)) < 5 := by decide +kernel
    have h5 : ⌊fl (x * fl (4 / goPi))⌋ < 5 := Int.floor_lt.mpr (by push_cast; linarith)
    omega
  rw [goSin_pos fu h2 hx]
  interval_cases hk' : redK x
  · have : 0 ≤ redZ fu x := by
      unfold redZ
      rw [hk']
      have e (f : Bool) (q p : ℚ) : mulSub f q ((2 * 0 : ℕ) : ℚ) p = fl q := by
        cases f <;> simp [mulSub, fl_zero]
      rw [e, e, e]
      exact fl_nonneg (fl_nonneg (fl_nonneg h2.le))
    simpa using sinKernel_nonneg fu hz this
  · simpa using (cosKernel_pos fu hz).le
  · have : redZ fu x ≤ 0 := by
      unfold redZ
      rw [hk']
      have e (f g h : Bool) : mulSub h (mulSub g (mulSub f (fl (180 * fl (goPi / 180))) (2 * 2 : ℕ) pi4a) (2 * 2 : ℕ) pi4b) (2 * 2 : ℕ) pi4c ≤ 0 := by
        revert f g h
        decide +kernel
      exact (mulSub_mono _ (mulSub_mono _ (mulSub_mono _ hx1 _ _) _ _) _ _).trans (e _ _ _)
    have h3 := sinKernel_nonneg fu (z := -redZ fu x) (by rwa [abs_neg]) (by linarith)
    rw [sinKernel_neg] at h3
    simpa using h3

end Verif.Lemmas
