import Verif.Lemmas.AstroData
import Verif.Props.Generate
/-
Helper lemmas: kernel comparison of the calculated uposathas and half moons with the embedded moons.
-/
set_option autoImplicit false

namespace Verif.Lemmas
open Verif.Go Verif.Model Verif.Spec Verif.Props

/-- `scanKat` for any settings. -/
def scanCfg (cfg : Config) (p : Int → Int → Bool) : Nat → Int → Int → Bool
  | 0, _, _ => true
  | n + 1, y, k => p y k && scanCfg cfg p n (y + 1) (k + (SuriyaYear.init y).yearLength cfg)

theorem scanCfg_spec {cfg : Config} {p : Int → Int → Bool} : ∀ {n : Nat} {a k : Int}, katDay cfg a = k →
    scanCfg cfg p n a k = true → ∀ y, a ≤ y → y < a + n → p y (katDay cfg y) = true := by
  intro n
  induction n with
  | zero => intro a k _ _ y h1 h2; omega
  | succ n ih =>
    intro a k hk h y h1 h2
    simp only [scanCfg, Bool.and_eq_true] at h
    by_cases e : y = a
    · subst e; rw [hk]; exact h.1
    · exact ih (by rw [katDay_succ, hk]) h.2 y (by omega) (by omega)

theorem katDay_1902 (cfg : Config) (hs : Shipped cfg) : katDay cfg 1902 = 694288 := by
  have h : katDay .default 1902 = 694288 := by
    have := scanKat_spec (p := fun y k => !(y == 1902) || k == 694288) (n := 1280) katDay_630 (by decide +kernel) 1902
      (by omega) (by omega)
    simpa using this
  rcases hs with rfl | rfl
  · exact h
  · rw [katDay_official, h]; norm_num

/-- The rows of the file of a year. -/
def rowsOf (y : Int) : List Nat :=
  match embeddedTable.find? (fun e => e.1 == y) with
  | some (_, some rows) => rows
  | _ => []

theorem rowsOf_mem {y : Int} {n : Nat} (h : n ∈ rowsOf y) : ∃ e ∈ embeddedTable, e.1 = y ∧ n ∈ e.2.getD [] := by
  unfold rowsOf at h
  split at h
  · rename_i y' rows hf
    refine ⟨_, List.mem_of_find?_eq_some hf, by simpa using List.find?_some hf, h⟩
  · simp at h

/-- `offs` as natural numbers. -/
def offsN (a v : Bool) : List Nat :=
  bif a then [15, 30, 44, 59, 74, 89, 103, 118, 133, 148, 162, 177, 192, 207, 221, 236, 251, 266, 281, 296, 310, 325,
    340, 355, 369, 384, 399, 414, 428, 443, 458, 473, 487, 502]
  else bif v then [15, 30, 44, 59, 74, 89, 103, 118, 133, 148, 162, 177, 192, 207, 222, 237, 252, 267, 281, 296, 311,
    326, 340, 355, 370, 385, 399, 414, 429, 444, 458, 473]
  else [15, 30, 44, 59, 74, 89, 103, 118, 133, 148, 162, 177, 192, 207, 221, 236, 251, 266, 280, 295, 310, 325, 339,
    354, 369, 384, 398, 413, 428, 443, 457, 472]

theorem offsN_eq : ∀ a v : Bool, (offsN a v).map Int.ofNat = offs a v := by decide

/-- Is day `t` within `lo - 1` .. `hi` days after one of the days `o` at even (`cur`) or odd places? -/
def hit (lo hi t : Nat) : Bool → List Nat → Bool
  | _, [] => false
  | true, o :: r => (Nat.ble (o + lo) (t + 1) && Nat.ble t (o + hi)) || hit lo hi t false r
  | false, _ :: r => hit lo hi t true r

theorem hit_spec {lo hi t : Nat} : ∀ {cur : Bool} {l : List Nat}, hit lo hi t cur l = true →
    ∃ i o, l[i]? = some o ∧ decide (i % 2 = 0) = cur ∧ o + lo ≤ t + 1 ∧ t ≤ o + hi := by
  intro cur l
  induction l generalizing cur with
  | nil => intro h; cases cur <;> simp [hit] at h
  | cons o r ih =>
    intro h
    cases cur with
    | true =>
      unfold hit at h
      rw [Bool.or_eq_true] at h
      rcases h with h | h
      · simp only [Bool.and_eq_true, Nat.ble_eq] at h
        exact ⟨0, o, rfl, rfl, h.1, h.2⟩
      · obtain ⟨i, o', h1, h2, h3⟩ := ih h
        refine ⟨i + 1, o', by simpa using h1, ?_, h3⟩
        simp only [decide_eq_false_iff_not, decide_eq_true_eq] at h2 ⊢
        omega
    | false =>
      unfold hit at h
      obtain ⟨i, o', h1, h2, h3⟩ := ih h
      refine ⟨i + 1, o', by simpa using h1, ?_, h3⟩
      simp only [decide_eq_false_iff_not, decide_eq_true_eq] at h2 ⊢
      omega

/-- Every full and new moon of the file has its uposatha, every quarter its half moon. -/
def moonsCovered (cfg : Config) (y k : Int) : Bool :=
  go k.toNat (offsN (fa y) (fv cfg y)) (rowsOf y)
where
  go (k : Nat) (os : List Nat) : List Nat → Bool
    | [] => true
    | n :: rest => Nat.ble k (secs n / 86400) &&
      (match n % 10 with
        | 0 => hit 0 2 (secs n / 86400 - k) true os
        | 1 => hit 7 10 (secs n / 86400 - k) true os
        | 2 => hit 0 2 (secs n / 86400 - k) false os
        | _ => hit 7 10 (secs n / 86400 - k) false os) && go k os rest

theorem covered_default : scanCfg .default (moonsCovered .default) 139 1902 694288 = true := by decide +kernel

theorem katDay_1994 : katDay .official 1994 = 727894 := by
  have := scanKat_spec (p := fun y k => !(y == 1994) || k == 727894) (n := 1400) katDay_630 (by decide +kernel) 1994
    (by omega) (by omega)
  rw [katDay_official]
  simpa using this

theorem covered_official : scanCfg .official (moonsCovered .official) 4 1994 727894 = true := by decide +kernel

/-- The two settings agree on the year and on its Kattika. -/
theorem official_eq {y : Int} (h : y < 1994 ∨ 1997 < y) :
    katDay .official y = katDay .default y ∧ fv .official y = fv .default y := by
  refine ⟨?_, official_adv y (by omega) (by omega)⟩
  rw [katDay_official, if_neg (by omega)]; omega

theorem covered {cfg : Config} (hs : Shipped cfg) {y : Int} (h1 : 1902 ≤ y) (h2 : y ≤ 2040) :
    moonsCovered cfg y (katDay cfg y) = true := by
  have h := scanCfg_spec (katDay_1902 .default (Or.inl rfl)) covered_default y h1 (by omega)
  rcases hs with rfl | rfl
  · exact h
  · by_cases hy : y < 1994 ∨ 1997 < y
    · have e := official_eq hy
      unfold moonsCovered at h ⊢
      rw [e.1, e.2]; exact h
    · exact scanCfg_spec katDay_1994 covered_official y (by omega) (by omega)

theorem go_spec {k : Nat} {os : List Nat} : ∀ {rows : List Nat}, moonsCovered.go k os rows = true → ∀ n ∈ rows,
    n % 10 < 4 → ∃ i o, os[i]? = some o ∧ (n % 10 < 2 ↔ i % 2 = 0) ∧
      (n % 2 = 0 → k + o ≤ secs n / 86400 + 1 ∧ secs n / 86400 ≤ k + o + 2) ∧
      (n % 2 = 1 → k + o + 6 ≤ secs n / 86400 ∧ secs n / 86400 ≤ k + o + 10)
  | [], _, n, hn, _ => by simp at hn
  | m :: rest, h, n, hn, hc => by
    unfold moonsCovered.go at h
    simp only [Bool.and_eq_true, Nat.ble_eq] at h
    rcases List.mem_cons.1 hn with rfl | hn
    · obtain ⟨⟨h1, h2⟩, -⟩ := h
      split at h2
      all_goals
        try simp only [imp_false] at *
        obtain ⟨i, o, a, b, c, d⟩ := hit_spec h2
        simp only [decide_eq_true_eq, decide_eq_false_iff_not] at b
        refine ⟨i, o, a, by omega, fun _ => by omega, fun _ => by omega⟩
    · exact go_spec h.2 n hn hc

theorem chain_phase (cfg : Config) (y : Int) (k : Nat) : (chain cfg y k).Phase = if k % 2 = 1 then "new" else "full" := by
  induction k with
  | zero => rfl
  | succ k ih =>
    have := (c17_alternation cfg (chain cfg y k)).1
    rw [chain, this, ih]
    rcases Nat.mod_two_eq_zero_or_one k with h | h
    · have : (k + 1) % 2 = 1 := by omega
      simp [h, this]
    · have : (k + 1) % 2 = 0 := by omega
      simp [h, this]

theorem offsN_get {a v : Bool} (hav : (a && v) = false) {i o : Nat} (h : (offsN a v)[i]? = some o) :
    i < moons a + 8 ∧ eoff a v (i + 1) = o := by
  have h1 : (offs a v)[i]? = some (o : Int) := by
    rw [← offsN_eq, List.getElem?_map, h]; rfl
  rw [← offs_eq a v hav, List.getElem?_map] at h1
  rw [Option.map_eq_some_iff] at h1
  obtain ⟨j, hj, he⟩ := h1
  rw [List.getElem?_eq_some_iff] at hj
  obtain ⟨hl, hj⟩ := hj
  rw [List.length_range] at hl
  rw [List.getElem_range] at hj
  subst hj
  exact ⟨hl, he⟩

/-- The moons after one Kattika continue those after the previous one. -/
theorem chain_prev {cfg : Config} (hs : Shipped cfg) {y : Int} (h1 : 632 ≤ y) (h2 : y ≤ 4115) (k : Nat) :
    chain cfg (y - 1) (moons (fa (y - 1)) + k) = chain cfg y k := by
  have hr := shipped_regular hs (y := y - 1) (by omega) (by omega)
  have hl := hr.lo'
  have hh := hr.hi'
  have e : y - 1 + 1 = y := by omega
  have hc := chain_close hr.toRegular hl hh
  rw [e] at hc
  exact chain_add cfg (y - 1) _ y hc k

theorem day_of_row {n : Nat} (h : rowOk n = true) : (moonOf n).Date.day = ((secs n / 86400 : Nat) : Int) := by
  have hn := moonOf_nanos n h
  have ho : (moonOf n).Date.offset = 0 := rfl
  unfold Time.day
  rw [ho, hn]
  unfold nsPerDay nsPerSec
  omega

end Verif.Lemmas
