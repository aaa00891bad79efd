import Verif.Spec.AstroData
import Verif.Lemmas.Time
import Mathlib.Data.List.Chain
import Mathlib.Data.List.Nodup
import Mathlib.Tactic.Ring
import Mathlib.Tactic.Push
import Mathlib.Tactic.NormNum
/-
Helper lemmas: the embedded astronomical data, checked file by file with natural-number arithmetic.
-/
set_option autoImplicit false

namespace Verif.Lemmas
open Verif.Go Verif.Model Verif.Spec

/-- Days before a month of a common year. -/
def cumN (m : Nat) : Nat :=
  match m with
  | 0 => 0 | 1 => 0 | 2 => 31 | 3 => 59 | 4 => 90 | 5 => 120 | 6 => 151 | 7 => 181 | 8 => 212 | 9 => 243 | 10 => 273
  | 11 => 304 | 12 => 334 | _ => 365

/-- Days before January 1. -/
def yearN (y : Nat) : Nat := 365 * (y - 1) + (y - 1) / 4 + (y - 1) / 400 - (y - 1) / 100

/-- Days before a date. -/
def daysN (y m d : Nat) : Nat :=
  yearN y + cumN m + (bif (Nat.ble 3 m && (Nat.beq (y % 4) 0 && (!Nat.beq (y % 100) 0 || Nat.beq (y % 400) 0))) then 1 else 0)
    + d - 1

/-- Seconds since 0001-01-01 of a row. -/
def secs (n : Nat) : Nat :=
  daysN (n / 1000000000000) (n / 10000000000 % 100) (n / 100000000 % 100) * 86400 +
    (n / 1000000 % 100 * 3600 + n / 10000 % 100 * 60 + n / 100 % 100) - n / 10 % 10 * 3600

theorem yearN_eq (y : Nat) (h : 1 ≤ y) : (yearN y : Int) = daysSinceEpoch y := by
  rw [← daysSinceEpoch_bounds]
  unfold yearN
  omega

theorem cumN_table : ∀ m : Fin 13, 1 ≤ m.val → (cumN m : Int) = daysBefore ((m.val : Int) - 1) := by decide

theorem cumN_eq (m : Nat) (h : 1 ≤ m) (h2 : m ≤ 12) : (cumN m : Int) = daysBefore ((m : Int) - 1) :=
  cumN_table ⟨m, by omega⟩ h

theorem daysN_eq (y m d : Nat) (hy : 1 ≤ y) (hm : 1 ≤ m) (hm2 : m ≤ 12) (hd : 1 ≤ d) :
    (daysN y m d : Int) = monthStart y m + ((d : Int) - 1) := by
  unfold daysN monthStart
  have h1 := yearN_eq y hy
  have h2 := cumN_eq m hm hm2
  have hl : (Nat.ble 3 m && (Nat.beq (y % 4) 0 && (!Nat.beq (y % 100) 0 || Nat.beq (y % 400) 0))) =
      (isLeap y && decide ((m : Int) ≥ 3)) := by
    rw [Bool.eq_iff_iff]
    unfold isLeap
    simp only [Bool.and_eq_true, Bool.or_eq_true, Bool.not_eq_true', beq_iff_eq, bne_iff_ne, decide_eq_true_eq,
      Nat.ble_eq, Nat.beq_eq, Bool.eq_false_iff, ne_eq]
    omega
  rw [hl]
  rcases (isLeap y && decide ((m : Int) ≥ 3)) with _ | _ <;> simp only [cond_true, cond_false] <;> simp <;> omega

/-- A row with a date after year 1. -/
def rowOk (n : Nat) : Bool :=
  Nat.ble 2 (n / 1000000000000) && (Nat.ble 1 (n / 10000000000 % 100) &&
    (Nat.ble (n / 10000000000 % 100) 12 && Nat.ble 1 (n / 100000000 % 100)))

theorem nanos_secs (n : Nat) (h : rowOk n = true) : (aerisMoon n).DateTimeISO.nanos = secs n * nsPerSec := by
  unfold rowOk at h
  simp only [Bool.and_eq_true, Nat.ble_eq] at h
  obtain ⟨h1, h2, h4, h3⟩ := h
  unfold aerisMoon
  simp only [Nat.div_div_eq_div_mul, Nat.reduceMul]
  rw [date_eq, ← daysN_eq _ _ _ (by omega) h2 h4 h3]
  unfold secs
  have hd : 365 ≤ daysN (n / 1000000000000) (n / 10000000000 % 100) (n / 100000000 % 100) := by
    have : 365 ≤ yearN (n / 1000000000000) := by
      unfold yearN
      have := Nat.div_le_div_left (a := n / 1000000000000 - 1) (show 4 ≤ 100 by omega) (by omega)
      omega
    unfold daysN; omega
  generalize daysN (n / 1000000000000) (n / 10000000000 % 100) (n / 100000000 % 100) = D at *
  simp only
  unfold nsPerDay nsPerSec
  push_cast
  rw [Int.ofNat_sub (by omega)]
  push_cast
  ring

/-- The moon of a row. -/
def moonOf (n : Nat) : AstroMoon := { Phase := (phases[n % 10]?).getD "", Date := (aerisMoon n).DateTimeISO.utc }

theorem moonOf_nanos (n : Nat) (h : rowOk n = true) : (moonOf n).Date.nanos = secs n * nsPerSec := nanos_secs n h

theorem year_of_secs (n : Nat) (h : rowOk n = true) (y : Nat) (hy : 1 ≤ y) (h1 : yearN y * 86400 ≤ secs n)
    (h2 : secs n < yearN (y + 1) * 86400) : (moonOf n).Date.year = y := by
  have hn := moonOf_nanos n h
  unfold Time.year
  rw [year_eq_iff]
  have e1 := yearN_eq y hy
  have e2 := yearN_eq (y + 1) (by omega)
  push_cast at e2
  rw [← e1, ← e2]
  have ho : (moonOf n).Date.offset = 0 := rfl
  unfold Time.day
  rw [ho, hn]
  unfold nsPerDay nsPerSec
  omega

/-- The check of one file. -/
def fileOk (y : Nat) : List Nat → Bool
  | [] => true
  | n :: rest =>
    rowOk n && (Nat.ble (n % 10 + 1) 4 && (Nat.ble (yearN y * 86400) (secs n) && (Nat.ble (secs n + 1) (yearN (y + 1) * 86400) &&
      match rest with
      | [] => true
      | m :: _ => Nat.beq (m % 10) ((n % 10 + 1) % 4) && (Nat.ble (secs n + 561600) (secs m) &&
        (Nat.ble (secs m) (secs n + 717120) && fileOk y rest)))))

/-- All files pass. -/
theorem files_ok : embeddedTable.all (fun e => fileOk e.1.toNat (e.2.getD [])) = true := by decide +kernel

theorem fileOk_row {y : Nat} : ∀ {l : List Nat}, fileOk y l = true → ∀ n ∈ l, rowOk n = true ∧ n % 10 < 4 ∧
    yearN y * 86400 ≤ secs n ∧ secs n < yearN (y + 1) * 86400
  | [], _, n, hn => by simp at hn
  | n :: rest, h, k, hk => by
    unfold fileOk at h
    simp only [Bool.and_eq_true, Nat.ble_eq] at h
    rcases List.mem_cons.1 hk with rfl | hk
    · exact ⟨h.1, by omega, h.2.2.1, by omega⟩
    · cases rest with
      | nil => simp at hk
      | cons m r =>
        have := h.2.2.2.2
        simp only [Bool.and_eq_true] at this
        exact fileOk_row this.2.2.2 k hk

theorem phase_index (n : Nat) (h : n % 10 < 4) : phaseIndex (moonOf n).Phase = n % 10 := by
  have : ∀ k : Fin 4, phaseIndex ((phases[k.val]?).getD "") = k.val := by decide
  exact this ⟨n % 10, h⟩

theorem fileOk_chain {y : Nat} : ∀ {l : List Nat}, fileOk y l = true → (l.map moonOf).IsChain NextQuarter
  | [], _ => by simp
  | [n], _ => by simp
  | n :: m :: r, h => by
    have hn := fileOk_row h n (by simp)
    have hm := fileOk_row h m (by simp)
    unfold fileOk at h
    simp only [Bool.and_eq_true, Nat.ble_eq, Nat.beq_eq] at h
    obtain ⟨-, -, -, -, h1, h2, h3, h4⟩ := h
    rw [List.map_cons, List.map_cons, List.isChain_cons_cons]
    refine ⟨⟨?_, ?_⟩, by simpa using fileOk_chain h4⟩
    · rw [phase_index n hn.2.1, phase_index m hm.2.1]; exact h1
    · rw [moonOf_nanos n hn.1, moonOf_nanos m hm.1]
      unfold nsPerDay nsPerSec
      omega

theorem table_ok {e : Int × Option (List Nat)} (he : e ∈ embeddedTable) : fileOk e.1.toNat (e.2.getD []) = true :=
  List.all_eq_true.1 files_ok e he

/-- The years of the table. -/
theorem table_years : embeddedTable.map (·.1) = yearsFrom 1900 2040 := by decide +kernel

theorem table_year {e : Int × Option (List Nat)} (he : e ∈ embeddedTable) : 1900 ≤ e.1 ∧ e.1 ≤ 2040 := by
  have : e.1 ∈ yearsFrom 1900 2040 := table_years ▸ List.mem_map_of_mem he
  unfold yearsFrom at this
  simp only [List.mem_map, List.mem_range] at this
  omega

theorem table_row {e : Int × Option (List Nat)} (he : e ∈ embeddedTable) {n : Nat} (hn : n ∈ e.2.getD []) :
    rowOk n = true ∧ n % 10 < 4 ∧ (moonOf n).Date.year = e.1 := by
  have h := fileOk_row (table_ok he) n hn
  have hy := table_year he
  refine ⟨h.1, h.2.1, ?_⟩
  rw [year_of_secs n h.1 e.1.toNat (by omega) h.2.2.1 h.2.2.2]
  omega

theorem table_find {e : Int × Option (List Nat)} (he : e ∈ embeddedTable) :
    embeddedTable.find? (fun e' => e'.1 == e.1) = some e := by
  have hnd : (embeddedTable.map (·.1)).Nodup := by
    rw [table_years]
    unfold yearsFrom
    exact List.Nodup.map (fun a b h => by simpa using h) List.nodup_range
  generalize embeddedTable = t at *
  induction t with
  | nil => simp at he
  | cons a t ih =>
    rw [List.map_cons, List.nodup_cons] at hnd
    rcases List.mem_cons.1 he with rfl | h
    · simp
    · have hne : a.1 ≠ e.1 := fun hc => hnd.1 (hc ▸ List.mem_map_of_mem h)
      rw [List.find?_cons_of_neg (by simpa using hne)]
      exact ih h hnd.2

/-- The files with data, in order. -/
def dataFiles : List (List Nat) := embeddedTable.filterMap (·.2)

theorem embeddedMoons_eq : embeddedMoons = (dataFiles.map (·.map moonOf)).flatten := by
  unfold embeddedMoons dataFiles
  generalize embeddedTable = t
  induction t with
  | nil => rfl
  | cons a t ih =>
    rw [List.flatMap_cons, ih]
    cases h : a.2 with
    | none => simp [h]
    | some l => rw [List.filterMap_cons_some h]; rfl

/-- Last and first rows of the neighbouring files. -/
def boundaryOk : List (List Nat) → Bool
  | a :: b :: r =>
    (match a.getLast?, b.head? with
      | some x, some y => decide (EmbeddedNext (moonOf x) (moonOf y))
      | _, _ => false) && boundaryOk (b :: r)
  | _ => true

theorem boundaries_ok : boundaryOk dataFiles = true := by decide +kernel

theorem boundary_chain : ∀ {l : List (List Nat)}, boundaryOk l = true →
    (l.map (·.map moonOf)).IsChain fun l₁ l₂ => ∀ x ∈ l₁.getLast?, ∀ y ∈ l₂.head?, EmbeddedNext x y
  | [], _ => by simp
  | [_], _ => by simp
  | a :: b :: r, h => by
    unfold boundaryOk at h
    simp only [Bool.and_eq_true] at h
    rw [List.map_cons, List.map_cons, List.isChain_cons_cons]
    refine ⟨?_, by simpa using boundary_chain h.2⟩
    have h1 := h.1
    intro x hx y hy
    rw [List.getLast?_map] at hx
    rw [List.head?_map] at hy
    cases ha : a.getLast? with
    | none => simp [ha] at hx
    | some u =>
      cases hb : b.head? with
      | none => simp [hb] at hy
      | some v =>
        rw [ha] at hx; rw [hb] at hy
        simp only [Option.map_some, Option.mem_def, Option.some.injEq] at hx hy
        rw [ha, hb] at h1
        subst hx; subst hy
        simpa using h1

theorem moons_chain : embeddedMoons.IsChain EmbeddedNext := by
  rw [embeddedMoons_eq, List.isChain_flatten]
  · refine ⟨?_, boundary_chain boundaries_ok⟩
    intro l hl
    obtain ⟨rows, hr, rfl⟩ := List.mem_map.1 hl
    unfold dataFiles at hr
    obtain ⟨e, he, her⟩ := List.mem_filterMap.1 hr
    have hc := fileOk_chain (table_ok he)
    rw [her] at hc
    simp only [Option.getD_some] at hc
    refine List.IsChain.imp_of_mem_imp (fun a b ha hb h => ?_) hc
    obtain ⟨n, hn, rfl⟩ := List.mem_map.1 ha
    obtain ⟨m, hm, rfl⟩ := List.mem_map.1 hb
    have h1 := (table_row he (n := n) (by rw [her]; exact hn)).2.2
    have h2 := (table_row he (n := m) (by rw [her]; exact hm)).2.2
    unfold EmbeddedNext
    rw [h1, h2, if_neg (by omega), if_neg (by simp)]
    exact h
  · intro h
    obtain ⟨rows, hr, h0⟩ := List.mem_map.1 h
    rw [List.map_eq_nil_iff] at h0
    have : dataFiles.all (fun l => !l.isEmpty) = true := by decide +kernel
    rw [List.all_eq_true] at this
    have := this rows hr
    rw [h0] at this
    simp at this

end Verif.Lemmas
