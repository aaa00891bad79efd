import Verif.Lemmas.Generate
/-
Helper lemmas: the list returned by `GenerateSolarYear` in terms of the table of a lunar year.
-/
set_option autoImplicit false

namespace Verif.Lemmas
open Verif.Go Verif.Model

/-! ### Index bounds -/

theorem year_mono {d d' : Int} (h : d ≤ d') : (yearYday d).1 ≤ (yearYday d').1 := by
  rw [year_le_iff]
  have := (year_le_iff d' (yearYday d').1).1 (Int.le_refl _)
  omega

theorem year_addDays_le (t : Time) {n : Int} (h : 0 ≤ n) : t.year ≤ (t.addDays n).year := by
  unfold Time.year
  refine year_mono ?_
  rw [addDays_eq, day_add]; omega

theorem iteration_nil {y : Int} {u : UposathaMoon} (h : y < u.Date.year) : iterationEvents y u = [] := by
  unfold iterationEvents
  have h1 : ¬ u.Date.year = y := by omega
  have h2 : ¬ (u.Date.addDays 8).year = y := by
    have := year_addDays_le u.Date (n := 8) (by omega); omega
  simp [h1, h2]

theorem emitted_append (cfg : Config) (y : Int) (k n m : Nat) :
    emitted cfg y k (n + m) = emitted cfg y k n ++ emitted cfg y (k + n) m := by
  unfold emitted
  rw [List.range_add, List.flatMap_append, List.flatMap_map]
  simp only [Nat.add_assoc]

/-- Any index beyond the year gives the whole list. -/
theorem generate_eq {cfg : Config} {y : Int} {m : Nat} (h : y < (chain cfg y m).Date.year) :
    generateSolarYear cfg y = emitted cfg y 0 m := by
  obtain ⟨n, -, h1, h2, h3⟩ := generate_spec cfg y
  have hn : n ≤ m := by
    by_cases c : n ≤ m
    · exact c
    · have := h2 m (by omega); omega
  obtain ⟨p, rfl⟩ : ∃ p, m = n + p := ⟨m - n, by omega⟩
  rw [h1, emitted_append]
  have : emitted cfg y (0 + n) p = [] := by
    unfold emitted
    rw [List.flatMap_eq_nil_iff]
    intro i _
    apply iteration_nil
    have := chain_year_mono cfg y (j := n) (k := 0 + n + i + 1) (by omega)
    show y < (chain cfg y (0 + n + i + 1)).Date.year
    omega
  rw [this, List.append_nil]

/-- Some index lies beyond the year. -/
theorem exists_beyond (cfg : Config) (y : Int) : ∃ m, ∀ k, m ≤ k → y < (chain cfg y k).Date.year := by
  obtain ⟨n, -, -, -, h3⟩ := generate_spec cfg y
  exact ⟨n, fun k hk => by have := chain_year_mono cfg y hk; omega⟩

/-- Membership in the list: some iteration produced the event. -/
theorem mem_generate {cfg : Config} {y : Int} {e : CalendarEvent} :
    e ∈ generateSolarYear cfg y ↔ ∃ k, e ∈ iterationEvents y (confirmed (chain cfg y (k + 1))) := by
  obtain ⟨m, hm⟩ := exists_beyond cfg y
  rw [generate_eq (hm m (by omega))]
  unfold emitted
  simp only [List.mem_flatMap, List.mem_range, Nat.zero_add]
  constructor
  · rintro ⟨k, -, h⟩; exact ⟨k, h⟩
  · rintro ⟨k, h⟩
    refine ⟨k, ?_, h⟩
    by_cases c : k < m
    · exact c
    · exfalso
      have : iterationEvents y (confirmed (chain cfg y (k + 1))) = [] := by
        apply iteration_nil
        show y < (chain cfg y (k + 1)).Date.year
        exact hm _ (by omega)
      rw [this] at h; simp at h

/-! ### The extended table: one lunar year and four months of the next -/

/-- The moons of a lunar year and the first eight of the following one. -/
def ext (a v : Bool) (k : Nat) : UposathaMoon :=
  if k ≤ moons a then tab a v k else shift (len a v) 1 (tab false false (k - moons a))

/-- Day offsets of `ext`. -/
def eoff (a v : Bool) (k : Nat) : Int := (ext a v k).Date.day

/-- The offsets as literals. -/
def offs (a v : Bool) : List Int :=
  if a then [15, 30, 44, 59, 74, 89, 103, 118, 133, 148, 162, 177, 192, 207, 221, 236, 251, 266, 281, 296, 310, 325,
    340, 355, 369, 384, 399, 414, 428, 443, 458, 473, 487, 502]
  else if v then [15, 30, 44, 59, 74, 89, 103, 118, 133, 148, 162, 177, 192, 207, 222, 237, 252, 267, 281, 296, 311,
    326, 340, 355, 370, 385, 399, 414, 429, 444, 458, 473]
  else [15, 30, 44, 59, 74, 89, 103, 118, 133, 148, 162, 177, 192, 207, 221, 236, 251, 266, 280, 295, 310, 325, 339,
    354, 369, 384, 398, 413, 428, 443, 457, 472]

theorem offs_eq : ∀ a v : Bool, (a && v) = false →
    (List.range (moons a + 8)).map (fun i => eoff a v (i + 1)) = offs a v := by decide +kernel

theorem chain_first {cfg : Config} {z : Int} (h1 : daysSinceEpoch z - 118 ≤ katDay cfg z)
    (h2 : katDay cfg z < daysSinceEpoch z) : ∀ j : Nat,
    (j ≤ 8 → core (chain cfg z j) = core (shift (katDay cfg z) (z + 542) (tab false false j))) ∧
    (j ≤ 5 → chain cfg z j = shift (katDay cfg z) (z + 542) (tab false false j)) := by
  intro j
  induction j with
  | zero => exact ⟨fun _ => by rw [chain, seed_eq h1 h2]; rfl, fun _ => by rw [chain, seed_eq h1 h2]; rfl⟩
  | succ j ih =>
    have small : ∀ j : Fin 8, off false false j < 118 ∧ (j.val < 5 → off false false j < 74) := by decide +kernel
    have key : j < 8 → ∀ a v, step a v (chain cfg z j) =
        shift (katDay cfg z) (z + 542) (step a v (tab false false j)) := by
      intro hj a v
      rw [← step_core, ih.1 (by omega), step_core, step_shift]
    constructor
    · intro hj
      have ht := tab_facts false false rfl ⟨j, by omega⟩ (by show j < 24; omega)
      simp only at ht
      rw [chain, next_eq_step, key (by omega), core_shift, ht.2.2.2.1 (small ⟨j, by omega⟩).1, ← core_shift]
    · intro hj
      have ht := tab_facts false false rfl ⟨j, by omega⟩ (by show j < 24; omega)
      simp only at ht
      rw [chain, next_eq_step, key (by omega), ht.2.2.2.2 ((small ⟨j, by omega⟩).2 (by show j < 5; omega))]

/-- A regular year followed by a Kattika in the year itself. -/
structure Regular2 (cfg : Config) (y : Int) : Prop extends Regular cfg y where
  lo' : daysSinceEpoch (y + 1) - 118 ≤ katDay cfg (y + 1)
  hi' : katDay cfg (y + 1) < daysSinceEpoch (y + 1)

theorem shift_next (cfg : Config) (y : Int) (u : UposathaMoon) :
    shift (katDay cfg (y + 1)) (y + 1 + 542) u =
      shift (katDay cfg y) (y + 542) (shift (len (fa y) (fv cfg y)) 1 u) := by
  rw [katDay_succ, len_eq]
  unfold shift Time.add
  simp only [UposathaMoon.mk.injEq, Time.mk.injEq, and_true, true_and]
  generalize len _ _ = L
  unfold nsPerDay; omega

theorem chain_ext {cfg : Config} {y : Int} (h : Regular2 cfg y) (k : Nat) (hk : k ≤ moons (fa y) + 8) :
    core (chain cfg y k) = core (shift (katDay cfg y) (y + 542) (ext (fa y) (fv cfg y) k)) := by
  unfold ext
  by_cases hc : k ≤ moons (fa y)
  · rw [if_pos hc]; exact (chain_core h.toRegular k hc).1
  · rw [if_neg hc]
    obtain ⟨j, rfl⟩ : ∃ j, k = moons (fa y) + j := ⟨k - moons (fa y), by omega⟩
    rw [chain_add cfg y _ (y + 1) (chain_close h.toRegular h.lo' h.hi') j, (chain_first h.lo' h.hi' j).1 (by omega),
      shift_next, Nat.add_sub_cancel_left]

theorem chain_day_ext {cfg : Config} {y : Int} (h : Regular2 cfg y) (k : Nat) (hk : k ≤ moons (fa y) + 8) :
    (chain cfg y k).Date.day = katDay cfg y + eoff (fa y) (fv cfg y) k := by
  have : (chain cfg y k).Date = (shift (katDay cfg y) (y + 542) (ext (fa y) (fv cfg y) k)).Date := by
    have := congrArg UposathaMoon.Date (chain_ext h k hk); exact this
  rw [this, day_shift]; unfold eoff; omega

/-- The last entry of the extended table lies beyond the year, so the table covers the whole list. -/
theorem generate_table {cfg : Config} {y : Int} (h : Regular2 cfg y) :
    generateSolarYear cfg y = emitted cfg y 0 (moons (fa y) + 8) := by
  apply generate_eq
  have hd := chain_day_ext h (moons (fa y) + 8) (Nat.le_refl _)
  have hl : ∀ a v : Bool, (a && v) = false → eoff a v (moons a + 8) = len a v + 118 := by decide +kernel
  rw [hl _ _ h.excl] at hd
  have h1 := katDay_succ cfg y
  rw [len_eq] at h1
  have h2 := h.lo'
  have : ¬ (chain cfg y (moons (fa y) + 8)).Date.year ≤ y := by
    unfold Time.year
    rw [year_le_iff]
    generalize len _ _ = L at *
    omega
  omega

theorem year_iff {cfg : Config} {y : Int} (h : Regular2 cfg y) (k : Nat) (hk : k ≤ moons (fa y) + 8) (n : Int) :
    (yearYday ((chain cfg y k).Date.day + n)).1 = y ↔
      (daysSinceEpoch y - katDay cfg y ≤ eoff (fa y) (fv cfg y) k + n ∧
       eoff (fa y) (fv cfg y) k + n < daysSinceEpoch (y + 1) - katDay cfg y) := by
  rw [year_eq_iff, chain_day_ext h k hk]; omega

/-- With the Kattika at most 74 days before New Year the moons agree with the table including their events. -/
theorem chain_exact {cfg : Config} {y : Int} (h : Regular2 cfg y) (h74 : daysSinceEpoch y - 74 ≤ katDay cfg y)
    (k : Nat) (hk : k ≤ moons (fa y) + 5) :
    chain cfg y k = shift (katDay cfg y) (y + 542) (ext (fa y) (fv cfg y) k) := by
  have first : ∀ k, k ≤ moons (fa y) →
      chain cfg y k = shift (katDay cfg y) (y + 542) (tab (fa y) (fv cfg y) k) := by
    intro k
    induction k with
    | zero => intro _; rw [chain, seed_eq h.lo h.hi]; rfl
    | succ k ih =>
      intro hk
      have hm26 : moons (fa y) ≤ 26 := by unfold moons; split <;> omega
      have ht := tab_facts (fa y) (fv cfg y) h.excl ⟨k, by omega⟩ (by show k < _; omega)
      simp only at ht
      obtain ⟨-, ho1, ho2, -, hc⟩ := ht
      rw [chain, next_eq_step, ih (by omega), step_shift]
      rcases Int.lt_or_le (off (fa y) (fv cfg y) k) 74 with ho | ho
      · rw [hc ho]
      · have hyear : (shift (katDay cfg y) (y + 542) (tab (fa y) (fv cfg y) k)).Date.year = y := by
          unfold Time.year
          rw [year_eq_iff, day_shift]
          have h1 := katDay_succ cfg y
          rw [len_eq] at h1
          have h3 := h.next_hi
          change _ ≤ off _ _ k + _ ∧ off _ _ k + _ < _
          omega
        rw [hyear]; rfl
  unfold ext
  by_cases hc : k ≤ moons (fa y)
  · rw [if_pos hc]; exact first k hc
  · rw [if_neg hc]
    obtain ⟨j, rfl⟩ : ∃ j, k = moons (fa y) + j := ⟨k - moons (fa y), by omega⟩
    rw [chain_add cfg y _ (y + 1) (chain_close h.toRegular h.lo' h.hi') j, (chain_first h.lo' h.hi' j).2 (by omega),
      shift_next, Nat.add_sub_cancel_left]

/-! ### Contiguous filters -/

theorem filter_range_interval (f : Nat → Int) (hf : ∀ j k, j ≤ k → f j ≤ f k) (lo hi : Int) (n : Nat) :
    ∃ p q, (List.range n).filter (fun k => decide (lo ≤ f k ∧ f k ≤ hi)) = List.range' p q ∧
      (0 < q → (p + q = n ∨ (p + q < n ∧ hi < f (n - 1))) ∧ lo ≤ f p) := by
  induction n with
  | zero => exact ⟨0, 0, rfl, by omega⟩
  | succ n ih =>
    obtain ⟨p, q, h1, h2⟩ := ih
    rw [List.range_succ, List.filter_append, h1]
    by_cases hP : lo ≤ f n ∧ f n ≤ hi
    · rcases Nat.eq_zero_or_pos q with hq | hq
      · subst hq
        exact ⟨n, 1, by simp [hP], fun _ => ⟨Or.inl rfl, hP.1⟩⟩
      · refine ⟨p, q + 1, ?_, ?_⟩
        · have := h2 hq
          have e : p + q = n := by
            rcases this.1 with h | h
            · exact h
            · have := hf (n - 1) n (by omega); omega
          rw [List.range'_concat, Nat.one_mul, e]
          simp [hP]
        · intro _
          have := h2 hq
          refine ⟨?_, this.2⟩
          rcases this.1 with h | h
          · left; omega
          · have := hf (n - 1) n (by omega); omega
    · refine ⟨p, q, by simp [hP], ?_⟩
      intro hq
      have := h2 hq
      refine ⟨?_, this.2⟩
      right
      have h3 := hf p n (by omega)
      refine ⟨by omega, ?_⟩
      simp only [Nat.add_sub_cancel]
      omega

end Verif.Lemmas
