import Verif.Lemmas.YearList
import Verif.Spec.Events
import Verif.Props.Uposatha
/-
Properties C20-C25: `GenerateSolarYear`.
-/
set_option autoImplicit false

namespace Verif.Props
open Verif.Go Verif.Model Verif.Spec Verif.Lemmas

theorem moon_eq (cfg : Config) (y : Int) (k : Nat) : moonAfterKattika cfg y k = chain cfg y k :=
  (chain_iterate cfg y k).symm

theorem addDays_zero (t : Time) : t.addDays 0 = t := by
  rw [addDays_eq]; simp [Time.add]

theorem majorEventsOf_pujas (u : UposathaMoon) (e : CalendarEvent) :
    e ∈ majorEventsOf u ↔ ∃ p ∈ pujas u.Event,
      e = .major { Date := u.Date.addDays p.2, Calendar := u.Calendar, Summary := p.1, Description := p.1 } := by
  unfold majorEventsOf pujas mkMajor
  by_cases h1 : u.Event = "magha"
  · simp [h1, addDays_zero]
  · by_cases h2 : u.Event = "vesakha"
    · simp [h2, addDays_zero]
    · by_cases h3 : u.Event = "asalha"
      · simp [h3, addDays_zero]
      · by_cases h4 : u.Event = "pavarana"
        · simp [h4, addDays_zero]
        · simp [h1, h2, h3, h4]

/-! ### C22 -/

/-- C22: the generation loop terminates for every year and setting. -/
theorem c22_terminates (cfg : Config) (y : Int) :
    generateSolarYear? cfg y = some (generateSolarYear cfg y) := by
  obtain ⟨n, h1, h2, -⟩ := generate_spec cfg y
  rw [h1, h2]

/-- C22: the uposathas returned are exactly those moons after the Kattika that fall in the year. -/
theorem c22_uposatha_iff (cfg : Config) (y : Int) (u : UposathaMoon) :
    .uposatha u ∈ generateSolarYear cfg y ↔
      ∃ k, 1 ≤ k ∧ u = published (moonAfterKattika cfg y k) ∧ u.Date.year = y := by
  rw [mem_generate]
  have key : ∀ w, CalendarEvent.uposatha u ∈ iterationEvents y w ↔ (u = w ∧ w.Date.year = y) := by
    intro w
    have hm : CalendarEvent.uposatha u ∉ majorEventsOf w := by
      rw [majorEventsOf_pujas]; rintro ⟨p, -, h⟩; cases h
    unfold iterationEvents
    by_cases h : w.Date.year = y <;> by_cases h2 : (w.Date.addDays 8).year = y <;> simp [h, h2, hm]
  simp only [key]
  constructor
  · rintro ⟨k, h1, h2⟩
    exact ⟨k + 1, by omega, by rw [moon_eq]; exact h1, by rw [h1]; exact h2⟩
  · rintro ⟨k, h0, h1, h2⟩
    obtain ⟨j, rfl⟩ : ∃ j, k = j + 1 := ⟨k - 1, by omega⟩
    rw [moon_eq] at h1
    exact ⟨j, h1, by rw [h1] at h2; exact h2⟩

/-- C22: the major events returned are exactly those attached to these uposathas. -/
theorem c22_major_iff (cfg : Config) (y : Int) (e : MajorEvent) :
    .major e ∈ generateSolarYear cfg y ↔
      ∃ k, 1 ≤ k ∧ (moonAfterKattika cfg y k).Date.year = y ∧
        ∃ p ∈ pujas (moonAfterKattika cfg y k).Event,
          e = majorOn ((moonAfterKattika cfg y k).Date.addDays p.2) p.1 := by
  rw [mem_generate]
  have cal : ∀ k, (chain cfg y k).Calendar = 0 := by
    intro k
    cases k with
    | zero => rfl
    | succ k =>
      rw [chain, next_eq_step]; unfold step
      simp only
      split <;> rfl
  have key : ∀ w, CalendarEvent.major e ∈ iterationEvents y w ↔ (w.Date.year = y ∧ ∃ p ∈ pujas w.Event,
      e = { Date := w.Date.addDays p.2, Calendar := w.Calendar, Summary := p.1, Description := p.1 }) := by
    intro w
    have hm := majorEventsOf_pujas w (.major e)
    unfold iterationEvents
    by_cases h : w.Date.year = y <;> by_cases h2 : (w.Date.addDays 8).year = y <;> simp [h, h2, hm]
  simp only [key]
  constructor
  · rintro ⟨k, h1, p, h2, h3⟩
    refine ⟨k + 1, by omega, by rw [moon_eq]; exact h1, p, by rw [moon_eq]; exact h2, ?_⟩
    rw [moon_eq, h3]
    unfold majorOn confirmed
    simp only [cal]
  · rintro ⟨k, h0, h1, p, h2, h3⟩
    obtain ⟨j, rfl⟩ : ∃ j, k = j + 1 := ⟨k - 1, by omega⟩
    rw [moon_eq] at h1 h2 h3
    refine ⟨j, h1, p, h2, ?_⟩
    rw [h3]
    unfold majorOn confirmed
    simp only [cal]

/-- C22: everything returned is dated in the year, except that the first day of Vassa is the day after a full moon
of the year. Only uposathas, half moons and major events are returned. -/
theorem c22_in_year (cfg : Config) (y : Int) (e : CalendarEvent) (h : e ∈ generateSolarYear cfg y) :
    (e.getDate.year = y ∨ ∃ t : Time, t.year = y ∧ e = .major (majorOn (t.addDays 1) "First day of Vassa")) ∧
    (∀ m, e ≠ .astro m) ∧ (∀ m, e ≠ .event m) := by
  cases e with
  | uposatha u => exact ⟨Or.inl ((c22_uposatha_iff cfg y u).1 h).choose_spec.2.2, by simp, by simp⟩
  | half m =>
    refine ⟨Or.inl ?_, by simp, by simp⟩
    rw [mem_generate] at h
    obtain ⟨k, h⟩ := h
    have hm : CalendarEvent.half m ∉ majorEventsOf (confirmed (chain cfg y (k + 1))) := by
      rw [majorEventsOf_pujas]; rintro ⟨p, -, h⟩; cases h
    unfold iterationEvents at h
    simp only [List.mem_append] at h
    rcases h with (h | h) | h
    · split at h <;> simp at h
    · split at h
      · rename_i hc; simp only [List.mem_singleton, CalendarEvent.half.injEq] at h
        rw [h]; exact hc
      · simp at h
    · split at h
      · exact absurd h hm
      · simp at h
  | major e =>
    refine ⟨?_, by simp, by simp⟩
    obtain ⟨k, -, h1, p, h2, h3⟩ := (c22_major_iff cfg y e).1 h
    generalize moonAfterKattika cfg y k = u at *
    unfold pujas at h2
    by_cases c3 : p.2 = 0
    · left
      rw [h3, c3]
      show (u.Date.addDays 0).year = y
      rw [addDays_zero]; exact h1
    · right
      refine ⟨u.Date, h1, ?_⟩
      have : p = ("First day of Vassa", 1) := by
        split at h2
        · simp at h2; rw [h2] at c3; simp at c3
        · split at h2
          · simp at h2; rw [h2] at c3; simp at c3
          · split at h2
            · simp at h2; rcases h2 with h2 | h2
              · rw [h2] at c3; simp at c3
              · exact h2
            · split at h2
              · simp at h2; rcases h2 with h2 | h2 <;> rw [h2] at c3 <;> simp at c3
              · simp at h2
      rw [h3, this]
  | astro m =>
    exfalso
    rw [mem_generate] at h
    obtain ⟨k, h⟩ := h
    have hm : CalendarEvent.astro m ∉ majorEventsOf (confirmed (chain cfg y (k + 1))) := by
      rw [majorEventsOf_pujas]; rintro ⟨p, -, h⟩; cases h
    unfold iterationEvents at h
    simp only [List.mem_append] at h
    rcases h with (h | h) | h <;> split at h <;> simp_all
  | event m =>
    exfalso
    rw [mem_generate] at h
    obtain ⟨k, h⟩ := h
    have hm : CalendarEvent.event m ∉ majorEventsOf (confirmed (chain cfg y (k + 1))) := by
      rw [majorEventsOf_pujas]; rintro ⟨p, -, h⟩; cases h
    unfold iterationEvents at h
    simp only [List.mem_append] at h
    rcases h with (h | h) | h <;> split at h <;> simp_all

/-- C22: an event of 2015. -/
example : CalendarEvent.half { Date := date 2015 8 7 0 0, Phase := "waning" } ∈ generateSolarYear .default 2015 := by decide +kernel

/-! ### C23 -/

/-- C23: the half moons returned are exactly the eighth days after the uposathas, waxing after a new moon and waning
after a full one, that fall in the year. -/
theorem c23_half_iff (cfg : Config) (y : Int) (m : HalfMoon) :
    .half m ∈ generateSolarYear cfg y ↔
      ∃ k, 1 ≤ k ∧ m.Date = (moonAfterKattika cfg y k).Date.addDays 8 ∧ m.Date.year = y ∧
        ((moonAfterKattika cfg y k).Phase = "new" ∧ m.Phase = "waxing" ∨
         (moonAfterKattika cfg y k).Phase = "full" ∧ m.Phase = "waning") := by
  rw [mem_generate]
  have key : ∀ w, CalendarEvent.half m ∈ iterationEvents y w ↔
      (m.Date = w.Date.addDays 8 ∧ m.Phase = halfPhase w.Phase ∧ m.Date.year = y) := by
    intro w
    have hm : CalendarEvent.half m ∉ majorEventsOf w := by
      rw [majorEventsOf_pujas]; rintro ⟨p, -, h⟩; cases h
    unfold iterationEvents
    have hmk : ∀ d p, m = { Date := d, Phase := p } ↔ (m.Date = d ∧ m.Phase = p) := by
      intro d p; cases m; simp
    have hy : ∀ d : Time, (m.Date = d ∧ m.Date.year = y) ↔ (m.Date = d ∧ d.year = y) := by
      intro d; constructor <;> rintro ⟨h, h'⟩ <;> exact ⟨h, by simpa [h] using h'⟩
    by_cases h : w.Date.year = y <;> by_cases h2 : (w.Date.addDays 8).year = y <;> simp [h, h2, hm, hmk] <;>
      intro h3 <;> simp [h3, h2]
  simp only [key]
  have ph : ∀ k, (chain cfg y k).Phase = "new" ∨ (chain cfg y k).Phase = "full" := by
    intro k
    cases k with
    | zero => right; rfl
    | succ k =>
      have := (c17_alternation cfg (chain cfg y k)).1
      rw [chain, this]; split <;> simp
  constructor
  · rintro ⟨k, h1, h2, h3⟩
    refine ⟨k + 1, by omega, by rw [moon_eq]; exact h1, h3, ?_⟩
    rw [moon_eq, h2]
    show _ ∨ _
    rcases ph (k + 1) with h | h
    · left; refine ⟨h, ?_⟩; show halfPhase (chain cfg y (k+1)).Phase = _; rw [h]; rfl
    · right; refine ⟨h, ?_⟩; show halfPhase (chain cfg y (k+1)).Phase = _; rw [h]; rfl
  · rintro ⟨k, h0, h1, h2, h3⟩
    obtain ⟨j, rfl⟩ : ∃ j, k = j + 1 := ⟨k - 1, by omega⟩
    rw [moon_eq] at h1 h3
    refine ⟨j, h1, ?_, h2⟩
    show _ = halfPhase (chain cfg y (j + 1)).Phase
    rcases h3 with ⟨h, h'⟩ | ⟨h, h'⟩ <;> rw [h, h'] <;> rfl

/-- C23: the eighth day lies strictly between an uposatha and the next. -/
theorem c23_between (cfg : Config) (y : Int) (k : Nat) :
    (moonAfterKattika cfg y k).Date.before ((moonAfterKattika cfg y k).Date.addDays 8) = true ∧
    ((moonAfterKattika cfg y k).Date.addDays 8).before (moonAfterKattika cfg y (k + 1)).Date = true := by
  rw [moon_eq, moon_eq]
  have h := next_days cfg (chain cfg y k)
  rw [chain, h.1, addDays_eq]
  unfold Time.before Time.add nsPerDay
  simp only [decide_eq_true_eq]
  omega

/-- C23: after the Kattika full moon of 2014. -/
example : (moonAfterKattika .default 2015 0).Date = date 2014 11 6 0 0 ∧ (moonAfterKattika .default 2015 1).Date = date 2014 11 21 0 0 := by
  decide +kernel

/-! ### C20 -/

theorem uposathas_emitted (cfg : Config) (y : Int) (k m : Nat) :
    uposathasOf (emitted cfg y k m) =
      ((List.range m).filter (fun i => decide ((chain cfg y (k + i + 1)).Date.year = y))).map
        (fun i => published (chain cfg y (k + i + 1))) := by
  have one : ∀ w, uposathasOf (iterationEvents y w) = if w.Date.year = y then [w] else [] := by
    intro w
    have hm : uposathasOf (majorEventsOf w) = [] := by
      unfold uposathasOf
      rw [List.filterMap_eq_nil_iff]
      intro e he
      rw [majorEventsOf_pujas] at he
      obtain ⟨p, -, rfl⟩ := he; rfl
    unfold uposathasOf at hm
    unfold uposathasOf iterationEvents
    by_cases h : w.Date.year = y <;> by_cases h2 : (w.Date.addDays 8).year = y <;> simp [h, h2, hm]
  induction m with
  | zero => rfl
  | succ m ih =>
    rw [emitted_append]
    have : uposathasOf (emitted cfg y k m ++ emitted cfg y (k + m) 1) =
      uposathasOf (emitted cfg y k m) ++ uposathasOf (emitted cfg y (k + m) 1) := by
      unfold uposathasOf; rw [List.filterMap_append]
    rw [this, ih, List.range_succ, List.filter_append, List.map_append]
    have hlast : uposathasOf (emitted cfg y (k + m) 1) =
        (([m] : List Nat).filter (fun i => decide ((chain cfg y (k + i + 1)).Date.year = y))).map
          (fun i => published (chain cfg y (k + i + 1))) := by
      unfold emitted
      simp only [List.range_one, List.flatMap_cons, List.flatMap_nil, List.append_nil, one, Nat.add_zero]
      have e : (confirmed (chain cfg y (k + m + 1))).Date = (chain cfg y (k + m + 1)).Date := rfl
      rw [e]
      by_cases h : (chain cfg y (k + m + 1)).Date.year = y
      · rw [if_pos h, List.filter_singleton, decide_eq_true h]; rfl
      · rw [if_neg h, List.filter_singleton, decide_eq_false h]; rfl
    rw [hlast]

/-- Consecutive windows of a monotone function filter to consecutive parts. -/
theorem filter_split (f : Nat → Int) (hf : ∀ j k, j ≤ k → f j ≤ f k) (lo mid hi : Int) (h1 : lo ≤ mid) (h2 : mid ≤ hi)
    (n : Nat) : (List.range n).filter (fun k => decide (lo ≤ f k ∧ f k < mid)) ++
      (List.range n).filter (fun k => decide (mid ≤ f k ∧ f k < hi)) =
      (List.range n).filter (fun k => decide (lo ≤ f k ∧ f k < hi)) := by
  induction n with
  | zero => rfl
  | succ n ih =>
    rw [List.range_succ]
    simp only [List.filter_append]
    rw [← ih]
    by_cases hA : f n < mid
    · have he : (List.range n).filter (fun k => decide (mid ≤ f k ∧ f k < hi)) = [] := by
        rw [List.filter_eq_nil_iff]
        intro k hk
        have := hf k n (by have := List.mem_range.1 hk; omega)
        simp; omega
      have e1 : ¬ mid ≤ f n := by omega
      have e2 : f n < hi := by omega
      rw [he]; simp [List.filter_singleton, hA, e1, e2]
    · have e1 : mid ≤ f n := by omega
      have e2 : lo ≤ f n := by omega
      have e3 : f n < mid ↔ False := by constructor <;> simp [hA]
      simp [List.filter_singleton, e1, e2, e3]

theorem uposathas_run {cfg : Config} {a b : Int} (hs : Steady cfg 118 a b) (y : Int) (h1 : a ≤ y) (n : Nat) : y + n ≤ b + 1 →
    (y + n ≤ b → ∃ M, chain cfg y M = kattikaSeed cfg (y + n)) ∧
    ∃ m0, ∀ m, m0 ≤ m →
      ((List.range n).flatMap fun i : Nat => uposathasOf (generateSolarYear cfg (y + (i : Int)))) =
        ((List.range m).filter (fun i => decide (y ≤ (chain cfg y (i + 1)).Date.year ∧
          (chain cfg y (i + 1)).Date.year < y + n))).map (fun i => published (chain cfg y (i + 1))) := by
  induction n with
  | zero =>
    intro _
    refine ⟨fun _ => ⟨0, by simp [chain]⟩, 0, fun m _ => ?_⟩
    symm
    simp only [List.range_zero, List.flatMap_nil, List.map_eq_nil_iff, List.filter_eq_nil_iff]
    intro a _; simp
  | succ n ih =>
    intro hn
    obtain ⟨hM, m0, hm0⟩ := ih (by omega)
    obtain ⟨M, hM⟩ := hM (by omega)
    have hadd := chain_add cfg y M (y + n) hM
    have w2 : katDay cfg (y + n) < _ := hs.notLate (y + n) (by omega) (by omega)
    refine ⟨fun hle => ?_, ?_⟩
    · have hr := hs.regular (Int.le_refl _) (y := y + n) (by omega) (by omega)
      have hc := chain_close hr.toRegular hr.lo' hr.hi'
      refine ⟨M + moons (fa (y + n)), ?_⟩
      rw [hadd, hc]; congr 1; omega
    · obtain ⟨m1, hm1⟩ := exists_beyond cfg (y + n)
      refine ⟨max m0 (M + m1), fun m hm => ?_⟩
      rw [List.range_succ, List.flatMap_append, List.flatMap_cons, List.flatMap_nil, List.append_nil,
        hm0 m (by omega)]
      obtain ⟨p, rfl⟩ : ∃ p, m = M + p := ⟨m - M, by omega⟩
      rw [generate_eq (hm1 p (by omega)), uposathas_emitted]
      have hsplit := filter_split (fun i => (chain cfg y (i + 1)).Date.year)
        (fun j k h => chain_year_mono cfg y (by omega)) y (y + n) (y + n + 1) (by omega) (by omega) (M + p)
      have e : y + ((n + 1 : Nat) : Int) = y + n + 1 := by omega
      rw [e, ← hsplit, List.map_append]
      congr 1
      rw [List.range_add, List.filter_append, List.map_append]
      have hz : (List.range M).filter (fun k => decide (y + n ≤ (chain cfg y (k + 1)).Date.year ∧
          (chain cfg y (k + 1)).Date.year < y + n + 1)) = [] := by
        rw [List.filter_eq_nil_iff]
        intro k hk
        have hk' := List.mem_range.1 hk
        have h3 := chain_day_mono cfg y (j := k + 1) (k := M) (by omega)
        have h4 : (chain cfg y M).Date.day = katDay cfg (y + n) := by rw [hM]; rfl
        have : (chain cfg y (k + 1)).Date.year ≤ y + n - 1 := by
          unfold Time.year; rw [year_le_iff]
          have e5 : y + n - 1 + 1 = y + n := by omega
          rw [e5]; omega
        simp; omega
      rw [hz, List.map_nil, List.nil_append, List.filter_map, List.map_map]
      have hc1 : ∀ i, chain cfg (y + n) (0 + i + 1) = chain cfg y (M + i + 1) := by
        intro i; rw [Nat.zero_add, Nat.add_assoc, hadd]
      simp only [hc1]
      have hf : ∀ t : Int, (t = y + n) ↔ (y + n ≤ t ∧ t < y + n + 1) := by intro t; omega
      simp only [hf]
      rfl

/-- C20: the uposathas of any run of consecutive years within the years where the settings are steady, concatenated, form
one unbroken chain of `NextUposatha` steps: nothing is missing or duplicated at a year boundary. -/
theorem c20_continuity_steady (cfg : Config) (a b : Int) (hs : Steady cfg 118 a b) (y : Int) (n : Nat) (h1 : a ≤ y)
    (h2 : y + n ≤ b + 1) :
    ((List.range n).flatMap fun i : Nat => uposathasOf (generateSolarYear cfg (y + (i : Int)))).IsChain
      (fun a b => b = published (a.nextUposatha cfg)) := by
  obtain ⟨-, m0, h⟩ := uposathas_run hs y h1 n h2
  rw [h m0 (Nat.le_refl _)]
  obtain ⟨p, q, hpq, -⟩ := filter_range_interval (fun i => (chain cfg y (i + 1)).Date.year)
    (fun j k h => chain_year_mono cfg y (by omega)) y (y + n - 1) m0
  have hf : ∀ t : Int, (y ≤ t ∧ t < y + n) ↔ (y ≤ t ∧ t ≤ y + n - 1) := by intro t; omega
  simp only [hf]
  rw [hpq, List.isChain_map]
  refine (List.isChain_range' p q 1).imp ?_
  rintro a b rfl
  rfl

/-- C20: the uposathas of ten years. -/
example : ((List.range 10).flatMap fun i : Nat => uposathasOf (generateSolarYear .default (2010 + (i : Int)))).IsChain
    (fun a b => b = published (a.nextUposatha .default)) :=
  c20_continuity_steady .default 631 4116 (shipped_steady (Or.inl rfl)) 2010 10 (by decide) (by decide)

/-- C20: the uposathas of any run of consecutive years within 631..4116, concatenated, form one unbroken chain of
`NextUposatha` steps: nothing is missing or duplicated at a year boundary. -/
theorem c20_continuity (cfg : Config) (hs : Shipped cfg) (y : Int) (n : Nat) (h1 : 631 ≤ y) (h2 : y + n ≤ 4117) :
    ((List.range n).flatMap fun i : Nat => uposathasOf (generateSolarYear cfg (y + (i : Int)))).IsChain
      (fun a b => b = published (a.nextUposatha cfg)) :=
  c20_continuity_steady cfg 631 4116 (shipped_steady hs) y n h1 (by omega)

/-- The run of C20 is not empty: two named years. -/
example : Shipped .default ∧ (631 : Int) ≤ 2015 ∧ (2015 : Int) + (2 : Nat) ≤ 4117 := ⟨Or.inl rfl, by decide, by decide⟩

theorem chain_zero_day (cfg : Config) (y : Int) : (chain cfg y 0).Date.day = katDay cfg y := rfl

/-- C20 fails beyond the interval: the full moon of the Kattika of 4117 is not among the uposathas of any year. -/
theorem c20_lost_4117 : (calculatePreviousKattika .default 4117).year = 4117 ∧
    published (moonAfterKattika .default 4116 (if (SuriyaYear.init 4116).isAdhikamasa = true then 26 else 24)) =
      published { kattikaSeed .default 4117 with LunarYear := 4659 } ∧
    ∀ (z : Int) (u : UposathaMoon), .uposatha u ∈ generateSolarYear .default z →
      u.Date ≠ calculatePreviousKattika .default 4117 := by
  have hy : (calculatePreviousKattika .default 4117).year = 4117 := by
    unfold Time.year
    rw [year_eq_iff]
    have w := window_4117
    have hm := daysSinceEpoch_mono (a := 4117) (b := 4117 + 1) (by omega)
    unfold katDay at w
    omega
  refine ⟨hy, ?_, ?_⟩
  · have := chain_last regular_4116
    rw [chain_iterate] at this
    unfold moonAfterKattika
    have e : moons (fa 4116) = if (SuriyaYear.init 4116).isAdhikamasa = true then 26 else 24 := rfl
    rw [e] at this
    rw [this]
    unfold kattikaSeed
    simp only
    rw [kattika_eq]
    simp [shift, seed0, Time.add]
  · intro z u hu hd
    obtain ⟨k, hk, h1, h2⟩ := (c22_uposatha_iff _ _ _).1 hu
    rw [hd, hy] at h2
    subst h2
    rw [h1, moon_eq] at hd
    have hm := chain_day_mono .default 4117 (j := 0) (k := k) (by omega)
    have h3 : (chain .default 4117 k).Date.day = katDay .default 4117 := by
      unfold katDay; rw [← hd]; unfold published; rfl
    have h4 := chain_zero_day .default 4117
    omega

/-! ### C24 -/

theorem halves_emitted (cfg : Config) (y : Int) (k m : Nat) :
    halvesOf (emitted cfg y k m) =
      ((List.range m).filter (fun i => decide (((chain cfg y (k + i + 1)).Date.addDays 8).year = y))).map
        (fun i => { Date := (chain cfg y (k + i + 1)).Date.addDays 8, Phase := halfPhase (chain cfg y (k + i + 1)).Phase }) := by
  have one : ∀ w, halvesOf (iterationEvents y w) = if (w.Date.addDays 8).year = y then
      [{ Date := w.Date.addDays 8, Phase := halfPhase w.Phase }] else [] := by
    intro w
    have hm : halvesOf (majorEventsOf w) = [] := by
      unfold halvesOf
      rw [List.filterMap_eq_nil_iff]
      intro e he
      rw [majorEventsOf_pujas] at he
      obtain ⟨p, -, rfl⟩ := he; rfl
    unfold halvesOf at hm
    unfold halvesOf iterationEvents
    by_cases h : w.Date.year = y <;> by_cases h2 : (w.Date.addDays 8).year = y <;> simp [h, h2, hm]
  induction m with
  | zero => rfl
  | succ m ih =>
    rw [emitted_append]
    have : halvesOf (emitted cfg y k m ++ emitted cfg y (k + m) 1) =
      halvesOf (emitted cfg y k m) ++ halvesOf (emitted cfg y (k + m) 1) := by
      unfold halvesOf; rw [List.filterMap_append]
    rw [this, ih, List.range_succ, List.filter_append, List.map_append]
    have hlast : halvesOf (emitted cfg y (k + m) 1) =
        (([m] : List Nat).filter (fun i => decide (((chain cfg y (k + i + 1)).Date.addDays 8).year = y))).map
          (fun i => { Date := (chain cfg y (k + i + 1)).Date.addDays 8,
                      Phase := halfPhase (chain cfg y (k + i + 1)).Phase }) := by
      unfold emitted
      simp only [List.range_one, List.flatMap_cons, List.flatMap_nil, List.append_nil, one, Nat.add_zero]
      have e : (confirmed (chain cfg y (k + m + 1))).Date = (chain cfg y (k + m + 1)).Date := rfl
      rw [e]
      by_cases h : ((chain cfg y (k + m + 1)).Date.addDays 8).year = y
      · rw [if_pos h, List.filter_singleton, decide_eq_true h]; rfl
      · rw [if_neg h, List.filter_singleton, decide_eq_false h]; rfl
    rw [hlast]

/-- Number of table entries whose day plus `n` falls within `D` days from day `s`. -/
def hits (a v : Bool) (n s D : Int) : Nat := (offs a v).countP (fun o => decide (s ≤ o + n ∧ o + n < s + D))

/-- 24 or 25 uposathas and half moons. -/
def countOk (a v : Bool) (s D : Int) : Bool :=
  (hits a v 0 s D == 24 || hits a v 0 s D == 25) && (hits a v 8 s D == 24 || hits a v 8 s D == 25)

/-- Counting table entries: for each kind of lunar year, every possible distance of New Year from the Kattika and both
solar year lengths. -/
theorem count_table : ∀ a v : Bool, (a && v) = false → ∀ l : Bool,
    scanAll (fun s => !(decide (1 ≤ s + (if l then 366 else 365) - len a v ∧
      s + (if l then 366 else 365) - len a v ≤ 118)) || countOk a v s (if l then 366 else 365)) 118 1 = true := by
  decide +kernel

theorem count_filter {cfg : Config} {y : Int} (h : Regular2 cfg y) (n : Int) :
    ((List.range (moons (fa y) + 8)).filter (fun i =>
      decide ((yearYday ((chain cfg y (0 + i + 1)).Date.day + n)).1 = y))).length =
    (offs (fa y) (fv cfg y)).countP (fun o => decide (daysSinceEpoch y - katDay cfg y ≤ o + n ∧
      o + n < daysSinceEpoch (y + 1) - katDay cfg y)) := by
  rw [← offs_eq _ _ h.excl, List.countP_map, List.countP_eq_length_filter]
  congr 1
  apply List.filter_congr
  intro i hi
  have hi' := List.mem_range.1 hi
  rw [Nat.zero_add]
  simp only [Function.comp, year_iff h (i + 1) (by omega) n]

theorem counts {cfg : Config} {y : Int} (h : Regular2 cfg y) :
    ((uposathasOf (generateSolarYear cfg y)).length = 24 ∨ (uposathasOf (generateSolarYear cfg y)).length = 25) ∧
    ((halvesOf (generateSolarYear cfg y)).length = 24 ∨ (halvesOf (generateSolarYear cfg y)).length = 25) := by
  rw [generate_table h, uposathas_emitted, halves_emitted, List.length_map, List.length_map]
  have e1 : ∀ i, ((chain cfg y (0 + i + 1)).Date.addDays 8).year = (yearYday ((chain cfg y (0 + i + 1)).Date.day + 8)).1 := by
    intro i; unfold Time.year; rw [addDays_eq, day_add]
  have e0 : ∀ i, ((chain cfg y (0 + i + 1)).Date).year = (yearYday ((chain cfg y (0 + i + 1)).Date.day + 0)).1 := by
    intro i; unfold Time.year; rw [Int.add_zero]
  simp only [e1, e0]
  rw [count_filter h 8, count_filter h 0]
  have hsucc := daysSinceEpoch_succ y
  have hyd := yearDays_bounds y
  have hk := katDay_succ cfg y
  rw [len_eq] at hk
  have h1 := h.lo
  have h2 := h.hi
  have h3 := h.lo'
  have h4 := h.hi'
  have ht := count_table (fa y) (fv cfg y) h.excl (decide (Spec.yearDays y = 366))
  have eD : (if decide (Spec.yearDays y = 366) = true then (366 : Int) else 365) = Spec.yearDays y := by
    simp only [decide_eq_true_eq]; split <;> omega
  rw [eD] at ht
  have ht := scanAll_spec ht (daysSinceEpoch y - katDay cfg y) (by omega) (by omega)
  have eN : daysSinceEpoch (y + 1) - katDay cfg y = daysSinceEpoch y - katDay cfg y + Spec.yearDays y := by omega
  rw [eN]
  have hcond : 1 ≤ daysSinceEpoch y - katDay cfg y + Spec.yearDays y - len (fa y) (fv cfg y) ∧
      daysSinceEpoch y - katDay cfg y + Spec.yearDays y - len (fa y) (fv cfg y) ≤ 118 := by
    generalize len _ _ = L at *
    omega
  rw [decide_eq_true hcond] at ht
  simp only [Bool.not_true, Bool.false_or, countOk, Bool.and_eq_true, Bool.or_eq_true, beq_iff_eq] at ht
  exact ht

/-- C24: every year of steady settings, except the last, has 24 or 25 uposathas and 24 or 25 half moons. -/
theorem c24_counts_steady (cfg : Config) (a b : Int) (hs : Steady cfg 118 a b) (y : Int) (h1 : a ≤ y) (h2 : y < b) :
    ((uposathasOf (generateSolarYear cfg y)).length = 24 ∨ (uposathasOf (generateSolarYear cfg y)).length = 25) ∧
    ((halvesOf (generateSolarYear cfg y)).length = 24 ∨ (halvesOf (generateSolarYear cfg y)).length = 25) :=
  counts (hs.regular (Int.le_refl _) h1 h2)

/-- C24: both counts of uposathas occur. -/
example : (uposathasOf (generateSolarYear .default 2014)).length = 24 ∧ (uposathasOf (generateSolarYear .default 2015)).length = 25 := by
  decide +kernel

/-- C24: every year from 631 to 4115 has 24 or 25 uposathas and 24 or 25 half moons. -/
theorem c24_counts (cfg : Config) (hs : Shipped cfg) (y : Int) (h1 : 631 ≤ y) (h2 : y ≤ 4115) :
    ((uposathasOf (generateSolarYear cfg y)).length = 24 ∨ (uposathasOf (generateSolarYear cfg y)).length = 25) ∧
    ((halvesOf (generateSolarYear cfg y)).length = 24 ∨ (halvesOf (generateSolarYear cfg y)).length = 25) :=
  counts (shipped_regular hs h1 h2)

/-- C24: both counts of half moons occur. -/
example : (halvesOf (generateSolarYear .official 2014)).length = 25 ∧ (halvesOf (generateSolarYear .official 2015)).length = 24 := by
  decide +kernel

/-! ### C21 -/

theorem majors_emitted (cfg : Config) (y : Int) (m : Nat) :
    majorsOf (emitted cfg y 0 m) = (List.range m).flatMap (fun i =>
      if (chain cfg y (i + 1)).Date.year = y then majorsOf (majorEventsOf (chain cfg y (i + 1))) else []) := by
  have one : ∀ w, majorsOf (iterationEvents y (confirmed w)) =
      if w.Date.year = y then majorsOf (majorEventsOf w) else [] := by
    intro w
    have e : majorEventsOf (confirmed w) = majorEventsOf w := rfl
    have e' : (confirmed w).Date = w.Date := rfl
    unfold majorsOf iterationEvents
    rw [e, e']
    by_cases h : w.Date.year = y <;> by_cases h2 : (w.Date.addDays 8).year = y <;> simp [h, h2]
  unfold emitted
  have hf : ∀ (l : List Nat) (g : Nat → List CalendarEvent), majorsOf (l.flatMap g) = l.flatMap (fun i => majorsOf (g i)) := by
    intro l g
    induction l with
    | nil => rfl
    | cons a l ih =>
      simp only [List.flatMap_cons]
      rw [← ih]
      unfold majorsOf; rw [List.filterMap_append]
  rw [hf]
  simp only [one, Nat.zero_add]

/-- Move a major event by `d` days. -/
def shiftE (d : Int) (e : MajorEvent) : MajorEvent := { e with Date := e.Date.add (d * nsPerDay) }

theorem majors_shift (d ly : Int) (u : UposathaMoon) :
    majorsOf (majorEventsOf (shift d ly u)) = (majorsOf (majorEventsOf u)).map (shiftE d) := by
  have hadd : (u.Date.add (d * nsPerDay)).addDays 1 = (u.Date.addDays 1).add (d * nsPerDay) := by
    rw [addDays_eq, addDays_eq]
    unfold Time.add; simp only [Time.mk.injEq, and_true]; omega
  unfold majorsOf majorEventsOf mkMajor shift
  simp only [hadd]
  by_cases h1 : u.Event = "magha"
  · simp [h1, shiftE]
  · by_cases h2 : u.Event = "vesakha"
    · simp [h2, shiftE]
    · by_cases h3 : u.Event = "asalha"
      · simp [h3, shiftE]
      · by_cases h4 : u.Event = "pavarana"
        · simp [h4, shiftE]
        · simp [h1, h2, h3, h4]

/-- A major event `n` days after day 0. -/
def major0 (n : Int) (name : String) : MajorEvent := majorOn ⟨n * nsPerDay, 0⟩ name

/-- Days from the Kattika to Magha and Vesakha Puja. -/
def maghaOff (a : Bool) : Int := if a then 118 else 89
/-- See `maghaOff`. -/
def vesakhaOff (a : Bool) : Int := if a then 207 else 177

theorem majors_table : ∀ a v : Bool, (a && v) = false →
    (List.range (moons a + 5)).flatMap (fun i => majorsOf (majorEventsOf (ext a v (i + 1)))) =
      [major0 (maghaOff a) "Māgha Pūjā", major0 (vesakhaOff a) "Vesākha Pūjā",
       major0 (len a v - 118) "Āsāḷha Pūjā", major0 (len a v - 117) "First day of Vassa",
       major0 (len a v - 29) "Pavāraṇā Day", major0 (len a v - 29) "Last day of Vassa"] := by
  decide +kernel

theorem events_table : ∀ a v : Bool, (a && v) = false → ∀ i : Fin 31, i.val < moons a + 5 →
    majorsOf (majorEventsOf (ext a v (i + 1))) ≠ [] → 74 ≤ eoff a v (i + 1) ∧ eoff a v (i + 1) ≤ len a v := by
  decide +kernel

theorem majors_list {cfg : Config} {y : Int} (h : Regular2 cfg y) (h74 : daysSinceEpoch y - 74 ≤ katDay cfg y)
    (h74' : daysSinceEpoch (y + 1) - 74 ≤ katDay cfg (y + 1)) :
    majorsOf (generateSolarYear cfg y) =
      [major0 (maghaOff (fa y)) "Māgha Pūjā", major0 (vesakhaOff (fa y)) "Vesākha Pūjā",
       major0 (len (fa y) (fv cfg y) - 118) "Āsāḷha Pūjā", major0 (len (fa y) (fv cfg y) - 117) "First day of Vassa",
       major0 (len (fa y) (fv cfg y) - 29) "Pavāraṇā Day",
       major0 (len (fa y) (fv cfg y) - 29) "Last day of Vassa"].map (shiftE (katDay cfg y)) := by
  have hk := katDay_succ cfg y
  rw [len_eq] at hk
  have hbeyond : y < (chain cfg y (moons (fa y) + 5)).Date.year := by
    have hd := chain_day_ext h (moons (fa y) + 5) (by omega)
    have hl : ∀ a v : Bool, (a && v) = false → eoff a v (moons a + 5) = len a v + 74 := by decide +kernel
    rw [hl _ _ h.excl] at hd
    have : ¬ (chain cfg y (moons (fa y) + 5)).Date.year ≤ y := by
      unfold Time.year
      rw [year_le_iff]
      generalize len _ _ = L at *
      omega
    omega
  rw [generate_eq hbeyond, majors_emitted, ← majors_table _ _ h.excl, List.map_flatMap, List.flatMap_def,
    List.flatMap_def]
  congr 1
  apply List.map_congr_left
  intro i hi
  have hi' := List.mem_range.1 hi
  have hm : moons (fa y) ≤ 26 := by unfold moons; split <;> omega
  rw [chain_exact h h74 (i + 1) (by omega), majors_shift]
  by_cases he : majorsOf (majorEventsOf (ext (fa y) (fv cfg y) (i + 1))) = []
  · rw [he]; simp
  · rw [if_pos]
    have ht := events_table (fa y) (fv cfg y) h.excl ⟨i, by omega⟩ hi' he
    simp only at ht
    unfold Time.year
    rw [year_eq_iff, day_shift]
    have h3 := h.hi'
    change _ ≤ eoff _ _ _ + _ ∧ eoff _ _ _ + _ < _
    generalize eoff _ _ _ = o at *
    generalize len _ _ = L at *
    omega

/-- C21: with settings that are steady with at most 74 days between the Kattika full moon and the year, the major events
of a year are exactly these six, in this order; `A` is the value of `AsalhaPuja`. -/
theorem c21_majors_steady (cfg : Config) (a b : Int) (hs : Steady cfg 74 a b) (y : Int) (h1 : a ≤ y) (h2 : y < b) :
    let su := SuriyaYear.init y
    let A := su.asalhaPuja cfg
    let vesakha : Int := if su.isAdhikamasa = false ∧ su.isAdhikavara cfg = true then -60 else -59
    let magha : Int := vesakha - (if su.isAdhikamasa = true then 89 else 88)
    majorsOf (generateSolarYear cfg y) =
      [majorOn (A.addDays magha) "Māgha Pūjā", majorOn (A.addDays vesakha) "Vesākha Pūjā",
       majorOn A "Āsāḷha Pūjā", majorOn (A.addDays 1) "First day of Vassa",
       majorOn (A.addDays 89) "Pavāraṇā Day", majorOn (A.addDays 89) "Last day of Vassa"] := by
  intro su A vesakha magha
  have hA : A = ⟨(katDay cfg y + (len (fa y) (fv cfg y) - 118)) * nsPerDay, 0⟩ := by
    have h := (c14_position cfg y).1
    rw [kattika_eq, katDay_succ, len_eq] at h
    have h' : A.add (118 * nsPerDay) = _ := h
    generalize len _ _ = L at *
    cases hA' : A
    rw [hA'] at h'
    simp only [Time.add, Time.mk.injEq] at h' ⊢
    unfold nsPerDay at *
    omega
  have hadd : ∀ n, A.addDays n = ⟨(katDay cfg y + (len (fa y) (fv cfg y) - 118) + n) * nsPerDay, 0⟩ := by
    intro n
    rw [hA, addDays_eq]; unfold Time.add; simp only [Time.mk.injEq, and_true]
    generalize len _ _ = L
    unfold nsPerDay; omega
  rw [majors_list (hs.regular (by omega) h1 h2) (hs.notEarly y h1 (by omega)) (hs.notEarly (y + 1) (by omega) (by omega))]
  have hs0 : ∀ n name, shiftE (katDay cfg y) (major0 n name) = majorOn ⟨(katDay cfg y + n) * nsPerDay, 0⟩ name := by
    intro n name
    unfold shiftE major0 majorOn Time.add
    simp only [Event.mk.injEq, Time.mk.injEq, and_true]
    unfold nsPerDay; omega
  simp only [List.map_cons, List.map_nil, hs0, hadd]
  have e0 : A = A.addDays 0 := (addDays_zero A).symm
  have hex := hs.excl h1 (Int.le_of_lt h2)
  have key : ∀ p q name, p = q → majorOn ⟨p * nsPerDay, 0⟩ name = majorOn ⟨q * nsPerDay, 0⟩ name := by
    intro p q name h; rw [h]
  rw [e0, hadd]
  have hv : vesakhaOff (fa y) = len (fa y) (fv cfg y) - 118 + vesakha ∧ maghaOff (fa y) = len (fa y) (fv cfg y) - 118 + magha := by
    have t : ∀ a b : Bool, (a && b) = false →
        vesakhaOff a = len a b - 118 + (if a = false ∧ b = true then (-60 : Int) else -59) ∧
        maghaOff a = len a b - 118 + ((if a = false ∧ b = true then (-60 : Int) else -59) - (if a = true then 89 else 88)) := by
      decide
    exact t _ _ hex
  rw [key _ _ _ (by rw [hv.2]; omega : katDay cfg y + maghaOff (fa y) = katDay cfg y + (len (fa y) (fv cfg y) - 118) + magha),
    key _ _ _ (by rw [hv.1]; omega : katDay cfg y + vesakhaOff (fa y) = katDay cfg y + (len (fa y) (fv cfg y) - 118) + vesakha)]
  generalize len _ _ = L
  rw [key _ _ "Āsāḷha Pūjā" (by omega : katDay cfg y + (L - 118) = katDay cfg y + (L - 118) + 0),
    key _ _ "First day of Vassa" (by omega : katDay cfg y + (L - 117) = katDay cfg y + (L - 118) + 1),
    key _ _ "Pavāraṇā Day" (by omega : katDay cfg y + (L - 29) = katDay cfg y + (L - 118) + 89),
    key _ _ "Last day of Vassa" (by omega : katDay cfg y + (L - 29) = katDay cfg y + (L - 118) + 89)]

/-- C21: the days of an adhikavāra year. -/
example : (SuriyaYear.init 2016).isAdhikavara .default = true ∧ (majorsOf (generateSolarYear .default 2016)).map (·.Date) =
    [date 2016 2 22 0 0, date 2016 5 20 0 0, date 2016 7 19 0 0, date 2016 7 20 0 0, date 2016 10 16 0 0, date 2016 10 16 0 0] := by
  decide +kernel

/-- C21: the days of an adhikamāsa year. -/
example : (SuriyaYear.init 2015).isAdhikamasa = true ∧ (majorsOf (generateSolarYear .official 2015)).map (·.Date) =
    [date 2015 3 4 0 0, date 2015 6 1 0 0, date 2015 7 30 0 0, date 2015 7 31 0 0, date 2015 10 27 0 0, date 2015 10 27 0 0] := by
  decide +kernel

/-! ### C25 -/

/-- C25: from 30000 on nothing is returned, because the Kattika lies after the whole solar year. -/
theorem c25_empty (y : Int) (h : 30000 ≤ y) :
    generateSolarYear .default y = [] ∧ y < (calculatePreviousKattika .default y).year := by
  have hc := katDay_closed (y := y) (by omega)
  have h1 := age_range y
  have h2 := carry_range y
  have h3 := tieAdh_range (y - 1)
  have h4 := surplus_nonneg y
  have h5 := daysSinceEpoch_bounds (y + 1)
  have h6 : daysSinceEpoch (y + 1) ≤ katDay .default y := by
    rw [hc]; unfold hor eraNum; omega
  have hy : ¬ (calculatePreviousKattika .default y).year ≤ y := by
    unfold Time.year
    rw [year_le_iff]
    unfold katDay at h6; omega
  refine ⟨?_, by omega⟩
  rw [generate_eq (m := 0) (by show y < (calculatePreviousKattika .default y).year; omega)]
  rfl

/-- C25: the year 100000. -/
example : generateSolarYear .default 100000 = [] := (c25_empty 100000 (by decide)).1

/-! ### C43 -/

/-- C43: a half moon is lost exactly when the Kattika full moon falls in the last eight days before the year: the
eighth day after it is in the year but neither this year nor any other returns it. -/
theorem c43_lost_half_moon_steady (cfg : Config) (a b : Int) (hs : Steady cfg 118 a b) (y : Int) (h1 : a ≤ y) (h2 : y ≤ b) :
    let h : HalfMoon := { Date := (calculatePreviousKattika cfg y).addDays 8, Phase := "waning" }
    (h.Date.year = y ∨ h.Date.year = y - 1) ∧
    (h.Date.year = y → ∀ z, .half h ∉ generateSolarYear cfg z) ∧
    (h.Date.year = y - 1 → a < y → .half h ∈ generateSolarYear cfg (y - 1)) := by
  intro h
  have w1 : _ ≤ katDay cfg y := hs.notEarly y h1 h2
  have w2 : katDay cfg y < _ := hs.notLate y h1 h2
  have hd : h.Date.day = katDay cfg y + 8 := by
    show ((calculatePreviousKattika cfg y).addDays 8).day = _
    rw [addDays_eq, day_add]; rfl
  have hs0 := daysSinceEpoch_succ (y - 1)
  have e : y - 1 + 1 = y := by omega
  rw [e] at hs0
  have hb := yearDays_bounds (y - 1)
  have hs1 := daysSinceEpoch_mono (a := y) (b := y + 1) (by omega)
  refine ⟨?_, ?_, ?_⟩
  · rcases Int.lt_or_le h.Date.day (daysSinceEpoch y) with hlt | hle
    · right; unfold Time.year; rw [year_eq_iff, e]; omega
    · left; unfold Time.year; rw [year_eq_iff]; omega
  · intro hy z hz
    obtain ⟨k, hk, hk1, hk2, -⟩ := (c23_half_iff _ _ _).1 hz
    rw [hy] at hk2
    subst hk2
    rw [moon_eq] at hk1
    have hm := chain_day_mono cfg y (j := 0) (k := k) (by omega)
    have h3 : h.Date.day = (chain cfg y k).Date.day + 8 := by rw [hk1, addDays_eq, day_add]
    have h4 := chain_zero_day cfg y
    omega
  · intro hy hay
    rw [c23_half_iff]
    have hr := hs.regular (Int.le_refl _) (y := y - 1) (by omega) (by omega)
    have hc := chain_close hr.toRegular hr.lo' hr.hi'
    rw [e] at hc
    refine ⟨moons (fa (y - 1)), ?_, ?_, hy, Or.inr ⟨?_, rfl⟩⟩
    · unfold moons; split <;> omega
    · rw [moon_eq, hc]; rfl
    · rw [moon_eq, hc]; rfl

/-- C43: in 2015 the half moon in question falls in the year before and is there. -/
example : CalendarEvent.half { Date := (calculatePreviousKattika .default 2015).addDays 8, Phase := "waning" } ∈ generateSolarYear .default 2014 :=
  (c43_lost_half_moon_steady .default 631 4116 (shipped_steady (Or.inl rfl)) 2015 (by decide) (by decide)).2.2 (by decide +kernel) (by decide)

/-- C43: the lost half moons of the shipped settings. -/
theorem c43_lost_half_moon (cfg : Config) (hs : Shipped cfg) (y : Int) (h1 : 631 ≤ y) (h2 : y ≤ 4116) :
    let h : HalfMoon := { Date := (calculatePreviousKattika cfg y).addDays 8, Phase := "waning" }
    (h.Date.year = y ∨ h.Date.year = y - 1) ∧
    (h.Date.year = y → ∀ z, .half h ∉ generateSolarYear cfg z) ∧
    (h.Date.year = y - 1 → 632 ≤ y → .half h ∈ generateSolarYear cfg (y - 1)) := by
  have := c43_lost_half_moon_steady cfg 631 4116 (shipped_steady hs) y h1 h2
  exact ⟨this.1, this.2.1, fun h3 h4 => this.2.2 h3 (by omega)⟩

/-- C43: in 3572 it falls in that year and is nowhere. -/
example : ∀ z, CalendarEvent.half { Date := (calculatePreviousKattika .default 3572).addDays 8, Phase := "waning" } ∉ generateSolarYear .default z :=
  (c43_lost_half_moon .default (Or.inl rfl) 3572 (by decide) (by decide)).2.1 (by decide +kernel)

/-- C43: no half moon is lost before 3572; 3572 is the first year losing one. -/
theorem c43_first_lost :
    (∀ cfg, Shipped cfg → ∀ y : Int, 632 ≤ y → y ≤ 3571 →
      .half { Date := (calculatePreviousKattika cfg y).addDays 8, Phase := "waning" } ∈ generateSolarYear cfg (y - 1)) ∧
    (∀ z, .half { Date := (calculatePreviousKattika .default 3572).addDays 8, Phase := "waning" } ∉
      generateSolarYear .default z) := by
  have key : ∀ cfg (y : Int), ((calculatePreviousKattika cfg y).addDays 8).day = katDay cfg y + 8 := by
    intro cfg y; rw [addDays_eq, day_add]; rfl
  constructor
  · intro cfg hs y h1 h2
    refine (c43_lost_half_moon cfg hs y (by omega) (by omega)).2.2 ?_ h1
    show ((calculatePreviousKattika cfg y).addDays 8).year = _
    unfold Time.year
    rw [year_eq_iff, key]
    have w := window (y := y) (by omega) (by omega)
    have w' := shipped_window hs (y := y) (by omega) (by omega)
    have hk : katDay cfg y ≤ katDay .default y := by
      rcases hs with rfl | rfl
      · exact Int.le_refl _
      · rw [katDay_official]; split <;> omega
    have e : y - 1 + 1 = y := by omega
    have hs0 := daysSinceEpoch_succ (y - 1)
    rw [e] at hs0 ⊢
    have hb := yearDays_bounds (y - 1)
    have := w.2.2.2.2.1 h2
    omega
  · refine (c43_lost_half_moon .default (Or.inl rfl) 3572 (by omega) (by omega)).2.1 ?_
    show ((calculatePreviousKattika .default 3572).addDays 8).year = _
    unfold Time.year
    rw [year_eq_iff, key]
    have w := window (y := 3572) (by omega) (by omega)
    have hs1 := daysSinceEpoch_mono (a := 3572) (b := 3572 + 1) (by omega)
    have := w.2.2.2.2.2 rfl
    omega

end Verif.Props
