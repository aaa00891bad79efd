import Verif.Lemmas.AstroData
import Verif.Props.Panic
/-
C53: the embedded astronomical data and what `GetAstroMoons` and `GetCalDays` make of it.
-/
set_option autoImplicit false

namespace Verif.Props
open Verif.Go Verif.Model Verif.Spec Verif.Lemmas

theorem embeddedFiles_mem {e : Int × Option (List Nat)} (he : e ∈ embeddedTable) : embeddedFiles e.1 =
    match e.2 with
    | none => .resp true "warn_no_data" []
    | some rows => .resp true "" (rows.map aerisMoon) := by
  unfold embeddedFiles
  rw [table_find he]
  obtain ⟨y, o⟩ := e
  cases o <;> rfl

theorem exists_entry {y : Int} (h1 : 1900 ≤ y) (h2 : y ≤ 2040) : ∃ o, (y, o) ∈ embeddedTable := by
  have : y ∈ embeddedTable.map (·.1) := by
    rw [table_years]
    unfold yearsFrom
    simp only [List.mem_map, List.mem_range]
    exact ⟨(y - 1900).toNat, by omega, by omega⟩
  obtain ⟨e, he, rfl⟩ := List.mem_map.1 this
  exact ⟨e.2, he⟩

/-- C53: there is a file exactly for the years 1900 to 2040. -/
theorem c53_years : EmbeddedYears embeddedFiles := by
  intro y
  constructor
  · intro h
    by_contra hc
    obtain ⟨o, ho⟩ := exists_entry (y := y) (by omega) (by omega)
    have := embeddedFiles_mem ho
    rw [h] at this
    cases o <;> cases this
  · intro h
    have : embeddedTable.find? (fun e => e.1 == y) = none := by
      rw [List.find?_eq_none]
      intro e he
      have := table_year he
      simp only [beq_iff_eq]
      omega
    unfold embeddedFiles
    rw [this]

/-- C53: ten of these files hold no moons but an error code. -/
theorem c53_empty (y : Int) : embeddedFiles y = .resp true "warn_no_data" [] ↔ y ∈ emptyYears := by
  have key : embeddedTable.all (fun e => e.2.isNone == decide (e.1 ∈ emptyYears)) = true := by decide +kernel
  rw [List.all_eq_true] at key
  constructor
  · intro h
    have h0 : embeddedFiles y ≠ .missing := by rw [h]; simp
    rw [ne_eq, c53_years] at h0
    obtain ⟨o, ho⟩ := exists_entry (y := y) (by omega) (by omega)
    have := embeddedFiles_mem ho
    rw [h] at this
    cases o with
    | none => simpa using key _ ho
    | some l => simp at this
  · intro h
    have : 1900 ≤ y ∧ y ≤ 2040 := by
      unfold emptyYears at h
      simp only [List.mem_cons, List.not_mem_nil, or_false] at h
      omega
    obtain ⟨o, ho⟩ := exists_entry this.1 this.2
    have hk := key _ ho
    simp only [h, decide_true, beq_true] at hk
    rw [Option.isNone_iff_eq_none] at hk
    subst hk
    exact embeddedFiles_mem ho

theorem contribution_rows (fromDate toDate : Time) : ∀ rows : List Nat, (∀ n ∈ rows, n % 10 < 4) →
    contribution fromDate toDate (.resp true "" (rows.map aerisMoon)) =
      some ((rows.map moonOf).filter fun m => decide (Within fromDate toDate m.Date)) := by
  intro rows h
  unfold contribution
  simp only [true_and, if_true]
  induction rows with
  | nil => rfl
  | cons n rows ih =>
    have ih := ih fun k hk => h k (List.mem_cons_of_mem _ hk)
    have hn := h n List.mem_cons_self
    rw [List.map_cons, List.map_cons, List.filter_cons, List.filter_cons]
    by_cases hw : Within fromDate toDate (aerisMoon n).DateTimeISO
    · have hw' : Within fromDate toDate (moonOf n).Date := hw
      rw [if_pos (decide_eq_true hw), if_pos (decide_eq_true hw'), List.mapM_cons, ih]
      have hc : (aerisMoon n).Code = ((n % 10 : Nat) : Int) := rfl
      have hp : phases[n % 10]? = some ((phases[n % 10]?).getD "") := by
        have : ∀ k : Fin 4, phases[k.val]? = some ((phases[k.val]?).getD "") := by decide
        exact this ⟨n % 10, hn⟩
      rw [hc, Int.toNat_natCast]
      unfold phases at hp
      rw [hp]
      simp only [Option.bind_some, if_pos (Int.natCast_nonneg _)]
      rfl
    · have hw' : ¬ Within fromDate toDate (moonOf n).Date := hw
      rw [if_neg (by simpa using hw), if_neg (by simpa using hw')]
      exact ih

theorem contribution_embedded (fromDate toDate : Time) {e : Int × Option (List Nat)} (he : e ∈ embeddedTable) :
    contribution fromDate toDate (embeddedFiles e.1) =
      some (((e.2.getD []).map moonOf).filter fun m => decide (Within fromDate toDate m.Date)) := by
  have hr := fun n hn => (table_row he (n := n) hn).2.1
  rw [embeddedFiles_mem he]
  obtain ⟨y, o⟩ := e
  cases o with
  | none => simp [contribution]
  | some rows => exact contribution_rows fromDate toDate rows hr

theorem mapM_some' {α β : Type} {f : α → Option β} {g : α → β} : ∀ {l : List α}, (∀ a ∈ l, f a = some (g a)) →
    l.mapM f = some (l.map g)
  | [], _ => rfl
  | a :: l, h => by
    rw [List.mapM_cons, h a (by simp), mapM_some' fun b hb => h b (List.mem_cons_of_mem _ hb)]
    rfl

theorem years_filter {f t : Int} (h : 1900 ≤ f) :
    (yearsFrom 1900 2040).filter (fun y => decide (f ≤ y ∧ y ≤ t)) = yearsFrom f (min t 2040) := by
  have key : ∀ (n : Nat) (a : Int), a + n = 2041 → f ≤ a →
      (((List.range n).map fun i : Nat => a + (i : Int)).filter fun y => decide (f ≤ y ∧ y ≤ t)) =
        (List.range (min t 2040 - a + 1).toNat).map fun i : Nat => a + (i : Int) := by
    intro n
    induction n with
    | zero => intro a ha hf; rw [show (min t 2040 - a + 1).toNat = 0 by omega]; rfl
    | succ n ih =>
      intro a ha hf
      have hr : ∀ k : Nat, ((List.range (k + 1)).map fun i : Nat => a + (i : Int)) =
          a :: (List.range k).map fun i : Nat => a + 1 + (i : Int) := by
        intro k
        rw [List.range_succ_eq_map, List.map_cons, List.map_map]
        congr 1
        · simp
        · apply List.map_congr_left
          intro i _
          simp only [Function.comp_apply, Nat.succ_eq_add_one]; push_cast; ring
      rw [hr, List.filter_cons]
      have := ih (a + 1) (by omega) (by omega)
      by_cases hat : a ≤ t
      · rw [if_pos (by simpa using ⟨hf, hat⟩), this,
          show (min t 2040 - a + 1).toNat = (min t 2040 - (a + 1) + 1).toNat + 1 by omega, hr]
      · rw [if_neg (by simp; omega), this, show (min t 2040 - a + 1).toNat = 0 by omega,
          show (min t 2040 - (a + 1) + 1).toNat = 0 by omega]
        rfl
  have skip : ∀ (n : Nat) (a : Int), a + n = 2041 → a ≤ f →
      (((List.range n).map fun i : Nat => a + (i : Int)).filter fun y => decide (f ≤ y ∧ y ≤ t)) =
        (List.range (min t 2040 - f + 1).toNat).map fun i : Nat => f + (i : Int) := by
    intro n
    induction n with
    | zero => intro a ha hf; rw [show (min t 2040 - f + 1).toNat = 0 by omega]; rfl
    | succ n ih =>
      intro a ha hf
      by_cases h' : a = f
      · subst h'; exact key (n + 1) a ha (le_refl _)
      · have hr : ((List.range (n + 1)).map fun i : Nat => a + (i : Int)) =
            a :: (List.range n).map fun i : Nat => a + 1 + (i : Int) := by
          rw [List.range_succ_eq_map, List.map_cons, List.map_map]
          congr 1
          · simp
          · apply List.map_congr_left
            intro i _
            simp only [Function.comp_apply, Nat.succ_eq_add_one]; push_cast; ring
        rw [hr, List.filter_cons, if_neg (by simp; omega)]
        exact ih (a + 1) (by omega) (by omega)
  exact skip 141 1900 (by norm_num) h

/-- C53: with the embedded data, a range starting in 1900 or later gets exactly the embedded moons that lie in it and
in the years of its two ends, in the order of the data. -/
theorem c53_moons (fromDate toDate : Time) (h : 1900 ≤ fromDate.year) :
    getAstroMoons embeddedFiles fromDate toDate = some (embeddedMoons.filter fun m =>
      decide (Within fromDate toDate m.Date ∧ fromDate.year ≤ m.Date.year ∧ m.Date.year ≤ toDate.year)) := by
  rw [c46_inside _ c53_years _ _ h, ← years_filter h, ← table_years, List.filter_map, List.mapM_map,
    mapM_some' (g := fun e => ((e.2.getD []).map moonOf).filter fun m => decide (Within fromDate toDate m.Date))]
  · rw [Option.map_some, Option.some.injEq, ← List.flatMap_def]
    unfold embeddedMoons
    change _ = List.filter _ (embeddedTable.flatMap fun e => (e.2.getD []).map moonOf)
    have hy : ∀ e ∈ embeddedTable, ∀ m ∈ (e.2.getD []).map moonOf, m.Date.year = e.1 := by
      intro e he m hm
      obtain ⟨n, hn, rfl⟩ := List.mem_map.1 hm
      exact (table_row he hn).2.2
    generalize embeddedTable = t at *
    induction t with
    | nil => rfl
    | cons e t ih =>
      have ih := ih fun e' he' => hy e' (List.mem_cons_of_mem _ he')
      have he := hy e List.mem_cons_self
      rw [List.flatMap_cons, List.filter_append, ← ih, List.filter_cons]
      by_cases hc : fromDate.year ≤ e.1 ∧ e.1 ≤ toDate.year
      · rw [if_pos (by simpa using hc), List.flatMap_cons]
        congr 1
        apply List.filter_congr
        intro m hm
        rw [he m hm]
        simp [hc]
      · rw [if_neg (by simpa using hc)]
        have : ((e.2.getD []).map moonOf).filter (fun m => decide (Within fromDate toDate m.Date ∧
            fromDate.year ≤ m.Date.year ∧ m.Date.year ≤ toDate.year)) = [] := by
          rw [List.filter_eq_nil_iff]
          intro m hm
          rw [he m hm]
          simp only [decide_eq_true_eq]
          exact fun h => hc h.2
        rw [this, List.nil_append]
  · intro e he
    exact contribution_embedded fromDate toDate (List.mem_filter.1 he).1

/-- C53: a range of a few hours around the full moon of 25 November 2015. -/
example : getAstroMoons embeddedFiles (date 2015 11 25 (80000 * nsPerSec) 0) (date 2015 11 26 0 0) =
    some [{ Phase := "full", Date := date 2015 11 25 (81890 * nsPerSec) 0 }] := by decide +kernel

theorem year_mono_utc {a b : Time} (ha : a.offset = 0) (hb : b.offset = 0) (h : a.nanos ≤ b.nanos) : a.year ≤ b.year := by
  unfold Time.year
  apply year_mono
  unfold Time.day
  rw [ha, hb]
  unfold nsPerDay
  omega

/-- C53: for a range in UTC these are simply the embedded moons in the range. -/
theorem c53_moons_utc (fromDate toDate : Time) (h : 1900 ≤ fromDate.year) (hf : fromDate.offset = 0)
    (ht : toDate.offset = 0) : getAstroMoons embeddedFiles fromDate toDate =
      some (embeddedMoons.filter fun m => decide (Within fromDate toDate m.Date)) := by
  rw [c53_moons _ _ h]
  congr 1
  apply List.filter_congr
  intro m hm
  have ho : m.Date.offset = 0 := by
    unfold embeddedMoons at hm
    obtain ⟨e, -, hm⟩ := List.mem_flatMap.1 hm
    obtain ⟨n, -, rfl⟩ := List.mem_map.1 hm
    rfl
  rw [decide_eq_decide]
  constructor
  · exact fun h => h.1
  · exact fun h => ⟨h, year_mono_utc hf ho h.1, year_mono_utc ho ht h.2⟩

/-- C53: the range of C53 in UTC. -/
example : 1900 ≤ (date 2015 11 25 0 0).year ∧ (date 2015 11 25 0 0).offset = 0 ∧
    some (embeddedMoons.filter fun m => decide (Within (date 2015 11 25 0 0) (date 2015 11 26 0 0) m.Date)) =
      getAstroMoons embeddedFiles (date 2015 11 25 0 0) (date 2015 11 26 0 0) :=
  ⟨by decide, rfl, (c53_moons_utc _ _ (by decide) rfl rfl).symm⟩

/-- C53: with the embedded data `GetAstroMoons` and `GetCalDays` never panic. -/
theorem c53_never_panics (cfg : Config) (fromDate toDate : Time) :
    getAstroMoons embeddedFiles fromDate toDate ≠ none ∧ getCalDays cfg embeddedFiles fromDate toDate ≠ none := by
  have : getAstroMoons embeddedFiles fromDate toDate ≠ none := by
    by_cases h : fromDate.year < 1900
    · rw [c46_none_outside _ c53_years _ _ (Or.inl h)]; simp
    · rw [c53_moons _ _ (by omega)]; simp
  exact ⟨this, by rw [ne_eq, c52_calendar]; exact this⟩

theorem next_days' {a b : AstroMoon} (h : EmbeddedNext a b) (ha : a.Date.offset = 0) (hb : b.Date.offset = 0) :
    a.Date.nanos + nsPerDay ≤ b.Date.nanos := by
  unfold EmbeddedNext at h
  split at h
  · rename_i hc
    have h1 := hc.1; have h2 := hc.2
    unfold Time.year at h1 h2
    rw [year_eq_iff] at h1 h2
    unfold Time.day at h1 h2
    rw [ha] at h1; rw [hb] at h2
    have e1 : daysSinceEpoch (1969 + 1) = 719162 := by decide
    have e2 : daysSinceEpoch 1971 = 719527 := by decide
    rw [e1] at h1; rw [e2] at h2
    unfold nsPerDay at *
    omega
  · split at h
    · unfold OneMissing at h; unfold nsPerDay at *; omega
    · unfold NextQuarter at h; unfold nsPerDay at *; omega

theorem embedded_utc {m : AstroMoon} (hm : m ∈ embeddedMoons) : m.Date.offset = 0 := by
  unfold embeddedMoons at hm
  obtain ⟨e, -, hm⟩ := List.mem_flatMap.1 hm
  obtain ⟨n, -, rfl⟩ := List.mem_map.1 hm
  rfl

theorem embedded_apart : embeddedMoons.Pairwise fun a b => a.Date.nanos + nsPerDay ≤ b.Date.nanos := by
  have h1 : embeddedMoons.IsChain fun a b => a.Date.nanos + nsPerDay ≤ b.Date.nanos :=
    List.IsChain.imp_of_mem_imp (fun a b ha hb h => next_days' h (embedded_utc ha) (embedded_utc hb)) moons_chain
  have : IsTrans AstroMoon fun a b => a.Date.nanos + nsPerDay ≤ b.Date.nanos :=
    ⟨fun a b c h1 h2 => by unfold nsPerDay at *; omega⟩
  exact List.isChain_iff_pairwise.1 h1

theorem filter_chain {α : Type} {R S : α → α → Prop} {p : α → Bool} : ∀ {l : List α}, l.IsChain R → l.Pairwise S →
    (∀ a b c, S a b → S b c → p a = true → p c = true → p b = true) → (l.filter p).IsChain R
  | [], _, _, _ => by simp
  | [a], _, _, _ => by rw [List.filter_cons]; split <;> simp
  | a :: b :: l, hR, hS, hp => by
    rw [List.isChain_cons_cons] at hR
    rw [List.pairwise_cons] at hS
    have ih := filter_chain hR.2 hS.2 hp
    rw [List.filter_cons]
    split
    · rename_i ha
      by_cases hb : p b = true
      · rw [List.filter_cons, if_pos hb] at ih ⊢
        exact List.isChain_cons_cons.2 ⟨hR.1, ih⟩
      · have : (b :: l).filter p = [] := by
          rw [List.filter_eq_nil_iff]
          intro c hc hpc
          rcases List.mem_cons.1 hc with rfl | hc
          · exact hb hpc
          · exact hb (hp a b c (hS.1 b (by simp)) ((List.pairwise_cons.1 hS.2).1 c hc) ha hpc)
        rw [this]; simp
    · exact ih

/-- C53: the moons of any range come in order of time, more than a day apart, so that no two share a calendar day. -/
theorem c53_apart (fromDate toDate : Time) (ms : List AstroMoon)
    (h : getAstroMoons embeddedFiles fromDate toDate = some ms) :
    ms.Pairwise fun a b => a.Date.nanos + nsPerDay ≤ b.Date.nanos ∧ a.Date.day < b.Date.day := by
  have hu : ∀ m ∈ ms, m.Date.offset = 0 := fun m hm => (c31_range _ _ _ _ h m hm).2.1
  have hp : ms.Pairwise fun a b => a.Date.nanos + nsPerDay ≤ b.Date.nanos := by
    by_cases hy : fromDate.year < 1900
    · rw [c46_none_outside _ c53_years _ _ (Or.inl hy)] at h
      cases h; simp
    · rw [c53_moons _ _ (by omega)] at h
      cases h
      exact List.Pairwise.filter _ embedded_apart
  refine List.Pairwise.imp_of_mem (fun ha hb h => ⟨h, ?_⟩) hp
  unfold Time.day
  rw [hu _ ha, hu _ hb]
  unfold nsPerDay at *
  omega

/-- C53: two moons and the week between them. -/
example : getAstroMoons embeddedFiles (date 2015 11 19 0 0) (date 2015 11 26 0 0) =
    some [{ Phase := "waxing", Date := date 2015 11 19 (23287 * nsPerSec) 0 }, { Phase := "full", Date := date 2015 11 25 (81890 * nsPerSec) 0 }] := by
  decide +kernel

/-- C53: in any range each moon is followed by the next quarter, 6.5 to 8.3 days later, except that nothing is known of
1970 and that in 18 years the moon at the end of December is missing. -/
theorem c53_sequence (fromDate toDate : Time) (ms : List AstroMoon)
    (h : getAstroMoons embeddedFiles fromDate toDate = some ms) : ms.IsChain EmbeddedNext := by
  by_cases hy : fromDate.year < 1900
  · rw [c46_none_outside _ c53_years _ _ (Or.inl hy)] at h
    cases h; simp
  · rw [c53_moons _ _ (by omega)] at h
    cases h
    have hS : embeddedMoons.Pairwise fun a b => a.Date.nanos ≤ b.Date.nanos ∧ a.Date.year ≤ b.Date.year :=
      List.Pairwise.imp_of_mem (fun ha hb h =>
        have : _ ≤ _ := by unfold nsPerDay at h; omega
        ⟨this, year_mono_utc (embedded_utc ha) (embedded_utc hb) this⟩) embedded_apart
    refine filter_chain moons_chain hS fun a b c h1 h2 ha hc => ?_
    simp only [decide_eq_true_eq] at *
    unfold Within at *
    omega

/-- C53: the last moons of 2015 and the first ones of 2016 follow each other; at the turn from 2009 to 2010 the full moon
of 31 December is missing. -/
example : getAstroMoons embeddedFiles (date 2015 12 20 0 0) (date 2016 1 5 0 0) = some
      [{ Phase := "full", Date := date 2015 12 25 (40317 * nsPerSec) 0 },
       { Phase := "waning", Date := date 2016 1 2 (19900 * nsPerSec) 0 }] ∧
    ((getAstroMoons embeddedFiles (date 2009 12 20 0 0) (date 2010 1 10 0 0)).map fun ms => ms.map (·.Phase)) =
      some ["waxing", "waning"] := by
  decide +kernel

end Verif.Props
