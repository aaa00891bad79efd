import Verif.Props.CalDays
/-
C52: when `GetCalDays` panics.
-/
set_option autoImplicit false

namespace Verif.Props
open Verif.Go Verif.Model Verif.Spec Verif.Lemmas

theorem mapM_none {α β : Type} {f : α → Option β} {l : List α} : l.mapM f = none ↔ ∃ a ∈ l, f a = none := by
  induction l with
  | nil => simp
  | cons a l ih =>
    rw [List.mapM_cons]
    cases h1 : f a with
    | none => simp [h1]
    | some b =>
      cases h2 : l.mapM f with
      | none => simp [h1, ih.1 h2]
      | some bs =>
        have : ¬ ∃ a ∈ l, f a = none := fun h => by rw [ih.2 h] at h2; cases h2
        simp [h1]
        simpa using this

theorem mem_takeWhile_range {a : Int} {n : Nat} {p : Int → Bool} {y : Int} :
    y ∈ (((List.range n).map fun (i : Nat) => a + (i : Int)).takeWhile p) ↔
      a ≤ y ∧ y < a + n ∧ ∀ z, a ≤ z → z ≤ y → p z = true := by
  induction n generalizing a with
  | zero => simp; omega
  | succ n ih =>
    have e : (List.range (n + 1)).map (fun (i : Nat) => a + (i : Int)) =
        a :: (List.range n).map (fun (i : Nat) => (a + 1) + (i : Int)) := by
      rw [List.range_succ_eq_map, List.map_cons, List.map_map]
      congr 1
      · simp
      · apply List.map_congr_left; intro i _; simp; omega
    rw [e, List.takeWhile_cons]
    cases hp : p a with
    | false =>
      simp only [Bool.false_eq_true, if_false, List.not_mem_nil, false_iff, not_and]
      intro h1 _ h3
      have := h3 a (le_refl _) h1
      rw [hp] at this; cases this
    | true =>
      simp only [if_true, List.mem_cons, ih]
      constructor
      · rintro (rfl | ⟨h1, h2, h3⟩)
        · refine ⟨le_refl _, by omega, fun z hz1 hz2 => ?_⟩
          rw [show z = y by omega]; exact hp
        · refine ⟨by omega, by push_cast; omega, fun z hz1 hz2 => ?_⟩
          by_cases hz : z = a
          · rw [hz]; exact hp
          · exact h3 z (by omega) hz2
      · rintro ⟨h1, h2, h3⟩
        by_cases hy : y = a
        · exact .inl hy
        · exact .inr ⟨by omega, by push_cast at h2; omega, fun z hz1 hz2 => h3 z (by omega) hz2⟩

theorem contribution_none (a b : Time) (f : AstroFile) : contribution a b f = none ↔
    f = .undecodable ∨ ∃ rs, f = .resp true "" rs ∧ ∃ r ∈ rs, Within a b r.DateTimeISO ∧ ¬ (0 ≤ r.Code ∧ r.Code ≤ 3) := by
  cases f with
  | missing => simp [contribution]
  | undecodable => simp [contribution]
  | resp success errorCode response =>
    unfold contribution
    simp only
    split
    · rename_i h
      obtain ⟨rfl, rfl⟩ := h
      rw [mapM_none]
      constructor
      · rintro ⟨r, hr, hn⟩
        obtain ⟨h1, h2⟩ := List.mem_filter.1 hr
        refine .inr ⟨response, rfl, r, h1, of_decide_eq_true h2, ?_⟩
        rintro ⟨h3, h4⟩
        have : r.Code = 0 ∨ r.Code = 1 ∨ r.Code = 2 ∨ r.Code = 3 := by omega
        rcases this with e | e | e | e <;> rw [e] at hn <;> simp at hn
      · rintro (h | ⟨rs, h, r, hr, hw, hc⟩)
        · cases h
        · cases h
          refine ⟨r, List.mem_filter.2 ⟨hr, decide_eq_true hw⟩, ?_⟩
          by_cases h0 : 0 ≤ r.Code
          · have : ["new", "waxing", "full", "waning"][r.Code.toNat]? = none := by
              rw [List.getElem?_eq_none_iff]; simp; omega
            rw [this]; rfl
          · simp [h0]
    · rename_i h
      simp only [false_iff, not_or, not_exists, reduceCtorEq, not_false_eq_true, true_and]
      rintro rs ⟨hc, -⟩
      cases hc
      exact h ⟨rfl, rfl⟩

/-- C52: `GetAstroMoons` panics exactly when a year of the range, with no file missing from the first year up to it, has
undecodable data or a successful response with a moon in range whose phase code is not 0..3. -/
theorem c52_moons (files : Int → AstroFile) (fromDate toDate : Time) : getAstroMoons files fromDate toDate = none ↔
    ∃ y, fromDate.year ≤ y ∧ y ≤ toDate.year ∧ (∀ z, fromDate.year ≤ z → z < y → files z ≠ .missing) ∧
      (files y = .undecodable ∨ ∃ rs, files y = .resp true "" rs ∧
        ∃ r ∈ rs, Within fromDate toDate r.DateTimeISO ∧ ¬ (0 ≤ r.Code ∧ r.Code ≤ 3)) := by
  rw [c31_astro, Option.map_eq_none_iff, mapM_none]
  unfold yearsFrom
  simp only [mem_takeWhile_range, contribution_none, decide_eq_true_eq]
  constructor
  · rintro ⟨y, ⟨h1, h2, h3⟩, h4⟩
    exact ⟨y, h1, by omega, fun z hz1 hz2 => h3 z hz1 (by omega), h4⟩
  · rintro ⟨y, h1, h2, h3, h4⟩
    refine ⟨y, ⟨h1, by omega, fun z hz1 hz2 => ?_⟩, h4⟩
    by_cases hz : z = y
    · subst hz
      rcases h4 with h | ⟨rs, h, -⟩ <;> rw [h] <;> simp
    · exact h3 z hz1 (by omega)

/-- C52: `GetCalDays` panics exactly when `GetAstroMoons` does; the computed calendar itself never panics. -/
theorem c52_calendar (cfg : Config) (files : Int → AstroFile) (fromDate toDate : Time) :
    getCalDays cfg files fromDate toDate = none ↔ getAstroMoons files fromDate toDate = none := by
  unfold getCalDays
  rw [Option.map_eq_none_iff, unsorted_eq, Option.map_eq_none_iff]

/-- C52: both happen: an unknown phase code panics, unless it is out of range, its response unsuccessful or after a
missing year. -/
example : let bad : AstroFile := .resp true "" [⟨date 2015 1 5 0 0, 4⟩]
    getCalDays .default (fun _ => bad) (date 2015 1 1 0 0) (date 2015 1 31 0 0) = none ∧
    getCalDays .default (fun _ => bad) (date 2015 1 6 0 0) (date 2015 1 31 0 0) ≠ none ∧
    getCalDays .default (fun _ => .missing) (date 2015 1 1 0 0) (date 2015 1 31 0 0) ≠ none ∧
    getCalDays .default (fun y => if y = 2014 then .missing else bad) (date 2014 1 1 0 0) (date 2015 1 31 0 0) ≠ none := by
  intro bad
  simp only [ne_eq, c52_calendar]
  decide +kernel

end Verif.Props
