import Verif.Spec.Days
import Verif.Lemmas.Time
import Mathlib.Data.List.Basic
import Mathlib.Data.List.Nodup
import Mathlib.Data.List.Induction
/-
Helper lemmas on `mergeIntoCalDays`.
-/
set_option autoImplicit false

namespace Verif.Lemmas
open Verif.Go Verif.Model Verif.Spec

theorem midnight_nanos (t : Time) : (midnight t).nanos = dayStart t := by
  unfold midnight dayStart
  rw [date_midnight]
  have := nanos_eq t
  simp only; omega

/-- The start of the day of a calendar day. -/
def keyOf (c : CalDay) : Int := dayStart c.Date

theorem find_pred (d : Time) (c : CalDay) : (midnight c.Date).equal (midnight d) = decide (keyOf c = dayStart d) := by
  unfold Time.equal keyOf; rw [midnight_nanos, midnight_nanos]

theorem find_none {ds : List CalDay} {d : Time} :
    findCalDay ds d = none ↔ ∀ c ∈ ds, keyOf c ≠ dayStart d := by
  unfold findCalDay
  simp only [find_pred, List.findIdx?_eq_none_iff, decide_eq_false_iff_not]

theorem find_some {ds : List CalDay} {d : Time} {k : Nat} (h : findCalDay ds d = some k) :
    ∃ hk : k < ds.length, keyOf ds[k] = dayStart d ∧ ∀ j (hj : j < k), keyOf ds[j] ≠ dayStart d := by
  unfold findCalDay at h
  simp only [find_pred] at h
  rw [List.findIdx?_eq_some_iff_getElem] at h
  obtain ⟨hk, h1, h2⟩ := h
  exact ⟨hk, by simpa using h1, fun j hj => by simpa using h2 j hj⟩

theorem addToDay_date (e : CalendarEvent) (c : CalDay) : (e.addToDay c).Date = e.getDate := by
  cases e <;> rfl

theorem keyOf_addToDay (e : CalendarEvent) (c : CalDay) : keyOf (e.addToDay c) = dayStart e.getDate := by
  unfold keyOf; rw [addToDay_date]

/-- The grouping invariant. -/
structure Grouped (es : List CalendarEvent) (ds : List CalDay) : Prop where
  nodup : (ds.map keyOf).Nodup
  content : ∀ c ∈ ds, c = (onDay (keyOf c) es).foldl (fun c e => e.addToDay c) {}
  nonempty : ∀ c ∈ ds, onDay (keyOf c) es ≠ []
  cover : ∀ e ∈ es, ∃ c ∈ ds, keyOf c = dayStart e.getDate

theorem grouped_nil : Grouped [] [] := ⟨by simp, by simp, by simp, by simp⟩

theorem onDay_snoc (s : Int) (es : List CalendarEvent) (e : CalendarEvent) :
    onDay s (es ++ [e]) = if dayStart e.getDate = s then onDay s es ++ [e] else onDay s es := by
  unfold onDay
  rw [List.filter_append, List.filter_singleton]
  by_cases h : dayStart e.getDate = s
  · simp [h]
  · simp [h]

theorem grouped_merge {es : List CalendarEvent} {ds : List CalDay} (h : Grouped es ds) (e : CalendarEvent) :
    Grouped (es ++ [e]) (mergeIntoCalDays ds e) := by
  unfold mergeIntoCalDays
  cases hf : findCalDay ds e.getDate with
  | none =>
    rw [find_none] at hf
    simp only
    have hold : ∀ c ∈ ds, onDay (keyOf c) (es ++ [e]) = onDay (keyOf c) es := by
      intro c hc
      rw [onDay_snoc, if_neg (fun h' => hf c hc h'.symm)]
    have hempty : onDay (dayStart e.getDate) es = [] := by
      unfold onDay
      rw [List.filter_eq_nil_iff]
      intro e' he'
      obtain ⟨c, hc, hk⟩ := h.cover e' he'
      have := hf c hc
      simp only [decide_eq_true_eq]
      omega
    refine ⟨?_, ?_, ?_, ?_⟩
    · rw [List.map_append, List.nodup_append]
      refine ⟨h.nodup, by simp, ?_⟩
      intro a ha b hb
      simp only [List.map_cons, List.map_nil, List.mem_singleton, keyOf_addToDay] at hb
      obtain ⟨c, hc, rfl⟩ := List.mem_map.1 ha
      rw [hb]; exact hf c hc
    · intro c hc
      rcases List.mem_append.1 hc with hc | hc
      · rw [hold c hc]; exact h.content c hc
      · simp only [List.mem_singleton] at hc
        rw [hc, keyOf_addToDay, onDay_snoc, if_pos rfl, hempty]; rfl
    · intro c hc
      rcases List.mem_append.1 hc with hc | hc
      · rw [hold c hc]; exact h.nonempty c hc
      · simp only [List.mem_singleton] at hc
        rw [hc, keyOf_addToDay, onDay_snoc, if_pos rfl]; simp
    · intro e' he'
      rcases List.mem_append.1 he' with he' | he'
      · obtain ⟨c, hc, hk⟩ := h.cover e' he'
        exact ⟨c, List.mem_append_left _ hc, hk⟩
      · simp only [List.mem_singleton] at he'
        exact ⟨e.addToDay {}, by simp, by rw [keyOf_addToDay, he']⟩
  | some k =>
    obtain ⟨hk, hkey, -⟩ := find_some hf
    simp only
    have hkeys : (ds.modify k e.addToDay).map keyOf = ds.map keyOf := by
      apply List.ext_getElem
      · simp
      · intro i h1 h2
        simp only [List.getElem_map, List.getElem_modify]
        split
        · rename_i hi; subst hi; rw [keyOf_addToDay, hkey]
        · rfl
    have hidx : ∀ i (hi : i < ds.length), keyOf ds[i] = dayStart e.getDate → i = k := by
      intro i hi hki
      have := (List.nodup_iff_injective_getElem.1 h.nodup)
      have h2 := @this ⟨i, by simpa using hi⟩ ⟨k, by simpa using hk⟩ (by simp [hki, hkey])
      simpa using h2
    have hmem : ∀ c ∈ ds.modify k e.addToDay,
        (c = e.addToDay ds[k]) ∨ (c ∈ ds ∧ keyOf c ≠ dayStart e.getDate) := by
      intro c hc
      obtain ⟨i, hi, rfl⟩ := List.mem_iff_getElem.1 hc
      simp only [List.length_modify] at hi
      rw [List.getElem_modify]
      split
      · rename_i h'; subst h'; exact Or.inl rfl
      · rename_i h'
        exact Or.inr ⟨List.getElem_mem _, fun hc' => h' (hidx i hi hc').symm⟩
    have hkmem : e.addToDay ds[k] ∈ ds.modify k e.addToDay := by
      rw [List.mem_iff_getElem]
      exact ⟨k, by simpa using hk, by rw [List.getElem_modify]; simp⟩
    refine ⟨by rw [hkeys]; exact h.nodup, ?_, ?_, ?_⟩
    · intro c hc
      rcases hmem c hc with rfl | ⟨hc, hne⟩
      · rw [keyOf_addToDay, onDay_snoc, if_pos rfl, List.foldl_append]
        have := h.content _ (List.getElem_mem hk)
        rw [hkey] at this
        conv => lhs; rw [this]
        rfl
      · rw [onDay_snoc, if_neg (fun h' => hne h'.symm)]; exact h.content c hc
    · intro c hc
      rcases hmem c hc with rfl | ⟨hc, hne⟩
      · rw [keyOf_addToDay, onDay_snoc, if_pos rfl]; simp
      · rw [onDay_snoc, if_neg (fun h' => hne h'.symm)]; exact h.nonempty c hc
    · intro e' he'
      rcases List.mem_append.1 he' with he' | he'
      · obtain ⟨c, hc, hkc⟩ := h.cover e' he'
        by_cases hce : keyOf c = dayStart e.getDate
        · exact ⟨_, hkmem, by rw [keyOf_addToDay]; omega⟩
        · obtain ⟨i, hi, rfl⟩ := List.mem_iff_getElem.1 hc
          refine ⟨ds[i], ?_, hkc⟩
          rw [List.mem_iff_getElem]
          refine ⟨i, by simpa using hi, ?_⟩
          rw [List.getElem_modify, if_neg]
          intro h'; subst h'; exact hce hkey
      · simp only [List.mem_singleton] at he'
        exact ⟨_, hkmem, by rw [keyOf_addToDay, he']⟩

theorem grouped_foldl {es : List CalendarEvent} {ds : List CalDay} (h : Grouped es ds) (fs : List CalendarEvent) :
    Grouped (es ++ fs) (fs.foldl mergeIntoCalDays ds) := by
  induction fs generalizing es ds with
  | nil => simpa using h
  | cons f fs ih =>
    have := ih (grouped_merge h f)
    rw [List.append_assoc] at this
    exact this

/-- What a calendar day holds after adding events one by one. -/
theorem foldl_holds (es : List CalendarEvent) (hne : es ≠ []) :
    Holds es (es.foldl (fun c e => e.addToDay c) {}) := by
  have key : ∀ es : List CalendarEvent, let c := es.foldl (fun c e => e.addToDay c) ({} : CalDay)
      c.UposathaMoon = (uposathasOf es).getLast?.toList ∧ c.HalfMoon = (halvesOf es).getLast?.toList ∧
      c.AstroMoon = (astrosOf es).getLast?.toList ∧ c.MajorEvents = majorsOf es ∧ c.Events = plainOf es := by
    intro es
    induction es using List.reverseRecOn with
    | nil => exact ⟨rfl, rfl, rfl, rfl, rfl⟩
    | append_singleton es e ih =>
      have hs : ∀ {α : Type} (l : Option α) (m : α), setSingle l.toList m = [m] := by
        intro α l m; cases l <;> rfl
      simp only [List.foldl_append, List.foldl_cons, List.foldl_nil] at ih ⊢
      obtain ⟨h1, h2, h3, h4, h5⟩ := ih
      generalize es.foldl (fun c e => e.addToDay c) ({} : CalDay) = c at *
      cases e <;>
        simp only [CalendarEvent.addToDay, CalDay.setUposathaMoon, CalDay.setHalfMoon, CalDay.setAstroMoon,
          uposathasOf, halvesOf, astrosOf, majorsOf, plainOf, List.filterMap_append] at * <;>
        simp [h1, h2, h3, h4, h5, hs]
  obtain ⟨h1, h2, h3, h4, h5⟩ := key es
  refine ⟨?_, h1, h2, h3, h4, h5⟩
  induction es using List.reverseRecOn with
  | nil => exact absurd rfl hne
  | append_singleton es e ih => simp [addToDay_date]

theorem Grouped.holds {es : List CalendarEvent} {ds : List CalDay} (h : Grouped es ds) {c : CalDay} (hc : c ∈ ds) :
    Holds (onDay (keyOf c) es) c := by
  have h1 := foldl_holds _ (h.nonempty c hc)
  rw [← h.content c hc] at h1
  exact h1

end Verif.Lemmas
