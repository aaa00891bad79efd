import Verif.Model.Switching
import Verif.Spec.Switching
import Verif.Lemmas.Generate
/-
Helper lemmas: the functions with changing settings against the functions with fixed ones.
-/
set_option autoImplicit false

namespace Verif.Lemmas.Switching
open Verif.Go Verif.Model Verif.Spec Verif.Lemmas Verif.Model.Switching

theorem seen (reads : Reads) (k : Nat) (z : Int) :
    Seen reads z (Model.Switching.isAdhikavara reads k (SuriyaYear.init z)).1 := by
  unfold Model.Switching.isAdhikavara
  have hz : (SuriyaYear.init z).Year = z := rfl
  rw [hz]
  by_cases h : (reads k).useExceptions = true
  · rw [if_pos h]
    cases h1 : (reads (k + 1)).exceptions z with
    | none => exact .rule (k + 1) (Or.inr h1)
    | some c =>
      cases h2 : (reads (k + 2)).exceptions z with
      | none => exact .lost k (k + 1) (k + 2) h (by rw [h1]; simp) h2
      | some b => exact .entry k (k + 2) b h h2
  · rw [if_neg h]; exact .rule k (Or.inl (by simpa using h))

theorem answers_value (f : Int → Bool) (z : Int) : (SuriyaYear.init z).isAdhikavara (answers f) = f z := rfl

/-! ### Kattika -/

/-- The year stepped over at position `y` of the loop. -/
def stepped (direction y : Int) : Int := if direction = 1 then y + 1 else y

theorem loop_unfold (cfg : Config) (target direction : Int) (fuel : Nat) (y : Int) (d : Time) :
    Model.kattikaLoop cfg target direction (fuel + 1) y d =
      if y = target then some d
      else Model.kattikaLoop cfg target direction fuel (y + direction)
        (d.add ((SuriyaYear.init (stepped direction y)).yearLength cfg * direction * nsPerDay)) := by
  rw [Model.kattikaLoop]
  simp only [step_len, stepped]
  by_cases h : direction = 1 <;> simp only [h, if_true, if_false]

theorem loop_congr (f g : Int → Bool) (target direction : Int) : ∀ (fuel : Nat) (y : Int) (d : Time),
    (∀ i : Nat, f (stepped direction (y + direction * i)) = g (stepped direction (y + direction * i))) →
    Model.kattikaLoop (answers f) target direction fuel y d = Model.kattikaLoop (answers g) target direction fuel y d := by
  intro fuel
  induction fuel with
  | zero => intro y d h; rfl
  | succ fuel ih =>
    intro y d h
    rw [loop_unfold, loop_unfold]
    have h0 := h 0
    simp only [Int.natCast_zero, Int.mul_zero, Int.add_zero] at h0
    have hl : (SuriyaYear.init (stepped direction y)).yearLength (answers f) =
        (SuriyaYear.init (stepped direction y)).yearLength (answers g) := by
      unfold SuriyaYear.yearLength
      rw [answers_value, answers_value, h0]
    rw [hl, ih]
    intro i
    have := h (i + 1)
    have e : y + direction * ((i + 1 : Nat) : Int) = y + direction + direction * i := by
      rw [Int.natCast_add, Int.mul_add]; simp; omega
    rw [e] at this; exact this

theorem yearLength_answers (reads : Reads) (k : Nat) (f : Int → Bool) (z : Int)
    (h : f z = (Model.Switching.isAdhikavara reads k (SuriyaYear.init z)).1) :
    (Model.Switching.yearLength reads k (SuriyaYear.init z)).1 = (SuriyaYear.init z).yearLength (answers f) := by
  unfold Model.Switching.yearLength SuriyaYear.yearLength
  simp only [answers_value, h]
  by_cases ha : (SuriyaYear.init z).isAdhikamasa = true <;> simp [ha]

theorem loop_seen (reads : Reads) (target direction : Int) (hd : direction = 1 ∨ direction = -1) :
    ∀ (fuel k : Nat) (y : Int) (d : Time), ∃ f : Int → Bool, (∀ z, Seen reads z (f z)) ∧ ∃ k',
      Model.Switching.kattikaLoop reads target direction fuel k y d =
        (Model.kattikaLoop (answers f) target direction fuel y d).map (·, k') := by
  intro fuel
  induction fuel with
  | zero =>
    intro k y d
    refine ⟨fun z => (Model.Switching.isAdhikavara reads 0 (SuriyaYear.init z)).1, fun z => seen reads 0 z, k, ?_⟩
    rw [Model.Switching.kattikaLoop, Model.kattikaLoop]
    split <;> rfl
  | succ fuel ih =>
    intro k y d
    rw [Model.Switching.kattikaLoop]
    by_cases hy : y = target
    · refine ⟨fun z => (Model.Switching.isAdhikavara reads 0 (SuriyaYear.init z)).1, fun z => seen reads 0 z, k, ?_⟩
      rw [if_pos hy, loop_unfold, if_pos hy]; rfl
    · rw [if_neg hy]
      have hs : (if direction = 1 then SuriyaYear.init (y + 1) else SuriyaYear.init y) =
          SuriyaYear.init (stepped direction y) := by
        unfold stepped; split <;> rfl
      simp only [hs]
      obtain ⟨f, hf, k', h⟩ := ih (Model.Switching.yearLength reads k (SuriyaYear.init (stepped direction y))).2
        (y + direction) (d.add ((Model.Switching.yearLength reads k (SuriyaYear.init (stepped direction y))).1 *
          direction * nsPerDay))
      let g : Int → Bool := fun z => if z = stepped direction y
        then (Model.Switching.isAdhikavara reads k (SuriyaYear.init z)).1 else f z
      refine ⟨g, ?_, k', ?_⟩
      · intro z
        show Seen reads z (if z = stepped direction y then _ else _)
        split
        · exact seen reads k z
        · exact hf z
      · rw [h, loop_unfold, if_neg hy]
        rw [yearLength_answers reads k g _ (by show (if _ = _ then _ else _) = _; rw [if_pos rfl])]
        rw [loop_congr f g]
        intro i
        show _ = if _ = _ then _ else _
        rw [if_neg]
        unfold stepped
        rcases hd with rfl | rfl
        · simp only [if_true]; omega
        · rw [if_neg (by decide), if_neg (by decide)]; omega

theorem kattika_seen (reads : Reads) (k : Nat) (y : Int) : ∃ f : Int → Bool, (∀ z, Seen reads z (f z)) ∧
    (Model.Switching.calculatePreviousKattika reads k y).1 = Model.calculatePreviousKattika (answers f) y := by
  have hd : kattikaDirection y = 1 ∨ kattikaDirection y = -1 ∨ y = 2016 := by
    unfold kattikaDirection
    rw [epoch_year]
    by_cases h1 : 2015 < y - 1
    · rw [if_pos h1]; simp
    · rw [if_neg h1]
      by_cases h2 : 2015 > y - 1
      · rw [if_pos h2]; simp
      · exact Or.inr (Or.inr (by omega))
  unfold Model.Switching.calculatePreviousKattika Model.calculatePreviousKattika
  have key : ∀ f k', Model.Switching.kattikaLoop reads (y - 1) (kattikaDirection y) (y - 1 - kattikaEpoch.year).natAbs k
        kattikaEpoch.year kattikaEpoch = (Model.kattikaLoop (answers f) (y - 1) (kattikaDirection y)
          (y - 1 - kattikaEpoch.year).natAbs kattikaEpoch.year kattikaEpoch).map (·, k') →
      ((Model.Switching.kattikaLoop reads (y - 1) (kattikaDirection y) (y - 1 - kattikaEpoch.year).natAbs k
        kattikaEpoch.year kattikaEpoch).getD (default, k)).1 = (calculatePreviousKattika? (answers f) y).getD default := by
    intro f k' h
    obtain ⟨r, hr, -, -⟩ := kattika?_isSome (answers f) y
    rw [h]
    unfold calculatePreviousKattika? at hr ⊢
    rw [hr]; rfl
  rcases hd with h | h | h
  · obtain ⟨f, hf, k', e⟩ := loop_seen reads (y - 1) (kattikaDirection y) (Or.inl h) (y - 1 - kattikaEpoch.year).natAbs k
      kattikaEpoch.year kattikaEpoch
    exact ⟨f, hf, key f k' e⟩
  · obtain ⟨f, hf, k', e⟩ := loop_seen reads (y - 1) (kattikaDirection y) (Or.inr h) (y - 1 - kattikaEpoch.year).natAbs k
      kattikaEpoch.year kattikaEpoch
    exact ⟨f, hf, key f k' e⟩
  · subst h
    refine ⟨fun z => (Model.Switching.isAdhikavara reads 0 (SuriyaYear.init z)).1, fun z => seen reads 0 z, key _ k ?_⟩
    rfl

/-! ### The moons of a year -/

theorem next_step (reads : Reads) (k : Nat) (u : UposathaMoon) :
    (Model.Switching.nextUposatha reads k u).1 = step (SuriyaYear.init u.Date.year).isAdhikamasa
      (Model.Switching.isAdhikavara reads k (SuriyaYear.init u.Date.year)).1 u := rfl

theorem step_days (a v : Bool) (u : UposathaMoon) :
    (step a v u).Date.day = u.Date.day + 14 ∨ (step a v u).Date.day = u.Date.day + 15 := by
  have hu : (step a v u).U_Days = 14 ∨ (step a v u).U_Days = 15 := by
    unfold step
    simp only
    by_cases h : u.Phase = "new"
    · simp only [h, if_true, nextFull]; simp
    · simp only [h, if_false, nextNew]; split
      · simp
      · simp; omega
  have hd : (step a v u).Date = u.Date.add ((step a v u).U_Days * nsPerDay) := rfl
  rw [hd, day_add]; omega

theorem step_irrelevant (a v w : Bool) (u : UposathaMoon) (h : u.Phase = "new" ∨ nextMonth a u.LunarMonth ≠ 8) :
    step a v u = step a w u := by
  unfold step
  by_cases hp : u.Phase = "new"
  · simp only [hp, if_true]
  · have hm := h.resolve_left hp
    have : nextNew u a v = nextNew u a w := by
      unfold nextNew
      simp only [hm, decide_false, Bool.and_false]
    simp only [hp, if_false, this]

theorem loop_some (reads : Reads) (y : Int) : ∀ (fuel k : Nat) (u : UposathaMoon) (evs : List CalendarEvent),
    (daysSinceEpoch (y + 1) - u.Date.day).toNat ≤ fuel →
    (Model.Switching.generateLoop reads y fuel k u evs).isSome = true := by
  intro fuel
  induction fuel with
  | zero =>
    intro k u evs h
    have : ¬ u.Date.year ≤ y := by unfold Time.year; rw [year_le_iff]; omega
    rw [Model.Switching.generateLoop, if_neg this]; rfl
  | succ fuel ih =>
    intro k u evs h
    rw [Model.Switching.generateLoop]
    by_cases hy : u.Date.year ≤ y
    · rw [if_pos hy]
      apply ih
      have hd := step_days (SuriyaYear.init u.Date.year).isAdhikamasa
        (Model.Switching.isAdhikavara reads k (SuriyaYear.init u.Date.year)).1 u
      rw [← next_step] at hd
      unfold Time.year at hy; rw [year_le_iff] at hy
      omega
    · rw [if_neg hy]; rfl

/-- The lunar months possible for the `j`-th moon after Kattika. -/
def monthsAt (j : Nat) : List Int :=
  if j = 0 then [12]
  else if j ≤ 16 then [((j : Int) + 1) / 2]
  else if j ≤ 18 then [9, 13]
  else if j ≤ 22 then [((j : Int) + 1) / 2, ((j : Int) + 1) / 2 - 1]
  else if j ≤ 24 then [12, 11]
  else if j ≤ 26 then [1, 12]
  else [((j : Int) + 1) / 2 - 12, ((j : Int) + 1) / 2 - 13]

theorem months_step : ∀ j : Fin 37, ∀ m ∈ monthsAt j, ∀ a : Bool,
    (j.val % 2 = 1 → m ∈ monthsAt (j + 1)) ∧
    (j.val % 2 = 0 → nextMonth a m ∈ monthsAt (j + 1) ∧ (nextMonth a m = 8 → j.val = 14)) := by decide +kernel

structure At (y : Int) (j : Nat) (u : UposathaMoon) : Prop where
  month : u.LunarMonth ∈ monthsAt j
  phase : u.Phase = if j % 2 = 1 then "new" else "full"
  day : daysSinceEpoch y - 150 + 14 * (j : Int) ≤ u.Date.day

theorem At.next {y : Int} {j : Nat} {u : UposathaMoon} (h : At y j u) (hj : j < 37) (a v : Bool) :
    At y (j + 1) (step a v u) := by
  have hm := months_step ⟨j, hj⟩ u.LunarMonth h.month a
  have hd := step_days a v u
  have hday := h.day
  refine ⟨?_, ?_, by omega⟩
  · by_cases hp : j % 2 = 1
    · have := hm.1 hp
      have e : u.Phase = "new" := by rw [h.phase, if_pos hp]
      unfold step; simp only [e, if_true, nextFull]; exact this
    · have := (hm.2 (by simpa using hp)).1
      have e : u.Phase ≠ "new" := by rw [h.phase, if_neg hp]; decide
      unfold step; simp only [e, if_false, nextNew]; exact this
  · by_cases hp : j % 2 = 1
    · have e : u.Phase = "new" := by rw [h.phase, if_pos hp]
      have e2 : ¬ (j + 1) % 2 = 1 := by omega
      unfold step; simp only [e, e2, if_true, if_false, nextFull]
    · have e : u.Phase ≠ "new" := by rw [h.phase, if_neg hp]; decide
      have e2 : (j + 1) % 2 = 1 := by omega
      unfold step; simp only [e, e2, if_true, if_false, nextNew]

theorem next_answers (f : Int → Bool) (u : UposathaMoon) : u.nextUposatha (answers f) =
    step (SuriyaYear.init u.Date.year).isAdhikamasa (f u.Date.year) u := rfl

theorem generate_seen (reads : Reads) (y : Int) : ∀ (fuel j k : Nat) (u : UposathaMoon) (evs : List CalendarEvent),
    j ≤ 37 → At y j u → ∃ b, (Seen reads y b ∧ ∃ k', ∀ c, (c = b ∨ 14 < j) →
      Model.Switching.generateLoop reads y fuel k u evs =
        (Model.generateLoop (answers fun _ => c) y fuel u evs).map (·, k')) := by
  intro fuel
  induction fuel with
  | zero =>
    intro j k u evs hj h
    refine ⟨_, seen reads 0 y, k, fun c _ => ?_⟩
    rw [Model.Switching.generateLoop, Model.generateLoop]
    split <;> rfl
  | succ fuel ih =>
    intro j k u evs hj h
    by_cases hy : u.Date.year ≤ y
    · have hy' := hy
      unfold Time.year at hy'; rw [year_le_iff] at hy'
      have hs := daysSinceEpoch_succ y
      have hb := yearDays_bounds y
      have hday := h.day
      have hj' : j < 37 := by omega
      have hm := months_step ⟨j, hj'⟩ u.LunarMonth h.month (SuriyaYear.init u.Date.year).isAdhikamasa
      have hn := h.next hj' (SuriyaYear.init u.Date.year).isAdhikamasa
        (Model.Switching.isAdhikavara reads k (SuriyaYear.init u.Date.year)).1
      rw [← next_step] at hn
      obtain ⟨b, hb1, k', e⟩ := ih (j + 1) (Model.Switching.nextUposatha reads k u).2
        (Model.Switching.nextUposatha reads k u).1
        (evs ++ iterationEvents y { (Model.Switching.nextUposatha reads k u).1 with Status := 2 }) (by omega) hn
      have hun : ∀ c, Model.generateLoop (answers fun _ => c) y (fuel + 1) u evs =
          Model.generateLoop (answers fun _ => c) y fuel (step (SuriyaYear.init u.Date.year).isAdhikamasa c u)
            (evs ++ iterationEvents y { step (SuriyaYear.init u.Date.year).isAdhikamasa c u with Status := 2 }) := by
        intro c
        rw [Model.generateLoop, if_pos hy]; rfl
      have hus : Model.Switching.generateLoop reads y (fuel + 1) k u evs =
          Model.Switching.generateLoop reads y fuel (Model.Switching.nextUposatha reads k u).2
            (Model.Switching.nextUposatha reads k u).1
            (evs ++ iterationEvents y { (Model.Switching.nextUposatha reads k u).1 with Status := 2 }) := by
        rw [Model.Switching.generateLoop, if_pos hy]
      by_cases h14 : j = 14
      · have hyear : u.Date.year = y := by
          have : y - 1 < u.Date.year := by
            by_contra hc
            have hc' : u.Date.year ≤ y - 1 := by omega
            unfold Time.year at hc'; rw [year_le_iff] at hc'
            have e : y - 1 + 1 = y := by omega
            rw [e] at hc'; omega
          omega
        refine ⟨(Model.Switching.isAdhikavara reads k (SuriyaYear.init y)).1, seen reads k y, k', fun c hc => ?_⟩
        have hc' := hc.resolve_right (by omega)
        have hst : (Model.Switching.nextUposatha reads k u).1 =
            step (SuriyaYear.init u.Date.year).isAdhikamasa c u := by rw [next_step, hc', hyear]
        rw [hus, hun, e c (Or.inr (by omega)), hst]
      · refine ⟨b, hb1, k', fun c hc => ?_⟩
        have hst : (Model.Switching.nextUposatha reads k u).1 =
            step (SuriyaYear.init u.Date.year).isAdhikamasa c u := by
          rw [next_step]
          apply step_irrelevant
          by_cases hp : j % 2 = 1
          · left; rw [h.phase, if_pos hp]
          · right; intro h8; exact h14 ((hm.2 (by simpa using hp)).2 h8)
        rw [hus, hun, e c (hc.imp_right fun h => by omega), hst]
    · refine ⟨_, seen reads 0 y, k, fun c _ => ?_⟩
      rw [Model.Switching.generateLoop, Model.generateLoop, if_neg hy, if_neg hy]; rfl

theorem generate_eq (reads : Reads) (k : Nat) (y : Int)
    (h : daysSinceEpoch y - 150 ≤ (Model.Switching.calculatePreviousKattika reads k y).1.day) :
    ∃ b, Seen reads y b ∧ (Model.Switching.generateSolarYear reads k y).1 =
      eventsFrom (answers fun _ => b) y (kattikaMoon (Model.Switching.calculatePreviousKattika reads k y).1) := by
  obtain ⟨b, hb, k', e⟩ := generate_seen reads y
    ((daysSinceEpoch (y + 1) - (Model.Switching.calculatePreviousKattika reads k y).1.day).toNat + 1) 0
    (Model.Switching.calculatePreviousKattika reads k y).2
    (kattikaMoon (Model.Switching.calculatePreviousKattika reads k y).1) [] (by omega)
    ⟨by show (12 : Int) ∈ monthsAt 0; decide, rfl, by
      show _ ≤ (Model.Switching.calculatePreviousKattika reads k y).1.day; simpa using h⟩
  refine ⟨b, hb, ?_⟩
  have e' := e b (Or.inl rfl)
  have hs := loop_some reads y ((daysSinceEpoch (y + 1) -
    (Model.Switching.calculatePreviousKattika reads k y).1.day).toNat + 1)
    (Model.Switching.calculatePreviousKattika reads k y).2
    (kattikaMoon (Model.Switching.calculatePreviousKattika reads k y).1) [] (by
      show (_ - (Model.Switching.calculatePreviousKattika reads k y).1.day).toNat ≤ _; omega)
  unfold Model.Switching.generateSolarYear Model.Switching.generateSolarYear? eventsFrom
  show (Option.getD (Model.Switching.generateLoop reads y ((daysSinceEpoch (y + 1) -
    (Model.Switching.calculatePreviousKattika reads k y).1.day).toNat + 1)
    (Model.Switching.calculatePreviousKattika reads k y).2
    (kattikaMoon (Model.Switching.calculatePreviousKattika reads k y).1) []) ([], k)).1 = (Model.generateLoop _ y
    ((daysSinceEpoch (y + 1) - (Model.Switching.calculatePreviousKattika reads k y).1.day).toNat + 1) _ []).getD []
  rw [e'] at hs ⊢
  cases hg : Model.generateLoop (answers fun _ => b) y ((daysSinceEpoch (y + 1) -
    (Model.Switching.calculatePreviousKattika reads k y).1.day).toNat + 1)
    (kattikaMoon (Model.Switching.calculatePreviousKattika reads k y).1) [] with
  | none => rw [hg] at hs; simp at hs
  | some l => rfl

/-! ### Constant settings -/

theorem adv_const (cfg : Config) (k : Nat) (su : SuriyaYear) :
    (Model.Switching.isAdhikavara (fun _ => cfg) k su).1 = su.isAdhikavara cfg := by
  unfold Model.Switching.isAdhikavara SuriyaYear.isAdhikavara
  simp only
  split
  · cases cfg.exceptions su.Year <;> rfl
  · rfl

theorem yearLength_const (cfg : Config) (k : Nat) (su : SuriyaYear) :
    (Model.Switching.yearLength (fun _ => cfg) k su).1 = su.yearLength cfg := by
  unfold Model.Switching.yearLength SuriyaYear.yearLength
  simp only [adv_const]
  by_cases ha : su.isAdhikamasa = true <;> simp [ha]

theorem kattikaLoop_const (cfg : Config) (target direction : Int) : ∀ (fuel k : Nat) (y : Int) (d : Time), 
    (Model.Switching.kattikaLoop (fun _ => cfg) target direction fuel k y d).map (·.1) =
      Model.kattikaLoop cfg target direction fuel y d := by
  intro fuel
  induction fuel with
  | zero => intro k y d; rw [Model.Switching.kattikaLoop, Model.kattikaLoop]; split <;> rfl
  | succ fuel ih =>
    intro k y d
    rw [Model.Switching.kattikaLoop, loop_unfold]
    by_cases hy : y = target
    · rw [if_pos hy, if_pos hy]; rfl
    · rw [if_neg hy, if_neg hy]
      have hs : (if direction = 1 then SuriyaYear.init (y + 1) else SuriyaYear.init y) =
          SuriyaYear.init (stepped direction y) := by
        unfold stepped; split <;> rfl
      simp only [hs, ih, yearLength_const]

theorem kattika_const (cfg : Config) (k : Nat) (y : Int) :
    (Model.Switching.calculatePreviousKattika (fun _ => cfg) k y).1 = Model.calculatePreviousKattika cfg y := by
  unfold Model.Switching.calculatePreviousKattika Model.calculatePreviousKattika calculatePreviousKattika?
  rw [← kattikaLoop_const cfg _ _ _ k]
  cases Model.Switching.kattikaLoop (fun _ => cfg) (y - 1) (kattikaDirection y) (y - 1 - kattikaEpoch.year).natAbs k
    kattikaEpoch.year kattikaEpoch <;> rfl

theorem asalha_const (cfg : Config) (k : Nat) (su : SuriyaYear) :
    (Model.Switching.asalhaPuja (fun _ => cfg) k su).1 = su.asalhaPuja cfg := by
  unfold Model.Switching.asalhaPuja SuriyaYear.asalhaPuja
  simp only [kattika_const, adv_const]
  by_cases ha : su.isAdhikamasa = true <;> simp [ha]

theorem next_const (cfg : Config) (k : Nat) (u : UposathaMoon) :
    (Model.Switching.nextUposatha (fun _ => cfg) k u).1 = u.nextUposatha cfg := by
  rw [next_step, next_eq_step, adv_const]

theorem generateLoop_const (cfg : Config) (y : Int) : ∀ (fuel k : Nat) (u : UposathaMoon) (evs : List CalendarEvent),
    (Model.Switching.generateLoop (fun _ => cfg) y fuel k u evs).map (·.1) = Model.generateLoop cfg y fuel u evs := by
  intro fuel
  induction fuel with
  | zero => intro k u evs; rw [Model.Switching.generateLoop, Model.generateLoop]; split <;> rfl
  | succ fuel ih =>
    intro k u evs
    rw [Model.Switching.generateLoop, Model.generateLoop]
    split
    · simp only [ih, next_const]
    · rfl

theorem generate_const (cfg : Config) (k : Nat) (y : Int) :
    (Model.Switching.generateSolarYear (fun _ => cfg) k y).1 = Model.generateSolarYear cfg y := by
  unfold Model.Switching.generateSolarYear Model.generateSolarYear Model.Switching.generateSolarYear?
    Model.generateSolarYear? generateFuel
  have hs : (Model.Switching.kattikaSeed (fun _ => cfg) k y).1 = Model.kattikaSeed cfg y := by
    unfold Model.Switching.kattikaSeed Model.kattikaSeed
    simp only [kattika_const]
  simp only [hs]
  rw [← generateLoop_const cfg y _ (Model.Switching.kattikaSeed (fun _ => cfg) k y).2]
  cases Model.Switching.generateLoop (fun _ => cfg) y _ _ _ _ <;> rfl

/-! ### Days of a range -/

theorem eventYears_eq (reads : Reads) (cfg : Config) (fromDate toDate : Time) : ∀ (n k : Nat) (y : Int) (ds : List CalDay),
    (∀ k z, y ≤ z → z < y + n → (Model.Switching.generateSolarYear reads k z).1 = Model.generateSolarYear cfg z) →
    (Model.Switching.eventYears reads fromDate toDate n k y ds).1 = Model.eventYears cfg fromDate toDate n y ds := by
  intro n
  induction n with
  | zero => intro k y ds h; rfl
  | succ n ih =>
    intro k y ds h
    rw [Model.Switching.eventYears, Model.eventYears]
    rw [ih, h k y (by omega) (by omega)]
    intro k z h1 h2
    exact h k z (by omega) (by omega)

theorem getCalDays_eq (reads : Reads) (cfg : Config) (k : Nat) (files : Int → AstroFile) (fromDate toDate : Time)
    (h : ∀ k z, fromDate.year ≤ z → z ≤ toDate.year →
      (Model.Switching.generateSolarYear reads k z).1 = Model.generateSolarYear cfg z) :
    (Model.Switching.getCalDays reads k files fromDate toDate).map (·.1) = Model.getCalDays cfg files fromDate toDate := by
  unfold Model.Switching.getCalDays Model.getCalDays unsortedCalDays
  cases getAstroMoons files fromDate toDate with
  | none => rfl
  | some ms =>
    simp only [Option.map_some]
    rw [eventYears_eq reads cfg]
    intro k z h1 h2
    refine h k z h1 ?_
    unfold yearCount at h2; omega

end Verif.Lemmas.Switching
