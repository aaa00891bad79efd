import Verif.Props.Range
import Verif.Props.TextAll
/-
C55 with the settings as shipped: up to which year everything generated for a year is dated in it, and what follows for
ranges of days.
-/
set_option autoImplicit false

namespace Verif.Props
open Verif.Go Verif.Model Verif.Spec Verif.Lemmas

private theorem asalha_at : ∀ a v : Bool, (a && v) = false → ∀ k : Fin 35, (tab a v k).Event = "asalha" →
    10 ≤ k.val ∧ off a v k = if a then 266 else if v then 237 else 236 := by decide +kernel

private theorem asalha_is : ∀ a v : Bool, (a && v) = false → ∃ k : Fin 35, 10 ≤ k.val ∧ (tab a v k).Event = "asalha" ∧
    off a v k = if a then 266 else if v then 237 else 236 := by decide +kernel

private theorem vassa_event {event : String} {p : String × Int} (hp : p ∈ pujas event) (hname : p.1 = "First day of Vassa") :
    event = "asalha" ∧ p.2 = 1 := by
  unfold pujas at hp
  split at hp
  · simp only [List.mem_singleton] at hp; rw [hp] at hname; exact absurd hname (by decide)
  · split at hp
    · simp only [List.mem_singleton] at hp; rw [hp] at hname; exact absurd hname (by decide)
    · split at hp
      · rename_i ha
        refine ⟨ha, ?_⟩
        simp only [List.mem_cons, List.not_mem_nil, or_false] at hp
        rcases hp with hp | hp
        · rw [hp] at hname; exact absurd hname (by decide)
        · rw [hp]
      · split at hp
        · simp only [List.mem_cons, List.not_mem_nil, or_false] at hp
          rcases hp with hp | hp <;> rw [hp] at hname <;> exact absurd hname (by decide)
        · simp at hp

/-- C55: everything generated for an orderly year is dated in it unless the Āsāḷha full moon falls on its last day. -/
theorem c55_in_year_iff (cfg : Config) (y : Int) (ho : Orderly cfg y) :
    (∀ e ∈ generateSolarYear cfg y, e.getDate.year = y) ↔
      (calculatePreviousKattika cfg y).day + (if (SuriyaYear.init y).isAdhikamasa = true then 266
        else if (SuriyaYear.init y).isAdhikavara cfg = true then 237 else 236) + 1 ≠ daysSinceEpoch (y + 1) := by
  obtain ⟨hx, hlo⟩ := ho
  have hx := flags_of hx
  obtain ⟨ly, hchain⟩ := chain_any hx hlo
  change daysSinceEpoch y - 118 ≤ katDay cfg y at hlo
  have hs := daysSinceEpoch_succ y
  have hb := yearDays_bounds y
  have h0 := chain_zero_day cfg y
  have hexact : ∀ k : Nat, 10 ≤ k → (chain cfg y k).Date.day < daysSinceEpoch (y + 1) →
      chain cfg y k = shift (katDay cfg y) ly (tab (fa y) (fv cfg y) k) := by
    intro k hk hday
    refine (hchain k (by omega)).2 (k - 1) (by omega) ?_
    have := (chain_day_mono cfg y (j := 0) (k := k - 1) (by omega)).1
    omega
  constructor
  · intro h he
    obtain ⟨k, hk10, hev, hoff⟩ := asalha_is (fa y) (fv cfg y) hx
    have he : katDay cfg y + off (fa y) (fv cfg y) k + 1 = daysSinceEpoch (y + 1) := by rw [hoff]; exact he
    have hpos : ∀ a v : Bool, ∀ k : Fin 35, 0 ≤ off a v k := by decide +kernel
    have hpos := hpos (fa y) (fv cfg y) k
    have hday : (chain cfg y k).Date.day = daysSinceEpoch (y + 1) - 1 := by
      have hlast : ∀ j : Nat, j ≤ k.val → (chain cfg y j).Date.day < daysSinceEpoch (y + 1) + 14 := by
        intro j
        induction j with
        | zero => intro _; omega
        | succ j ih =>
          intro hj
          have h1 := chain_any_day hx hlo j (ih (by omega))
          have h2 := chain_day_succ cfg y j
          have mono : ∀ a v : Bool, (a && v) = false → ∀ k : Fin 35, ∀ j : Fin 35, j.val < k.val → off a v j + 14 ≤ off a v k := by
            decide +kernel
          have := mono _ _ hx k ⟨j, by omega⟩ (by show j < _; omega)
          simp only at this
          omega
      rw [chain_any_day hx hlo k (hlast k (Nat.le_refl _))]
      omega
    have hc := hexact k hk10 (by omega)
    have hev' : (chain cfg y k).Event = "asalha" := by rw [hc]; exact hev
    have hmem : CalendarEvent.major (majorOn ((chain cfg y k).Date.addDays 1) "First day of Vassa") ∈ generateSolarYear cfg y := by
      rw [c22_major_iff]
      refine ⟨k, by omega, ?_, ("First day of Vassa", 1), ?_, ?_⟩
      · rw [moon_eq]; unfold Time.year; rw [year_eq_iff]; omega
      · rw [moon_eq, hev']; decide
      · rw [moon_eq]
    have := h _ hmem
    change ((chain cfg y k).Date.addDays 1).year = y at this
    unfold Time.year at this
    rw [year_eq_iff, addDays_eq, day_add] at this
    omega
  · intro hne e h
    rcases (c22_in_year cfg y e h).1 with he | ⟨t, -, rfl⟩
    · exact he
    · obtain ⟨k, -, hyear, p, hp, hm⟩ := (c22_major_iff _ _ _).1 h
      rw [moon_eq] at hyear hp hm
      have hname : p.1 = "First day of Vassa" := by
        have := congrArg Event.Summary hm
        exact this.symm
      obtain ⟨hev, hp2⟩ := vassa_event hp hname
      have hy := (year_eq_iff _ _).1 hyear
      have hk35 : k < 35 := by
        have := (chain_day_mono cfg y (j := 0) (k := k) (by omega)).1
        omega
      have hk10 : 10 ≤ k := by
        by_contra hk
        have hmon := asalha_month hev
        have hcore := congrArg UposathaMoon.LunarMonth (hchain k (by omega)).1
        have hcore : (chain cfg y k).LunarMonth = (tab (fa y) (fv cfg y) k).LunarMonth := hcore
        rw [hcore] at hmon
        have low : ∀ a v : Bool, (a && v) = false → ∀ k : Fin 10, ¬ ((tab a v k).LunarMonth = 8 ∨ (tab a v k).LunarMonth = 13) := by
          decide +kernel
        exact low _ _ hx ⟨k, by omega⟩ hmon
      have hc := hexact k hk10 (by omega)
      have hoff := (asalha_at _ _ hx ⟨k, hk35⟩ (by rw [← hev, hc]; rfl)).2
      have hd := chain_any_day hx hlo k (by omega)
      have hne : katDay cfg y + off (fa y) (fv cfg y) k + 1 ≠ daysSinceEpoch (y + 1) := by rw [hoff]; exact hne
      rw [hm]
      show ((chain cfg y k).Date.addDays p.2).year = y
      rw [hp2]
      unfold Time.year
      rw [year_eq_iff, addDays_eq, day_add]
      omega

/-- C55: the condition for 2015, an adhikamāsa year. -/
example : Orderly .default 2015 ∧ (SuriyaYear.init 2015).isAdhikamasa = true ∧
    (calculatePreviousKattika .default 2015).day + 266 + 1 ≠ daysSinceEpoch 2016 :=
  ⟨c44_orderly _ (.inl rfl) _, by decide +kernel, by decide +kernel⟩

private theorem vassa_scan : scanAll (fun y => !(SuriyaYear.init y).isAdhikamasa ||
    decide (hor y - age y - carry y + 232608 + tieAdh (y - 1) + 2 + 267 < daysSinceEpoch (y + 1))) 1249 9900 = true := by
  decide +kernel

private theorem vassa_edge : (SuriyaYear.init 11149).isAdhikamasa = true ∧
    hor 11149 - age 11149 - carry 11149 + 232608 + tieAdh 11148 + 2 + 267 = daysSinceEpoch 11150 := by
  decide +kernel

/-- C55: with the settings as shipped everything generated for a year from 631 to 11148 is dated in that year, and 11149
is the first year from 631 on for which this fails. -/
theorem c55_in_year (cfg : Config) (hs : Shipped cfg) :
    (∀ y, 631 ≤ y → y ≤ 11148 → ∀ e ∈ generateSolarYear cfg y, e.getDate.year = y) ∧
    ∃ e ∈ generateSolarYear cfg 11149, e.getDate.year ≠ 11149 := by
  have hoff : ∀ y, 4116 < y → katDay cfg y = katDay .default y := by
    intro y hy
    rcases hs with rfl | rfl
    · rfl
    · rw [katDay_official, if_neg (by omega)]; omega
  have hsur : ∀ y, 4116 < y → y ≤ 11149 → surplus y ≤ 2 ∧ (7260 < y → surplus y = 2) := by
    intro y h1 h2
    have := surplus_years (y - 638).toNat (by omega)
    rw [show (638 : Int) + ((y - 638).toNat : Int) = y by omega] at this
    rw [this]
    (repeat' split) <;> omega
  constructor
  · intro y h1 h2
    rw [c55_in_year_iff cfg y (c44_orderly cfg hs y)]
    change katDay cfg y + _ + 1 ≠ _
    have hsucc := daysSinceEpoch_succ y
    have hb := yearDays_bounds y
    have hX : (if (SuriyaYear.init y).isAdhikamasa = true then (266 : Int)
        else if (SuriyaYear.init y).isAdhikavara cfg = true then 237 else 236) ≤ 266 ∧
        ((SuriyaYear.init y).isAdhikamasa = false → (if (SuriyaYear.init y).isAdhikamasa = true then (266 : Int)
        else if (SuriyaYear.init y).isAdhikavara cfg = true then 237 else 236) ≤ 237) := by
      constructor
      · (repeat' split) <;> omega
      · intro h; rw [h]; simp only [Bool.false_eq_true, if_false]; split <;> omega
    generalize (if (SuriyaYear.init y).isAdhikamasa = true then (266 : Int)
        else if (SuriyaYear.init y).isAdhikavara cfg = true then 237 else 236) = X at hX ⊢
    rcases Int.lt_or_le 4116 y with h' | h'
    · rw [hoff y h']
      have hk := katDay_closed (y := y) (by omega)
      have ha := age_range y
      have hc := carry_range y
      have ht := tieAdh_range (y - 1)
      have hd := daysSinceEpoch_bounds (y + 1)
      have hsu := hsur y h' (by omega)
      rcases Int.lt_or_le y 9900 with hy | hy
      · unfold hor eraNum at hk
        omega
      · have hsc := scanAll_spec vassa_scan y hy (by omega)
        simp only [Bool.or_eq_true, Bool.not_eq_true', decide_eq_true_eq] at hsc
        have hsu := hsu.2 (by omega)
        rcases hsc with h | h
        · have := hX.2 h
          unfold hor eraNum at hk
          omega
        · omega
    · have := (shipped_window hs h1 h').2.1
      omega
  · by_contra hne
    have hall : ∀ e ∈ generateSolarYear cfg 11149, e.getDate.year = 11149 := by
      intro e he
      by_contra h
      exact hne ⟨e, he, h⟩
    rw [c55_in_year_iff cfg 11149 (c44_orderly cfg hs 11149)] at hall
    apply hall
    rw [if_pos vassa_edge.1]
    change katDay cfg 11149 + _ + 1 = _
    rw [hoff 11149 (by omega), katDay_closed (by omega), (hsur 11149 (by omega) (by omega)).2 (by omega)]
    have := vassa_edge.2
    rw [show (11149 : Int) - 1 = 11148 by rfl, show (11149 : Int) + 1 = 11150 by rfl]
    omega

/-- C55: 11148 has events, all dated in it. -/
example : generateSolarYear .official 11148 ≠ [] ∧ ∀ e ∈ generateSolarYear .official 11148, e.getDate.year = 11148 :=
  ⟨(c25_years _ (.inr rfl)).1 _ (by decide) (by decide), (c55_in_year _ (.inr rfl)).1 _ (by decide) (by decide)⟩

theorem shipped_dated {cfg : Config} (hs : Shipped cfg) : DatedInYear cfg 11148 :=
  fun y h1 h2 => (c55_in_year cfg hs).1 y (by omega) h2

/-- C55: the entry of a day with the shipped settings, from 1900 to 11148. -/
theorem c55_local (cfg : Config) (hs : Shipped cfg) (from1 to1 from2 to2 : Time) (h1 : UtcRange from1 to1)
    (h2 : UtcRange from2 to2) (hb1 : to1.year ≤ 11148) (hb2 : to2.year ≤ 11148) (l1 l2 : List CalDay)
    (hl1 : getCalDays cfg embeddedFiles from1 to1 = some l1)
    (hl2 : getCalDays cfg embeddedFiles from2 to2 = some l2) (d : Int) (hd : SameOnDay d from1 to1 from2 to2)
    (c : CalDay) (hc : c ∈ l1) (hcd : c.Date.day = d) : c ∈ l2 :=
  c55_local_dated cfg 11148 (shipped_dated hs) from1 to1 from2 to2 h1 h2 hb1 hb2 l1 l2 hl1 hl2 d hd c hc hcd

/-- C55: two ranges that agree on 1 January 9000. -/
example : UtcRange (date 9000 1 1 0 0) (date 9000 8 9 0 0) ∧ UtcRange (date 2000 1 1 0 0) (date 11148 12 31 0 0) ∧
    SameOnDay (date 9000 1 1 0 0).day (date 9000 1 1 0 0) (date 9000 8 9 0 0) (date 2000 1 1 0 0) (date 11148 12 31 0 0) := by
  refine ⟨⟨by decide, by decide, by decide⟩, ⟨by decide, by decide, by decide⟩, ?_⟩
  intro t h0 hd
  have e : (t.nanos + t.offset * nsPerSec) / nsPerDay = 3286817 := hd.trans (by decide)
  have h1 : (date 9000 1 1 0 0).nanos = 3286817 * nsPerDay := by decide
  have h2 : (date 9000 8 9 0 0).nanos = 3287037 * nsPerDay := by decide
  have h3 : (date 2000 1 1 0 0).nanos = 730119 * nsPerDay := by decide
  have h4 : (date 11148 12 31 0 0).nanos = 4071722 * nsPerDay := by decide
  unfold Within
  rw [h1, h2, h3, h4]
  rw [h0] at e
  unfold nsPerDay at *
  omega

/-- C55: cutting a range with the shipped settings. -/
theorem c55_split (cfg : Config) (hs : Shipped cfg) (fromDate toDate : Time) (h : UtcRange fromDate toDate)
    (hb : toDate.year ≤ 11148) (d : Int)
    (h1 : fromDate.nanos ≤ d * nsPerDay) (h2 : d * nsPerDay ≤ toDate.nanos) (l : List CalDay)
    (hl : getCalDays cfg embeddedFiles fromDate toDate = some l) :
    ∃ l1 l2, getCalDays cfg embeddedFiles fromDate ⟨d * nsPerDay - 1, 0⟩ = some l1 ∧
      getCalDays cfg embeddedFiles ⟨d * nsPerDay, 0⟩ toDate = some l2 ∧ l = l1 ++ l2 :=
  c55_split_dated cfg 11148 (shipped_dated hs) fromDate toDate h d hb h1 h2 l hl

/-- C55: the range 1900 to 11148, cut on 1 January 5000. -/
example : UtcRange (date 1900 1 1 0 0) (date 11148 12 31 0 0) ∧ (date 11148 12 31 0 0).year ≤ 11148 ∧
    (date 1900 1 1 0 0).nanos ≤ (date 5000 1 1 0 0).day * nsPerDay ∧
    (date 5000 1 1 0 0).day * nsPerDay ≤ (date 11148 12 31 0 0).nanos :=
  ⟨⟨by decide, by decide, by decide⟩, by decide, by decide, by decide⟩

end Verif.Props
