import Verif.Props.Drift
import Verif.Props.Festivals
/-
Property C81: the dates of the festivals in the years 1900 to 2100.
-/
set_option autoImplicit false

namespace Verif.Props
open Verif.Go Verif.Model Verif.Spec Verif.Lemmas

/-- Asalha Puja of the years around 2000 by whole numbers. -/
def asalhaFor (cfg : Config) (y : Int) : Int :=
  asalhaAt y - (if cfg.useExceptions = true ∧ (y = 1994 ∨ y = 1995 ∨ y = 1996) then 1 else 0)

theorem asalhaFor_eq {cfg : Config} (hs : Shipped cfg) {y : Int} (h : 638 ≤ y) (h2 : y ≤ 4097) :
    ((SuriyaYear.init y).asalhaPuja cfg).day = asalhaFor cfg y := by
  have hd := asalhaAt_eq h h2
  unfold asalhaFor
  rcases hs with rfl | rfl
  · rw [hd, if_neg (by simp [Config.default])]; omega
  · have hk := katDay_official (y + 1)
    have e1 := asalha_day y .official
    have e2 := asalha_day y .default
    simp only [Config.official, true_and]
    change ((SuriyaYear.init y).asalhaPuja .official).day = _
    split at hk <;> split <;> omega

def vesakhaFor (cfg : Config) (y : Int) : Int :=
  if (SuriyaYear.init y).isAdhikamasa = false ∧ (SuriyaYear.init y).isAdhikavara cfg = true then -60 else -59

def maghaFor (cfg : Config) (y : Int) : Int := vesakhaFor cfg y - (if (SuriyaYear.init y).isAdhikamasa = true then 89 else 88)

def between (y m1 d1 m2 d2 n : Int) : Bool := decide ((date y m1 d1 0 0).day ≤ n ∧ n ≤ (date y m2 d2 0 0).day)

def feastsGood (cfg : Config) (y : Int) : Bool :=
  between y 2 6 3 8 (asalhaFor cfg y + maghaFor cfg y) && between y 5 5 6 5 (asalhaFor cfg y + vesakhaFor cfg y) &&
  between y 7 3 8 3 (asalhaFor cfg y) && between y 7 4 8 4 (asalhaFor cfg y + 1) && between y 9 30 10 31 (asalhaFor cfg y + 89)

theorem feasts_scan : scanAll (feastsGood .default) 201 1900 = true ∧ scanAll (feastsGood .official) 201 1900 = true := by decide +kernel

/-- C81: the major events of the years 1900 to 2100 and the dates between which each falls. -/
theorem c81_feasts (cfg : Config) (hs : Shipped cfg) (y : Int) (h1 : 1900 ≤ y) (h2 : y ≤ 2100) (e : MajorEvent)
    (he : .major e ∈ generateSolarYear cfg y) :
    ∃ m1 d1 m2 d2 first last, (e.Summary, (m1, d1), (m2, d2)) ∈
      [("Māgha Pūjā", (2, 6), (3, 8)), ("Vesākha Pūjā", (5, 5), (6, 5)), ("Āsāḷha Pūjā", (7, 3), (8, 3)), ("First day of Vassa", (7, 4), (8, 4)),
       ("Pavāraṇā Day", (9, 30), (10, 31)), ("Last day of Vassa", (9, 30), (10, 31))] ∧
      IsDate first y m1 d1 ∧ IsDate last y m2 d2 ∧ first ≤ e.Date.day ∧ e.Date.day ≤ last := by
  have hg : feastsGood cfg y = true := by
    rcases hs with rfl | rfl
    · exact scanAll_spec feasts_scan.1 y h1 (by omega)
    · exact scanAll_spec feasts_scan.2 y h1 (by omega)
  have hA := asalhaFor_eq hs (y := y) (by omega) (by omega)
  have hm : e ∈ majorsOf (generateSolarYear cfg y) := by
    unfold majorsOf
    exact List.mem_filterMap.2 ⟨_, he, rfl⟩
  rw [c21_six cfg hs y (by omega) (by omega)] at hm
  have put : ∀ {m1 d1 m2 d2 n : Int}, between y m1 d1 m2 d2 n = true → 1 ≤ m1 → m1 ≤ 12 → 1 ≤ d1 → d1 ≤ monthDays y m1 →
      1 ≤ m2 → m2 ≤ 12 → 1 ≤ d2 → d2 ≤ monthDays y m2 →
      ∃ first last, IsDate first y m1 d1 ∧ IsDate last y m2 d2 ∧ first ≤ n ∧ n ≤ last := by
    intro m1 d1 m2 d2 n hb a1 a2 a3 a4 b1 b2 b3 b4
    have := of_decide_eq_true hb
    exact ⟨_, _, (date_day a1 a2 a3 a4).1, (date_day b1 b2 b3 b4).1, this.1, this.2⟩
  have f6 : (6 : Int) ≤ monthDays y 2 := by simp only [monthDays]; split <;> split <;> omega
  simp only [feastsGood, Bool.and_eq_true] at hg
  obtain ⟨⟨⟨⟨g1, g2⟩, g3⟩, g4⟩, g5⟩ := hg
  have hadd : ∀ n, (((SuriyaYear.init y).asalhaPuja cfg).addDays n).day = asalhaFor cfg y + n := fun n => by rw [← hA, addDays_eq, day_add]
  simp only [List.mem_cons, List.not_mem_nil, or_false] at hm
  rcases hm with rfl | rfl | rfl | rfl | rfl | rfl
  · obtain ⟨a, b, h⟩ := put g1 (by decide) (by decide) (by decide) f6 (by decide) (by decide) (by decide) (by simp [monthDays])
    exact ⟨2, 6, 3, 8, a, b, by simp [majorOn], h.1, h.2.1, (hadd _).symm ▸ h.2.2.1, (hadd _).symm ▸ h.2.2.2⟩
  · obtain ⟨a, b, h⟩ := put g2 (by decide) (by decide) (by decide) (by simp [monthDays]) (by decide) (by decide) (by decide) (by simp [monthDays])
    exact ⟨5, 5, 6, 5, a, b, by simp [majorOn], h.1, h.2.1, (hadd _).symm ▸ h.2.2.1, (hadd _).symm ▸ h.2.2.2⟩
  · obtain ⟨a, b, h⟩ := put g3 (by decide) (by decide) (by decide) (by simp [monthDays]) (by decide) (by decide) (by decide) (by simp [monthDays])
    exact ⟨7, 3, 8, 3, a, b, by simp [majorOn], h.1, h.2.1, hA.symm ▸ h.2.2.1, hA.symm ▸ h.2.2.2⟩
  · obtain ⟨a, b, h⟩ := put g4 (by decide) (by decide) (by decide) (by simp [monthDays]) (by decide) (by decide) (by decide) (by simp [monthDays])
    exact ⟨7, 4, 8, 4, a, b, by simp [majorOn], h.1, h.2.1, (hadd _).symm ▸ h.2.2.1, (hadd _).symm ▸ h.2.2.2⟩
  · obtain ⟨a, b, h⟩ := put g5 (by decide) (by decide) (by decide) (by simp [monthDays]) (by decide) (by decide) (by decide) (by simp [monthDays])
    exact ⟨9, 30, 10, 31, a, b, by simp [majorOn], h.1, h.2.1, (hadd _).symm ▸ h.2.2.1, (hadd _).symm ▸ h.2.2.2⟩
  · obtain ⟨a, b, h⟩ := put g5 (by decide) (by decide) (by decide) (by simp [monthDays]) (by decide) (by decide) (by decide) (by simp [monthDays])
    exact ⟨9, 30, 10, 31, a, b, by simp [majorOn], h.1, h.2.1, (hadd _).symm ▸ h.2.2.1, (hadd _).symm ▸ h.2.2.2⟩

theorem feast_on {cfg : Config} (hs : Shipped cfg) {y : Int} (h1 : 1900 ≤ y) (h2 : y ≤ 2100) {name : String} {n : Int}
    (hn : (name, n) ∈ [("Māgha Pūjā", maghaFor cfg y), ("Vesākha Pūjā", vesakhaFor cfg y), ("Āsāḷha Pūjā", 0), ("First day of Vassa", 1),
      ("Pavāraṇā Day", 89), ("Last day of Vassa", 89)]) :
    ∃ e, .major e ∈ generateSolarYear cfg y ∧ e.Summary = name ∧ e.Date.day = asalhaFor cfg y + n := by
  have hm := c21_six cfg hs y (by omega) (by omega)
  have hz : ((SuriyaYear.init y).asalhaPuja cfg).addDays 0 = (SuriyaYear.init y).asalhaPuja cfg := by
    rw [addDays_eq]; simp [Time.add]
  have : majorOn (((SuriyaYear.init y).asalhaPuja cfg).addDays n) name ∈ majorsOf (generateSolarYear cfg y) := by
    rw [hm]
    simp only [List.mem_cons, List.not_mem_nil, or_false, Prod.mk.injEq] at hn
    rcases hn with ⟨rfl, rfl⟩ | ⟨rfl, rfl⟩ | ⟨rfl, rfl⟩ | ⟨rfl, rfl⟩ | ⟨rfl, rfl⟩ | ⟨rfl, rfl⟩
    · exact .head _
    · exact .tail _ (.head _)
    · rw [hz]; exact .tail _ (.tail _ (.head _))
    · exact .tail _ (.tail _ (.tail _ (.head _)))
    · exact .tail _ (.tail _ (.tail _ (.tail _ (.head _))))
    · exact .tail _ (.tail _ (.tail _ (.tail _ (.tail _ (.head _)))))
  obtain ⟨e, he, h⟩ := List.mem_filterMap.1 this
  cases e with
  | major m =>
    simp only [Option.some.injEq] at h
    refine ⟨m, he, by rw [h]; rfl, ?_⟩
    rw [h]
    show (((SuriyaYear.init y).asalhaPuja cfg).addDays n).day = _
    rw [addDays_eq, day_add, asalhaFor_eq hs (by omega) (by omega)]
  | _ => simp at h

/-- C81: each of these first and last dates occurs, in 1917 or 1936 and in 2031. -/
theorem c81_feasts_best (cfg : Config) (hs : Shipped cfg) (name : String) (y m d : Int)
    (h : (name, y, m, d) ∈ [("Māgha Pūjā", 1917, 2, 6), ("Māgha Pūjā", 2031, 3, 8), ("Vesākha Pūjā", 1917, 5, 5), ("Vesākha Pūjā", 2031, 6, 5),
      ("Āsāḷha Pūjā", 1936, 7, 3), ("Āsāḷha Pūjā", 2031, 8, 3), ("First day of Vassa", 1936, 7, 4), ("First day of Vassa", 2031, 8, 4),
      ("Pavāraṇā Day", 1936, 9, 30), ("Pavāraṇā Day", 2031, 10, 31), ("Last day of Vassa", 1936, 9, 30), ("Last day of Vassa", 2031, 10, 31)]) :
    ∃ e, .major e ∈ generateSolarYear cfg y ∧ e.Summary = name ∧ IsDate e.Date.day y m d := by
  have key : ∀ n, asalhaFor cfg y + n = (date y m d 0 0).day → 1900 ≤ y → y ≤ 2100 → 1 ≤ m → m ≤ 12 → 1 ≤ d → d ≤ monthDays y m →
      (name, n) ∈ [("Māgha Pūjā", maghaFor cfg y), ("Vesākha Pūjā", vesakhaFor cfg y), ("Āsāḷha Pūjā", 0), ("First day of Vassa", 1),
        ("Pavāraṇā Day", 89), ("Last day of Vassa", 89)] →
      ∃ e, .major e ∈ generateSolarYear cfg y ∧ e.Summary = name ∧ IsDate e.Date.day y m d := by
    intro n hn y1 y2 m1 m2 d1 d2 hmem
    obtain ⟨e, e1, e2, e3⟩ := feast_on hs y1 y2 hmem
    exact ⟨e, e1, e2, by rw [e3, hn]; exact (date_day m1 m2 d1 d2).1⟩
  simp only [List.mem_cons, List.not_mem_nil, or_false, Prod.mk.injEq] at h
  have hb : ∀ n : Config → Int → Int, asalhaFor .default y + n .default y = (date y m d 0 0).day →
      asalhaFor .official y + n .official y = (date y m d 0 0).day → asalhaFor cfg y + n cfg y = (date y m d 0 0).day := by
    intro n h1 h2
    rcases hs with rfl | rfl
    · exact h1
    · exact h2
  rcases h with ⟨rfl, rfl, rfl, rfl⟩ | ⟨rfl, rfl, rfl, rfl⟩ | ⟨rfl, rfl, rfl, rfl⟩ | ⟨rfl, rfl, rfl, rfl⟩ | ⟨rfl, rfl, rfl, rfl⟩ |
    ⟨rfl, rfl, rfl, rfl⟩ | ⟨rfl, rfl, rfl, rfl⟩ | ⟨rfl, rfl, rfl, rfl⟩ | ⟨rfl, rfl, rfl, rfl⟩ | ⟨rfl, rfl, rfl, rfl⟩ | ⟨rfl, rfl, rfl, rfl⟩ |
    ⟨rfl, rfl, rfl, rfl⟩
  · exact key _ (hb maghaFor (by decide +kernel) (by decide +kernel)) (by decide) (by decide) (by decide) (by decide) (by decide) (by decide) (by simp)
  · exact key _ (hb maghaFor (by decide +kernel) (by decide +kernel)) (by decide) (by decide) (by decide) (by decide) (by decide) (by decide) (by simp)
  · exact key _ (hb vesakhaFor (by decide +kernel) (by decide +kernel)) (by decide) (by decide) (by decide) (by decide) (by decide) (by decide) (by simp)
  · exact key _ (hb vesakhaFor (by decide +kernel) (by decide +kernel)) (by decide) (by decide) (by decide) (by decide) (by decide) (by decide) (by simp)
  · exact key _ (hb (fun _ _ => 0) (by decide +kernel) (by decide +kernel)) (by decide) (by decide) (by decide) (by decide) (by decide) (by decide) (by simp)
  · exact key _ (hb (fun _ _ => 0) (by decide +kernel) (by decide +kernel)) (by decide) (by decide) (by decide) (by decide) (by decide) (by decide) (by simp)
  · exact key _ (hb (fun _ _ => 1) (by decide +kernel) (by decide +kernel)) (by decide) (by decide) (by decide) (by decide) (by decide) (by decide) (by simp)
  · exact key _ (hb (fun _ _ => 1) (by decide +kernel) (by decide +kernel)) (by decide) (by decide) (by decide) (by decide) (by decide) (by decide) (by simp)
  all_goals
    exact key _ (hb (fun _ _ => 89) (by decide +kernel) (by decide +kernel)) (by decide) (by decide) (by decide) (by decide) (by decide) (by decide) (by simp)

/-- C81: 2015 has these events, the last on 27 October. -/
example : ∃ e, .major e ∈ generateSolarYear .default 2015 ∧ e.Summary = "Last day of Vassa" ∧ IsDate e.Date.day 2015 10 27 := by
  obtain ⟨e, e1, e2, e3⟩ := feast_on (cfg := .default) (.inl rfl) (y := 2015) (by decide) (by decide) (name := "Last day of Vassa") (n := 89) (by simp)
  refine ⟨e, e1, e2, ?_⟩
  rw [e3, show asalhaFor .default 2015 + 89 = (date 2015 10 27 0 0).day by decide +kernel]
  exact (date_day (by decide) (by decide) (by decide) (by decide)).1

end Verif.Props
