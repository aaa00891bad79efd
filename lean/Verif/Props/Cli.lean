import Verif.Model.Cli
import Verif.Spec.Text
import Verif.Spec.Orderly
import Verif.Props.CalDays
import Verif.Lemmas.ChainAny
/-
C36 (ical), C37 (caldays grouping), C41 (name tables), C42 (dates of the command line), C44 (summaries).
-/
set_option autoImplicit false

namespace Verif.Props
open Verif.Go Verif.Model Verif.Spec Verif.Lemmas

/-! ### C41 -/

theorem mapGet_absent {κ ν : Type} [DecidableEq κ] (m : List (κ × ν)) (zero : ν) (k : κ) (h : k ∉ m.map Prod.fst) :
    mapGet m zero k = zero := by
  unfold mapGet
  have : m.find? (fun p => decide (p.1 = k)) = none := by
    rw [List.find?_eq_none]
    intro p hp
    simp only [decide_eq_true_eq]
    intro hk
    exact h (List.mem_map.2 ⟨p, hp, hk⟩)
  rw [this]; rfl

/-- C41: the month numbers: distinct names have distinct numbers 0..13, every other string gives 0. -/
theorem c41_months :
    (∀ s, s ∉ ["null", "magasira", "phussa", "magha", "phagguna", "citta", "vesakha", "jettha", "asalha", "savana",
        "bhaddapada", "assayuja", "kattika", "2nd asalha"] → monthToInt s = 0) ∧
    (["null", "magasira", "phussa", "magha", "phagguna", "citta", "vesakha", "jettha", "asalha", "savana",
        "bhaddapada", "assayuja", "kattika", "2nd asalha"].map monthToInt = [0, 1, 2, 3, 4, 5, 6, 7, 8, 9, 10, 11, 12, 13]) := by
  constructor
  · intro s h
    apply mapGet_absent
    intro h'
    apply h
    simp only [Model.monthTable, List.map_cons, List.map_nil, List.mem_cons] at h' ⊢
    tauto
  · decide +kernel

/-- C41: the season, calendar and status numbers; every other string gives 0. -/
theorem c41_codes :
    (["null", "hemanta", "gimhana", "vassana"].map seasonToInt = [0, 1, 2, 3] ∧
      ∀ s, s ∉ ["null", "hemanta", "gimhana", "vassana"] → seasonToInt s = 0) ∧
    (["mahanikaya", "dhammayut", "srilanka", "myanmar"].map calendarToInt = [0, 1, 2, 3] ∧
      ∀ s, s ∉ ["mahanikaya", "dhammayut", "srilanka", "myanmar"] → calendarToInt s = calendarToInt "mahanikaya") ∧
    (["draft", "predicted", "confirmed"].map statusToInt = [0, 1, 2] ∧
      ∀ s, s ∉ ["draft", "predicted", "confirmed"] → statusToInt s = statusToInt "draft") := by
  refine ⟨⟨by decide +kernel, fun s h => ?_⟩, ⟨by decide +kernel, fun s h => ?_⟩, ⟨by decide +kernel, fun s h => ?_⟩⟩
  · exact mapGet_absent _ _ _ h
  · have : calendarToInt "mahanikaya" = 0 := by decide +kernel
    rw [this]; exact mapGet_absent _ _ _ h
  · have : statusToInt "draft" = 0 := by decide +kernel
    rw [this]; exact mapGet_absent _ _ _ h

/-- C41: season names exist exactly for 1, 2 and 3. -/
theorem c41_season_names : [1, 2, 3].map seasonName = ["Hemanta", "Gimha", "Vassāna"] ∧
    ∀ n : Int, n < 1 ∨ 3 < n → seasonName n = "" := by
  refine ⟨by decide +kernel, fun n h => ?_⟩
  by_cases h0 : n = 0
  · subst h0; decide +kernel
  · apply mapGet_absent
    simp only [seasonNameTable, List.map_cons, List.map_nil, List.mem_cons, List.not_mem_nil, or_false]
    omega

/-! ### C44: summaries -/

theorem title_table : title "new" = "New" ∧ title "full" = "Full" ∧ title "waxing" = "Waxing" ∧ title "waning" = "Waning" := by
  decide +kernel

theorem titleFrom_get (prev : Char) (l : List Char) : (titleFrom prev l).length = l.length ∧
    ∀ i (h : i < l.length), (titleFrom prev l)[i]? = some (if isSeparator ((prev :: l)[i]'(by simp; omega)) = true then l[i].toUpper else l[i]) := by
  induction l generalizing prev with
  | nil => exact ⟨rfl, fun i h => absurd h (by simp)⟩
  | cons c l ih =>
    obtain ⟨h1, h2⟩ := ih c
    refine ⟨by simp [titleFrom, h1], fun i h => ?_⟩
    cases i with
    | zero => simp [titleFrom]
    | succ i =>
      simp only [titleFrom, List.getElem?_cons_succ, List.getElem_cons_succ]
      exact h2 i (by simpa using h)

theorem separator_word (c : Char) (h : c.toNat < 128) : isSeparator c = true ↔ ¬ WordChar c := by
  have key : ∀ n : Fin 128, isSeparator (Char.ofNat n) = true ↔ ¬ WordChar (Char.ofNat n) := by decide
  have := key ⟨c.toNat, h⟩
  rwa [Char.ofNat_toNat] at this

/-- C44: the phase is written with the first letter of each word in upper case and all other characters as they are, whatever ASCII text it
is. -/
theorem c44_title (s : String) (ha : ∀ c ∈ s.toList, c.toNat < 128) : (title s).toList.length = s.toList.length ∧
    ∀ i (h : i < s.toList.length),
      (title s).toList[i]? = some (if StartsWord s.toList i then s.toList[i].toUpper else s.toList[i]) := by
  obtain ⟨h1, h2⟩ := titleFrom_get ' ' s.toList
  refine ⟨by simpa [title] using h1, fun i h => ?_⟩
  rw [show (title s).toList = titleFrom ' ' s.toList by simp [title], h2 i h]
  congr 1
  refine if_congr ?_ rfl rfl
  cases i with
  | zero => simp [StartsWord, isSeparator]
  | succ i =>
    simp only [List.getElem_cons_succ]
    have hi : i < s.toList.length := by omega
    rw [separator_word _ (ha _ (List.getElem_mem hi))]
    simp [StartsWord, List.getElem?_eq_getElem hi]

/-- C44: a phase of two words. -/
example : title "3rd quarter-moon_x" = "3rd Quarter-Moon_x" ∧ ∀ c ∈ "3rd quarter-moon_x".toList, c.toNat < 128 := by decide +kernel

/-- Summary fields of the moons of the table, continued into the first months of the next lunar year. -/
theorem summary_table : ∀ a v : Bool, (a && v) = false → ∀ k : Fin 35, 1 ≤ k.val →
    let u := tab a v k
    (u.Phase = "new" ∨ u.Phase = "full") ∧ (u.U_Days = 14 ∨ u.U_Days = 15) ∧ (u.Phase = "full" → u.U_Days = 15) ∧
    (u.LunarSeason = 1 ∨ u.LunarSeason = 2 ∨ u.LunarSeason = 3) ∧ 1 ≤ u.S_Number ∧ u.S_Number ≤ u.S_Total ∧
    (u.S_Total = 8 ∨ (u.S_Total = 10 ∧ u.LunarSeason = 2)) := by decide +kernel

/-- C44: the summary text of every uposatha of an orderly year. -/
theorem c44_uposatha_text_orderly (cfg : Config) (y : Int) (ho : Orderly cfg y) (u : UposathaMoon)
    (hu : .uposatha u ∈ generateSolarYear cfg y) :
    ∃ p ∈ ["New", "Full"], ∃ d ∈ ["14", "15"], ∃ s ∈ ["Hemanta", "Gimha", "Vassāna"], ∃ t ∈ ["8", "10"],
      ∃ n ∈ ["1", "2", "3", "4", "5", "6", "7", "8", "9", "10"],
      (p = "Full" → d = "15") ∧ (t = "10" → s = "Gimha") ∧ (t = "8" → n ≠ "9" ∧ n ≠ "10") ∧
      u.string = p ++ " Moon - " ++ d ++ " day " ++ s ++ " " ++ n ++ "/" ++ t := by
  obtain ⟨hx, hlo⟩ := ho
  have hx' := flags_of hx
  obtain ⟨ly, hchain⟩ := chain_any hx' hlo
  obtain ⟨k, hk, hmem, hy⟩ := (c22_uposatha_iff cfg y u).1 hu
  rw [moon_eq] at hmem
  have hday : (chain cfg y k).Date.day < daysSinceEpoch (y + 1) := by
    rw [hmem] at hy
    change (chain cfg y k).Date.year = y at hy
    unfold Time.year at hy; rw [year_eq_iff] at hy
    exact hy.2
  have hc := (hchain k (by omega)).1
  have hk35 : k < 35 := by
    have h0 := chain_zero_day cfg y
    have hm := (chain_day_mono cfg y (j := 0) (k := k) (by omega)).1
    have hs := daysSinceEpoch_succ y
    have hb := yearDays_bounds y
    change daysSinceEpoch y - 118 ≤ katDay cfg y at hlo
    omega
  have ht := summary_table (fa y) (fv cfg y) hx' ⟨k, hk35⟩ hk
  simp only at ht
  have f1 : u.Phase = (tab (fa y) (fv cfg y) k).Phase := by
    rw [hmem]; have := congrArg UposathaMoon.Phase hc; exact this
  have f2 : u.U_Days = (tab (fa y) (fv cfg y) k).U_Days := by
    rw [hmem]; have := congrArg UposathaMoon.U_Days hc; exact this
  have f3 : u.LunarSeason = (tab (fa y) (fv cfg y) k).LunarSeason := by
    rw [hmem]; have := congrArg UposathaMoon.LunarSeason hc; exact this
  have f4 : u.S_Number = (tab (fa y) (fv cfg y) k).S_Number := by
    rw [hmem]; have := congrArg UposathaMoon.S_Number hc; exact this
  have f5 : u.S_Total = (tab (fa y) (fv cfg y) k).S_Total := by
    rw [hmem]; have := congrArg UposathaMoon.S_Total hc; exact this
  rw [← f1, ← f2, ← f3, ← f4, ← f5] at ht
  obtain ⟨t1, t2, t3, t4, t5, t6, t7⟩ := ht
  have hlen : u.Phase.length ≠ 0 := by rcases t1 with t | t <;> rw [t] <;> decide
  unfold UposathaMoon.string
  rw [if_pos hlen]
  refine ⟨title u.Phase, ?_, toString u.U_Days, ?_, seasonName u.LunarSeason, ?_, toString u.S_Total, ?_,
    toString u.S_Number, ?_, ?_, ?_, ?_, rfl⟩
  · rcases t1 with t | t <;> rw [t] <;> decide +kernel
  · rcases t2 with t | t <;> rw [t] <;> decide +kernel
  · rcases t4 with t | t | t <;> rw [t] <;> decide +kernel
  · rcases t7 with t | ⟨t, -⟩ <;> rw [t] <;> decide +kernel
  · have hb : u.S_Number ≤ 10 := by omega
    have : ∀ n : Fin 10, toString ((n.val : Int) + 1) ∈ ["1", "2", "3", "4", "5", "6", "7", "8", "9", "10"] := by
      decide +kernel
    have h := this ⟨(u.S_Number - 1).toNat, by omega⟩
    have e : (((u.S_Number - 1).toNat : Nat) : Int) + 1 = u.S_Number := by omega
    rw [e] at h; exact h
  · intro hp
    rcases t1 with t | t
    · rw [t] at hp; exact absurd hp (by decide +kernel)
    · rw [t3 t]; decide +kernel
  · intro hp
    rcases t7 with t | ⟨t, t'⟩
    · rw [t] at hp; exact absurd hp (by decide +kernel)
    · rw [t']; decide +kernel
  · intro hp
    rcases t7 with t | ⟨t, t'⟩
    · have hb : u.S_Number ≤ 8 := by omega
      have : ∀ n : Fin 8, toString ((n.val : Int) + 1) ≠ "9" ∧ toString ((n.val : Int) + 1) ≠ "10" := by
        decide +kernel
      have h := this ⟨(u.S_Number - 1).toNat, by omega⟩
      have e : (((u.S_Number - 1).toNat : Nat) : Int) + 1 = u.S_Number := by omega
      rw [e] at h; exact h
    · rw [t] at hp; exact absurd hp (by decide +kernel)

theorem _root_.Verif.Spec.Steady.orderly {cfg : Config} {a b : Int} (hs : Steady cfg 118 a b) {y : Int} (h1 : a ≤ y) (h2 : y ≤ b) :
    Orderly cfg y := ⟨hs.exclusive y h1 h2, hs.notEarly y h1 h2⟩

/-- C44: the texts of three uposathas. -/
example : ((uposathasOf (generateSolarYear .default 2015)).map UposathaMoon.string).take 3 =
    ["Full Moon - 15 day Hemanta 4/8", "New Moon - 15 day Hemanta 5/8", "Full Moon - 15 day Hemanta 6/8"] := by decide +kernel

/-- C44: 2015 is an orderly year. -/
example : Orderly .official 2015 := (shipped_steady (.inr rfl)).orderly (by decide) (by decide)

/-- C44: the 25 uposathas of 2015. -/
example : (uposathasOf (generateSolarYear .official 2015)).length = 25 ∧
    ∀ u ∈ uposathasOf (generateSolarYear .official 2015), .uposatha u ∈ generateSolarYear .official 2015 := by decide +kernel

/-- C44: the summary text of every half moon of any year. -/
theorem c44_half_text (cfg : Config) (y : Int) (m : HalfMoon) (h : .half m ∈ generateSolarYear cfg y) :
    m.string = "Waxing Moon" ∨ m.string = "Waning Moon" := by
  obtain ⟨k, -, -, -, hp⟩ := (c23_half_iff _ _ _).1 h
  unfold HalfMoon.string
  rcases hp with ⟨-, hp⟩ | ⟨-, hp⟩ <;> rw [hp]
  · left; decide +kernel
  · right; decide +kernel

/-- C44: a half moon of 2015. -/
example : ({ Date := date 2015 8 7 0 0, Phase := "waning" } : HalfMoon).string = "Waning Moon" ∧
    CalendarEvent.half { Date := date 2015 8 7 0 0, Phase := "waning" } ∈ generateSolarYear .default 2015 := by decide +kernel

/-! ### C42: dates of the command line -/

theorem digit_some {c : Char} {v : Int} (h : digit? c = some v) : ∃ n : Nat, n < 10 ∧ v = n ∧ c = digitOf n := by
  unfold digit? at h
  split at h
  · rename_i hc
    simp only [Option.some.injEq] at h
    have e0 : '0'.toNat = 48 := rfl
    have e9 : '9'.toNat = 57 := rfl
    rw [e0, e9] at hc
    refine ⟨c.toNat - 48, by omega, by omega, ?_⟩
    unfold digitOf
    have : 48 + (c.toNat - 48) % 10 = c.toNat := by omega
    rw [this, Char.ofNat_toNat]
  · cases h

theorem digit_of : ∀ n : Nat, digit? (digitOf n) = some (((n % 10 : Nat)) : Int) := by
  intro n
  have : ∀ k : Fin 10, digit? (Char.ofNat (48 + k.val)) = some (k.val : Int) := by decide +kernel
  exact this ⟨n % 10, by omega⟩

theorem getnum2_iff {l rest : List Char} {v : Int} :
    getnum2 l = some (v, rest) ↔ ∃ n : Nat, n < 100 ∧ v = n ∧ l = pad 2 n ++ rest := by
  constructor
  · intro h
    match l, h with
    | a :: b :: r, h =>
      simp only [getnum2] at h
      split at h
      · rename_i x y hx hy
        obtain ⟨n, hn, rfl, rfl⟩ := digit_some hx
        obtain ⟨m, hm, rfl, rfl⟩ := digit_some hy
        simp only [Option.some.injEq, Prod.mk.injEq] at h
        obtain ⟨h1, h2⟩ := h
        refine ⟨n * 10 + m, by omega, by omega, ?_⟩
        subst h2
        have e1 : digitOf ((n * 10 + m) / 10) = digitOf n := by unfold digitOf; congr 1; omega
        have e2 : digitOf (n * 10 + m) = digitOf m := by unfold digitOf; congr 1; omega
        simp [pad, e1, e2]
      · cases h
  · rintro ⟨n, hn, rfl, rfl⟩
    have e : pad 2 n ++ rest = digitOf (n / 10) :: digitOf n :: rest := by simp [pad]
    have hv : (n : Int) = ((n / 10 % 10 : Nat) : Int) * 10 + ((n % 10 : Nat) : Int) := by omega
    rw [e]; unfold getnum2; simp only [digit_of]; rw [hv]

theorem getYear_iff {l rest : List Char} {v : Int} :
    getYear l = some (v, rest) ↔ ∃ n : Nat, n < 10000 ∧ v = n ∧ l = pad 4 n ++ rest := by
  constructor
  · intro h
    match l, h with
    | a :: b :: c :: d :: r, h =>
      simp only [getYear] at h
      split at h
      · rename_i w x y z hw hx hy hz
        obtain ⟨p, hp, rfl, rfl⟩ := digit_some hw
        obtain ⟨q, hq, rfl, rfl⟩ := digit_some hx
        obtain ⟨n, hn, rfl, rfl⟩ := digit_some hy
        obtain ⟨m, hm, rfl, rfl⟩ := digit_some hz
        simp only [Option.some.injEq, Prod.mk.injEq] at h
        obtain ⟨h1, h2⟩ := h
        refine ⟨p * 1000 + q * 100 + n * 10 + m, by omega, by omega, ?_⟩
        subst h2
        have e1 : digitOf ((p * 1000 + q * 100 + n * 10 + m) / 10 / 10 / 10) = digitOf p := by
          unfold digitOf; congr 1; omega
        have e2 : digitOf ((p * 1000 + q * 100 + n * 10 + m) / 10 / 10) = digitOf q := by
          unfold digitOf; congr 1; omega
        have e3 : digitOf ((p * 1000 + q * 100 + n * 10 + m) / 10) = digitOf n := by
          unfold digitOf; congr 1; omega
        have e4 : digitOf (p * 1000 + q * 100 + n * 10 + m) = digitOf m := by
          unfold digitOf; congr 1; omega
        simp only [pad, e1, e2, e3, e4, List.nil_append, List.cons_append]
      · cases h
  · rintro ⟨n, hn, rfl, rfl⟩
    have e : pad 4 n ++ rest = digitOf (n / 10 / 10 / 10) :: digitOf (n / 10 / 10) :: digitOf (n / 10) :: digitOf n :: rest := by
      simp [pad]
    have hv : (n : Int) = ((n / 10 / 10 / 10 % 10 : Nat) : Int) * 1000 + ((n / 10 / 10 % 10 : Nat) : Int) * 100 +
      ((n / 10 % 10 : Nat) : Int) * 10 + ((n % 10 : Nat) : Int) := by omega
    rw [e]; unfold getYear; simp only [digit_of]; rw [hv]

theorem skipDash_iff {l rest : List Char} : skipDash l = some rest ↔ l = '-' :: rest := by
  cases l with
  | nil => simp [skipDash]
  | cons c r =>
    unfold skipDash
    by_cases h : c = '-' <;> simp [h]

theorem daysIn_eq {m y : Int} (h1 : 1 ≤ m) (h2 : m ≤ 12) : daysIn m y = monthDays y m := by
  have hl := isLeap_iff y
  have hm : m = 1 ∨ m = 2 ∨ m = 3 ∨ m = 4 ∨ m = 5 ∨ m = 6 ∨ m = 7 ∨ m = 8 ∨ m = 9 ∨ m = 10 ∨ m = 11 ∨ m = 12 := by
    omega
  unfold daysIn monthDays
  by_cases hb : LeapYear y
  · have : isLeap y = true := hl.2 hb
    rcases hm with rfl | rfl | rfl | rfl | rfl | rfl | rfl | rfl | rfl | rfl | rfl | rfl <;> simp [this, hb, daysBefore]
  · have : isLeap y = false := by
      cases h : isLeap y
      · rfl
      · exact absurd (hl.1 h) hb
    rcases hm with rfl | rfl | rfl | rfl | rfl | rfl | rfl | rfl | rfl | rfl | rfl | rfl <;> simp [this, hb, daysBefore]

theorem parse_iff (s : String) (t : Time) : parseDate s = some t ↔
    ∃ y m d : Nat, y ≤ 9999 ∧ 1 ≤ m ∧ m ≤ 12 ∧ 1 ≤ d ∧ (d : Int) ≤ monthDays y m ∧ s = isoDate y m d ∧
      t = date y m d 0 0 := by
  have hmd : ∀ y m : Int, monthDays y m ≤ 31 := by
    intro y m; unfold monthDays; split
    · split <;> omega
    · split <;> omega
  unfold parseDate parseDateChars
  constructor
  · intro h
    split at h
    · cases h
    rename_i year v1 hy
    obtain ⟨y, hy1, rfl, hl⟩ := getYear_iff.1 hy
    split at h
    · cases h
    rename_i v2 h2
    rw [skipDash_iff] at h2
    split at h
    · cases h
    rename_i month v3 hm
    obtain ⟨m, hm1, rfl, hl3⟩ := getnum2_iff.1 hm
    split at h
    · cases h
    rename_i hmr
    split at h
    · cases h
    rename_i v4 h4
    rw [skipDash_iff] at h4
    split at h
    · cases h
    rename_i day v5 hd
    obtain ⟨d, hd1, rfl, hl5⟩ := getnum2_iff.1 hd
    split at h
    · cases h
    rename_i hv
    split at h
    · cases h
    rename_i hdr
    simp only [Option.some.injEq] at h
    rw [daysIn_eq (by omega) (by omega)] at hdr
    refine ⟨y, m, d, by omega, by omega, by omega, by omega, by omega, ?_, h.symm⟩
    simp only [ne_eq, Decidable.not_not] at hv
    subst hv
    rw [← String.toList_inj, hl, h2, hl3, h4, hl5]
    simp [isoDate]
  · rintro ⟨y, m, d, hy, hm1, hm2, hd1, hd2, rfl, rfl⟩
    have := hmd y m
    have e1 : getYear (isoDate y m d).toList = some ((y : Int), '-' :: (pad 2 m ++ '-' :: (pad 2 d))) :=
      getYear_iff.2 ⟨y, by omega, rfl, by simp [isoDate]⟩
    have e2 : getnum2 (pad 2 m ++ '-' :: (pad 2 d)) = some ((m : Int), '-' :: pad 2 d) :=
      getnum2_iff.2 ⟨m, by omega, rfl, rfl⟩
    have e3 : getnum2 (pad 2 d) = some ((d : Int), []) :=
      getnum2_iff.2 ⟨d, by omega, rfl, by simp⟩
    rw [e1]
    simp only [skipDash_iff.2 rfl, e2, e3]
    rw [if_neg (by omega), if_neg (by simp), daysIn_eq (by omega) (by omega), if_neg (by omega)]

theorem isDate_unique {n y m d y' m' d' : Int} (h : IsDate n y m d) (h' : IsDate n y' m' d') :
    y = y' ∧ m = m' ∧ d = d' := by
  obtain ⟨s, hs, hn, hd1, hd2, hm1, hm2⟩ := h
  obtain ⟨s', hs', hn', hd1', hd2', hm1', hm2'⟩ := h'
  rw [monthStart_iff] at hs hs'
  have span : ∀ y m d : Int, 1 ≤ m → m ≤ 12 → 1 ≤ d → d ≤ monthDays y m →
      daysSinceEpoch y ≤ monthStart y m + (d - 1) ∧ monthStart y m + (d - 1) < daysSinceEpoch (y + 1) := by
    intro y m d a1 a2 a3 a4
    have hy := daysSinceEpoch_succ y
    have hl := isLeap_iff y
    have hm : m = 1 ∨ m = 2 ∨ m = 3 ∨ m = 4 ∨ m = 5 ∨ m = 6 ∨ m = 7 ∨ m = 8 ∨ m = 9 ∨ m = 10 ∨ m = 11 ∨ m = 12 := by
      omega
    unfold yearDays at hy
    unfold monthStart
    unfold monthDays at a4
    by_cases hb : LeapYear y
    · have : isLeap y = true := hl.2 hb
      rw [if_pos hb] at hy
      rcases hm with rfl | rfl | rfl | rfl | rfl | rfl | rfl | rfl | rfl | rfl | rfl | rfl <;>
        simp [this, hb, daysBefore] at a4 ⊢ <;> omega
    · have : isLeap y = false := by
        cases h : isLeap y
        · rfl
        · exact absurd (hl.1 h) hb
      rw [if_neg hb] at hy
      rcases hm with rfl | rfl | rfl | rfl | rfl | rfl | rfl | rfl | rfl | rfl | rfl | rfl <;>
        simp [this, hb, daysBefore] at a4 ⊢ <;> omega
  have b := (year_eq_iff n y).2 (by have := span y m d hm1 hm2 hd1 hd2; rw [hn, hs.2.2]; exact this)
  have b' := (year_eq_iff n y').2 (by have := span y' m' d' hm1' hm2' hd1' hd2'; rw [hn', hs'.2.2]; exact this)
  have hy : y = y' := by rw [← b, ← b']
  subst hy
  have mono : ∀ m m' : Int, 1 ≤ m → m < m' → m' ≤ 12 → monthStart y m + monthDays y m ≤ monthStart y m' := by
    intro m m' a1 a2 a3
    have : ∀ k : Nat, m + 1 + k ≤ 12 → monthStart y (m + 1) ≤ monthStart y (m + 1 + k) := by
      intro k
      induction k with
      | zero => intro _; simp
      | succ k ih =>
        intro hk
        have h1 := ih (by omega)
        have h2 := monthStart_succ (y := y) (m := m + 1 + k) (by omega) (by omega)
        have h3 : 0 ≤ monthDays y (m + 1 + k) := by
          unfold monthDays; split
          · split <;> omega
          · split <;> omega
        have e : m + 1 + ((k + 1 : Nat) : Int) = m + 1 + k + 1 := by omega
        rw [e]; omega
    have h := this (m' - m - 1).toNat (by omega)
    have e : m + 1 + ((m' - m - 1).toNat : Int) = m' := by omega
    rw [e] at h
    have := monthStart_succ (y := y) (m := m) a1 (by omega)
    omega
  have hm : m = m' := by
    rcases Int.lt_trichotomy m m' with h | h | h
    · have := mono m m' hm1 h hm2'; omega
    · exact h
    · have := mono m' m hm1' h hm2; omega
  subst hm
  refine ⟨rfl, rfl, ?_⟩
  omega

theorem date_day {y m d : Int} (hm1 : 1 ≤ m) (hm2 : m ≤ 12) (hd1 : 1 ≤ d) (hd2 : d ≤ monthDays y m) :
    IsDate (date y m d 0 0).day y m d ∧ (date y m d 0 0).sinceMidnight = 0 := by
  rw [date_eq]
  constructor
  · refine ⟨monthStart y m, monthStart_iff.2 ⟨hm1, hm2, rfl⟩, ?_, hd1, hd2, hm1, hm2⟩
    unfold Time.day nsPerDay; simp only; omega
  · unfold Time.sinceMidnight nsPerDay; simp only; omega

/-- C42: the strings accepted as a date are exactly the valid ISO dates of the years 0..9999; the result is that
civil date at UTC midnight. -/
theorem c42_parse (s : String) (t : Time) : parseDate s = some t ↔
    ∃ y m d : Nat, y ≤ 9999 ∧ 1 ≤ m ∧ m ≤ 12 ∧ 1 ≤ d ∧ (d : Int) ≤ monthDays y m ∧ s = isoDate y m d ∧
      IsDate t.day y m d ∧ t.sinceMidnight = 0 ∧ t.offset = 0 := by
  rw [parse_iff]
  constructor
  · rintro ⟨y, m, d, h1, h2, h3, h4, h5, h6, rfl⟩
    have := date_day (y := y) (m := m) (d := d) (by omega) (by omega) (by omega) h5
    exact ⟨y, m, d, h1, h2, h3, h4, h5, h6, this.1, this.2, rfl⟩
  · rintro ⟨y, m, d, h1, h2, h3, h4, h5, h6, h7, h8, h9⟩
    refine ⟨y, m, d, h1, h2, h3, h4, h5, h6, ?_⟩
    have hd := date_day (y := y) (m := m) (d := d) (by omega) (by omega) (by omega) h5
    have hday : t.day = (date y m d 0 0).day := by
      obtain ⟨s1, a1, a2, -⟩ := h7
      obtain ⟨s2, b1, b2, -⟩ := hd.1
      rw [monthStart_iff] at a1 b1
      rw [a2, b2, a1.2.2, b1.2.2]
    have n1 := nanos_eq t
    have n2 := nanos_eq (date y m d 0 0)
    rw [h8, h9, hday] at n1
    rw [hd.2] at n2
    have : (date y m d 0 0).offset = 0 := rfl
    rw [this] at n2
    have hnn : t.nanos = (date y m d 0 0).nanos := by rw [n1, n2]
    have hoo : t.offset = (date y m d 0 0).offset := by rw [h9, this]
    generalize date y m d 0 0 = q at hnn hoo
    cases t; cases q
    simp only at hnn hoo
    rw [hnn, hoo]

/-- C42: parsing inverts formatting, and formatting the result gives back the text. -/
theorem c42_round_trip (t : Time) (h0 : 0 ≤ t.year) (h1 : t.year ≤ 9999) (hm : t.sinceMidnight = 0) (ho : t.offset = 0)
    (s : String) : parseDate s = some t ↔ s = isoDate t.year.toNat t.month.toNat t.dayOfMonth.toNat := by
  have hc := civil_spec t
  obtain ⟨_, _, _, d1, d2, m1, m2⟩ := hc
  rw [c42_parse]
  constructor
  · rintro ⟨y, m, d, -, -, -, -, -, rfl, hd, -, -⟩
    obtain ⟨e1, e2, e3⟩ := isDate_unique hd (civil_spec t)
    rw [← e1, ← e2, ← e3]; rfl
  · intro hs
    have e1 : ((t.year.toNat : Nat) : Int) = t.year := by omega
    have e2 : ((t.month.toNat : Nat) : Int) = t.month := by omega
    have e3 : ((t.dayOfMonth.toNat : Nat) : Int) = t.dayOfMonth := by omega
    refine ⟨t.year.toNat, t.month.toNat, t.dayOfMonth.toNat, by omega, by omega, by omega, by omega, ?_, hs, ?_, hm, ho⟩
    · rw [e1, e2, e3]; exact d2
    · rw [e1, e2, e3]; exact civil_spec t

/-- Concrete dates: a leap day is accepted, an invalid one, a short month or trailing text rejected. -/
example : (parseDate "2016-02-29").isSome = true ∧ parseDate "2015-02-29" = none ∧ parseDate "2015-2-03" = none ∧
    parseDate "2015-02-03 " = none ∧ parseDate "2015-13-01" = none := by decide +kernel

theorem isDate_day {n n' y m d : Int} (h : IsDate n y m d) (h' : IsDate n' y m d) : n = n' := by
  obtain ⟨s, h1, h2, -⟩ := h
  obtain ⟨s', h1', h2', -⟩ := h'
  rw [monthStart_iff] at h1 h1'
  omega

theorem time_of_day {a b : Time} (h1 : a.day = b.day) (h2 : a.sinceMidnight = b.sinceMidnight) (h3 : a.offset = b.offset) :
    a = b := by
  obtain ⟨n, o⟩ := a
  obtain ⟨n', o'⟩ := b
  unfold Time.day at h1
  unfold Time.sinceMidnight at h2
  dsimp only at h1 h2 h3
  subst h3
  congr 1
  have e1 := Int.mul_ediv_add_emod (n + o * nsPerSec) nsPerDay
  have e2 := Int.mul_ediv_add_emod (n' + o * nsPerSec) nsPerDay
  rw [h1, h2] at e1
  omega

/-- C42: each bound is the parsed flag if the flag is given, otherwise January 1 or December 31 of the year the clock
shows, at UTC midnight; the program stops exactly when a given flag is not a valid date. -/
theorem c42_range (nowFrom nowTo : Int) (f t : String) (a b : Time) : cliInit nowFrom nowTo f t = some (a, b) ↔
    (if f = "" then IsDate a.day nowFrom 1 1 ∧ a.sinceMidnight = 0 ∧ a.offset = 0 else parseDate f = some a) ∧
    (if t = "" then IsDate b.day nowTo 12 31 ∧ b.sinceMidnight = 0 ∧ b.offset = 0 else parseDate t = some b) := by
  have len : ∀ s : String, (0 < s.length) = ¬ s = "" := by
    intro s
    rw [← String.length_eq_zero_iff]
    exact propext Nat.pos_iff_ne_zero
  have dd : ∀ y m d (c : Time), 1 ≤ m → m ≤ 12 → 1 ≤ d → d ≤ monthDays y m →
      (date y m d 0 0 = c ↔ IsDate c.day y m d ∧ c.sinceMidnight = 0 ∧ c.offset = 0) := by
    intro y m d c h1 h2 h3 h4
    have w := date_day (y := y) (m := m) (d := d) h1 h2 h3 h4
    constructor
    · rintro rfl; exact ⟨w.1, w.2, rfl⟩
    · rintro ⟨i, j, k⟩
      exact time_of_day (isDate_day w.1 i) (w.2.trans j.symm) k.symm
  have one : ∀ (s : String) (y m d : Int) (c : Time), 1 ≤ m → m ≤ 12 → 1 ≤ d → d ≤ monthDays y m →
      (cliDate s (date y m d 0 0) = some c ↔
        (if s = "" then IsDate c.day y m d ∧ c.sinceMidnight = 0 ∧ c.offset = 0 else parseDate s = some c)) := by
    intro s y m d c h1 h2 h3 h4
    unfold cliDate
    by_cases h : s = ""
    · rw [if_neg (by rw [len]; exact not_not.2 h), if_pos h, Option.some.injEq]
      exact dd y m d c h1 h2 h3 h4
    · rw [if_pos (by rw [len]; exact h), if_neg h]
  rw [← one f nowFrom 1 1 a (by decide) (by decide) (by decide) (by unfold monthDays; simp),
    ← one t nowTo 12 31 b (by decide) (by decide) (by decide) (by unfold monthDays; simp)]
  unfold cliInit
  cases h1 : cliDate f (date nowFrom 1 1 0 0) with
  | none => simp
  | some a' =>
    cases h2 : cliDate t (date nowTo 12 31 0 0) with
    | none => simp
    | some b' => simp [Prod.ext_iff]

/-- C42: a start but no end given. -/
example : (cliInit 2015 2016 "2014-07-01" "").map (fun p => (p.1.year, p.1.month, p.2.year, p.2.month, p.2.dayOfMonth)) =
    some (2014, 7, 2016, 12, 31) ∧ cliInit 2015 2015 "" "2014-7-1" = none := by decide +kernel

/-! ### C37: grouping by year -/

theorem nat_repr_injective {m n : Nat} (h : m.repr = n.repr) : m = n := by
  have h1 := Nat.ofDigitChars_ten_toDigits (n := m)
  have h2 := Nat.ofDigitChars_ten_toDigits (n := n)
  rw [← Nat.toList_repr, h, Nat.toList_repr, h2] at h1
  exact h1.symm

theorem int_toString_injective {a b : Int} (h : toString a = toString b) : a = b := by
  rw [Int.toString_eq_repr, Int.toString_eq_repr, Int.repr_eq_if, Int.repr_eq_if] at h
  have dash : ∀ m n : Nat, m.repr ≠ "-" ++ n.repr := by
    intro m n hc
    have h1 := congrArg String.toList hc
    rw [Nat.toList_repr, String.toList_append] at h1
    have h2 : '-' ∈ Nat.toDigits 10 m := by rw [h1]; simp
    have h3 := Nat.isDigit_of_mem_toDigits (by omega) (by omega) h2
    exact absurd h3 (by decide)
  split at h <;> split at h
  · have := nat_repr_injective h; omega
  · exact absurd h (dash _ _)
  · exact absurd h.symm (dash _ _)
  · have h1 := congrArg String.toList h
    rw [String.toList_append, String.toList_append] at h1
    have h2 := List.append_cancel_left h1
    rw [String.toList_inj] at h2
    have := nat_repr_injective h2; omega

theorem lookup_mapAppend {κ ν : Type} [DecidableEq κ] (m : List (κ × List ν)) (k k' : κ) (v : ν) :
    (mapAppend m k v).lookup k' = if k' = k then some ((m.lookup k).getD [] ++ [v]) else m.lookup k' := by
  induction m with
  | nil =>
    by_cases h : k' = k
    · simp [mapAppend, List.lookup, h]
    · simp [mapAppend, List.lookup, h, beq_eq_false_iff_ne.2 h]
  | cons p m ih =>
    obtain ⟨k'', vs⟩ := p
    unfold mapAppend
    by_cases h : k'' = k
    · rw [if_pos h]
      subst h
      by_cases h' : k' = k''
      · subst h'; simp [List.lookup]
      · simp [List.lookup, h', beq_eq_false_iff_ne.2 h']
    · rw [if_neg h]
      by_cases h' : k' = k''
      · subst h'
        simp [List.lookup, h]
      · simp only [List.lookup, beq_eq_false_iff_ne.2 h', ih]
        have : (k == k'') = false := beq_eq_false_iff_ne.2 (fun e => h e.symm)
        rw [this]

theorem keys_mapAppend {κ ν : Type} [DecidableEq κ] (m : List (κ × List ν)) (k : κ) (v : ν)
    (h : (m.map Prod.fst).Nodup) : ((mapAppend m k v).map Prod.fst).Nodup ∧
      ∀ x, x ∈ (mapAppend m k v).map Prod.fst ↔ (x = k ∨ x ∈ m.map Prod.fst) := by
  induction m with
  | nil => simp [mapAppend]
  | cons p m ih =>
    obtain ⟨k'', vs⟩ := p
    rw [List.map_cons, List.nodup_cons] at h
    obtain ⟨ih1, ih2⟩ := ih h.2
    unfold mapAppend
    by_cases h' : k'' = k
    · rw [if_pos h']
      subst h'
      refine ⟨by rw [List.map_cons, List.nodup_cons]; exact h, ?_⟩
      intro x; simp
    · rw [if_neg h']
      refine ⟨?_, ?_⟩
      · rw [List.map_cons, List.nodup_cons, ih2]
        refine ⟨?_, ih1⟩
        rintro (hc | hc)
        · exact h' hc
        · exact h.1 hc
      · intro x
        rw [List.map_cons, List.mem_cons, ih2]
        simp only [List.map_cons, List.mem_cons]
        tauto

/-- C37: the group of a year consists of exactly the days of that year, in order; years without days have no group. -/
theorem c37_group (l : List CalDay) (y : Int) :
    (daysByYear l).lookup (toString y) =
      if (l.filter fun c => decide (c.Date.year = y)) = [] then none
      else some (l.filter fun c => decide (c.Date.year = y)) := by
  have key : ∀ (l : List CalDay) (m : List (String × List CalDay)),
      (l.foldl (fun m day => mapAppend m (toString day.Date.year) day) m).lookup (toString y) =
        if (l.filter fun c => decide (c.Date.year = y)) = [] then m.lookup (toString y)
        else some ((m.lookup (toString y)).getD [] ++ l.filter fun c => decide (c.Date.year = y)) := by
    intro l
    induction l with
    | nil => intro m; simp
    | cons c l ih =>
      intro m
      rw [List.foldl_cons, ih, lookup_mapAppend, List.filter_cons]
      by_cases h : c.Date.year = y
      · subst h
        simp only [if_true, decide_true]
        split
        · rename_i he; simp [he]
        · simp
      · have h' : ¬ toString y = toString c.Date.year := fun e => h (int_toString_injective e).symm
        rw [if_neg h', decide_eq_false h]
        simp
  unfold daysByYear
  rw [key]
  simp

/-- C37: every group key occurs once and is the year of some day. -/
theorem c37_keys (l : List CalDay) : ((daysByYear l).map Prod.fst).Nodup ∧
    ∀ k, k ∈ (daysByYear l).map Prod.fst ↔ ∃ c ∈ l, k = toString c.Date.year := by
  have key : ∀ (l : List CalDay) (m : List (String × List CalDay)), (m.map Prod.fst).Nodup →
      ((l.foldl (fun m day => mapAppend m (toString day.Date.year) day) m).map Prod.fst).Nodup ∧
      ∀ k, k ∈ (l.foldl (fun m day => mapAppend m (toString day.Date.year) day) m).map Prod.fst ↔
        (k ∈ m.map Prod.fst ∨ ∃ c ∈ l, k = toString c.Date.year) := by
    intro l
    induction l with
    | nil => intro m h; exact ⟨h, by simp⟩
    | cons c l ih =>
      intro m h
      obtain ⟨h1, h2⟩ := keys_mapAppend m (toString c.Date.year) c h
      obtain ⟨i1, i2⟩ := ih _ h1
      rw [List.foldl_cons]
      refine ⟨i1, fun k => ?_⟩
      rw [i2, h2]
      simp only [List.mem_cons, exists_eq_or_imp]
      tauto
  have := key l [] (by simp)
  refine ⟨this.1, fun k => ?_⟩
  unfold daysByYear
  rw [this.2]; simp

/-- C37: keys are texts. -/
example : (daysByYear [{ Date := date 2015 12 25 0 0 }, { Date := date 2016 1 9 0 0 }, { Date := date 2015 12 31 0 0 }]).map Prod.fst =
    ["2015", "2016"] := by decide +kernel

theorem sorted_split {α : Type} (f : α → Int) (m : Int) : ∀ l : List α, l.Pairwise (fun a b => f a ≤ f b) →
    l = (l.filter fun x => decide (f x < m)) ++ l.filter fun x => decide (m ≤ f x) := by
  intro l
  induction l with
  | nil => intro _; rfl
  | cons a l ih =>
    intro h
    rw [List.pairwise_cons] at h
    have ih := ih h.2
    rw [List.filter_cons, List.filter_cons]
    by_cases c : f a < m
    · have c' : ¬ m ≤ f a := by omega
      rw [decide_eq_true c, decide_eq_false c']
      simp only [if_true, List.cons_append, Bool.false_eq_true, if_false]
      rw [← ih]
    · have c' : m ≤ f a := by omega
      rw [decide_eq_true c', decide_eq_false c]
      have hn : (l.filter fun x => decide (f x < m)) = [] := by
        rw [List.filter_eq_nil_iff]
        intro x hx
        have := h.1 x hx
        simp; omega
      have ha : (l.filter fun x => decide (m ≤ f x)) = l := by
        rw [List.filter_eq_self]
        intro x hx
        have := h.1 x hx
        simp; omega
      rw [hn, ha]; simp

theorem sorted_groups {α : Type} (f : α → Int) (a : Int) (n : Nat) : ∀ l : List α, l.Pairwise (fun x y => f x ≤ f y) →
    (∀ x ∈ l, a ≤ f x ∧ f x < a + n) →
    ((List.range n).flatMap fun i : Nat => l.filter fun x => decide (f x = a + (i : Int))) = l := by
  induction n with
  | zero =>
    intro l _ hb
    cases l with
    | nil => rfl
    | cons x l => have := hb x (by simp); omega
  | succ n ih =>
    intro l hp hb
    rw [List.range_succ, List.flatMap_append, List.flatMap_cons, List.flatMap_nil, List.append_nil]
    have hs := sorted_split f (a + n) l hp
    have h1 := ih (l.filter fun x => decide (f x < a + n)) (hp.filter _) (by
      intro x hx
      rw [List.mem_filter] at hx
      have := hb x hx.1
      have := of_decide_eq_true hx.2
      omega)
    have e1 : ((List.range n).flatMap fun i : Nat => l.filter fun x => decide (f x = a + (i : Int))) =
        l.filter fun x => decide (f x < a + n) := by
      rw [← h1]
      apply List.flatMap_congr
      intro i hi
      have hi' := List.mem_range.1 hi
      rw [List.filter_filter]
      apply List.filter_congr
      intro x _
      rw [Bool.eq_iff_iff]
      simp only [decide_eq_true_eq, Bool.and_eq_true]
      omega
    have e2 : (l.filter fun x => decide (f x = a + (n : Int))) = l.filter fun x => decide (a + (n : Int) ≤ f x) := by
      apply List.filter_congr
      intro x hx
      have := hb x hx
      rw [Bool.eq_iff_iff]
      simp only [decide_eq_true_eq]
      omega
    rw [e1, e2]
    exact hs.symm

/-- C37: concatenating the groups in the order of the years gives back the result of `GetCalDays`. -/
theorem c37_concat (cfg : Config) (files : Int → AstroFile) (fromDate toDate : Time) (l : List CalDay)
    (h : getCalDays cfg files fromDate toDate = some l) (a b : Int) (hab : ∀ c ∈ l, a ≤ c.Date.year ∧ c.Date.year ≤ b) :
    ((yearsFrom a b).flatMap fun y => ((daysByYear l).lookup (toString y)).getD []) = l := by
  have hp : l.Pairwise (fun x y => x.Date.year ≤ y.Date.year) := by
    refine (c26_sorted _ _ _ _ _ h).1.imp ?_
    intro x y hxy
    unfold Time.year
    exact year_mono (by omega)
  have hg := sorted_groups (fun c : CalDay => c.Date.year) a (b - a + 1).toNat l hp (by
    intro x hx
    have := hab x hx
    omega)
  unfold yearsFrom
  rw [List.flatMap_map]
  refine Eq.trans ?_ hg
  apply List.flatMap_congr
  intro i _
  rw [c37_group]
  split
  · rename_i he; rw [he]; rfl
  · rfl

/-- C37: the days of C26 are all in 2015. -/
example : ((yearsFrom 2014 2016).flatMap fun y => ((daysByYear asalhaDays).lookup (toString y)).getD []) = asalhaDays :=
  c37_concat _ _ _ _ _ asalha_days 2014 2016 (by decide)

/-- C37: for a range given in UTC the years of the days are those of the range, and in particular within 0..9999 for
dates accepted on the command line, so that the JSON encoding of the dates cannot fail. -/
theorem c37_years (cfg : Config) (files : Int → AstroFile) (fromDate toDate : Time) (l : List CalDay)
    (h : getCalDays cfg files fromDate toDate = some l) (hf : fromDate.offset = 0) (ht : toDate.offset = 0) (c : CalDay)
    (hc : c ∈ l) : fromDate.year ≤ c.Date.year ∧ c.Date.year ≤ toDate.year := by
  obtain ⟨_, _, _, _, hw⟩ := c27_content _ _ _ _ _ h
  have hw := hw c hc
  have hu := (c26_sorted _ _ _ _ _ h).2 c hc
  unfold Within at hw
  unfold Time.year
  constructor <;> apply year_mono <;> unfold Time.day <;> rw [hu]
  · rw [hf]; unfold nsPerDay; omega
  · rw [ht]; unfold nsPerDay; omega

/-- C37: and so are the bounds of their range. -/
example : ∀ c ∈ asalhaDays, 2015 ≤ c.Date.year ∧ c.Date.year ≤ 2015 := c37_years _ _ _ _ _ asalha_days rfl rfl

/-- C37: with both flags given, an accepted command line yields only days in the years 0..9999. -/
theorem c37_cli_years (cfg : Config) (files : Int → AstroFile) (nowFrom nowTo : Int) (f t : String)
    (hf : f ≠ "") (ht : t ≠ "") (a b : Time) (hi : cliInit nowFrom nowTo f t = some (a, b)) (l : List CalDay) (h : getCalDays cfg files a b = some l)
    (c : CalDay) (hc : c ∈ l) : 0 ≤ c.Date.year ∧ c.Date.year ≤ 9999 := by
  obtain ⟨ha, hb⟩ := (c42_range _ _ _ _ _ _).1 hi
  rw [if_neg hf] at ha
  rw [if_neg ht] at hb
  obtain ⟨y, _, _, h1, _, _, _, _, _, hd, _, ho⟩ := (c42_parse _ _).1 ha
  obtain ⟨y', _, _, h1', _, _, _, _, _, hd', _, ho'⟩ := (c42_parse _ _).1 hb
  have e := (isDate_unique hd (civil_spec _)).1
  have e' := (isDate_unique hd' (civil_spec _)).1
  have := c37_years _ _ _ _ _ h ho ho' c hc
  omega

/-- C37: the same range given as two dates. -/
example : cliInit 0 0 "2015-07-22" "2015-08-09" = some (date 2015 7 22 0 0, date 2015 8 9 0 0) := by decide +kernel

end Verif.Props
