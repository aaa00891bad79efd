import Verif.Lemmas.Json
import Verif.Props.LastDay
import Verif.Props.Ical
/-
C57: the JSON text of the command `caldays`.
-/
set_option autoImplicit false

namespace Verif.Props
open Verif.Go Verif.Model Verif.Spec Verif.Lemmas

/-! ### digits -/

theorem digitChar_digitOf (n : Nat) (h : n < 10) : Nat.digitChar n = digitOf n := by
  have : ∀ k : Fin 10, Nat.digitChar k.val = digitOf k.val := by decide +kernel
  exact this ⟨n, h⟩

theorem pad_digits (k n : Nat) (h : n < 10 ^ (k + 1)) :
    List.replicate (k + 1 - (Nat.toDigits 10 n).length) '0' ++ Nat.toDigits 10 n = pad (k + 1) n ∧
      (Nat.toDigits 10 n).length ≤ k + 1 := by
  induction k generalizing n with
  | zero =>
    have h : n < 10 := by omega
    rw [Nat.toDigits_of_lt_base h, digitChar_digitOf n h]
    simp [pad]
  | succ k ih =>
    rw [pad]
    by_cases hn : n < 10
    · obtain ⟨h1, -⟩ := ih 0 (by positivity)
      rw [Nat.toDigits_zero] at h1
      rw [Nat.toDigits_of_lt_base hn, digitChar_digitOf n hn, Nat.div_eq_of_lt hn, ← h1]
      simp only [List.length_cons, List.length_nil, Nat.zero_add, Nat.add_sub_cancel]
      rw [List.replicate_succ']
      simp
    · have hm : digitOf (n % 10) = digitOf n := by unfold digitOf; rw [Nat.mod_mod]
      obtain ⟨h1, h2⟩ := ih (n / 10) (by rw [pow_succ] at h; omega)
      rw [Nat.toDigits_of_base_le (by omega) (by omega), digitChar_digitOf _ (Nat.mod_lt n (by omega)), hm, ← h1]
      simp only [List.length_append, List.length_cons, List.length_nil, Nat.zero_add]
      refine ⟨?_, by omega⟩
      have e : k + 1 + 1 - ((Nat.toDigits 10 (n / 10)).length + 1) = k + 1 - (Nat.toDigits 10 (n / 10)).length := by omega
      rw [e, List.append_assoc]

theorem appendInt_pad (x : Int) (k : Nat) (h0 : 0 ≤ x) (h : x < 10 ^ (k + 1)) : appendInt x (k + 1) = pad (k + 1) x.toNat := by
  unfold appendInt
  rw [int_text, if_pos h0]
  apply (pad_digits k x.toNat _).1
  have : ((10 ^ (k + 1) : Nat) : Int) = (10 : Int) ^ (k + 1) := by norm_cast
  omega

theorem digitOf_inj {m n : Nat} (h : digitOf m = digitOf n) : m % 10 = n % 10 := by
  have : ∀ a b : Fin 10, Char.ofNat (48 + a.val) = Char.ofNat (48 + b.val) → a = b := by decide +kernel
  have := this ⟨m % 10, by omega⟩ ⟨n % 10, by omega⟩ h
  simpa using this

theorem pad_length (k n : Nat) : (pad k n).length = k := by
  induction k generalizing n with
  | zero => rfl
  | succ k ih => simp [pad, ih]

theorem pad_inj {k m n : Nat} (hm : m < 10 ^ k) (hn : n < 10 ^ k) (h : pad k m = pad k n) : m = n := by
  induction k generalizing m n with
  | zero => omega
  | succ k ih =>
    rw [pad, pad] at h
    obtain ⟨h1, h2⟩ := List.append_inj' h (by simp)
    rw [pow_succ] at hm hn
    have h1 := ih (by omega) (by omega) h1
    simp only [List.cons.injEq, and_true] at h2
    have h2 := digitOf_inj h2
    omega

/-! ### times -/

/-- A time the program can write. -/
structure Writable (t : Time) : Prop where
  first : 0 ≤ t.year
  last : t.year ≤ 9999
  utc : t.offset = 0

theorem trimZeros_zero (l : List Char) : trimZeros (l ++ ['0']) = trimZeros l := by
  unfold trimZeros; simp

theorem trimZeros_other (l : List Char) {c : Char} (h : c ≠ '0') : trimZeros (l ++ [c]) = l ++ [c] := by
  unfold trimZeros; simp [h]

theorem trimZeros_pad (k n : Nat) (h : n < 10 ^ k) (h0 : n ≠ 0) : ∃ j d, 1 ≤ j ∧ j ≤ k ∧ d < 10 ^ j ∧ d % 10 ≠ 0 ∧ n = d * 10 ^ (k - j) ∧
    trimZeros (pad k n) = pad j d := by
  induction k generalizing n with
  | zero => omega
  | succ k ih =>
    rw [pow_succ] at h
    rw [pad]
    by_cases hm : n % 10 = 0
    · obtain ⟨j, d, j1, j2, hd, hd0, hn, ht⟩ := ih (n / 10) (by omega) (by omega)
      refine ⟨j, d, j1, by omega, hd, hd0, ?_, ?_⟩
      · rw [show k + 1 - j = k - j + 1 by omega, pow_succ, ← Nat.mul_assoc, ← hn]; omega
      · rw [show digitOf n = '0' by unfold digitOf; rw [hm], trimZeros_zero, ht]
    · refine ⟨k + 1, n, by omega, by omega, by rw [pow_succ]; exact h, hm, by simp, ?_⟩
      rw [trimZeros_other, pad]
      intro hc
      have := digitOf_inj (n := 0) (hc.trans (by decide))
      omega

theorem fraction_ok {ns : Int} (h1 : 0 ≤ ns) (h2 : ns < nsPerSec) :
    IsFractionText (if ns = 0 then [] else '.' :: trimZeros (appendInt ns 9)) ns.toNat := by
  unfold nsPerSec at h2
  split
  · next h => left; subst h; exact ⟨rfl, rfl⟩
  · next h =>
    right
    rw [appendInt_pad ns 8 h1 (by omega)]
    obtain ⟨j, d, j1, j2, hd, hd0, hn, ht⟩ := trimZeros_pad 9 ns.toNat (by omega) (by omega)
    exact ⟨j, d, j1, j2, hd, hd0, hn, by rw [ht]⟩

theorem fraction_unique {s : List Char} {n m : Nat} (h : IsFractionText s n) (h' : IsFractionText s m) : n = m := by
  rcases h with ⟨rfl, rfl⟩ | ⟨k, d, -, -, hd, -, rfl, rfl⟩ <;> rcases h' with ⟨rfl, hs⟩ | ⟨k', d', -, -, hd', -, rfl, hs⟩
  · rfl
  · cases hs
  · cases hs
  · rw [List.cons.injEq] at hs
    have hl := congrArg List.length hs.2
    rw [pad_length, pad_length] at hl
    subst hl
    rw [pad_inj hd hd' hs.2]

theorem writable_time {t : Time} (h : Writable t) : ∃ s, timeJson t = some (.str s) ∧ IsTime s t := by
  obtain ⟨h1, h2, h3⟩ := h
  refine ⟨_, by unfold timeJson; rw [if_pos ⟨h1, h2⟩], ?_⟩
  have hc := civil_spec t
  obtain ⟨_, _, _, d1, d2, m1, m2⟩ := civil_spec t
  have hmd : monthDays t.year t.month ≤ 31 := by
    unfold monthDays; split
    · split <;> omega
    · split <;> omega
  have e1 : ((t.year.toNat : Nat) : Int) = t.year := by omega
  have e2 : ((t.month.toNat : Nat) : Int) = t.month := by omega
  have e3 : ((t.dayOfMonth.toNat : Nat) : Int) = t.dayOfMonth := by omega
  have hs : 0 ≤ t.sinceMidnight ∧ t.sinceMidnight < nsPerDay := by
    unfold Time.sinceMidnight nsPerDay; omega
  have hq : 0 ≤ t.sinceMidnight / nsPerSec ∧ t.sinceMidnight / nsPerSec < 86400 := by
    unfold nsPerDay nsPerSec at *; omega
  have hf := fraction_ok (ns := t.sinceMidnight % nsPerSec) (by unfold nsPerSec; omega) (by unfold nsPerSec; omega)
  have hv : t.sinceMidnight = t.sinceMidnight / nsPerSec * nsPerSec + ((t.sinceMidnight % nsPerSec).toNat : Int) := by
    unfold nsPerSec at *; omega
  unfold rfc3339
  simp only
  generalize hq' : t.sinceMidnight / nsPerSec = q at *
  generalize t.sinceMidnight % nsPerSec = ns at *
  rw [if_pos h3, appendInt_pad t.year 3 (by omega) (by omega), appendInt_pad t.month 1 (by omega) (by omega),
    appendInt_pad t.dayOfMonth 1 (by omega) (by omega), appendInt_pad (q / 3600) 1 (by omega) (by omega),
    appendInt_pad (q / 60 % 60) 1 (by omega) (by omega), appendInt_pad (q % 60) 1 (by omega) (by omega)]
  refine ⟨t.year.toNat, t.month.toNat, t.dayOfMonth.toNat, (q / 3600).toNat, (q / 60 % 60).toNat, (q % 60).toNat,
    ns.toNat, _, by omega, by omega, by omega, by omega, hf, ?_, ?_, h3, ?_⟩
  · rw [e1, e2, e3]; exact hc
  · rw [hv]
    congr 2
    omega
  · simp

theorem time_unique {s : String} {t t' : Time} (h : IsTime s t) (h' : IsTime s t') : t = t' := by
  obtain ⟨y, m, d, hh, mm, ss, ns, fr, y1, b1, b2, b3, hfr, hd, hm, ho, hs⟩ := h
  obtain ⟨y', m', d', hh', mm', ss', ns', fr', y1', b1', b2', b3', hfr', hd', hm', ho', hs'⟩ := h'
  have bd : ∀ {n y m d : Int}, IsDate n y m d → 1 ≤ m ∧ m ≤ 12 ∧ 1 ≤ d ∧ d ≤ 31 := by
    rintro n y m d ⟨_, -, -, h3, h4, h5, h6⟩
    refine ⟨h5, h6, h3, h4.trans ?_⟩
    unfold monthDays; split
    · split <;> omega
    · split <;> omega
  have k := bd hd
  have k' := bd hd'
  have he := String.ofList_injective (hs.symm.trans hs')
  simp only [List.append_assoc, List.cons_append] at he
  obtain ⟨g1, he⟩ := List.append_inj he (by rw [pad_length, pad_length])
  rw [List.cons.injEq] at he
  obtain ⟨g2, he⟩ := List.append_inj he.2 (by rw [pad_length, pad_length])
  rw [List.cons.injEq] at he
  obtain ⟨g3, he⟩ := List.append_inj he.2 (by rw [pad_length, pad_length])
  rw [List.cons.injEq] at he
  obtain ⟨g4, he⟩ := List.append_inj he.2 (by rw [pad_length, pad_length])
  rw [List.cons.injEq] at he
  obtain ⟨g5, he⟩ := List.append_inj he.2 (by rw [pad_length, pad_length])
  rw [List.cons.injEq] at he
  obtain ⟨g6, he⟩ := List.append_inj he.2 (by rw [pad_length, pad_length])
  have g7 := (List.append_inj' he rfl).1
  subst g7
  have g7 := fraction_unique hfr hfr'
  have g1 := pad_inj (by omega) (by omega) g1
  have g2 := pad_inj (by omega) (by omega) g2
  have g3 := pad_inj (by omega) (by omega) g3
  have g4 := pad_inj (by omega) (by omega) g4
  have g5 := pad_inj (by omega) (by omega) g5
  have g6 := pad_inj (by omega) (by omega) g6
  subst g1 g2 g3 g4 g5 g6 g7
  exact time_of_day (isDate_day hd hd') (by rw [hm, hm']) (by rw [ho, ho'])

/-! ### objects -/

theorem uposatha_ok (m : UposathaMoon) (h : Writable m.Date) : ∃ j, uposathaJson m = some j ∧ IsUposatha j m := by
  obtain ⟨s, h1, h2⟩ := writable_time h
  unfold uposathaJson
  rw [h1]
  exact ⟨_, rfl, ⟨s, rfl, h2⟩, rfl, rfl, rfl, rfl, rfl, rfl, rfl, rfl, rfl, rfl, rfl, rfl, rfl, rfl⟩

theorem half_ok (m : HalfMoon) (h : Writable m.Date) : ∃ j, halfJson m = some j ∧ IsHalfMoon j m := by
  obtain ⟨s, h1, h2⟩ := writable_time h
  unfold halfJson
  rw [h1]
  exact ⟨_, rfl, ⟨s, rfl, h2⟩, rfl⟩

theorem astro_ok (m : AstroMoon) (h : Writable m.Date) : ∃ j, astroJson m = some j ∧ IsAstroMoon j m := by
  obtain ⟨s, h1, h2⟩ := writable_time h
  unfold astroJson
  rw [h1]
  exact ⟨_, rfl, ⟨s, rfl, h2⟩, rfl⟩

theorem event_ok (m : Event) (h : Writable m.Date) : ∃ j, eventJson m = some j ∧ IsEvent j m := by
  obtain ⟨s, h1, h2⟩ := writable_time h
  unfold eventJson
  rw [h1]
  exact ⟨_, rfl, ⟨s, rfl, h2⟩, rfl, rfl, rfl⟩

theorem mapM_ok {α : Type} {f : α → Option Json} {is : Json → α → Prop} : ∀ {l : List α},
    (∀ x ∈ l, ∃ j, f x = some j ∧ is j x) → ∃ js, l.mapM f = some js ∧ List.Forall₂ is js l := by
  intro l
  induction l with
  | nil => intro _; exact ⟨[], rfl, .nil⟩
  | cons x l ih =>
    intro h
    obtain ⟨j, h1, h2⟩ := h x (by simp)
    obtain ⟨js, h3, h4⟩ := ih fun y hy => h y (by simp [hy])
    refine ⟨j :: js, ?_, .cons h2 h4⟩
    rw [List.mapM_cons, h1, h3]; rfl

/-- What `omitempty` writes for a list. -/
theorem omit_ok {α : Type} {f : α → Option Json} {is : Json → α → Prop} (name : String) {l : List α}
    (h : ∀ x ∈ l, ∃ j, f x = some j ∧ is j x) : ∃ fs, omitempty name f l = some fs ∧
      ((l = [] ∧ fs = []) ∨ (l ≠ [] ∧ ∃ items, fs = [(name, .arr items)] ∧ List.Forall₂ is items l)) := by
  obtain ⟨js, h1, h2⟩ := mapM_ok h
  unfold omitempty
  cases l with
  | nil => exact ⟨[], rfl, Or.inl ⟨rfl, rfl⟩⟩
  | cons x l =>
    rw [if_neg (by simp), h1]
    exact ⟨_, rfl, Or.inr ⟨by simp, js, rfl, h2⟩⟩

/-- All times in a day can be written. -/
structure WritableDay (c : CalDay) : Prop where
  date : Writable c.Date
  uposatha : ∀ m ∈ c.UposathaMoon, Writable m.Date
  half : ∀ m ∈ c.HalfMoon, Writable m.Date
  astro : ∀ m ∈ c.AstroMoon, Writable m.Date
  major : ∀ m ∈ c.MajorEvents, Writable m.Date
  events : ∀ m ∈ c.Events, Writable m.Date

theorem lookup_omit {α : Type} {is : Json → α → Prop} {name : String} {l : List α} {fs : List (String × Json)}
    (h : (l = [] ∧ fs = []) ∨ (l ≠ [] ∧ ∃ items, fs = [(name, .arr items)] ∧ List.Forall₂ is items l)) (k : String)
    (rest : List (String × Json)) :
    (fs ++ rest).lookup k = if k = name ∧ l ≠ [] then fs.lookup name else rest.lookup k := by
  rcases h with ⟨h1, h2⟩ | ⟨h1, items, h2, -⟩
  · rw [h1, h2]; simp
  · rw [h2]
    by_cases hk : k = name
    · subst hk; simp [h1]
    · simp only [hk, false_and, if_false, List.cons_append, List.nil_append, List.lookup_cons]
      rw [beq_false_of_ne hk]

theorem day_ok (c : CalDay) (h : WritableDay c) : ∃ j, calDayJson c = some j ∧ IsDay j c := by
  obtain ⟨s, h1, h2⟩ := writable_time h.date
  obtain ⟨f1, a1, b1⟩ := omit_ok "UposathaMoon" fun x hx => uposatha_ok x (h.uposatha x hx)
  obtain ⟨f2, a2, b2⟩ := omit_ok "HalfMoon" fun x hx => half_ok x (h.half x hx)
  obtain ⟨f3, a3, b3⟩ := omit_ok "AstroMoon" fun x hx => astro_ok x (h.astro x hx)
  obtain ⟨f4, a4, b4⟩ := omit_ok "MajorEvents" fun x hx => event_ok x (h.major x hx)
  obtain ⟨f5, a5, b5⟩ := omit_ok "Events" fun x hx => event_ok x (h.events x hx)
  have hj : calDayJson c = some (.obj (("Date", .str s) :: (f1 ++ (f2 ++ (f3 ++ (f4 ++ (f5 ++ []))))))) := by
    unfold calDayJson
    rw [h1, a1, a2, a3, a4, a5]
    simp
  refine ⟨_, hj, ⟨s, rfl, h2⟩, ?_, ?_, ?_, ?_, ?_⟩ <;> unfold HasList field <;>
    simp only [List.lookup_cons, lookup_omit b1, lookup_omit b2, lookup_omit b3, lookup_omit b4, lookup_omit b5]
  · rcases b1 with ⟨e, hf⟩ | ⟨e, items, hf, hi⟩
    · left; subst hf; simp [e]
    · right; subst hf; simp [e, hi]
  · rcases b2 with ⟨e, hf⟩ | ⟨e, items, hf, hi⟩
    · left; subst hf; simp [e]
    · right; subst hf; simp [e, hi]
  · rcases b3 with ⟨e, hf⟩ | ⟨e, items, hf, hi⟩
    · left; subst hf; simp [e]
    · right; subst hf; simp [e, hi]
  · rcases b4 with ⟨e, hf⟩ | ⟨e, items, hf, hi⟩
    · left; subst hf; simp [e]
    · right; subst hf; simp [e, hi]
  · rcases b5 with ⟨e, hf⟩ | ⟨e, items, hf, hi⟩
    · left; subst hf; simp [e]
    · right; subst hf; simp [e, hi]

/-! ### an object means at most one day -/

theorem forall2_unique {α : Type} {is : Json → α → Prop} (hu : ∀ j x y, is j x → is j y → x = y) {items : List Json}
    {l l' : List α} (h : List.Forall₂ is items l) (h' : List.Forall₂ is items l') : l = l' := by
  induction h generalizing l' with
  | nil => cases h'; rfl
  | cons hx _ ih =>
    cases h' with
    | cons hy hr => rw [hu _ _ _ hx hy, ih hr]

theorem hasList_unique {α : Type} {is : Json → α → Prop} (hu : ∀ j x y, is j x → is j y → x = y) {j : Json} {name : String}
    {l l' : List α} (h : HasList j name is l) (h' : HasList j name is l') : l = l' := by
  rcases h with ⟨h1, h2⟩ | ⟨h1, items, h2, h3⟩ <;> rcases h' with ⟨h1', h2'⟩ | ⟨h1', items', h2', h3'⟩
  · rw [h1, h1']
  · rw [h2] at h2'; cases h2'
  · rw [h2] at h2'; cases h2'
  · rw [h2] at h2'; cases h2'
    exact forall2_unique hu h3 h3'

theorem hasTime_unique {j : Json} {name : String} {t t' : Time} (h : HasTime j name t) (h' : HasTime j name t') : t = t' := by
  obtain ⟨s, h1, h2⟩ := h
  obtain ⟨s', h1', h2'⟩ := h'
  rw [h1] at h1'; cases h1'
  exact time_unique h2 h2'

theorem num_inj {o : Option Json} {a b : Int} (h : o = some (.num a)) (h' : o = some (.num b)) : a = b := by
  rw [h] at h'; cases h'; rfl
theorem str_inj {o : Option Json} {a b : String} (h : o = some (.str a)) (h' : o = some (.str b)) : a = b := by
  rw [h] at h'; cases h'; rfl
theorem bool_inj {o : Option Json} {a b : Bool} (h : o = some (.bool a)) (h' : o = some (.bool b)) : a = b := by
  rw [h] at h'; cases h'; rfl

theorem uposatha_unique (j : Json) (m m' : UposathaMoon) (h : IsUposatha j m) (h' : IsUposatha j m') : m = m' := by
  cases m; cases m'
  obtain ⟨a1, a2, a3, a4, a5, a6, a7, a8, a9, a10, a11, a12, a13, a14, a15⟩ := h
  obtain ⟨b1, b2, b3, b4, b5, b6, b7, b8, b9, b10, b11, b12, b13, b14, b15⟩ := h'
  dsimp only at *
  rw [hasTime_unique a1 b1, num_inj a2 b2, num_inj a3 b3, str_inj a4 b4, str_inj a5 b5, num_inj a6 b6, num_inj a7 b7,
    num_inj a8 b8, num_inj a9 b9, num_inj a10 b10, num_inj a11 b11, num_inj a12 b12, bool_inj a13 b13, str_inj a14 b14,
    str_inj a15 b15]

theorem half_unique (j : Json) (m m' : HalfMoon) (h : IsHalfMoon j m) (h' : IsHalfMoon j m') : m = m' := by
  cases m; cases m'
  obtain ⟨a1, a2⟩ := h
  obtain ⟨b1, b2⟩ := h'
  dsimp only at *
  rw [hasTime_unique a1 b1, str_inj a2 b2]

theorem astro_unique (j : Json) (m m' : AstroMoon) (h : IsAstroMoon j m) (h' : IsAstroMoon j m') : m = m' := by
  cases m; cases m'
  obtain ⟨a1, a2⟩ := h
  obtain ⟨b1, b2⟩ := h'
  dsimp only at *
  rw [hasTime_unique a1 b1, str_inj a2 b2]

theorem event_unique (j : Json) (m m' : Event) (h : IsEvent j m) (h' : IsEvent j m') : m = m' := by
  cases m; cases m'
  obtain ⟨a1, a2, a3, a4⟩ := h
  obtain ⟨b1, b2, b3, b4⟩ := h'
  dsimp only at *
  rw [hasTime_unique a1 b1, num_inj a2 b2, str_inj a3 b3, str_inj a4 b4]

theorem day_unique (j : Json) (c c' : CalDay) (h : IsDay j c) (h' : IsDay j c') : c = c' := by
  cases c; cases c'
  obtain ⟨a1, a2, a3, a4, a5, a6⟩ := h
  obtain ⟨b1, b2, b3, b4, b5, b6⟩ := h'
  dsimp only at *
  rw [hasTime_unique a1 b1, hasList_unique uposatha_unique a2 b2, hasList_unique half_unique a3 b3,
    hasList_unique astro_unique a4 b4, hasList_unique event_unique a5 b5, hasList_unique event_unique a6 b6]

/-! ### the days of a range -/

theorem days_writable {cfg : Config} {files : Int → AstroFile} {fromDate toDate : Time} {l : List CalDay}
    (h : getCalDays cfg files fromDate toDate = some l) {c : CalDay} (hc : c ∈ l)
    (h0 : 0 ≤ c.Date.year) (h1 : c.Date.year ≤ 9999) : WritableDay c := by
  obtain ⟨moons, hm, hh, -, -⟩ := c27_content _ _ _ _ _ h
  have hutc := (c26_sorted _ _ _ _ _ h).2 c hc
  have hh := hh c hc
  have hon : ∀ e ∈ onDay (dayStart c.Date) (moons.map CalendarEvent.astro ++ calendarEventsIn cfg fromDate toDate),
      Writable e.getDate := by
    intro e he
    unfold onDay at he
    rw [List.mem_filter, decide_eq_true_eq, List.mem_append] at he
    obtain ⟨he, hk⟩ := he
    have hu : e.getDate.offset = 0 := by
      rcases he with he | he
      · obtain ⟨m, hm', rfl⟩ := List.mem_map.1 he
        exact (c31_range _ _ _ _ hm m hm').2.1
      · obtain ⟨y, -, -, hg, -⟩ := mem_calendarEventsIn.1 he
        exact generate_utc hg
    have hd := (key_day hu hutc).1 hk
    have hy : e.getDate.year = c.Date.year := by unfold Time.year; rw [hd]
    exact ⟨by omega, by omega, hu⟩
  refine ⟨?_, ?_, ?_, ?_, ?_, ?_⟩
  · have := hh.date
    rw [Option.map_eq_some_iff] at this
    obtain ⟨e, he, hd⟩ := this
    rw [← hd]
    exact hon e (List.mem_of_getLast? he)
  · intro m hm
    rw [hh.uposatha, Option.mem_toList] at hm
    have hm := List.mem_of_getLast? hm
    unfold uposathasOf at hm
    rw [List.mem_filterMap] at hm
    obtain ⟨e, he, hx⟩ := hm
    cases e <;> simp at hx
    subst hx; exact hon _ he
  · intro m hm
    rw [hh.half, Option.mem_toList] at hm
    have hm := List.mem_of_getLast? hm
    unfold halvesOf at hm
    rw [List.mem_filterMap] at hm
    obtain ⟨e, he, hx⟩ := hm
    cases e <;> simp at hx
    subst hx; exact hon _ he
  · intro m hm
    rw [hh.astro, Option.mem_toList] at hm
    exact hon _ (mem_astrosOf.1 (List.mem_of_getLast? hm))
  · intro m hm
    rw [hh.majors] at hm
    unfold majorsOf at hm
    rw [List.mem_filterMap] at hm
    obtain ⟨e, he, hx⟩ := hm
    cases e <;> simp at hx
    subst hx; exact hon _ he
  · intro m hm
    rw [hh.plain] at hm
    unfold plainOf at hm
    rw [List.mem_filterMap] at hm
    obtain ⟨e, he, hx⟩ := hm
    cases e <;> simp at hx
    subst hx; exact hon _ he

/-! ### the map -/

theorem lookup_iff {κ ν : Type} [DecidableEq κ] {l : List (κ × ν)} (h : (l.map Prod.fst).Nodup) (k : κ) (v : ν) :
    l.lookup k = some v ↔ (k, v) ∈ l := by
  induction l with
  | nil => simp
  | cons p l ih =>
    obtain ⟨k', v'⟩ := p
    rw [List.map_cons, List.nodup_cons] at h
    rw [List.lookup_cons]
    by_cases hk : k = k'
    · subst hk
      simp only [beq_self_eq_true, Option.some.injEq, List.mem_cons, Prod.mk.injEq, true_and]
      constructor
      · intro e; exact Or.inl e.symm
      · rintro (e | e)
        · exact e.symm
        · exact absurd (List.mem_map.2 ⟨_, e, rfl⟩) h.1
    · rw [beq_false_of_ne hk]
      simp only [List.mem_cons, Prod.mk.injEq, hk, false_and, false_or]
      exact ih h.2

theorem lookup_perm {κ ν : Type} [DecidableEq κ] {l l' : List (κ × ν)} (h : (l.map Prod.fst).Nodup) (hp : l.Perm l') (k : κ) :
    l'.lookup k = l.lookup k := by
  have h' : (l'.map Prod.fst).Nodup := (hp.map _).nodup_iff.1 h
  apply Option.ext
  intro v
  rw [lookup_iff h, lookup_iff h', hp.mem_iff]

/-- The fields written for groups of days. -/
theorem groups_ok {m : List (String × List CalDay)} (h : ∀ g ∈ m, ∀ c ∈ g.2, WritableDay c) :
    ∃ fs, (m.mapM fun (g : String × List CalDay) => (g.2.mapM calDayJson).map fun days => (g.1, Json.arr days)) = some fs ∧
      fs.map Prod.fst = m.map Prod.fst ∧
      ∀ k, (m.lookup k = none ∧ fs.lookup k = none) ∨
        ∃ days items, m.lookup k = some days ∧ fs.lookup k = some (.arr items) ∧ List.Forall₂ IsDay items days := by
  induction m with
  | nil => exact ⟨[], rfl, rfl, fun k => Or.inl ⟨rfl, rfl⟩⟩
  | cons g m ih =>
    obtain ⟨fs, h1, h2, h3⟩ := ih fun g' hg' => h g' (by simp [hg'])
    obtain ⟨js, h4, h5⟩ := mapM_ok (f := calDayJson) (is := IsDay) (l := g.2)
      fun c hc => day_ok c (h g (by simp) c hc)
    refine ⟨(g.1, .arr js) :: fs, ?_, ?_, ?_⟩
    · rw [List.mapM_cons, h4, Option.map_some, h1]; rfl
    · rw [List.map_cons, List.map_cons, h2]
    · intro k
      obtain ⟨gk, gd⟩ := g
      simp only [List.lookup_cons]
      cases k == gk
      · exact h3 k
      · exact Or.inr ⟨gd, js, rfl, rfl, h5⟩

theorem groups_sorted (l : List CalDay) :
    ((daysByYear l).mergeSort fun a b => decide (a.1 ≤ b.1)).map Prod.fst |>.Pairwise (· < ·) := by
  have hs := List.pairwise_mergeSort (le := fun (a b : String × List CalDay) => decide (a.1 ≤ b.1))
    (fun a b c h1 h2 => by
      rw [decide_eq_true_eq] at *; exact String.le_trans h1 h2)
    (fun a b => by
      rw [Bool.or_eq_true, decide_eq_true_eq, decide_eq_true_eq]; exact String.le_total a.1 b.1) (daysByYear l)
  have hn : (((daysByYear l).mergeSort fun a b => decide (a.1 ≤ b.1)).map Prod.fst).Nodup :=
    ((List.mergeSort_perm _ _).map _).nodup_iff.2 (c37_keys l).1
  rw [List.Nodup, List.pairwise_map] at hn
  rw [List.pairwise_map]
  refine (hs.and hn).imp ?_
  rintro a b ⟨h1, h2⟩
  rw [decide_eq_true_eq] at h1
  exact Std.lt_of_le_of_ne h1 h2

theorem daysByYear_mem {l : List CalDay} {g : String × List CalDay} (h : g ∈ daysByYear l) : ∀ c ∈ g.2, c ∈ l := by
  have hk := c37_keys l
  obtain ⟨c', -, hc'⟩ := (hk.2 g.1).1 (List.mem_map.2 ⟨g, h, rfl⟩)
  have := (lookup_iff hk.1 g.1 g.2).2 h
  rw [hc', c37_group] at this
  split at this
  · cases this
  · simp only [Option.some.injEq] at this
    intro c hc
    rw [← this] at hc
    exact (List.mem_filter.1 hc).1

/-- The text for days that can be written. -/
theorem groupsJson_ok (l : List CalDay) (h : ∀ c ∈ l, WritableDay c) :
    ∃ fields, groupsJson (daysByYear l) = some (.obj fields) ∧ (fields.map Prod.fst).Pairwise (· < ·) ∧
      (∀ k ∈ fields.map Prod.fst, ∃ c ∈ l, k = toString c.Date.year) ∧
      IsYears (.obj fields) fun y => l.filter fun c => decide (c.Date.year = y) := by
  have hp := List.mergeSort_perm (daysByYear l) (fun a b => decide (a.1 ≤ b.1))
  obtain ⟨fs, h1, h2, h3⟩ := groups_ok (m := (daysByYear l).mergeSort fun a b => decide (a.1 ≤ b.1))
    (fun g hg c hc => h c (daysByYear_mem (hp.mem_iff.1 hg) c hc))
  refine ⟨fs, ?_, ?_, ?_, ?_⟩
  · unfold groupsJson
    rw [h1]; rfl
  · rw [h2]; exact groups_sorted l
  · intro k hk
    rw [h2, (hp.map _).mem_iff] at hk
    exact ((c37_keys l).2 k).1 hk
  · intro y
    have := h3 (toString y)
    rw [lookup_perm (c37_keys l).1 hp.symm, c37_group] at this
    unfold HasList field
    rcases this with ⟨a1, a2⟩ | ⟨days, items, a1, a2, a3⟩
    · left
      split at a1
      · rename_i he; exact ⟨he, a2⟩
      · cases a1
    · right
      split at a1
      · cases a1
      · rename_i he
        simp only [Option.some.injEq] at a1
        refine ⟨he, items, a2, ?_⟩
        rw [← a1] at a3
        exact a3

/-! ### the order of the years -/

theorem lex_append {l l' x y : List Char} (hl : l.length = l'.length) (h : l < l') : l ++ x < l' ++ y := by
  induction l generalizing l' with
  | nil =>
    cases l' with
    | nil => exact absurd h (List.lt_irrefl _)
    | cons => simp at hl
  | cons a l ih =>
    cases l' with
    | nil => simp at hl
    | cons b l' =>
      rw [List.cons_lt_cons_iff] at h
      rw [List.cons_append, List.cons_append, List.cons_lt_cons_iff]
      rcases h with h | ⟨h1, h2⟩
      · exact Or.inl h
      · exact Or.inr ⟨h1, ih (by simpa using hl) h2⟩

theorem lex_last {l : List Char} {a b : Char} (h : a < b) : l ++ [a] < l ++ [b] := by
  induction l with
  | nil => rw [List.nil_append, List.nil_append, List.cons_lt_cons_iff]; exact Or.inl h
  | cons c l ih => rw [List.cons_append, List.cons_append, List.cons_lt_cons_iff]; exact Or.inr ⟨rfl, ih⟩

theorem pad_lt {k m n : Nat} (h : m < n) (hn : n < 10 ^ k) : pad k m < pad k n := by
  induction k generalizing m n with
  | zero => omega
  | succ k ih =>
    rw [pad, pad]
    rw [pow_succ] at hn
    by_cases hq : m / 10 < n / 10
    · exact lex_append (by rw [pad_length, pad_length]) (ih hq (by omega))
    · have : m / 10 = n / 10 := by omega
      rw [this]
      apply lex_last
      have : ∀ a b : Fin 10, a < b → Char.ofNat (48 + a.val) < Char.ofNat (48 + b.val) := by decide +kernel
      exact this ⟨m % 10, by omega⟩ ⟨n % 10, by omega⟩ (by rw [Fin.mk_lt_mk]; omega)

theorem year_text {y : Int} (h1 : 1000 ≤ y) (h2 : y ≤ 9999) : (toString y).toList = pad 4 y.toNat := by
  rw [int_text, if_pos (by omega)]
  have h := (pad_digits 3 y.toNat (by omega)).1
  have hl : ¬ (Nat.toDigits 10 y.toNat).length ≤ 3 := by
    rw [Nat.length_toDigits_le_iff (by omega) (by omega)]; omega
  have e : 3 + 1 - (Nat.toDigits 10 y.toNat).length = 0 := by omega
  rw [e] at h
  exact h

theorem year_text_lt {x y : Int} (h1 : 1000 ≤ x) (h2 : x < y) (h3 : y ≤ 9999) : toString x < toString y := by
  rw [String.lt_iff, year_text h1 (by omega), year_text (by omega) h3]
  exact pad_lt (by omega) (by omega)

theorem sorted_eq {l l' : List String} (h : l.Pairwise (· < ·)) (h' : l'.Pairwise (· < ·)) (hm : ∀ k, k ∈ l ↔ k ∈ l') : l = l' := by
  induction l generalizing l' with
  | nil =>
    cases l' with
    | nil => rfl
    | cons b l' => exact absurd ((hm b).2 (by simp)) (by simp)
  | cons a l ih =>
    cases l' with
    | nil => exact absurd ((hm a).1 (by simp)) (by simp)
    | cons b l' =>
      rw [List.pairwise_cons] at h h'
      have hab : a = b := by
        rcases List.mem_cons.1 ((hm a).1 (by simp)) with e | e
        · exact e
        · rcases List.mem_cons.1 ((hm b).2 (by simp)) with e' | e'
          · exact e'.symm
          · exact absurd (h.1 b e') (String.lt_asymm (h'.1 a e))
      subst hab
      rw [ih h.2 h'.2]
      intro k
      have := hm k
      rw [List.mem_cons, List.mem_cons] at this
      constructor
      · intro hk
        rcases this.1 (Or.inr hk) with e | e
        · subst e; exact absurd (h.1 k hk) (String.lt_irrefl k)
        · exact e
      · intro hk
        rcases this.2 (Or.inr hk) with e | e
        · subst e; exact absurd (h'.1 k hk) (String.lt_irrefl k)
        · exact e

/-! ### C57 -/

/-- The pieces of the text written. -/
theorem calDaysText_eq {cfg : Config} {files : Int → AstroFile} {nowFrom nowTo : Int} {f t : String} {a b : Time}
    (hi : cliInit nowFrom nowTo f t = some (a, b)) {l : List CalDay} (h : getCalDays cfg files a b = some l) :
    calDaysText cfg files nowFrom nowTo f t = (groupsJson (daysByYear l)).map Json.text := by
  unfold calDaysText actionCalDays
  rw [hi]
  simp only [h, Option.map_some, Option.bind_eq_bind, Option.bind_some]
  cases groupsJson (daysByYear l) <;> rfl

theorem groupsJson_none {l : List CalDay} {c : CalDay} (hc : c ∈ l) (h : ¬ (0 ≤ c.Date.year ∧ c.Date.year ≤ 9999)) :
    groupsJson (daysByYear l) = none := by
  have hd : calDayJson c = none := by
    unfold calDayJson timeJson
    rw [if_neg h]; rfl
  have hl : (daysByYear l).lookup (toString c.Date.year) = some (l.filter fun c' => decide (c'.Date.year = c.Date.year)) := by
    rw [c37_group, if_neg]
    intro he
    have : c ∈ l.filter fun c' => decide (c'.Date.year = c.Date.year) := List.mem_filter.2 ⟨hc, by simp⟩
    rw [he] at this; simp at this
  rw [lookup_iff (c37_keys l).1] at hl
  unfold groupsJson
  rw [mapM_none.2 ⟨_, (List.mergeSort_perm (daysByYear l) (fun a b => decide (a.1 ≤ b.1))).mem_iff.2 hl, ?_⟩]
  · rfl
  · rw [mapM_none.2 ⟨c, List.mem_filter.2 ⟨hc, by simp⟩, hd⟩]; rfl

/-- C57: the program writes a JSON text if and only if all days lie in the years 0..9999. Reading the text gives an
object with the years of the days as keys, in the order of strings, and under each year the days of that year with all
their data. -/
theorem c57_text (cfg : Config) (files : Int → AstroFile) (nowFrom nowTo : Int) (f t : String)
    (a b : Time) (hi : cliInit nowFrom nowTo f t = some (a, b)) (l : List CalDay) (h : getCalDays cfg files a b = some l) :
    (calDaysText cfg files nowFrom nowTo f t = none ↔ ∃ c ∈ l, ¬ (0 ≤ c.Date.year ∧ c.Date.year ≤ 9999)) ∧
    ∀ text, calDaysText cfg files nowFrom nowTo f t = some text → ∃ fields, readJson text = some (.obj fields) ∧
      (fields.map Prod.fst).Pairwise (· < ·) ∧ (∀ k ∈ fields.map Prod.fst, ∃ c ∈ l, k = toString c.Date.year) ∧
      IsYears (.obj fields) fun y => l.filter fun c => decide (c.Date.year = y) := by
  rw [calDaysText_eq hi h]
  by_cases hc : ∃ c ∈ l, ¬ (0 ≤ c.Date.year ∧ c.Date.year ≤ 9999)
  · obtain ⟨c, hcl, hy⟩ := hc
    rw [groupsJson_none hcl hy]
    exact ⟨⟨fun _ => ⟨c, hcl, hy⟩, fun _ => rfl⟩, by intro text ht; simp at ht⟩
  · have hy : ∀ c ∈ l, WritableDay c := fun c hcl => by
      have : 0 ≤ c.Date.year ∧ c.Date.year ≤ 9999 := by
        by_contra hn; exact hc ⟨c, hcl, hn⟩
      exact days_writable h hcl this.1 this.2
    obtain ⟨fields, g1, g2, g3, g4⟩ := groupsJson_ok l hy
    rw [g1]
    refine ⟨⟨fun hn => by simp at hn, fun hn => absurd hn hc⟩, ?_⟩
    intro text ht
    rw [Option.map_some, Option.some.injEq] at ht
    subst ht
    exact ⟨fields, readJson_text _, g2, g3, g4⟩

theorem asalha_range : cliInit 0 0 "2015-07-22" "2015-08-09" = some (date 2015 7 22 0 0, date 2015 8 9 0 0) := by decide +kernel

/-- C57: the days of C26, asked for by dates; all their years can be written. -/
example : calDaysText .default asalhaFiles 0 0 "2015-07-22" "2015-08-09" ≠ none := by
  intro h
  obtain ⟨c, hc, hn⟩ := (c57_text _ _ 0 0 _ _ _ _ asalha_range _ asalha_days).1.1 h
  exact hn (show 0 ≤ c.Date.year ∧ c.Date.year ≤ 9999 from (by decide +kernel : ∀ c ∈ asalhaDays, 0 ≤ c.Date.year ∧ c.Date.year ≤ 9999) c hc)

/-- C57: a quarter of a second, as a data file may have it. -/
example : timeJson (date 2015 7 31 38582250000000 0) = some (.str "2015-07-31T10:43:02.25Z") ∧
    ∃ s, IsTime s (date 2015 7 31 38582250000000 0) ∧ s = "2015-07-31T10:43:02.25Z" := by
  have ht : timeJson (date 2015 7 31 38582250000000 0) = some (.str "2015-07-31T10:43:02.25Z") := by
    have e : String.ofList (rfc3339 (date 2015 7 31 38582250000000 0)) = "2015-07-31T10:43:02.25Z" := by decide +kernel
    unfold timeJson
    rw [if_pos (by decide +kernel), e]
  obtain ⟨s, h1, h2⟩ := writable_time (t := date 2015 7 31 38582250000000 0) ⟨by decide +kernel, by decide +kernel,
    by decide +kernel⟩
  rw [ht] at h1
  cases h1
  exact ⟨ht, _, h2, rfl⟩

/-- C57: with both flags given and the embedded data a text is always written. -/
theorem c57_written (cfg : Config) (nowFrom nowTo : Int) (f t : String) (hf : f ≠ "") (ht : t ≠ "") (a b : Time)
    (hi : cliInit nowFrom nowTo f t = some (a, b)) : calDaysText cfg embeddedFiles nowFrom nowTo f t ≠ none := by
  obtain ⟨l, hl⟩ := Option.ne_none_iff_exists'.1 (c53_never_panics cfg a b).2
  rw [ne_eq, (c57_text cfg _ nowFrom nowTo f t a b hi l hl).1]
  rintro ⟨c, hc, hn⟩
  exact hn (c37_cli_years cfg _ nowFrom nowTo f t hf ht a b hi l hl c hc)

/-- C57: a range of years given by dates. -/
example : (cliInit 0 0 "2000-01-01" "2019-12-31").isSome = true := by decide +kernel

/-- C57: the text determines the days: two calls writing the same text found the same days. -/
theorem c57_determines (cfg cfg' : Config) (files files' : Int → AstroFile)
    (n m n' m' : Int) (f t f' t' : String) (a b a' b' : Time)
    (hi : cliInit n m f t = some (a, b)) (hi' : cliInit n' m' f' t' = some (a', b')) (l l' : List CalDay)
    (h : getCalDays cfg files a b = some l) (h' : getCalDays cfg' files' a' b' = some l') (text : List Char)
    (ht : calDaysText cfg files n m f t = some text) (ht' : calDaysText cfg' files' n' m' f' t' = some text) : l = l' := by
  have k := c57_text cfg files n m f t a b hi l h
  have k' := c57_text cfg' files' n' m' f' t' a' b' hi' l' h'
  obtain ⟨fs, r, -, -, hy⟩ := k.2 text ht
  obtain ⟨fs', r', -, -, hy'⟩ := k'.2 text ht'
  rw [r] at r'
  simp only [Option.some.injEq, Json.obj.injEq] at r'
  subst r'
  have hq : ∀ y, (l.filter fun c => decide (c.Date.year = y)) = l'.filter fun c => decide (c.Date.year = y) :=
    fun y => hasList_unique day_unique (hy y) (hy' y)
  have rng : ∀ c ∈ l, 0 ≤ c.Date.year ∧ c.Date.year ≤ 9999 := by
    intro c hc
    by_contra hn
    have := k.1.2 ⟨c, hc, hn⟩
    rw [this] at ht; cases ht
  have rng' : ∀ c ∈ l', 0 ≤ c.Date.year ∧ c.Date.year ≤ 9999 := by
    intro c hc
    by_contra hn
    have := k'.1.2 ⟨c, hc, hn⟩
    rw [this] at ht'; cases ht'
  rw [← c37_concat _ _ _ _ _ h 0 9999 rng, ← c37_concat _ _ _ _ _ h' 0 9999 rng']
  apply List.flatMap_congr
  intro y _
  rw [c37_group, c37_group, hq y]

/-- C57: any other setting and range that leads to the same text has the same days. -/
example (cfg : Config) (f t : String) (a b : Time) (hi : cliInit 0 0 f t = some (a, b)) (l : List CalDay) (h : getCalDays cfg asalhaFiles a b = some l)
    (text : List Char) (h1 : calDaysText .default asalhaFiles 0 0 "2015-07-22" "2015-08-09" = some text)
    (h2 : calDaysText cfg asalhaFiles 0 0 f t = some text) : l = asalhaDays :=
  (c57_determines _ _ _ _ 0 0 0 0 _ _ _ _ _ _ _ _ asalha_range hi _ _ asalha_days h text h1 h2).symm

/-- C57: for ranges within the years 1000..9999 the years are written in ascending order, so that the arrays of the text
one after the other give the days in order. -/
theorem c57_ascending (cfg : Config) (files : Int → AstroFile) (nowFrom nowTo : Int) (f t : String)
    (a b : Time) (hi : cliInit nowFrom nowTo f t = some (a, b)) (h1 : 1000 ≤ a.year) (h2 : b.year ≤ 9999) (l : List CalDay)
    (h : getCalDays cfg files a b = some l) (text : List Char) (ht : calDaysText cfg files nowFrom nowTo f t = some text)
    (fields : List (String × Json)) (hr : readJson text = some (.obj fields)) :
    fields.map Prod.fst = ((yearsFrom a.year b.year).filter fun y => decide (∃ c ∈ l, c.Date.year = y)).map toString := by
  obtain ⟨fs, r, hs, hk, hy⟩ := (c57_text cfg files nowFrom nowTo f t a b hi l h).2 text ht
  rw [hr] at r
  simp only [Option.some.injEq, Json.obj.injEq] at r
  subst r
  have hu := cliInit_midnight hi
  have hyr := c37_years _ _ _ _ _ h hu.1.2 hu.2.2
  have hmem : ∀ y, y ∈ yearsFrom a.year b.year ↔ a.year ≤ y ∧ y ≤ b.year := by
    intro y
    unfold yearsFrom
    simp only [List.mem_map, List.mem_range]
    constructor
    · rintro ⟨i, hi, rfl⟩; omega
    · rintro ⟨g1, g2⟩; exact ⟨(y - a.year).toNat, by omega, by omega⟩
  refine sorted_eq hs ?_ ?_
  · rw [List.pairwise_map]
    refine List.Pairwise.imp_of_mem ?_ ((show (yearsFrom a.year b.year).Pairwise (· < ·) from ?_).filter _)
    · intro x y hx hy' hxy
      have hx := (hmem x).1 (List.mem_filter.1 hx).1
      have hy' := (hmem y).1 (List.mem_filter.1 hy').1
      exact year_text_lt (by omega) hxy (by omega)
    · unfold yearsFrom
      rw [List.pairwise_map]
      exact List.pairwise_lt_range.imp (by intro x y hxy; omega)
  · intro k
    constructor
    · intro hk'
      obtain ⟨c, hc, rfl⟩ := hk k hk'
      refine List.mem_map.2 ⟨c.Date.year, List.mem_filter.2 ⟨(hmem _).2 (hyr c hc), decide_eq_true ⟨c, hc, rfl⟩⟩, rfl⟩
    · intro hk'
      obtain ⟨y, hyy, rfl⟩ := List.mem_map.1 hk'
      obtain ⟨c, hc, hcy⟩ := of_decide_eq_true (List.mem_filter.1 hyy).2
      rcases hy y with ⟨e, -⟩ | ⟨-, items, e, -⟩
      · have : c ∈ l.filter fun c => decide (c.Date.year = y) := List.mem_filter.2 ⟨hc, decide_eq_true hcy⟩
        simp only at e
        rw [e] at this; simp at this
      · unfold field at e
        rw [lookup_iff] at e
        · exact List.mem_map.2 ⟨_, e, rfl⟩
        · exact hs.imp (fun hlt he => by subst he; exact String.lt_irrefl _ hlt)

/-- C57: the only year in that text. -/
example (text : List Char) (h : calDaysText .default asalhaFiles 0 0 "2015-07-22" "2015-08-09" = some text) (fields : List (String × Json))
    (hr : readJson text = some (.obj fields)) : fields.map Prod.fst = ["2015"] :=
  (c57_ascending _ _ 0 0 _ _ _ _ asalha_range (by decide) (by decide) _ asalha_days text h fields hr).trans (by decide +kernel)

/-- C57: the keys are sorted as texts: `--from 0999-01-01 --to 1000-12-31` writes the year 1000 before the year 999. -/
theorem c57_order_999 (cfg : Config) (hs : Shipped cfg) (files : Int → AstroFile) (now : Int)
    (l : List CalDay) (h : getCalDays cfg files (date 999 1 1 0 0) (date 1000 12 31 0 0) = some l) (text : List Char)
    (ht : calDaysText cfg files now now "0999-01-01" "1000-12-31" = some text) :
    ∃ fields, readJson text = some (.obj fields) ∧ fields.map Prod.fst = ["1000", "999"] := by
  have hi : cliInit now now "0999-01-01" "1000-12-31" = some (date 999 1 1 0 0, date 1000 12 31 0 0) := by
    rw [c42_range, if_neg (by decide), if_neg (by decide)]
    exact ⟨by decide +kernel, by decide +kernel⟩
  obtain ⟨fs, r, hst, hk, hy⟩ := (c57_text cfg files now now _ _ _ _ hi l h).2 text ht
  refine ⟨fs, r, sorted_eq hst (by decide) ?_⟩
  have hyr := c37_years _ _ _ _ _ h rfl rfl
  have y1 : (date 999 1 1 0 0).year = 999 := by decide
  have y2 : (date 1000 12 31 0 0).year = 1000 := by decide
  have ex : ∀ y : Int, 999 ≤ y → y ≤ 1000 → ∃ c ∈ l, c.Date.year = y := by
    intro y g1 g2
    have hc := (c24_counts cfg hs y (by omega) (by omega)).1
    obtain ⟨u, hu⟩ := List.exists_mem_of_length_pos (l := uposathasOf (generateSolarYear cfg y)) (by omega)
    unfold uposathasOf at hu
    rw [List.mem_filterMap] at hu
    obtain ⟨e, he, hx⟩ := hu
    cases e <;> simp at hx
    subst hx
    rename_i u
    have huy := c55_in_year_steady cfg 631 4116 (shipped_steady hs) y (by omega) (by omega) _ he
    have huy : u.Date.year = y := huy
    have hm := generate_midnight he
    have hm : u.Date = ⟨u.Date.day * nsPerDay, 0⟩ := hm
    have hb := (year_eq_iff u.Date.day y).1 huy
    have hw : Within (date 999 1 1 0 0) (date 1000 12 31 0 0) u.Date := by
      have d1 : (date 999 1 1 0 0).nanos = daysSinceEpoch 999 * nsPerDay := by decide
      have d2 : (date 1000 12 31 0 0).nanos = (daysSinceEpoch 1001 - 1) * nsPerDay := by decide
      have e1 : daysSinceEpoch 999 ≤ daysSinceEpoch y := by
        rcases (by omega : y = 999 ∨ y = 1000) with rfl | rfl <;> decide
      have e2 : daysSinceEpoch (y + 1) ≤ daysSinceEpoch 1001 := by
        rcases (by omega : y = 999 ∨ y = 1000) with rfl | rfl <;> decide
      unfold Within
      rw [d1, d2]
      generalize u.Date.day = d at *
      rw [hm]
      unfold nsPerDay; simp only
      omega
    obtain ⟨c, hc, -, hd⟩ := ((c55_complete cfg files _ _ rfl rfl l h).1 u).2 ⟨⟨y, he⟩, hw⟩
    refine ⟨c, hc, ?_⟩
    rw [← huy]; unfold Time.year; rw [hd]
  intro k
  constructor
  · intro hk'
    obtain ⟨c, hc, rfl⟩ := hk k hk'
    have := hyr c hc
    rw [y1, y2] at this
    rcases (by omega : c.Date.year = 999 ∨ c.Date.year = 1000) with e | e <;> rw [e] <;> decide
  · have key : ∀ y : Int, 999 ≤ y → y ≤ 1000 → toString y ∈ fs.map Prod.fst := by
      intro y g1 g2
      obtain ⟨c, hc, hcy⟩ := ex y g1 g2
      rcases hy y with ⟨e, -⟩ | ⟨-, items, e, -⟩
      · have : c ∈ l.filter fun c => decide (c.Date.year = y) := List.mem_filter.2 ⟨hc, decide_eq_true hcy⟩
        simp only at e
        rw [e] at this; simp at this
      · unfold field at e
        rw [lookup_iff] at e
        · exact List.mem_map.2 ⟨_, e, rfl⟩
        · exact hst.imp (fun hlt he => by subst he; exact String.lt_irrefl _ hlt)
    intro hk'
    simp only [List.mem_cons, List.not_mem_nil, or_false] at hk'
    rcases hk' with rfl | rfl
    · exact key 1000 (by omega) (by omega)
    · exact key 999 (by omega) (by omega)

/-- C57: the text of one day of the calendar, as in suriya/testdata. -/
example : ((calDayJson { Date := date 2014 1 8 0 0, HalfMoon := [{ Date := date 2014 1 8 0 0, Phase := "waxing" }] }).map
      fun j => String.ofList j.text) =
    some "{\"Date\":\"2014-01-08T00:00:00Z\",\"HalfMoon\":[{\"Date\":\"2014-01-08T00:00:00Z\",\"Phase\":\"waxing\"}]}" := by
  decide +kernel

end Verif.Props
