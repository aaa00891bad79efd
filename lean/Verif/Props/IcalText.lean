import Verif.Spec.Ical
import Verif.Props.Ical
import Verif.Props.Json
import Verif.Lemmas.AstroCompare
/-
C58: the text of the `ical` command can be read back.
-/
set_option autoImplicit false

namespace Verif.Props
open Verif.Go Verif.Model Verif.Spec Verif.Lemmas

/-! ### lines -/

/-- A character that may stand inside a line. -/
def Inner (c : Char) : Prop := c ≠ '\r' ∧ c ≠ '\n'

theorem readLines_line (l : List Char) (h : ∀ c ∈ l, Inner c) (rest : List Char) (hr : rest.head? ≠ some ' ')
    (ht : rest.head? ≠ some '\t') : readLines (l ++ '\r' :: '\n' :: rest) = (readLines rest).map (l :: ·) := by
  induction l with
  | nil =>
    rw [List.nil_append, readLines]
    · rintro r rfl; simp at hr
    · rintro r rfl; simp at ht
  | cons c l ih =>
    have hc := h c (by simp)
    rw [List.cons_append, readLines, if_neg (by rintro (k | k); exacts [hc.1 k, hc.2 k]),
      ih fun x hx => h x (by simp [hx])]
    · cases readLines rest <;> rfl
    all_goals intros; exact hc.1 ‹_›

theorem readLines_all (ls : List (List Char)) (h : ∀ l ∈ ls, (∀ c ∈ l, Inner c) ∧ l.head? ≠ some ' ' ∧ l.head? ≠ some '\t') :
    readLines (ls.flatMap fun l => l ++ ['\r', '\n']) = some ls := by
  induction ls with
  | nil => rfl
  | cons l ls ih =>
    have ih := ih fun x hx => h x (by simp [hx])
    have hs : ∀ c : Char, (∀ x ∈ l :: ls, x.head? ≠ some c) → c ≠ '\r' →
        (ls.flatMap fun l => l ++ ['\r', '\n']).head? ≠ some c := by
      intro c hc hr
      cases ls with
      | nil => simp
      | cons m ls =>
        have := hc m (by simp)
        rw [List.flatMap_cons]
        cases m with
        | nil => simpa using Ne.symm hr
        | cons x m => simpa using this
    rw [List.flatMap_cons, List.append_assoc]
    rw [List.cons_append, List.cons_append, List.nil_append, readLines_line l (h l (by simp)).1 _ (hs ' ' (fun m hm => (h m hm).2.1) (by decide))
      (hs '\t' (fun m hm => (h m hm).2.2) (by decide)), ih]
    rfl

theorem readLine_line (name value : List Char) (h : ':' ∉ name) :
    readLine (name ++ ':' :: value) = some (name, value) := by
  induction name with
  | nil => rfl
  | cons c name ih =>
    rw [List.mem_cons, not_or] at h
    rw [List.cons_append, readLine, ih h.2]
    · rfl
    · intro k; exact h.1 k.symm

theorem readContent_line (l : String × String) (h : ':' ∉ l.1.toList) (hn : l.1.toList ≠ []) :
    readContent (icsLine l) = some l := by
  unfold readContent icsLine
  rw [readLine_line _ _ h]
  show (if l.1.toList = [] then none else _) = _
  rw [if_neg hn, String.ofList_toList, String.ofList_toList]

/-- A line that can be read back. -/
def GoodLine (l : String × String) : Prop :=
  ':' ∉ l.1.toList ∧ l.1.toList ≠ [] ∧ l.1.toList.head? ≠ some ' ' ∧ l.1.toList.head? ≠ some '\t' ∧
  (∀ c ∈ l.1.toList, Inner c) ∧ ∀ c ∈ l.2.toList, Inner c

theorem lines_text (ls : List (String × String)) (h : ∀ l ∈ ls, GoodLine l) :
    readLines (ls.flatMap fun l => icsLine l ++ ['\r', '\n']) = some (ls.map icsLine) := by
  have e : (ls.flatMap fun l => icsLine l ++ ['\r', '\n']) = (ls.map icsLine).flatMap fun l => l ++ ['\r', '\n'] := by
    rw [List.flatMap_map]
  rw [e, readLines_all]
  · intro l hl
    obtain ⟨x, hx, rfl⟩ := List.mem_map.1 hl
    obtain ⟨h1, h2, h3, h4, h5, h6⟩ := h x hx
    have hh : ∀ c : Char, x.1.toList.head? ≠ some c → (icsLine x).head? ≠ some c := by
      intro c hc
      unfold icsLine
      generalize x.1.toList = n at *
      cases n with
      | nil => exact absurd rfl h2
      | cons a n => simpa using hc
    refine ⟨?_, hh _ h3, hh _ h4⟩
    intro c hc
    unfold icsLine at hc
    rcases List.mem_append.1 hc with hc | hc
    · exact h5 c hc
    · rcases List.mem_cons.1 hc with rfl | hc
      · exact ⟨by decide, by decide⟩
      · exact h6 c hc

theorem contents_lines (ls : List (String × String)) (h : ∀ l ∈ ls, GoodLine l) :
    (do let lines ← readLines (ls.flatMap fun l => icsLine l ++ ['\r', '\n']); lines.mapM readContent) = some ls := by
  rw [lines_text _ h]
  show (ls.map icsLine).mapM readContent = some ls
  induction ls with
  | nil => rfl
  | cons l ls ih =>
    rw [List.map_cons, List.mapM_cons, readContent_line l (h l (by simp)).1 (h l (by simp)).2.1,
      ih fun x hx => h x (by simp [hx])]
    rfl

/-! ### components -/

theorem readEvents_props (ps ls rest : List (String × String)) (h : ∀ l ∈ ls, l.1 ≠ "BEGIN" ∧ l.1 ≠ "END") :
    readEvents (some ps) (ls ++ ("END", "VEVENT") :: rest) = (readEvents none rest).map ((ps ++ ls) :: ·) := by
  induction ls generalizing ps with
  | nil => rw [List.nil_append, readEvents, if_pos rfl, List.append_nil]
  | cons l ls ih =>
    have hl := h l (by simp)
    rw [List.cons_append, readEvents, if_neg (by rintro rfl; exact hl.2 rfl),
      if_neg (by rintro (k | k); exacts [hl.1 k, hl.2 k]), ih _ fun x hx => h x (by simp [hx]),
      List.append_assoc, List.singleton_append]

/-- The properties of a component. -/
def vEventProps (v : VEvent) (s : Stamp) : List (String × String) :=
  [("DTSTAMP", String.ofList (icsDateTime s.now)), ("UID", s.uid), ("SUMMARY", v.SUMMARY),
   ("DTSTART;VALUE=DATE", String.ofList (icsDate v.DTSTART)), ("DTEND;VALUE=DATE", String.ofList (icsDate v.DTEND))]

theorem vEventLines_eq (v : VEvent) (s : Stamp) :
    vEventLines v s = ("BEGIN", "VEVENT") :: (vEventProps v s ++ [("END", "VEVENT")]) := rfl

theorem readEvents_all (es : List (VEvent × Stamp)) :
    readEvents none ((es.map fun e => vEventLines e.1 e.2).flatten ++ [("END", "VCALENDAR")]) =
      some (es.map fun e => vEventProps e.1 e.2) := by
  induction es with
  | nil => rfl
  | cons e es ih =>
    rw [List.map_cons, List.flatten_cons, vEventLines_eq]
    simp only [List.cons_append, List.append_assoc, List.nil_append]
    rw [readEvents, if_pos rfl, readEvents_props, ih]
    · rfl
    · intro l hl
      simp only [vEventProps, List.mem_cons, List.not_mem_nil, or_false] at hl
      rcases hl with rfl | rfl | rfl | rfl | rfl <;> exact ⟨by simp, by simp⟩

theorem mapIdx_zip {α β γ : Type} (f : α → β → γ) (s : Nat → β) (l : List α) :
    l.mapIdx (fun i x => f x (s i)) = (l.mapIdx fun i x => (x, s i)).map fun p => f p.1 p.2 := by
  apply List.ext_getElem
  · simp
  · intro i h1 h2; simp

/-- Reading the text of components whose lines can be read. -/
theorem readIcs_text (vs : List VEvent) (stamps : Nat → Stamp)
    (h : ∀ l ∈ vCalendarLines vs stamps, GoodLine l) :
    readIcs (icsText vs stamps) = some ⟨icsHeader, vs.mapIdx fun i v => vEventProps v (stamps i)⟩ := by
  have hc := contents_lines _ h
  have e : readIcs (icsText vs stamps) = (do
      let lines ← readLines ((vCalendarLines vs stamps).flatMap fun l => icsLine l ++ ['\r', '\n'])
      lines.mapM readContent).bind readCalendar := by
    unfold readIcs icsText
    simp only [Option.bind_eq_bind, Option.bind_assoc]
  rw [e, hc]
  rw [Option.bind_some]
  unfold vCalendarLines
  simp only [List.cons_append, List.append_assoc]
  rw [readCalendar, if_pos rfl, mapIdx_zip vEventLines]
  generalize hes : (vs.mapIdx fun i x => (x, stamps i)) = es
  have hb : ∀ l ∈ icsHeader, decide (l.1 ≠ "BEGIN" ∧ l.1 ≠ "END") = true := by decide +kernel
  have hf : ∃ r, (es.map fun e => vEventLines e.1 e.2).flatten ++ [("END", "VCALENDAR")] = r ∧
      (r.takeWhile fun l : String × String => decide (l.1 ≠ "BEGIN" ∧ l.1 ≠ "END")) = [] ∧
      (r.dropWhile fun l : String × String => decide (l.1 ≠ "BEGIN" ∧ l.1 ≠ "END")) = r := by
    refine ⟨_, rfl, ?_⟩
    cases es with
    | nil => decide +kernel
    | cons e es => rw [List.map_cons, List.flatten_cons, vEventLines_eq]; simp
  obtain ⟨r, h1, h2, h3⟩ := hf
  dsimp only
  rw [h1, List.takeWhile_append_of_pos hb, List.dropWhile_append_of_pos hb, h2, h3, ← h1, List.append_nil, readEvents_all, ← hes,
    mapIdx_zip vEventProps]
  rfl

/-! ### values -/

/-- A character that stands for itself in a value of type TEXT. -/
def Plain (c : Char) : Prop := c ≠ '\\' ∧ c ≠ ';' ∧ c ≠ ',' ∧ 32 ≤ c.toNat ∧ c.toNat ≠ 127

instance (c : Char) : Decidable (Plain c) := by unfold Plain; infer_instance

theorem plain_inner {c : Char} (h : Plain c) : Inner c := by
  refine ⟨?_, ?_⟩ <;> rintro rfl <;> exact absurd h (by decide)

theorem readText_plain (s : String) (h : ∀ c ∈ s.toList, Plain c) : readText s = some s := by
  unfold readText
  have : ∀ l : List Char, (∀ c ∈ l, Plain c) → readTextChars l = some l := by
    intro l
    induction l with
    | nil => intro _; rfl
    | cons c l ih =>
      intro h
      obtain ⟨h1, h2, h3, h4, h5⟩ := h c (by simp)
      rw [readTextChars, if_neg (by rintro (k | k | k | k | k); exacts [h1 k, h2 k, h3 k, by omega, h5 k]),
        ih fun x hx => h x (by simp [hx])]
      · rfl
      · intro _ _ k; exact absurd k h1
  rw [this _ h]
  simp

theorem digit_plain {c : Char} (h : c.isDigit = true) : Plain c := by
  have hn : 48 ≤ c.toNat ∧ c.toNat ≤ 57 := by
    simp only [Char.isDigit, Bool.and_eq_true, decide_eq_true_eq] at h
    exact h
  refine ⟨?_, ?_, ?_, by omega, by omega⟩ <;> rintro rfl <;> exact absurd h (by decide)

theorem int_plain (i : Int) : ∀ c ∈ (toString i).toList, Plain c := by
  intro c hc
  rw [int_text] at hc
  split at hc
  · exact digit_plain (Nat.isDigit_of_mem_toDigits (by decide) (by decide) hc)
  · rcases List.mem_cons.1 hc with rfl | hc
    · decide
    · exact digit_plain (Nat.isDigit_of_mem_toDigits (by decide) (by decide) hc)

theorem season_plain (n : Int) : ∀ c ∈ (seasonName n).toList, Plain c := by
  have : seasonName n ∈ ["", "Hemanta", "Gimha", "Vassāna"] := by
    unfold seasonName mapGet seasonNameTable
    simp only [List.find?_cons, List.find?_nil]
    split
    · simp
    · split
      · simp
      · split
        · simp
        · split <;> simp
  revert this
  generalize seasonName n = s
  intro h
  simp only [List.mem_cons, List.not_mem_nil, or_false] at h
  rcases h with rfl | rfl | rfl | rfl <;> decide +kernel

theorem puja_plain (event : String) (p : String × Int) (hp : p ∈ pujas event) : ∀ c ∈ p.1.toList, Plain c := by
  unfold pujas at hp
  split_ifs at hp <;> simp only [List.mem_cons, List.not_mem_nil, or_false] at hp
  · rw [hp]; decide +kernel
  · rw [hp]; decide +kernel
  · rcases hp with hp | hp <;> rw [hp] <;> decide +kernel
  · rcases hp with hp | hp <;> rw [hp] <;> decide +kernel

/-- The texts of the calculated events need no escapes. -/
theorem generated_plain {cfg : Config} {y : Int} {e : CalendarEvent} (h : e ∈ generateSolarYear cfg y) :
    ∀ c ∈ e.string.toList, Plain c := by
  cases e with
  | uposatha u =>
    obtain ⟨k, -, h1, -⟩ := (c22_uposatha_iff _ _ _).1 h
    rw [moon_eq] at h1
    have hp : u.Phase = "new" ∨ u.Phase = "full" := by
      have : u.Phase = (chain cfg y k).Phase := by rw [h1]; rfl
      rw [this, chain_phase]
      split
      · left; rfl
      · right; rfl
    have ht : ∀ c ∈ (title u.Phase).toList, Plain c := by
      rcases hp with hp | hp <;> rw [hp] <;> decide +kernel
    intro c hc
    have hc : c ∈ u.string.toList := hc
    unfold UposathaMoon.string at hc
    split at hc
    · simp only [String.toList_append, List.mem_append] at hc
      have lit : ∀ s ∈ [" Moon - ", " day ", " ", "/"], ∀ c ∈ s.toList, Plain c := by decide +kernel
      rcases hc with ((((((((hc | hc) | hc) | hc) | hc) | hc) | hc) | hc) | hc)
      · exact ht c hc
      · exact lit _ (by simp) c hc
      · exact int_plain _ c hc
      · exact lit _ (by simp) c hc
      · exact season_plain _ c hc
      · exact lit _ (by simp) c hc
      · exact int_plain _ c hc
      · exact lit _ (by simp) c hc
      · exact int_plain _ c hc
    · exact absurd hc (by simp)
  | half m =>
    show ∀ c ∈ m.string.toList, Plain c
    rcases c44_half_text _ _ _ h with h | h <;> rw [h] <;> decide +kernel
  | major e =>
    obtain ⟨k, -, -, p, hp, h1⟩ := (c22_major_iff _ _ _).1 h
    have hs : (CalendarEvent.major e).string = p.1 := by rw [h1]; rfl
    rw [hs]
    exact puja_plain _ p hp
  | astro m => exact absurd rfl ((c22_in_year cfg y _ h).2.1 m)
  | event m => exact absurd rfl ((c22_in_year cfg y _ h).2.2 m)

theorem pad_digit (k n : Nat) : ∀ c ∈ pad k n, c.isDigit = true := by
  induction k generalizing n with
  | zero => intro c hc; exact absurd hc (by simp [pad])
  | succ k ih =>
    intro c hc
    rw [pad] at hc
    rcases List.mem_append.1 hc with hc | hc
    · exact ih _ c hc
    · rw [List.mem_singleton] at hc
      rw [hc]
      have : ∀ a : Fin 10, (Char.ofNat (48 + a.val)).isDigit = true := by decide +kernel
      exact this ⟨n % 10, by omega⟩

theorem monthDays_le (y m : Int) : monthDays y m ≤ 31 := by
  unfold monthDays; split
  · split <;> omega
  · split <;> omega

/-- The text of the date of a time in the years 0..9999. -/
theorem icsDate_pad {t : Time} (h1 : 0 ≤ t.year) (h2 : t.year ≤ 9999) :
    ∃ y m d : Nat, y ≤ 9999 ∧ IsDate t.day y m d ∧ icsDate t = pad 4 y ++ pad 2 m ++ pad 2 d := by
  have hc := civil_spec t
  obtain ⟨_, _, _, d1, d2, m1, m2⟩ := civil_spec t
  have hmd := monthDays_le t.year t.month
  have e1 : ((t.year.toNat : Nat) : Int) = t.year := by omega
  have e2 : ((t.month.toNat : Nat) : Int) = t.month := by omega
  have e3 : ((t.dayOfMonth.toNat : Nat) : Int) = t.dayOfMonth := by omega
  refine ⟨t.year.toNat, t.month.toNat, t.dayOfMonth.toNat, by omega, by rw [e1, e2, e3]; exact hc, ?_⟩
  unfold icsDate
  rw [appendInt_pad t.year 3 (by omega) (by omega), appendInt_pad t.month 1 (by omega) (by omega),
    appendInt_pad t.dayOfMonth 1 (by omega) (by omega)]

theorem icsDate_ok {t : Time} (h1 : 0 ≤ t.year) (h2 : t.year ≤ 9999) : IsIcsDate (String.ofList (icsDate t)) t.day := by
  obtain ⟨y, m, d, hy, hd, he⟩ := icsDate_pad h1 h2
  exact ⟨y, m, d, hy, hd, by rw [he]⟩

theorem icsDateTime_ok {t : Time} (h1 : 0 ≤ (⟨t.nanos, 0⟩ : Time).year) (h2 : (⟨t.nanos, 0⟩ : Time).year ≤ 9999) :
    IsIcsTime (String.ofList (icsDateTime t)) t := by
  unfold icsDateTime
  simp only
  obtain ⟨y, m, d, hy, hd, he⟩ := icsDate_pad h1 h2
  have hs : (⟨t.nanos, 0⟩ : Time).day * nsPerDay + (⟨t.nanos, 0⟩ : Time).sinceMidnight = t.nanos := by
    unfold Time.sinceMidnight Time.day
    simp only
    unfold nsPerDay nsPerSec; omega
  have hs' : 0 ≤ (⟨t.nanos, 0⟩ : Time).sinceMidnight ∧ (⟨t.nanos, 0⟩ : Time).sinceMidnight < nsPerDay := by
    unfold Time.sinceMidnight nsPerDay; omega
  generalize (⟨t.nanos, 0⟩ : Time) = u at *
  have hq : 0 ≤ u.sinceMidnight / nsPerSec ∧ u.sinceMidnight / nsPerSec < 86400 := by
    unfold nsPerDay nsPerSec at *; omega
  have hv : u.sinceMidnight / nsPerSec * nsPerSec ≤ u.sinceMidnight ∧
      u.sinceMidnight < (u.sinceMidnight / nsPerSec + 1) * nsPerSec := by
    unfold nsPerSec at *; omega
  rw [he]
  generalize u.sinceMidnight / nsPerSec = q at *
  rw [appendInt_pad (q / 3600) 1 (by omega) (by omega),
    appendInt_pad (q / 60 % 60) 1 (by omega) (by omega), appendInt_pad (q % 60) 1 (by omega) (by omega)]
  have eq : (((q / 3600).toNat : Nat) : Int) * 3600 + ((q / 60 % 60).toNat : Nat) * 60 + ((q % 60).toNat : Nat) = q := by omega
  refine ⟨u.day, y, m, d, (q / 3600).toNat, (q / 60 % 60).toNat, (q % 60).toNat, hy, by omega, by omega, by omega, hd, ?_, ?_, rfl⟩
  · rw [eq]; omega
  · rw [eq]; omega

theorem ics_inner {s : String} {n : Int} (h : IsIcsDate s n) : ∀ c ∈ s.toList, Plain c := by
  obtain ⟨y, m, d, -, -, rfl⟩ := h
  intro c hc
  rw [String.toList_ofList] at hc
  simp only [List.mem_append] at hc
  rcases hc with (hc | hc) | hc <;> exact digit_plain (pad_digit _ _ c hc)

theorem icsTime_inner {s : String} {t : Time} (h : IsIcsTime s t) : ∀ c ∈ s.toList, Plain c := by
  obtain ⟨n, y, m, d, hh, mm, ss, -, -, -, -, -, -, -, rfl⟩ := h
  intro c hc
  rw [String.toList_ofList] at hc
  simp only [List.mem_append, List.mem_cons, List.not_mem_nil, or_false] at hc
  have hp : ∀ k n, c ∈ pad k n → Plain c := fun k n h => digit_plain (pad_digit k n c h)
  rcases hc with (((((hc | hc) | hc) | hc | hc) | hc) | hc) | hc
  · exact hp _ _ hc
  · exact hp _ _ hc
  · exact hp _ _ hc
  · rw [hc]; decide
  · exact hp _ _ hc
  · exact hp _ _ hc
  · exact hp _ _ hc
  · rw [hc]; decide

theorem year_next (t t' : Time) (h : t'.day = t.day + 1) : t.year ≤ t'.year ∧ t'.year ≤ t.year + 1 := by
  have h1 := (year_eq_iff t.day t.year).1 rfl
  have h2 := (year_eq_iff t'.day t'.year).1 rfl
  constructor
  · by_contra hc
    have := daysSinceEpoch_mono (show t'.year + 1 ≤ t.year by omega)
    omega
  · by_contra hc
    have := daysSinceEpoch_mono (show t.year + 1 + 1 ≤ t'.year by omega)
    have := daysSinceEpoch_succ (t.year + 1)
    have := yearDays_bounds (t.year + 1)
    omega

/-! ### C58 -/

/-- A component whose lines can be read. -/
theorem vEvent_good {v : VEvent} {s : Stamp} (hu : IsUuid s.uid) (hn : ∀ c ∈ (icsDateTime s.now), Plain c)
    (ht : ∀ c ∈ v.SUMMARY.toList, Plain c) (h1 : ∀ c ∈ icsDate v.DTSTART, Plain c) (h2 : ∀ c ∈ icsDate v.DTEND, Plain c) :
    ∀ l ∈ vEventLines v s, GoodLine l := by
  have name : ∀ k ∈ ["BEGIN", "DTSTAMP", "UID", "SUMMARY", "DTSTART;VALUE=DATE", "DTEND;VALUE=DATE", "END"],
      ':' ∉ k.toList ∧ k.toList ≠ [] ∧ k.toList.head? ≠ some ' ' ∧ k.toList.head? ≠ some '\t' ∧ ∀ c ∈ k.toList, Plain c ∨ c = ';' := by
    decide +kernel
  have good : ∀ k v : String, k ∈ ["BEGIN", "DTSTAMP", "UID", "SUMMARY", "DTSTART;VALUE=DATE", "DTEND;VALUE=DATE", "END"] →
      (∀ c ∈ v.toList, Plain c) → GoodLine (k, v) := by
    intro k v hk hv
    obtain ⟨n1, n2, n3, n4, n5⟩ := name k hk
    refine ⟨n1, n2, n3, n4, ?_, fun c hc => plain_inner (hv c hc)⟩
    intro c hc
    rcases n5 c hc with h | rfl
    · exact plain_inner h
    · exact ⟨by decide, by decide⟩
  have hu' : ∀ c ∈ s.uid.toList, Plain c := by
    have : ∀ c ∈ "0123456789abcdef-".toList, Plain c := by decide +kernel
    exact fun c hc => this c (hu.2 c hc)
  intro l hl
  unfold vEventLines at hl
  simp only [List.mem_cons, List.not_mem_nil, or_false] at hl
  rcases hl with rfl | rfl | rfl | rfl | rfl | rfl | rfl
  · exact good _ _ (by simp) (by decide +kernel)
  · exact good _ _ (by simp) (by rw [String.toList_ofList]; exact hn)
  · exact good _ _ (by simp) hu'
  · exact good _ _ (by simp) ht
  · exact good _ _ (by simp) (by rw [String.toList_ofList]; exact h1)
  · exact good _ _ (by simp) (by rw [String.toList_ofList]; exact h2)
  · exact good _ _ (by simp) (by decide +kernel)

theorem header_good : ∀ l ∈ icsHeader, GoodLine l := by
  unfold GoodLine Inner
  decide +kernel

/-- The component of a calculated event. -/
theorem component_ok {cfg : Config} {y : Int} {e : CalendarEvent} (he : e ∈ generateSolarYear cfg y)
    (h0 : 0 ≤ e.getDate.year) (h9 : e.getDate.year ≤ 9998) {s : Stamp} (hs : GoodStamp s) :
    (∀ l ∈ vEventLines (icalEvent e) s, GoodLine l) ∧ IsVEvent (vEventProps (icalEvent e) s) e s := by
  have hm := generate_midnight he
  have hd : (icalEvent e).DTEND.day = e.getDate.day + 1 := by
    show (e.getDate.add _).day = _
    rw [hm]
    unfold Time.add Time.day
    simp only
    unfold nsPerSec nsPerDay
    omega
  have hn := year_next e.getDate (icalEvent e).DTEND hd
  have d1 : IsIcsDate (String.ofList (icsDate (icalEvent e).DTSTART)) e.getDate.day :=
    icsDate_ok (t := e.getDate) (by omega) (by omega)
  have d2 : IsIcsDate (String.ofList (icsDate (icalEvent e).DTEND)) (e.getDate.day + 1) := by
    rw [← hd]; exact icsDate_ok (by omega) (by omega)
  have d3 := icsDateTime_ok hs.2.1 hs.2.2
  have ht : ∀ c ∈ (icalEvent e).SUMMARY.toList, Plain c := generated_plain he
  constructor
  · apply vEvent_good hs.1 _ ht
    · have := ics_inner d1; rwa [String.toList_ofList] at this
    · have := ics_inner d2; rwa [String.toList_ofList] at this
    · have := icsTime_inner d3; rwa [String.toList_ofList] at this
  · refine ⟨by simp [vEventProps], ⟨_, ?_, d1⟩, ⟨_, ?_, d2⟩, ?_, ?_, ⟨_, ?_, d3⟩⟩
    · simp [prop, vEventProps]
    · simp [prop, vEventProps]
    · have : prop (vEventProps (icalEvent e) s) "SUMMARY" = some (icalEvent e).SUMMARY := by simp [prop, vEventProps]
      rw [this]
      exact readText_plain _ ht
    · simp [prop, vEventProps]
    · simp [prop, vEventProps]

/-- The events of a range in the years 0..9998 and the lines of their components. -/
theorem ical_lines {cfg : Config} {files : Int → AstroFile} {stamps : Nat → Stamp} (hst : ∀ i, GoodStamp (stamps i))
    {nowFrom nowTo : Int} {f t : String} {a b : Time} (hi : cliInit nowFrom nowTo f t = some (a, b)) (h0 : 0 ≤ a.year)
    (h9 : b.year ≤ 9998) {l : List CalDay} (h : getCalDays cfg files a b = some l) :
    ∃ es : List CalendarEvent, icalComponents l = es.map icalEvent ∧ es.Perm (calendarEventsIn cfg a b) ∧
      (∀ e ∈ es, ∀ s, GoodStamp s → (∀ x ∈ vEventLines (icalEvent e) s, GoodLine x) ∧
        IsVEvent (vEventProps (icalEvent e) s) e s) ∧
      ∀ x ∈ vCalendarLines (icalComponents l) stamps, GoodLine x := by
  have ho := c36_order cfg files a b l h
  have hp : (l.flatMap icalDayEvents).Perm (calendarEventsIn cfg a b) := ical_perm h
  generalize hes : l.flatMap icalDayEvents = es at hp
  have ho : icalComponents l = es.map icalEvent := by rw [ho, ← hes]; rfl
  have hok : ∀ e ∈ es, ∀ s, GoodStamp s → (∀ x ∈ vEventLines (icalEvent e) s, GoodLine x) ∧
      IsVEvent (vEventProps (icalEvent e) s) e s := by
    intro e he s hs
    obtain ⟨y, -, -, hy, hw⟩ := mem_calendarEventsIn.1 (hp.mem_iff.1 he)
    have hu := cliInit_midnight hi
    have hm := generate_midnight hy
    have hda : a.day ≤ e.getDate.day := by
      have := hw.1; have := hu.1.2; unfold Time.day at *; rw [hu.1.2]; rw [hm] at *; simp only at *; unfold nsPerDay nsPerSec at *; omega
    have hdb : e.getDate.day ≤ b.day := by
      have := hw.2; have := hu.2.2; unfold Time.day at *; rw [hu.2.2]; rw [hm] at *; simp only at *; unfold nsPerDay nsPerSec at *; omega
    have y1 : a.year ≤ e.getDate.year := year_mono hda
    have y2 : e.getDate.year ≤ b.year := year_mono hdb
    exact component_ok hy (by omega) (by omega) hs
  refine ⟨es, ho, hp, hok, ?_⟩
  intro x hx
  unfold vCalendarLines at hx
  rw [ho] at hx
  rcases List.mem_append.1 hx with hx | hx
  · rcases List.mem_append.1 hx with hx | hx
    · rcases List.mem_cons.1 hx with rfl | hx
      · unfold GoodLine Inner; decide +kernel
      · exact header_good x hx
    · obtain ⟨g, hg, hx⟩ := List.mem_flatten.1 hx
      obtain ⟨i, hil, rfl⟩ := List.mem_iff_getElem.1 hg
      rw [List.getElem_mapIdx, List.getElem_map] at hx
      exact (hok _ (List.getElem_mem _) _ (hst i)).1 x hx
  · rw [List.mem_singleton] at hx
    subst hx
    unfold GoodLine Inner; decide +kernel

theorem header_props : (icsHeader.map Prod.fst).Nodup ∧ prop icsHeader "VERSION" = some "2.0" ∧
    prop icsHeader "PRODID" = some "Uposatha Moondays Mahānikāya EN" ∧
    (prop icsHeader "NAME").bind readText = some "Uposatha Moondays (Mahānikāya)" := by
  decide +kernel

/-- C58: read as RFC 5545 says, the text of `ical` is a calendar with one all-day event for every calculated event of the
range, in the order of the days, each with its day, the following day as its end, its text, and its own UID and time
stamp. -/
theorem c58_text (cfg : Config) (files : Int → AstroFile) (stamps : Nat → Stamp) (hst : ∀ i, GoodStamp (stamps i))
    (nowFrom nowTo : Int) (f t : String) (a b : Time) (hi : cliInit nowFrom nowTo f t = some (a, b)) (h0 : 0 ≤ a.year)
    (h9 : b.year ≤ 9998) (l : List CalDay) (h : getCalDays cfg files a b = some l) :
    ∃ (text : List Char) (cal : Calendar) (es : List CalendarEvent),
      icalText cfg files stamps nowFrom nowTo f t = some text ∧ readIcs text = some cal ∧
      (cal.props.map Prod.fst).Nodup ∧ prop cal.props "VERSION" = some "2.0" ∧
      prop cal.props "PRODID" = some "Uposatha Moondays Mahānikāya EN" ∧
      (prop cal.props "NAME").bind readText = some "Uposatha Moondays (Mahānikāya)" ∧
      es.Perm (calendarEventsIn cfg a b) ∧ es.Pairwise (fun d e => d.getDate.nanos ≤ e.getDate.nanos) ∧
      cal.events.length = es.length ∧
      ∀ (i : Nat) (h1 : i < cal.events.length) (h2 : i < es.length), IsVEvent cal.events[i] es[i] (stamps i) := by
  obtain ⟨es, ho, hp, hok, hgood⟩ := ical_lines hst hi h0 h9 h
  have hso := c36_sorted cfg files a b l h
  obtain ⟨p1, p2, p3, p4⟩ := header_props
  refine ⟨_, _, es, ?_, readIcs_text (icalComponents l) stamps hgood, p1, p2, p3, p4, hp, ?_, ?_, ?_⟩
  · unfold icalText actionIcal
    simp only [hi, h]
    rfl
  · rw [ho, List.pairwise_map] at hso
    exact hso
  · simp [ho]
  · intro i h1 h2
    simp only [List.getElem_mapIdx, ho, List.getElem_map]
    exact (hok _ (List.getElem_mem _) _ (hst i)).2

/-- C58: the properties of the calendar itself: the Gregorian scale, the method, the name and description, and a refresh every twelve
hours. -/
theorem c58_header (cfg : Config) (files : Int → AstroFile) (stamps : Nat → Stamp) (hst : ∀ i, GoodStamp (stamps i))
    (nowFrom nowTo : Int) (f t : String) (a b : Time) (hi : cliInit nowFrom nowTo f t = some (a, b)) (h0 : 0 ≤ a.year)
    (h9 : b.year ≤ 9998) (text : List Char) (ht : icalText cfg files stamps nowFrom nowTo f t = some text) :
    ∃ cal : Calendar, readIcs text = some cal ∧ cal.props =
      [("VERSION", "2.0"), ("PRODID", "Uposatha Moondays Mahānikāya EN"), ("URL", "http://splendidmoons.github.io/ical/mahanikaya.ical"),
       ("NAME", "Uposatha Moondays (Mahānikāya)"), ("X-WR-CALNAME", "Uposatha Moondays (Mahānikāya)"),
       ("DESCRIPTION", "Uposatha Moondays (Mahānikāya)"), ("X-WR-CALDESC", "Uposatha Moondays (Mahānikāya)"),
       ("REFRESH-INTERVAL;VALUE=DURATION", "PT12H"), ("X-PUBLISHED-TTL", "PT12H"), ("COLOR", "244:196:48"),
       ("CALSCALE", "GREGORIAN"), ("METHOD", "PUBLISH")] := by
  unfold icalText actionIcal at ht
  cases h : getCalDays cfg files a b with
  | none => simp [hi, h] at ht
  | some l =>
    simp only [hi, h, Option.map_some] at ht
    have ht : icsText (icalComponents l) stamps = text := Option.some.inj ht
    obtain ⟨es, ho, hp, hok, hgood⟩ := ical_lines hst hi h0 h9 h
    subst ht
    refine ⟨_, readIcs_text (icalComponents l) stamps hgood, ?_⟩
    show icsHeader = _
    decide +kernel

/-- For the concrete cases: one stamp for all components. -/
def demoStamps : Nat → Stamp := fun _ => ⟨"db74a8a0-e0fd-4fbe-8ff4-fc3ab7ee6431", date 2016 5 16 (56369 * nsPerSec) 0⟩

theorem demoStamps_good (i : Nat) : GoodStamp (demoStamps i) := by
  unfold demoStamps GoodStamp IsUuid
  decide +kernel

/-- C58: the days of C26 give a file with five components. -/
example : ∃ text cal, icalText .default asalhaFiles demoStamps 0 0 "2015-07-22" "2015-08-09" = some text ∧ readIcs text = some cal ∧
    cal.events.length = 5 := by
  obtain ⟨text, cal, es, h1, h2, -, -, -, -, hp, -, hl, -⟩ := c58_text .default asalhaFiles demoStamps demoStamps_good 0 0
    "2015-07-22" "2015-08-09" _ _ asalha_range (by decide) (by decide) _ asalha_days
  refine ⟨text, cal, h1, h2, ?_⟩
  rw [hl, hp.length_eq]
  decide +kernel

/-- C58: the header of this file. -/
example : ∃ text, icalText .default asalhaFiles demoStamps 0 0 "2015-07-22" "2015-08-09" = some text ∧ ∃ cal, readIcs text = some cal ∧
    prop cal.props "METHOD" = some "PUBLISH" := by
  obtain ⟨text, cal, es, h1, h2, -⟩ := c58_text .default asalhaFiles demoStamps demoStamps_good 0 0
    "2015-07-22" "2015-08-09" _ _ asalha_range (by decide) (by decide) _ asalha_days
  obtain ⟨cal', h3, h4⟩ := c58_header .default asalhaFiles demoStamps demoStamps_good 0 0
    "2015-07-22" "2015-08-09" _ _ asalha_range (by decide) (by decide) text h1
  exact ⟨text, h1, cal', h3, by rw [h4]; decide +kernel⟩

theorem octets_append (a b : List Char) : octets (a ++ b) = octets a + octets b := by
  unfold octets; simp

theorem octets_digits (l : List Char) (h : ∀ c ∈ l, c.toNat ≤ 127) : octets l = l.length := by
  unfold octets
  induction l with
  | nil => rfl
  | cons c l ih =>
    have hc : c.utf8Size = 1 := by
      have := h c (by simp)
      unfold Char.utf8Size
      rw [if_pos (by exact UInt32.le_iff_toNat_le.2 this)]
    rw [List.map_cons, List.sum_cons, ih fun x hx => h x (by simp [hx]), hc, List.length_cons]
    omega

theorem digit_ascii {c : Char} (h : c.isDigit = true) : c.toNat ≤ 127 := by
  simp only [Char.isDigit, Bool.and_eq_true, decide_eq_true_eq] at h
  have : c.toNat ≤ 57 := h.2
  omega

theorem dates_short {s : String} {n : Int} (h : IsIcsDate s n) : octets s.toList = 8 := by
  obtain ⟨y, m, d, -, -, rfl⟩ := h
  rw [String.toList_ofList, octets_append, octets_append]
  have hp : ∀ k n, octets (pad k n) = k := fun k n => by
    rw [octets_digits _ fun c hc => digit_ascii (pad_digit k n c hc), pad_length]
  rw [hp, hp, hp]

theorem times_short {s : String} {t : Time} (h : IsIcsTime s t) : octets s.toList = 16 := by
  obtain ⟨n, y, m, d, hh, mm, ss, -, -, -, -, -, -, -, rfl⟩ := h
  have hp : ∀ k n, octets (pad k n) = k := fun k n => by
    rw [octets_digits _ fun c hc => digit_ascii (pad_digit k n c hc), pad_length]
  have hT : octets ('T' :: pad 2 hh) = 3 := by
    rw [← List.singleton_append, octets_append, hp]; rfl
  have hZ : octets ['Z'] = 1 := rfl
  rw [String.toList_ofList]
  simp only [octets_append, hp, hT, hZ]

theorem octets_line (k v : String) : octets (icsLine (k, v)) = octets k.toList + 1 + octets v.toList := by
  unfold icsLine
  rw [octets_append, ← List.singleton_append, octets_append]
  have : octets [':'] = 1 := rfl
  simp only
  omega

/-- The longest text is that of an uposatha. -/
theorem summary_short {cfg : Config} {y : Int} (ho : Orderly cfg y) {e : CalendarEvent}
    (h : e ∈ generateSolarYear cfg y) : octets e.string.toList ≤ 60 := by
  cases e with
  | uposatha u =>
    show octets u.string.toList ≤ 60
    obtain ⟨p, hp, d, hd, s, hs', t, ht, n, hn, -, -, -, e⟩ := c44_uposatha_text_orderly cfg y ho u h
    rw [e]
    simp only [String.toList_append, octets_append]
    have a1 : ∀ p ∈ ["New", "Full"], octets p.toList ≤ 10 := by decide +kernel
    have a2 : ∀ p ∈ ["14", "15"], octets p.toList ≤ 2 := by decide +kernel
    have a3 : ∀ p ∈ ["Hemanta", "Gimha", "Vassāna"], octets p.toList ≤ 10 := by decide +kernel
    have a4 : ∀ p ∈ ["8", "10"], octets p.toList ≤ 2 := by decide +kernel
    have a5 : ∀ p ∈ ["1", "2", "3", "4", "5", "6", "7", "8", "9", "10"], octets p.toList ≤ 2 := by decide +kernel
    have b1 : octets " Moon - ".toList = 8 := by decide +kernel
    have b2 : octets " day ".toList = 5 := by decide +kernel
    have b3 : octets " ".toList = 1 := by decide +kernel
    have b4 : octets "/".toList = 1 := by decide +kernel
    have := a1 p hp; have := a2 d hd; have := a3 s hs'; have := a4 t ht; have := a5 n hn
    omega
  | half m =>
    show octets m.string.toList ≤ 60
    rcases c44_half_text _ _ _ h with h | h <;> rw [h] <;> decide +kernel
  | major e =>
    obtain ⟨k, -, -, p, hp, h1⟩ := (c22_major_iff _ _ _).1 h
    have hs : (CalendarEvent.major e).string = p.1 := by rw [h1]; rfl
    rw [hs]
    unfold pujas at hp
    split_ifs at hp <;> simp only [List.mem_cons, List.not_mem_nil, or_false] at hp
    · rw [hp]; decide +kernel
    · rw [hp]; decide +kernel
    · rcases hp with hp | hp <;> rw [hp] <;> decide +kernel
    · rcases hp with hp | hp <;> rw [hp] <;> decide +kernel
  | astro m => exact absurd rfl ((c22_in_year cfg y _ h).2.1 m)
  | event m => exact absurd rfl ((c22_in_year cfg y _ h).2.2 m)

/-- C58: in orderly years no line of the text is longer than the 75 octets after which RFC 5545 asks to fold. -/
theorem c58_short_orderly (cfg : Config) (files : Int → AstroFile) (stamps : Nat → Stamp)
    (hst : ∀ i, GoodStamp (stamps i)) (nowFrom nowTo : Int) (f t : String) (a b : Time)
    (hi : cliInit nowFrom nowTo f t = some (a, b)) (h0 : 0 ≤ a.year) (h9 : b.year ≤ 9998)
    (hor : ∀ y, a.year ≤ y → y ≤ b.year → Orderly cfg y) (text : List Char)
    (ht : icalText cfg files stamps nowFrom nowTo f t = some text) (lines : List (List Char))
    (hl : readLines text = some lines) : ∀ l ∈ lines, octets l ≤ 75 := by
  obtain ⟨l, h⟩ : ∃ l, getCalDays cfg files a b = some l := by
    unfold icalText actionIcal at ht
    simp only [hi] at ht
    cases h : getCalDays cfg files a b with
    | none => rw [h] at ht; exact absurd ht (by simp)
    | some l => exact ⟨l, rfl⟩
  obtain ⟨es, ho, hp, hok, hgood⟩ := ical_lines hst hi (by omega) (by omega) h
  have ht' : text = icsText (icalComponents l) stamps := by
    unfold icalText actionIcal at ht
    simp only [hi, h] at ht
    exact (Option.some.inj ht).symm
  subst ht'
  unfold icsText at hl
  rw [lines_text _ hgood] at hl
  rw [← Option.some.inj hl]
  intro x hx
  obtain ⟨p, hp', rfl⟩ := List.mem_map.1 hx
  have he : ∀ p ∈ icsHeader, octets (icsLine p) ≤ 75 := by decide +kernel
  unfold vCalendarLines at hp'
  rw [ho] at hp'
  rcases List.mem_append.1 hp' with hx | hx
  · rcases List.mem_append.1 hx with hx | hx
    · rcases List.mem_cons.1 hx with rfl | hx
      · decide +kernel
      · exact he _ hx
    · obtain ⟨g, hg, hx⟩ := List.mem_flatten.1 hx
      obtain ⟨i, hil, rfl⟩ := List.mem_iff_getElem.1 hg
      rw [List.getElem_mapIdx, List.getElem_map] at hx
      rw [List.length_mapIdx, List.length_map] at hil
      have hm := List.getElem_mem hil
      have hv := (hok _ hm _ (hst i)).2
      generalize es[i] = e at *
      obtain ⟨y, y1, y2, hy, -⟩ := mem_calendarEventsIn.1 (hp.mem_iff.1 hm)
      have hsum := summary_short (hor y y1 y2) hy
      obtain ⟨v1, q1, r1⟩ := hv.start
      obtain ⟨v2, q2, r2⟩ := hv.stop
      obtain ⟨v3, q3, r3⟩ := hv.stamp
      have s1 := dates_short r1
      have s2 := dates_short r2
      have s3 := times_short r3
      have s4 : octets (stamps i).uid.toList = 36 := by
        have ha : ∀ c ∈ "0123456789abcdef-".toList, c.toNat ≤ 127 := by decide +kernel
        rw [octets_digits _ fun c hc => ha c ((hst i).1.2 c hc), (hst i).1.1]
      have q1 : String.ofList (icsDate (icalEvent e).DTSTART) = v1 := by simpa [prop, vEventProps] using q1
      have q2 : String.ofList (icsDate (icalEvent e).DTEND) = v2 := by simpa [prop, vEventProps] using q2
      have q3 : String.ofList (icsDateTime (stamps i).now) = v3 := by simpa [prop, vEventProps] using q3
      have hn : octets "DTSTAMP".toList = 7 ∧ octets "UID".toList = 3 ∧ octets "SUMMARY".toList = 7 ∧
          octets "DTSTART;VALUE=DATE".toList = 18 ∧ octets "DTEND;VALUE=DATE".toList = 16 := by decide +kernel
      obtain ⟨n1, n2, n3, n4, n5⟩ := hn
      unfold vEventLines at hx
      simp only [List.mem_cons, List.not_mem_nil, or_false] at hx
      rcases hx with rfl | rfl | rfl | rfl | rfl | rfl | rfl
      · decide +kernel
      · rw [octets_line, q3]; omega
      · rw [octets_line]; omega
      · rw [octets_line]
        show octets "SUMMARY".toList + 1 + octets e.string.toList ≤ 75
        omega
      · rw [octets_line, q1]; omega
      · rw [octets_line, q2]; omega
      · decide +kernel
  · rw [List.mem_singleton] at hx
    subst hx
    decide +kernel

/-- C58: the lines of that file. -/
example (text : List Char) (ht : icalText .default asalhaFiles demoStamps 0 0 "2015-07-22" "2015-08-09" = some text) (lines : List (List Char))
    (hl : readLines text = some lines) : ∀ l ∈ lines, octets l ≤ 75 :=
  c58_short_orderly .default asalhaFiles demoStamps demoStamps_good 0 0 _ _ _ _ asalha_range
    (by decide) (by decide) (fun y h1 h2 => (shipped_steady (Or.inl rfl)).orderly (Int.le_trans (by decide) h1)
      (Int.le_trans h2 (by decide))) text ht lines hl

/-- C58: the text of one component, as in suriya/testdata, and its stamp. -/
example : String.ofList (((vEventLines (icalEvent (.half { Date := date 2013 1 5 0 0, Phase := "waning" }))
      ⟨"db74a8a0-e0fd-4fbe-8ff4-fc3ab7ee6431", date 2016 5 16 (56369 * nsPerSec) 0⟩).map icsLine).flatMap (· ++ ['\r', '\n'])) =
    "BEGIN:VEVENT\r\nDTSTAMP:20160516T153929Z\r\nUID:db74a8a0-e0fd-4fbe-8ff4-fc3ab7ee6431\r\nSUMMARY:Waning Moon\r\n" ++
    "DTSTART;VALUE=DATE:20130105\r\nDTEND;VALUE=DATE:20130106\r\nEND:VEVENT\r\n" := by
  decide +kernel

example : GoodStamp ⟨"db74a8a0-e0fd-4fbe-8ff4-fc3ab7ee6431", date 2016 5 16 (56369 * nsPerSec) 0⟩ := by
  unfold GoodStamp IsUuid
  decide +kernel

end Verif.Props
