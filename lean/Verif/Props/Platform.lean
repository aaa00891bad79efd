import Verif.Props.MachineAll
import Verif.Props.UnmarshalData
/-
C73: the calendar on platforms where an `int` has 32 bits.
-/
set_option autoImplicit false

namespace Verif.Props
open Verif.Go Verif.Model Verif.Model.Unmarshal Verif.Spec Verif.Spec.Grammar Verif.Spec.Decode Verif.Lemmas Verif.Lemmas.Unmarshal

/-! ### years -/

/-- C73: the values of a year are those of a 64-bit platform from -6711 to 7987. -/
theorem c73_init (y : Int) (h1 : -6711 ≤ y) (h2 : y ≤ 7987) :
    SuriyaYear.initMachine .bits32 y = SuriyaYear.initMachine .bits64 y ∧ SuriyaYear.initMachine .bits32 y = SuriyaYear.init y := by
  have := init_machine (fits32 h1 h2)
  exact ⟨by rw [this, c02_init_machine y (by omega)], this⟩

/-- C73: the last year of the range. -/
example : (SuriyaYear.initMachine .bits32 7987).Horakhun = 2684288 := by
  rw [(c73_init 7987 (by decide) (by decide)).2]; decide

/-- C73: the range cannot be extended: in 7988 and in -6712 the product of suriya_year.go:63 overflows, and the Horakhun gets the
wrong sign. -/
theorem c73_init_sharp : (SuriyaYear.initMachine .bits32 7988).Horakhun < 0 ∧ 0 < (SuriyaYear.initMachine .bits64 7988).Horakhun ∧
    0 < (SuriyaYear.initMachine .bits32 (-6712)).Horakhun ∧ (SuriyaYear.initMachine .bits64 (-6712)).Horakhun < 0 := by
  decide +kernel

/-- C73: the predicates and distances of a year. -/
theorem c73_year (cfg : Config) (y : Int) (h1 : -6610 ≤ y) (h2 : y ≤ 7986) :
    let su := SuriyaYear.initMachine .bits32 y
    let exact := SuriyaYear.init y
    su.isAdhikamasaM .bits32 = exact.isAdhikamasa ∧ su.isAdhikavaraM .bits32 cfg = exact.isAdhikavara cfg ∧
    su.yearLengthM .bits32 cfg = exact.yearLength cfg ∧ su.deltaAdhikamasaM .bits32 = exact.deltaAdhikamasa ∧
    su.deltaAdhikavaraM .bits32 cfg = exact.deltaAdhikavara cfg :=
  (year_machine cfg (fits32 (by omega) (by omega)) (fits32 (by omega) (by omega))).2

/-- C73: 2015 is an adhikamasa year. -/
example : (SuriyaYear.initMachine .bits32 2015).isAdhikamasaM .bits32 = true :=
  (c73_year .default 2015 (by decide) (by decide)).1.trans (by decide)

/-- C73: in 7988, whose values are wrong, the thirteenth month is lost. -/
theorem c73_year_sharp : (SuriyaYear.initMachine .bits32 7988).yearLengthM .bits32 .default = 355 ∧
    (SuriyaYear.init 7988).yearLength .default = 384 := by decide +kernel

/-- C73: the positions in the cycles. -/
theorem c73_cycles (y : Int) (h1 : -6711 ≤ y) (h2 : y ≤ 7987) :
    cyclePosMachine .bits32 (1984 - 57 * 10) 57 y = (SuriyaYear.init y).adhikavaraCyclePos ∧
    cyclePosMachine .bits32 (1984 - 19 * 10) 19 y = (SuriyaYear.init y).adhikamasaCyclePos := cycle_pos_machine (fits32 h1 h2)

/-- C73: the positions of 2015. -/
example : (SuriyaYear.init 2015).adhikavaraCyclePos = cyclePosMachine .bits32 (1984 - 57 * 10) 57 2015 :=
  (c73_cycles 2015 (by decide) (by decide)).1.symm

/-- C73: the date of a Horakhun. -/
theorem c73_horakhun (h : Int) (hb : h.natAbs ≤ 2 * 10 ^ 9) : horakhunToDate .bits32 h = horakhunToDate .bits64 h := by
  have h1 := horakhun_terminates (s := .bits32) (h := h) (by show _ < (2147483648 : Int); omega)
  have h2 := c16_terminates h (by omega)
  unfold horakhunToDate
  rw [h1, h2]

/-- C73: the reference day. -/
example : horakhunToDate .bits32 484049 = horakhunRefTime := (c73_horakhun _ (by decide)).trans (by decide +kernel)

/-- C73: the integer part of `SuriyaDay.Init`. -/
theorem c73_day (y d : Int) (h1 : -6711 ≤ y) (h2 : y ≤ 7987) (hd : d.natAbs ≤ 2 * 10 ^ 6) :
    SuriyaDay.initM .bits32 y d = SuriyaDay.init y d :=
  day_machine (fits32 h1 h2) (by omega) (by show _ < (2147483648 : Int); omega)

/-- C73: the day of the Asalha Puja of 1963. -/
example : (SuriyaDay.initM .bits32 1963 103).Horakhun = 484049 := by
  rw [c73_day 1963 103 (by decide) (by decide) (by decide)]; decide

/-! ### the calendar -/

/-- C73: the Kattika before a year. -/
theorem c73_kattika (cfg : Config) (y : Int) (h1 : -6710 ≤ y) (h2 : y ≤ 7987) :
    calculatePreviousKattikaM? .bits32 cfg y = calculatePreviousKattika? cfg y ∧
    calculatePreviousKattikaM .bits32 cfg y = calculatePreviousKattika cfg y :=
  kattika_machine cfg (by omega) (fits32 (by omega) (by omega)) (fits32 (by omega) (by omega))

/-- C73: the Kattika before 2016. -/
example : calculatePreviousKattikaM .bits32 .default 2016 = date 2015 11 25 0 0 :=
  (c73_kattika .default 2016 (by decide) (by decide)).2.trans (by decide +kernel)

/-- C73: the Asalha Puja of a year. -/
theorem c73_asalha (cfg : Config) (y : Int) (h1 : -6710 ≤ y) (h2 : y ≤ 7986) :
    (SuriyaYear.initMachine .bits32 y).asalhaPujaM .bits32 cfg = (SuriyaYear.init y).asalhaPuja cfg :=
  asalha_machine cfg (by omega) (fits32 (by omega) (by omega)) (fits32 (by omega) (by omega))

/-- C73: the Asalha Puja of 2015. -/
example : (SuriyaYear.initMachine .bits32 2015).asalhaPujaM .bits32 .default = date 2015 7 30 0 0 :=
  (c73_asalha .default 2015 (by decide) (by decide)).trans (by decide +kernel)

/-- C73: the events of a year. -/
theorem c73_generate (cfg : Config) (y : Int) (h1 : -6000 ≤ y) (h2 : y ≤ 7986) :
    generateSolarYearM? .bits32 cfg y = generateSolarYear? cfg y ∧ generateSolarYearM .bits32 cfg y = generateSolarYear cfg y := by
  refine generate_machine cfg (a := -6711) (by omega) ?_ (fits32 (by decide) (by decide)) (fits32 (by omega) (by omega))
    (fits32 (by omega) (by omega)) ?_
  · show _ < (2147483648 : Int)
    omega
  · have := katDay_bound cfg y
    rw [show daysSinceEpoch (-6711 + 1) = -2451142 by decide]
    omega

/-- C73: the events of 2015 begin with the full moon of Phussa. -/
example : (generateSolarYearM .bits32 .default 2015).head?.map CalendarEvent.getDate = some (date 2015 1 4 0 0) := by
  rw [(c73_generate .default 2015 (by decide) (by decide)).2]; decide +kernel

/-- C73: `GetCalDays` for any data files and settings. -/
theorem c73_calDays (cfg : Config) (files : Int → AstroFile) (f t : Time) (hf : -6000 ≤ f.year) (ht : t.year ≤ 7986) :
    getCalDaysM .bits32 cfg files f t = getCalDays cfg files f t :=
  calDays_machine cfg .bits32 files f t (by decide) (by decide) (fun y h1 h2 => (c73_generate cfg y h1 h2).2) hf ht (by decide)

/-- C73: a range with a file for each year. -/
example : getCalDaysM .bits32 .default (fun _ => .resp true "" [⟨date 2015 1 5 0 0, 2⟩]) (date 2015 1 1 0 0) (date 2015 1 31 0 0) =
    getCalDays .default (fun _ => .resp true "" [⟨date 2015 1 5 0 0, 2⟩]) (date 2015 1 1 0 0) (date 2015 1 31 0 0) :=
  c73_calDays _ _ _ _ (by decide) (by decide)

/-- C73: with the embedded files, which are decoded on the platform too, a 32-bit platform has the calendar of a 64-bit platform. -/
theorem c73_calendar (cfg : Config) (f t : Time) (hf : -6000 ≤ f.year) (ht : t.year ≤ 7986) :
    getCalDaysM .bits32 cfg (dataFile .bits32) f t = getCalDaysM .bits64 cfg (dataFile .bits64) f t ∧
    getCalDaysM .bits32 cfg (dataFile .bits32) f t = getCalDays cfg embeddedFiles f t := by
  have h1 := c73_calDays cfg (dataFile .bits32) f t hf ht
  have h2 := c65_calDays cfg (dataFile .bits64) f t (by omega) (by omega)
  rw [c61_data] at h1 h2 ⊢
  rw [c61_data]
  exact ⟨by rw [h1, h2], h1⟩

/-- C73: two years of a calendar. -/
example : getCalDaysM .bits32 .default (dataFile .bits32) (date 2015 1 1 0 0) (date 2016 12 31 0 0) =
    getCalDaysM .bits64 .default (dataFile .bits64) (date 2015 1 1 0 0) (date 2016 12 31 0 0) :=
  (c73_calendar .default _ _ (by decide) (by decide)).1

/-! ### decoding -/

theorem foldlM_mono {α β : Type} {f g : α → β → Option α} (h : ∀ a x b, f a x = some b → g a x = some b) (l : List β) :
    ∀ a b, l.foldlM f a = some b → l.foldlM g a = some b := by
  induction l with
  | nil => exact fun a b h => h
  | cons x l ih =>
    intro a b hb
    rw [List.foldlM_cons] at hb ⊢
    cases hx : f a x with
    | none => rw [hx] at hb; cases hb
    | some c =>
      rw [hx] at hb
      rw [h a x c hx]
      exact ih c b hb

theorem parseInt_mono (t : List Char) (x : Int) (h : parseInt .bits32 t = some x) : parseInt .bits64 t = some x := by
  rw [parseInt_iff] at h ⊢
  obtain ⟨k, n, hk, hn, hv, h1, h2⟩ := h
  refine ⟨k, n, hk, hn, hv, ?_, ?_⟩ <;> unfold IntSize.half at * <;> simp only at * <;> omega

theorem storeInt_mono (a : Int) (v : JVal) (b : Int) (h : storeInt .bits32 a v = some b) : storeInt .bits64 a v = some b := by
  cases v with
  | num t => exact parseInt_mono t b h
  | _ => exact h

theorem storeMoonField_mono (m : Moon) (f : List Char × JVal) (m' : Moon) (h : storeMoonField .bits32 m f.1 f.2 = some m') :
    storeMoonField .bits64 m f.1 f.2 = some m' := by
  unfold storeMoonField at *
  split_ifs at h ⊢
  · rw [Option.map_eq_some_iff] at h
    obtain ⟨x, hx, e⟩ := h
    rw [storeInt_mono _ _ _ hx, ← e]; rfl
  · exact h
  · rw [Option.map_eq_some_iff] at h
    obtain ⟨x, hx, e⟩ := h
    rw [storeInt_mono _ _ _ hx, ← e]; rfl
  · exact h
  · exact h

theorem storeMoon_mono (m : Moon) (v : JVal) (m' : Moon) (h : storeMoon .bits32 m v = some m') : storeMoon .bits64 m v = some m' := by
  cases v with
  | obj fs => exact foldlM_mono storeMoonField_mono fs m m' h
  | _ => exact h

theorem overwrite_mono (vs : List JVal) : ∀ (old ms : List Moon), overwrite .bits32 old vs = some ms →
    overwrite .bits64 old vs = some ms := by
  induction vs with
  | nil => exact fun old ms h => by rw [overwrite] at h ⊢; exact h
  | cons v vs ih =>
    intro old ms h
    rw [overwrite] at h ⊢
    cases hm : storeMoon .bits32 (old.headD {}) v with
    | none => rw [hm] at h; cases h
    | some m =>
      rw [hm] at h
      simp only [Option.map_eq_some_iff] at h
      obtain ⟨ms', hms, rfl⟩ := h
      rw [storeMoon_mono _ _ _ hm]
      simp only [ih _ _ hms, Option.map_some]

theorem storeRespField_mono (r : Filling) (f : List Char × JVal) (r' : Filling) (h : storeRespField .bits32 r f.1 f.2 = some r') :
    storeRespField .bits64 r f.1 f.2 = some r' := by
  unfold storeRespField at *
  split_ifs at h ⊢
  · exact h
  · exact h
  · rw [Option.map_eq_some_iff] at h
    obtain ⟨x, hx, e⟩ := h
    have : storeMoons .bits64 r.Response f.2 = some x := by
      cases hv : f.2 with
      | arr vs =>
        rw [hv] at hx
        cases vs with
        | nil => exact hx
        | cons v vs =>
          simp only [storeMoons, Option.map_eq_some_iff] at hx ⊢
          obtain ⟨a, ha, e⟩ := hx
          exact ⟨a, overwrite_mono _ _ _ ha, e⟩
      | _ => rw [hv] at hx; exact hx
    rw [this, ← e]; rfl
  · exact h

/-- C73: whatever a 32-bit platform reads from a data file is what a 64-bit platform reads from it. -/
theorem c73_decode (t : List Char) (r : Resp) (h : unmarshal .bits32 t = some r) : unmarshal .bits64 t = some r := by
  unfold unmarshal at *
  cases hs : scan t with
  | none => rw [hs] at h; cases h
  | some v =>
    rw [hs] at h
    cases v with
    | obj fs =>
      simp only [storeResp, Option.map_eq_some_iff] at h ⊢
      obtain ⟨x, hx, e⟩ := h
      exact ⟨x, foldlM_mono storeRespField_mono fs _ _ hx, e⟩
    | _ => exact h

/-- C73: a moon of 2015, read on a 32-bit platform. -/
example : unmarshal .bits32 "{\"response\":[{\"timestamp\":1420433648,\"code\":2}]}".toList =
    some { Response := [{ Timestamp := 1420433648, Code := 2 }] } := by decide +kernel

/-- A moon whose second does not fit is not read. -/
theorem row_late (n : Nat) (h : IsRow n) (hs : ¬ StampFits .bits32 n) : storeMoon .bits32 {} (rowValue n) = none := by
  have p1 : parseInt .bits32 (toString (unixSeconds (aerisMoon n).DateTimeISO)).toList = none := by
    rw [Option.eq_none_iff_forall_ne_some]
    intro x hx
    have h64 := parseInt_mono _ _ hx
    have hb := (unix_bounds n h).1
    rw [parse_int .bits64 _ hb.1 hb.2, Option.some.injEq] at h64
    rw [parseInt_iff] at hx
    obtain ⟨k, m, -, -, -, h1, h2⟩ := hx
    rw [← h64] at h1 h2
    exact hs ⟨h1, h2⟩
  unfold rowValue storeMoon
  simp only [List.foldlM_cons]
  have n1 : sameName "timestamp".toList "timestamp" = true := by decide
  simp only [storeMoonField, n1, if_true, storeInt, p1, Option.map_none, Option.bind_eq_bind, Option.bind_none]

theorem rows_late (rows : List Nat) (h : ∀ n ∈ rows, IsRow n) (hs : ∃ n ∈ rows, ¬ StampFits .bits32 n) :
    overwrite .bits32 [] (rows.map rowValue) = none := by
  induction rows with
  | nil => obtain ⟨n, hn, -⟩ := hs; cases hn
  | cons n rows ih =>
    rw [List.map_cons, overwrite, List.headD_nil, List.tail_nil]
    by_cases hn : StampFits .bits32 n
    · obtain ⟨m, hm, hm'⟩ := hs
      rcases List.mem_cons.1 hm with rfl | hm
      · exact absurd hn hm'
      · rw [ih (fun k hk => h k (List.mem_cons_of_mem _ hk)) ⟨m, hm, hm'⟩]
        cases storeMoon .bits32 {} (rowValue n) <;> rfl
    · rw [row_late n (h n List.mem_cons_self) hn]

/-- C73: a data file as the service writes it is refused on a 32-bit platform, with a panic in astro_moon.go:66, if and only if it
has a moon before 1901-12-13 20:45:52 or after 2038-01-19 03:14:07, although the seconds are never used. -/
theorem c73_2038 (rows : List Nat) (h : ∀ n ∈ rows, IsRow n) :
    unmarshal .bits32 (fileText (some rows)).toList = none ↔
    ∃ n ∈ rows, (aerisMoon n).DateTimeISO.nanos < (date 1901 12 13 ((20 * 3600 + 45 * 60 + 52) * nsPerSec) 0).nanos ∨
      (date 2038 1 19 ((3 * 3600 + 14 * 60 + 8) * nsPerSec) 0).nanos ≤ (aerisMoon n).DateTimeISO.nanos := by
  have hiff : ∀ n, ¬ StampFits .bits32 n ↔
      (aerisMoon n).DateTimeISO.nanos < (date 1901 12 13 ((20 * 3600 + 45 * 60 + 52) * nsPerSec) 0).nanos ∨
      (date 2038 1 19 ((3 * 3600 + 14 * 60 + 8) * nsPerSec) 0).nanos ≤ (aerisMoon n).DateTimeISO.nanos := by
    intro n
    rw [show (date 1901 12 13 ((20 * 3600 + 45 * 60 + 52) * nsPerSec) 0).nanos = 59988113152000000000 by decide,
      show (date 2038 1 19 ((3 * 3600 + 14 * 60 + 8) * nsPerSec) 0).nanos = 64283080448000000000 by decide]
    unfold StampFits unixSeconds IntSize.half
    simp only
    omega
  constructor
  · intro hn
    by_contra hc
    have hall : ∀ n ∈ rows, IsRow n ∧ StampFits .bits32 n := by
      intro n hm
      refine ⟨h n hm, ?_⟩
      by_contra hs
      exact hc ⟨n, hm, (hiff n).1 hs⟩
    rw [c61_file .bits32 rows hall] at hn
    cases hn
  · rintro ⟨n, hm, hs⟩
    have hl := rows_late rows h ⟨n, hm, (hiff n).2 hs⟩
    have ht := file_text (some rows) fun n hn => (h n hn).2.2.2.2.2.2.2.2
    have hsc := (scan_iff _ _).2 ⟨⟨[], _, [], ws_nil, ht, ws_nil, rfl⟩, file_nested rows⟩
    rw [List.nil_append, List.append_nil] at hsc
    unfold unmarshal
    rw [hsc]
    have n1 : sameName "success".toList "success" = true := by decide
    have n2 : sameName "error".toList "success" = false := by decide
    have n3 : sameName "error".toList "error" = true := by decide
    have n4 : sameName "response".toList "success" = false := by decide
    have n5 : sameName "response".toList "error" = false := by decide
    have n6 : sameName "response".toList "Response" = true := by decide
    simp only [fileValue, storeResp, List.foldlM_cons, List.foldlM_nil, storeRespField, n1, n2, n3, n4, n5, n6, if_true, storeBool, storeError,
      storeMoons_nil, hl, Option.map_some, Option.map_none, Option.bind_eq_bind, Option.bind_some, Option.bind_none, Bool.false_eq_true, if_false]

/-- C73: the first such moment, and the last one that can be read. -/
example : IsRow 2038011903140802 ∧ IsRow 2038011903140702 ∧
    unmarshal .bits32 (fileText (some [2038011903140802])).toList = none ∧
    (unmarshal .bits32 (fileText (some [2038011903140702])).toList).isSome = true ∧
    (unmarshal .bits64 (fileText (some [2038011903140802])).toList).isSome = true := by
  refine ⟨rowValid_iff _ (by decide +kernel), rowValid_iff _ (by decide +kernel), ?_⟩
  decide +kernel

end Verif.Props
