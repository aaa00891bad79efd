import Verif.Spec.YearsCsv
import Verif.Props.YearText
import Verif.Props.Cycles
import Verif.Props.IcalText
/-
C68: the table of years of utils/years-csv.go.
-/
set_option autoImplicit false

namespace Verif.Props
open Verif.Go Verif.Model Verif.Spec Verif.Lemmas

/-! ### Splitting -/

theorem splitAtChar_append {sep : Char} {l : List Char} (h : sep ∉ l) (rest : List Char) :
    splitAtChar sep (l ++ sep :: rest) = l :: splitAtChar sep rest := by
  induction l with
  | nil => simp [splitAtChar]
  | cons c l ih =>
    rw [List.mem_cons, not_or] at h
    rw [List.cons_append, splitAtChar, if_neg (Ne.symm h.1), ih h.2]

theorem splitAtChar_single {sep : Char} {l : List Char} (h : sep ∉ l) : splitAtChar sep l = [l] := by
  induction l with
  | nil => rfl
  | cons c l ih =>
    rw [List.mem_cons, not_or] at h
    rw [splitAtChar, if_neg (Ne.symm h.1), ih h.2]

theorem split_intercalate {sep : Char} {ls : List (List Char)} (hne : ls ≠ []) (h : ∀ l ∈ ls, sep ∉ l) :
    splitAtChar sep ([sep].intercalate ls) = ls := by
  induction ls with
  | nil => exact absurd rfl hne
  | cons l ls ih =>
    cases ls with
    | nil => rw [List.intercalate_singleton, splitAtChar_single (h l (by simp))]
    | cons m ls =>
      rw [List.intercalate_cons_cons, List.append_assoc, List.singleton_append, splitAtChar_append (h l (by simp)),
        ih (by simp) fun x hx => h x (by simp [hx])]

/-- A field that splits nothing. -/
def GoodField (s : String) : Prop := ';' ∉ s.toList ∧ '\n' ∉ s.toList

theorem split_lines (rows : List (List String)) (h : ∀ r ∈ rows, ∀ s ∈ r, GoodField s) :
    splitAtChar '\n' (rows.flatMap csvLine) = rows.map (fun r => [';'].intercalate (r.map String.toList)) ++ [[]] := by
  induction rows with
  | nil => rfl
  | cons r rows ih =>
    have hr : '\n' ∉ [';'].intercalate (r.map String.toList) := by
      intro hm
      have key : ∀ ls : List (List Char), (∀ l ∈ ls, '\n' ∉ l) → '\n' ∉ [';'].intercalate ls := by
        intro ls
        induction ls with
        | nil => intro _; simp
        | cons l ls ih =>
          intro hl
          cases ls with
          | nil => rw [List.intercalate_singleton]; exact hl l (by simp)
          | cons m ls =>
            rw [List.intercalate_cons_cons, List.append_assoc, List.singleton_append, List.mem_append, List.mem_cons, not_or, not_or]
            exact ⟨hl l (by simp), by decide, ih fun x hx => hl x (by simp [hx])⟩
      refine key _ ?_ hm
      intro l hl
      obtain ⟨s, hs, rfl⟩ := List.mem_map.1 hl
      exact (h r (by simp) s hs).2
    rw [List.flatMap_cons, csvLine, List.append_assoc, List.singleton_append, splitAtChar_append hr,
      ih fun x hx => h x (by simp [hx])]
    rfl

theorem readCsv_rows (rows : List (List String)) (hne : ∀ r ∈ rows, r ≠ []) (h : ∀ r ∈ rows, ∀ s ∈ r, GoodField s) :
    readCsv (rows.flatMap csvLine) = some rows := by
  unfold readCsv
  simp only
  rw [split_lines rows h]
  rw [if_pos (by simp), List.dropLast_concat, List.map_map]
  congr 1
  conv => rhs; rw [← List.map_id rows]
  apply List.map_congr_left
  intro r hr
  simp only [Function.comp, id]
  rw [split_intercalate]
  · rw [List.map_map]
    conv => rhs; rw [← List.map_id r]
    apply List.map_congr_left
    intro s _
    simp
  · simpa using hne r hr
  · intro l hl
    obtain ⟨s, hs, rfl⟩ := List.mem_map.1 hl
    exact (h r hr s hs).1

/-! ### Fields -/

theorem int_good (i : Int) (c : Char) (h : c ∈ (toString i).toList) : c.isDigit = true ∨ c = '-' := by
  rw [int_text] at h
  split_ifs at h
  · exact .inl (Nat.isDigit_of_mem_toDigits (by omega) (by omega) h)
  · rcases List.mem_cons.1 h with h | h
    · exact .inr h
    · exact .inl (Nat.isDigit_of_mem_toDigits (by omega) (by omega) h)

theorem int_field (i : Int) : GoodField (toString i) := by
  refine ⟨?_, ?_⟩ <;> intro h <;> have := int_good i _ h <;> revert this <;> decide

theorem appendInt_good (x : Int) (k : Nat) (c : Char) (h : c ∈ appendInt x k) : c.isDigit = true ∨ c = '-' := by
  unfold appendInt at h
  rcases List.mem_append.1 h with h | h
  · rw [(List.mem_replicate.1 h).2]; exact .inl (by decide)
  · exact int_good x c h

theorem date_field (t : Time) : GoodField (String.ofList (formatDate t)) := by
  have : ∀ c ∈ formatDate t, c.isDigit = true ∨ c = '-' := by
    intro c hc
    unfold formatDate at hc
    rcases List.mem_append.1 hc with hc | hc
    · rcases List.mem_append.1 hc with hc | hc
      · exact appendInt_good _ _ _ hc
      · rcases List.mem_cons.1 hc with hc | hc
        · exact .inr hc
        · exact appendInt_good _ _ _ hc
    · rcases List.mem_cons.1 hc with hc | hc
      · exact .inr hc
      · exact appendInt_good _ _ _ hc
  unfold GoodField
  rw [String.toList_ofList]
  refine ⟨?_, ?_⟩ <;> intro h <;> have := this _ h <;> revert this <;> decide

theorem table_good : ∀ p ∈ testYears, GoodField p.2.Asalha ∧ GoodField p.2.Source ∧ GoodField p.2.Comments := by
  unfold GoodField
  decide +kernel

theorem table_nodup : (testYears.map Prod.fst).Nodup := by decide +kernel

theorem lookup_table (y : Int) : (∃ t, (y, t) ∈ testYears ∧ testYears.lookup y = some t) ∨
    ((∀ t, (y, t) ∉ testYears) ∧ testYears.lookup y = none) := by
  cases h : testYears.lookup y with
  | none =>
    refine .inr ⟨fun t ht => ?_, rfl⟩
    rw [(lookup_iff table_nodup y t).2 ht] at h
    cases h
  | some t => exact .inl ⟨t, (lookup_iff table_nodup y t).1 h, rfl⟩

theorem column_int (row : List String) (k : Nat) (i : Int) (h : row[k]? = some (toString i)) : column row k = some i := by
  have := readInt_text i (rest := []) (by intro c hc; simp at hc)
  rw [List.append_nil] at this
  unfold column
  rw [h]
  simp only [this]

theorem formatDate_iso {t : Time} (h1 : 0 ≤ t.year) (h2 : t.year ≤ 9999) :
    ∃ y m d : Nat, IsDate t.day y m d ∧ String.ofList (formatDate t) = isoDate y m d := by
  have hc := civil_spec t
  obtain ⟨_, _, _, d1, d2, m1, m2⟩ := civil_spec t
  have hmd := monthDays_le t.year t.month
  have e1 : ((t.year.toNat : Nat) : Int) = t.year := by omega
  have e2 : ((t.month.toNat : Nat) : Int) = t.month := by omega
  have e3 : ((t.dayOfMonth.toNat : Nat) : Int) = t.dayOfMonth := by omega
  refine ⟨t.year.toNat, t.month.toNat, t.dayOfMonth.toNat, by rw [e1, e2, e3]; exact hc, ?_⟩
  unfold formatDate isoDate
  rw [appendInt_pad t.year 3 (by omega) (by omega), appendInt_pad t.month 1 (by omega) (by omega),
    appendInt_pad t.dayOfMonth 1 (by omega) (by omega)]

theorem delta_column {row : List String} {k : Nat} {limit r y : Int} {p : Int → Bool} (h : row[k]? = some (toString r))
    (h2 : ∀ d, d ≠ -1 → (r = d ↔ (d ≤ limit ∧ IsDistance p y d)))
    (h3 : r = -1 ↔ ∀ e, 1 ≤ e → e ≤ limit → p (y - e) = false) : DistanceColumn row k limit p y := by
  refine ⟨r, column_int _ _ _ h, ?_⟩
  by_cases hr : r = -1
  · exact .inr ⟨hr, h3.1 hr⟩
  · exact .inl ((h2 r hr).1 rfl)

theorem row_ok (cfg : Config) (y : Int) : ∃ row, csvFields cfg y = some row ∧ row ≠ [] ∧ (∀ s ∈ row, GoodField s) ∧ IsCsvRow cfg row y := by
  obtain ⟨r, h1, h2, h3⟩ := c34_adhikamasa y
  obtain ⟨q, g1, g2, g3⟩ := c34_adhikavara cfg y
  have hdM : ∃ dM, csvDM (SuriyaYear.init y) = some dM ∧
      GoodField dM ∧ ((SuriyaYear.init y).isAdhikamasa = true → dM = toString r) ∧ ((SuriyaYear.init y).isAdhikamasa = false → dM = "") := by
    unfold csvDM
    rw [h1]
    cases (SuriyaYear.init y).isAdhikamasa with
    | true => exact ⟨_, rfl, int_field r, fun _ => rfl, fun h => by cases h⟩
    | false => exact ⟨_, rfl, by unfold GoodField; decide, (fun h => by cases h), fun _ => rfl⟩
  have hdV : ∃ dV, csvDV cfg (SuriyaYear.init y) = some dV ∧
      GoodField dV ∧ ((SuriyaYear.init y).isAdhikavara cfg = true → dV = toString q) ∧
      ((SuriyaYear.init y).isAdhikavara cfg = false → dV = if (SuriyaYear.init y).wouldBeAdhikavara then "x" else "") := by
    unfold csvDV
    rw [g1]
    cases (SuriyaYear.init y).isAdhikavara cfg with
    | true => exact ⟨_, rfl, int_field q, fun _ => rfl, fun h => by cases h⟩
    | false =>
      refine ⟨_, rfl, ?_, (fun h => by cases h), fun _ => rfl⟩
      unfold GoodField
      cases (SuriyaYear.init y).wouldBeAdhikavara <;> decide
  obtain ⟨dM, e1, gM, hM, hM'⟩ := hdM
  obtain ⟨dV, e2, gV, hV, hV'⟩ := hdV
  have hpos := c33_range (SuriyaYear.init y)
  unfold csvFields
  simp only [e1, e2, Option.bind_eq_bind, Option.bind_some]
  refine ⟨_, rfl, by simp, ?_, ?_⟩
  · have hd := date_field ((SuriyaYear.init y).asalhaPuja cfg)
    have he : GoodField "" := by unfold GoodField; decide
    have hok : GoodField "OK" := by unfold GoodField; decide
    have hfail : GoodField "FAIL" := by unfold GoodField; decide
    rcases lookup_table y with ⟨t, ht, hl⟩ | ⟨-, hl⟩
    · have hg := table_good _ ht
      rw [hl]
      simp only [Option.getD_some, Option.isSome_some, if_true, List.forall_mem_cons]
      refine ⟨int_field _, int_field _, int_field _, int_field _, int_field _, int_field _, gM, int_field _, gV, hd, hg.1, ?_,
        hg.2.1, hg.2.2, by simp⟩
      split_ifs
      exacts [hok, hfail]
    · rw [hl]
      simp only [Option.getD_none, Option.isSome_none, List.forall_mem_cons, Bool.false_eq_true, if_false]
      exact ⟨int_field _, int_field _, int_field _, int_field _, int_field _, int_field _, gM, int_field _, gV, hd, he, he, he, he, by simp⟩
  · refine ⟨rfl, column_int _ _ _ rfl, column_int _ _ _ rfl, column_int _ _ _ rfl, column_int _ _ _ rfl, column_int _ _ _ rfl,
      ⟨_, column_int _ _ _ rfl, hpos.2.2.1, hpos.2.2.2, ?_⟩, ?_, ?_, ⟨_, column_int _ _ _ rfl, hpos.1, hpos.2.1, ?_⟩, ?_, ?_, ?_, ?_, ?_⟩
    · intro h
      unfold SuriyaYear.adhikamasaCyclePos
      simp only [init_Year]
      rw [Int.tmod_eq_emod_of_nonneg (by omega)]
      omega
    · intro h; exact delta_column (by rw [hM h]; rfl) h2 h3
    · intro h; rw [hM' h]; rfl
    · intro h
      unfold SuriyaYear.adhikavaraCyclePos
      simp only [init_Year]
      rw [Int.tmod_eq_emod_of_nonneg (by omega)]
      omega
    · intro h; exact delta_column (by rw [hV h]; rfl) g2 g3
    · intro h; rw [hV' h]; rfl
    · intro a b
      obtain ⟨yy, m, d, hd, he⟩ := formatDate_iso a b
      exact ⟨yy, m, d, hd, by rw [he]; rfl⟩
    · intro t ht
      rw [(lookup_iff table_nodup y t).2 ht]
      simp only [Option.getD_some, Option.isSome_some, if_true]
      generalize String.ofList (formatDate ((SuriyaYear.init y).asalhaPuja cfg)) = s
      by_cases hs : s = t.Asalha <;> simp [hs]
    · intro hn k k1 k2
      rcases lookup_table y with ⟨t, ht, -⟩ | ⟨-, hl⟩
      · exact absurd ht (hn t)
      · rw [hl]
        have : k = 10 ∨ k = 11 ∨ k = 12 ∨ k = 13 := by omega
        rcases this with rfl | rfl | rfl | rfl <;> rfl

/-! ### The table -/

/-- The names of the columns. -/
def csvColumns : List String :=
  ["CE year", "BE year", "K", "A", "T", "nM", "dM", "nV", "dV", "Asalha by Calc.", "Asalha in Calendar", "test", "source", "comments"]

/-- C68: for any two years and any settings the table is complete: a header of fourteen names, then one line for each year in order,
each read back as its fourteen columns. -/
theorem c68_table (cfg : Config) (first last : Int) : ∃ text rows, yearsCsv cfg first last = some text ∧
    readCsv text = some (csvColumns :: rows) ∧ rows.length = (last - first + 1).toNat ∧
    ∀ (i : Nat) (h : i < rows.length), IsCsvRow cfg rows[i] (first + i) := by
  have key : ∀ ys : List Int, ∃ rows, ys.mapM (csvFields cfg) = some rows ∧ (∀ r ∈ rows, r ≠ [] ∧ ∀ s ∈ r, GoodField s) ∧
      List.Forall₂ (fun r y => IsCsvRow cfg r y) rows ys := by
    intro ys
    induction ys with
    | nil => exact ⟨[], rfl, by simp, .nil⟩
    | cons y ys ih =>
      obtain ⟨rows, h1, h2, h3⟩ := ih
      obtain ⟨row, g1, g2, g3, g4⟩ := row_ok cfg y
      refine ⟨row :: rows, by rw [List.mapM_cons, g1, h1]; rfl, ?_, .cons g4 h3⟩
      intro r hr
      rcases List.mem_cons.1 hr with rfl | hr
      exacts [⟨g2, g3⟩, h2 r hr]
  obtain ⟨rows, h1, h2, h3⟩ := key ((List.range (last - first + 1).toNat).map fun (i : Nat) => first + (i : Int))
  have hh : csvHeader.toList = csvLine csvColumns := by decide +kernel
  have hg : ∀ s ∈ csvColumns, GoodField s := by unfold GoodField; decide +kernel
  refine ⟨_, rows, by unfold yearsCsv; rw [h1]; rfl, ?_, ?_, ?_⟩
  · dsimp only
    rw [hh, ← List.flatMap_cons]
    apply readCsv_rows
    · intro r hr
      rcases List.mem_cons.1 hr with rfl | hr
      exacts [by decide, (h2 r hr).1]
    · intro r hr
      rcases List.mem_cons.1 hr with rfl | hr
      exacts [hg, (h2 r hr).2]
  · have := h3.length_eq
    simpa using this
  · intro i h
    have := h3.get (i := i) h (by rw [← h3.length_eq]; exact h)
    simpa using this

/-- C68: the years of `testYears` whose recorded Asalha differs from the calculated one. Without exceptions, as `main` sets it, these are
the five years marked FAIL in the source and 1994 to 1996; with the shipped exceptions only the five. -/
theorem c68_fails :
    ((testYears.filter fun p => decide (String.ofList (formatDate ((SuriyaYear.init p.1).asalhaPuja .default)) ≠ p.2.Asalha)).map Prod.fst =
      [1978, 1984, 1985, 1986, 1989, 1994, 1995, 1996]) ∧
    ((testYears.filter fun p => decide (String.ofList (formatDate ((SuriyaYear.init p.1).asalhaPuja .official)) ≠ p.2.Asalha)).map Prod.fst =
      [1978, 1984, 1985, 1986, 1989]) := by
  decide +kernel

/-- C68: where a recorded date differs, it is one day earlier than the calculated one. -/
theorem c68_one_day : ∀ p ∈ testYears, p.2.Asalha = String.ofList (formatDate ((SuriyaYear.init p.1).asalhaPuja .default)) ∨
    p.2.Asalha = String.ofList (formatDate (((SuriyaYear.init p.1).asalhaPuja .default).add (-nsPerDay))) := by
  decide +kernel

/-- Two lines of the table. -/
example : (yearsCsv .default 2015 2016).map String.ofList = some ("CE year;BE year;K;A;T;nM;dM;nV;dV;Asalha by Calc.;Asalha in Calendar;" ++
    "test;source;comments\n2015;2558;188;0;28;13;3;32;x;2015-07-30;2015-07-30;OK;fs-cal, bot.or.th;\n" ++
    "2016;2559;781;566;9;14;;33;7;2016-07-19;2016-07-19;OK;fs-cal, bot.or.th, myhora.com;\n") := by
  decide +kernel

end Verif.Props
