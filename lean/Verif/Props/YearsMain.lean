import Verif.Model.YearsMain
import Verif.Spec.YearsFile
import Verif.Props.YearsCsv
import Verif.Props.CliRun
/-
C75: what utils/years-csv.go writes to years.csv, and what its unused first version would write.
-/
set_option autoImplicit false

namespace Verif.Props
open Verif.Go Verif.Model Verif.Spec Verif.Lemmas

theorem mapM_lines {α β : Type} (f : α → Option β) (g : β → List Char) (line : α → List Char) (l : List α)
    (h : ∀ x ∈ l, (f x).map g = some (line x)) : (l.mapM f).map (fun rows => rows.flatMap g) = some (l.flatMap line) := by
  induction l with
  | nil => rfl
  | cons x l ih =>
    have hx := h x (by simp)
    have ih := ih fun y hy => h y (by simp [hy])
    rw [List.mapM_cons]
    rw [Option.map_eq_some_iff] at hx ih
    obtain ⟨b, hb, hb'⟩ := hx
    obtain ⟨bs, hbs, hbs'⟩ := ih
    simp only [hb, hbs, Option.bind_eq_bind, Option.bind_some, Option.pure_def, Option.map_some, List.flatMap_cons, hb', hbs']

/-- Each line of the file is the line of its year. -/
theorem file_line : ∀ i : Fin 72, (csvFields .default (1970 + (i.val : Int))).map csvLine = some (yearsFileLines.getD (i.val + 1) "").toList := by
  decide +kernel

/-- C75: the text is, byte for byte, the file utils/years.csv of the repository. -/
theorem c75_text : yearsCsv .default 1970 2041 = some yearsFile := by
  have h := mapM_lines (csvFields .default) csvLine (fun y => (yearsFileLines.getD ((y - 1970).toNat + 1) "").toList)
    ((List.range 72).map fun (i : Nat) => (1970 : Int) + (i : Int)) (by
      intro y hy
      obtain ⟨i, hi, rfl⟩ := List.mem_map.1 hy
      have := file_line ⟨i, List.mem_range.1 hi⟩
      rw [show ((1970 : Int) + (i : Int) - 1970).toNat = i by omega]
      exact this)
  unfold yearsCsv
  rw [show ((2041 : Int) - 1970 + 1).toNat = 72 from rfl]
  rw [Option.map_eq_some_iff] at h ⊢
  obtain ⟨rows, h1, h2⟩ := h
  refine ⟨rows, h1, ?_⟩
  rw [h2]
  rfl

/-- C75: a run that can create the file and write all of it leaves the committed file, prints nothing and ends with exit code 0. -/
theorem c75_written (sys : System) (w : World) (ho : sys.openFails = false) (hall : (utf8 yearsFile).length ≤ sys.sizes.length) :
    ∃ r, yearsMain sys = some r ∧ r.exit = 0 ∧ (w.after r.effects).files "years.csv" = some (utf8 yearsFile) ∧
      (w.after r.effects).stdout = w.stdout ∧ ∀ p, p ≠ "years.csv" → (w.after r.effects).files p = w.files p := by
  have hw : ∀ (sizes : List Nat) (x : List UInt8), x.length ≤ sizes.length → (writes sizes x).2 = true := by
    intro sizes
    induction sizes with
    | nil =>
      intro x hx
      rw [List.length_eq_zero_iff.1 (Nat.le_zero.1 hx)]
      rfl
    | cons n sizes ih =>
      intro x hx
      cases x with
      | nil => rfl
      | cons c x =>
        simp only [writes]
        apply ih
        simp only [List.length_cons, List.length_drop] at hx ⊢
        omega
  have h2 := hw _ _ hall
  refine ⟨⟨.create "years.csv" :: (writes sys.sizes (utf8 yearsFile)).1.map (.append "years.csv"), 0⟩, ?_, rfl, ?_⟩
  · unfold yearsMain
    rw [ho, c75_text]
    simp [h2]
  · have h := after_file w "years.csv" (writes sys.sizes (utf8 yearsFile)).1
    rw [(writes_spec sys.sizes (utf8 yearsFile)).2 h2] at h
    exact ⟨h.1, h.2.2, h.2.1⟩

/-- C75: a machine that takes one byte at a time. -/
example (w : World) : ∃ r, yearsMain ⟨false, List.replicate (utf8 yearsFile).length 0, 0, ""⟩ = some r ∧ r.exit = 0 ∧
    (w.after r.effects).files "years.csv" = some (utf8 yearsFile) := by
  obtain ⟨r, h1, h2, h3, -⟩ := c75_written ⟨false, List.replicate (utf8 yearsFile).length 0, 0, ""⟩ w rfl (by rw [List.length_replicate])
  exact ⟨r, h1, h2, h3⟩

/-- C75: killed at any point, the program has changed no other file, and years.csv is as it was or holds the first bytes of the table. -/
theorem c75_killed (sys : System) (w : World) (k : Nat) (r : Run) (h : yearsMain sys = some r) :
    (∀ p, p ≠ "years.csv" → (w.after (r.effects.take k)).files p = w.files p) ∧
    ((w.after (r.effects.take k)).files "years.csv" = w.files "years.csv" ∨
      ∃ n, (w.after (r.effects.take k)).files "years.csv" = some ((utf8 yearsFile).take n)) := by
  have hc := output_crash sys "years.csv" yearsFile [] w k
  simp only at hc
  cases ho : sys.openFails with
  | true =>
    unfold yearsMain at h
    rw [ho] at h
    cases h
    refine ⟨fun _ _ => ?_, .inl ?_⟩ <;> simp [World.after]
  | false =>
    have he : (output sys "years.csv" yearsFile []).effects =
        .create "years.csv" :: (writes sys.sizes (utf8 yearsFile)).1.map (.append "years.csv") := by
      unfold output
      rw [ho]
      rfl
    have hr : ∃ last : List Effect, (∀ e ∈ last, ∃ b, e = .print b) ∧ r.effects = (output sys "years.csv" yearsFile []).effects ++ last := by
      unfold yearsMain at h
      rw [ho, c75_text] at h
      cases h
      refine ⟨_, ?_, by rw [he]⟩
      intro e hm
      split at hm
      · simp at hm
      · exact ⟨_, List.mem_singleton.1 hm⟩
    obtain ⟨last, hl, hr⟩ := hr
    have hprint : ∀ (es : List Effect) (v : World), (∀ e ∈ es, ∃ b, e = .print b) → (v.after es).files = v.files := by
      intro es
      induction es with
      | nil => intro v _; rfl
      | cons e es ih =>
        intro v hes
        obtain ⟨b, rfl⟩ := hes e (by simp)
        show ((Effect.apply v (.print b)).after es).files = _
        rw [ih _ fun e he => hes e (by simp [he])]
        rfl
    have hv : (w.after (r.effects.take k)).files = (w.after ((output sys "years.csv" yearsFile []).effects.take k)).files := by
      rw [hr, List.take_append]
      unfold World.after
      rw [List.foldl_append]
      exact hprint _ _ fun e hm => hl e (List.mem_of_mem_take hm)
    rw [hv]
    exact ⟨fun p hp => hc.1 p (.inl hp), hc.2⟩

/-- C75: killed before the first write the program leaves an empty file. -/
example (sys : System) (ho : sys.openFails = false) (w : World) : ∃ r, yearsMain sys = some r ∧
    (w.after (r.effects.take 1)).files "years.csv" = some [] := by
  unfold yearsMain
  rw [ho, c75_text]
  dsimp only
  generalize writes _ _ = q
  exact ⟨_, rfl, rfl⟩

/-- C75: any other run that can create the file ends with exit code 0 too; the file then holds the first bytes of the table, and what is
printed begins with their number, in so far as printing works. -/
theorem c75_cut (sys : System) (w : World) (ho : sys.openFails = false) :
    ∃ r n, yearsMain sys = some r ∧ r.exit = 0 ∧ (w.after r.effects).files "years.csv" = some ((utf8 yearsFile).take n) ∧
      (n = (utf8 yearsFile).length ∧ (w.after r.effects).stdout = w.stdout ∨
        (w.after r.effects).stdout = w.stdout ++
          (utf8 (String.toList (toString n) ++ ' ' :: sys.errorText.toList ++ ['\n'])).take sys.printed) := by
  obtain ⟨h1, h2⟩ := writes_spec sys.sizes (utf8 yearsFile)
  have h := after_file w "years.csv" (writes sys.sizes (utf8 yearsFile)).1
  generalize hws : (writes sys.sizes (utf8 yearsFile)).1 = ws at *
  refine ⟨⟨.create "years.csv" :: ws.map (.append "years.csv") ++ (if (writes sys.sizes (utf8 yearsFile)).2 = true then [] else
    [.print ((utf8 (String.toList (toString ws.flatten.length) ++ ' ' :: sys.errorText.toList ++ ['\n'])).take sys.printed)]), 0⟩,
    ws.flatten.length, ?_, rfl, ?_, ?_⟩
  · unfold yearsMain
    rw [ho, c75_text]
    simp only [hws]
    rfl
  · rw [← List.prefix_iff_eq_take.1 h1]
    split
    · rw [List.append_nil]; exact h.1
    · unfold World.after at h ⊢
      rw [List.foldl_append]
      exact h.1
  · split
    · rename_i hok
      refine .inl ⟨by rw [h2 hok], ?_⟩
      rw [List.append_nil]; exact h.2.2
    · refine .inr ?_
      unfold World.after at h ⊢
      rw [List.foldl_append, List.foldl_cons, List.foldl_nil]
      show (List.foldl Effect.apply w _).stdout ++ _ = _
      rw [h.2.2]

/-- C75: a disk with room for 20 bytes. -/
example (w : World) : ∃ r n, yearsMain ⟨false, [20], 100, "no space"⟩ = some r ∧ r.exit = 0 ∧
    (w.after r.effects).files "years.csv" = some ((utf8 yearsFile).take n) := by
  obtain ⟨r, n, h1, h2, h3, -⟩ := c75_cut ⟨false, [20], 100, "no space"⟩ w rfl
  exact ⟨r, n, h1, h2, h3⟩

/-- C75: if the file cannot be created, the program panics and changes nothing. -/
theorem c75_panic (sys : System) (h : sys.openFails = true) : yearsMain sys = some ⟨[], 2⟩ := by
  unfold yearsMain
  rw [h]
  rfl

/-- C75: a full disk, on which nothing can be written: exit code 0 and an empty file. -/
theorem c75_full_disk (w : World) : ∃ r, yearsMain ⟨false, [], 100, "write years.csv: no space left on device"⟩ = some r ∧ r.exit = 0 ∧
    (w.after r.effects).files "years.csv" = some [] ∧
    (w.after r.effects).stdout = w.stdout ++ utf8 "0 write years.csv: no space left on device\n".toList := by
  refine ⟨⟨[.create "years.csv", .print (utf8 "0 write years.csv: no space left on device\n".toList)], 0⟩, ?_, rfl, ?_, ?_⟩
  · unfold yearsMain
    rw [c75_text]
    rfl
  · rfl
  · rfl

/-! ### `yearsCsvSimple` -/

/-- The number of columns of a line. -/
def simpleColumns (line : List Char) : Nat := (splitAtChar ',' line).length

theorem columns_count (line : List Char) : simpleColumns line = line.count ',' + 1 := by
  unfold simpleColumns
  induction line with
  | nil => rfl
  | cons c l ih =>
    rw [splitAtChar]
    split
    · rename_i h
      rw [h, List.length_cons, ih, List.count_cons_self]
    · rename_i h
      rw [List.count_cons_of_ne h]
      split
      · rename_i e
        rw [e] at ih
        exact ih
      · rename_i e
        rw [e] at ih
        simp at ih

/-- A text of digits and signs, or no text. -/
def NumText (s : List Char) : Prop := ∀ c ∈ s, c.isDigit = true ∨ c = '-'

theorem NumText.count {s : List Char} (h : NumText s) : s.count ',' = 0 :=
  List.count_eq_zero.2 fun hc => by have := h _ hc; revert this; decide

theorem NumText.line {s : List Char} (h : NumText s) : '\n' ∉ s :=
  fun hc => by have := h _ hc; revert this; decide

theorem numText_int (i : Int) : NumText (String.toList (toString i)) := int_good i

/-- A line breaks in two: seven columns, and two values too many on the next line. -/
theorem simple_line (cfg : Config) (y : Int) : ∃ a b : List Char, simpleLine cfg y = some (a ++ '\n' :: b) ∧ '\n' ∉ a ∧ '\n' ∉ b ∧
    a.count ',' = 6 ∧ b.count ',' = 1 := by
  obtain ⟨r, h1, -⟩ := c34_adhikamasa y
  obtain ⟨q, g1, -⟩ := c34_adhikavara cfg y
  have hM : ∃ dM, csvDM (SuriyaYear.init y) = some dM ∧ NumText dM.toList := by
    unfold csvDM
    rw [h1]
    cases (SuriyaYear.init y).isAdhikamasa with
    | true => exact ⟨_, rfl, numText_int r⟩
    | false => exact ⟨"", rfl, by unfold NumText; simp⟩
  have hV : ∃ dV, simpleDV cfg (SuriyaYear.init y) = some dV ∧ NumText dV.toList := by
    unfold simpleDV
    rw [g1]
    cases (SuriyaYear.init y).isAdhikavara cfg with
    | true => exact ⟨_, rfl, numText_int q⟩
    | false => exact ⟨"", rfl, by unfold NumText; simp⟩
  obtain ⟨dM, e1, pM⟩ := hM
  obtain ⟨dV, e2, pV⟩ := hV
  unfold simpleLine
  simp only [e1, e2, Option.bind_eq_bind, Option.bind_some]
  generalize hi1 : String.toList (toString (SuriyaYear.init y).Year) = i1
  generalize hi2 : String.toList (toString (SuriyaYear.init y).BE_Year) = i2
  generalize hi3 : String.toList (toString (SuriyaYear.init y).adhikamasaCyclePos) = i3
  generalize hi4 : String.toList (toString (SuriyaYear.init y).adhikavaraCyclePos) = i4
  generalize hi5 : String.toList (toString (SuriyaYear.init y).Kammacubala) = i5
  generalize hi6 : String.toList (toString (SuriyaYear.init y).Avoman) = i6
  generalize hi7 : String.toList (toString (SuriyaYear.init y).Tithi) = i7
  have p1 : NumText i1 := hi1 ▸ numText_int _
  have p2 : NumText i2 := hi2 ▸ numText_int _
  have p3 : NumText i3 := hi3 ▸ numText_int _
  have p4 : NumText i4 := hi4 ▸ numText_int _
  have p5 : NumText i5 := hi5 ▸ numText_int _
  have p6 : NumText i6 := hi6 ▸ numText_int _
  have p7 : NumText i7 := hi7 ▸ numText_int _
  refine ⟨i1 ++ ',' :: i2 ++ ',' :: i3 ++ ',' :: dM.toList ++ ',' :: i4 ++ ',' :: dV.toList ++ ',' :: "%!s(int=".toList ++ i5 ++ [')'],
    "%!(EXTRA int=".toList ++ i6 ++ ", int=".toList ++ i7 ++ [')'], ?_, ?_, ?_, ?_, ?_⟩
  · congr 1
    rw [show ")\n".toList = [')', '\n'] from rfl]
    simp only [List.append_assoc, List.cons_append, List.nil_append]
  · simp only [List.mem_append, List.mem_cons, not_or, p1.line, p2.line, p3.line, p4.line, p5.line, pM.line, pV.line]
    decide
  · simp only [List.mem_append, List.mem_cons, not_or, p6.line, p7.line]
    decide
  · simp only [List.count_append, List.count_cons, p1.count, p2.count, p3.count, p4.count, p5.count, pM.count, pV.count]
    decide
  · simp only [List.count_append, p6.count, p7.count]
    decide

/-- C75: for any two years in order and any settings `yearsCsvSimple`, which nothing calls, gives no table: the header names nine columns,
but the first line of values has seven, each further one eight, of which the first is the rest of the previous year, and after the last
line feed there are two. -/
theorem c75_simple (cfg : Config) (first last : Int) (h : first ≤ last) : ∃ text, yearsCsvSimple cfg first last = some text ∧
    (splitAtChar '\n' text).map simpleColumns = 9 :: 7 :: (List.replicate (last - first).toNat 8 ++ [2]) := by
  have key : ∀ ys : List Int, ∃ rows, ys.mapM (simpleLine cfg) = some rows ∧ ∀ pre : List Char, '\n' ∉ pre →
      (splitAtChar '\n' (pre ++ rows.flatten)).map (List.count ',') =
        match ys with
        | [] => [pre.count ',']
        | _ :: ys' => (pre.count ',' + 6) :: (List.replicate ys'.length 7 ++ [1]) := by
    intro ys
    induction ys with
    | nil => exact ⟨[], rfl, fun pre hp => by rw [List.flatten_nil, List.append_nil, splitAtChar_single hp]; rfl⟩
    | cons y ys ih =>
      obtain ⟨rows, h1, h2⟩ := ih
      obtain ⟨a, b, g1, ga, gb, ca, cb⟩ := simple_line cfg y
      refine ⟨(a ++ '\n' :: b) :: rows, by rw [List.mapM_cons, g1, h1]; rfl, ?_⟩
      intro pre hp
      rw [List.flatten_cons, List.append_assoc, List.cons_append, ← List.append_assoc,
        splitAtChar_append (by rw [List.mem_append, not_or]; exact ⟨hp, ga⟩), List.map_cons, h2 b gb, List.count_append, ca]
      congr 1
      cases ys with
      | nil => simp [cb]
      | cons z zs => simp [cb, List.replicate_succ]
  obtain ⟨rows, h1, h2⟩ := key ((List.range (last - first + 1).toNat).map fun (i : Nat) => first + (i : Int))
  refine ⟨_, by unfold yearsCsvSimple; rw [h1]; rfl, ?_⟩
  have hn : (last - first + 1).toNat = (last - first).toNat + 1 := by omega
  have hc : simpleColumns = fun l => List.count ',' l + 1 := funext columns_count
  have hh : "CE year,BE year,nM,dM,nV,dV,K,A,T\n".toList = "CE year,BE year,nM,dM,nV,dV,K,A,T".toList ++ ['\n'] := by decide
  have h3 := h2 [] (by simp)
  dsimp only
  rw [hc, hh, List.append_assoc, List.singleton_append, splitAtChar_append (by decide)]
  have e : ∀ L : List (List Char), L.map (fun l => List.count ',' l + 1) = (L.map (List.count ',')).map (· + 1) := by
    intro L; rw [List.map_map]; rfl
  rw [hn, List.range_succ_eq_map, List.map_cons, List.nil_append] at h3
  rw [e, List.map_cons, h3]
  simp only [List.map_cons, List.map_append, List.map_nil, List.map_replicate, List.length_map, List.length_range, List.count_nil]
  rfl

/-- C75: the two values too many of 2015 stand before the year 2016. -/
example : (yearsCsvSimple .default 2015 2016).map String.ofList = some ("CE year,BE year,nM,dM,nV,dV,K,A,T\n" ++
    "2015,2558,13,3,32,,%!s(int=188)\n%!(EXTRA int=0, int=28)2016,2559,14,,33,7,%!s(int=781)\n%!(EXTRA int=566, int=9)") := by
  decide +kernel

end Verif.Props
