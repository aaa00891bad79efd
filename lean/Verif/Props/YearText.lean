import Verif.Model.YearText
import Verif.Spec.YearText
import Verif.Lemmas.Json
import Verif.Props.Cli
import Verif.Props.Year
/-
C67: the texts of a year.
-/
set_option autoImplicit false

namespace Verif.Props
open Verif.Go Verif.Model Verif.Spec Verif.Lemmas

theorem readWord_append (word text : List Char) : readWord word (word ++ text) = some text := by
  induction word with
  | nil => cases text <;> rfl
  | cons c word ih => rw [List.cons_append, readWord, if_pos rfl, ih]

theorem readInt_text (i : Int) {rest : List Char} (hr : Stops rest) :
    readInt ((toString i).toList ++ rest) = some (i, rest) := by
  rw [int_text]
  split_ifs with h
  · have hn := readNat_toDigits i.toNat hr
    have hd : ∀ c ∈ Nat.toDigits 10 i.toNat, c.isDigit = true :=
      fun c hc => Nat.isDigit_of_mem_toDigits (by omega) (by omega) hc
    cases hl : Nat.toDigits 10 i.toNat with
    | nil => exact absurd hl Nat.toDigits_ne_nil
    | cons c l =>
      rw [hl] at hn hd
      have hc : c ≠ '-' := by rintro rfl; have := hd '-' (by simp); revert this; decide
      rw [List.cons_append] at hn ⊢
      rw [readInt]
      · rw [hn, Option.map_some]
        simp only [Option.some.injEq, Prod.mk.injEq, and_true]
        omega
      · intro t e; exact hc (List.cons.inj e).1
  · rw [List.cons_append, readInt, readNat_toDigits _ hr, Option.map_some]
    simp only [Option.some.injEq, Prod.mk.injEq, and_true]
    omega

theorem readTable_line (label : String) (labels : List String) (i : Int) (rest : List Char) :
    readTable (label :: labels) (label.toList ++ ':' :: ' ' :: ((toString i).toList ++ '\n' :: rest)) =
      (readTable labels rest).map (i :: ·) := by
  have e : label.toList ++ ':' :: ' ' :: ((toString i).toList ++ '\n' :: rest) =
      (label.toList ++ [':', ' ']) ++ ((toString i).toList ++ '\n' :: rest) := by simp
  have hw := readWord_append ['\n'] rest
  rw [List.singleton_append] at hw
  rw [e, readTable, readWord_append, Option.bind_eq_bind, Option.bind_some,
    readInt_text i (rest := '\n' :: rest) (by intro c hc; simp at hc; subst hc; decide)]
  simp only [Option.bind_eq_bind, Option.bind_some, hw]
  cases readTable labels rest <;> rfl

/-- C67: read as nine lines of label and number, the text of a year gives back its nine values, for any values. -/
theorem c67_read (su : SuriyaYear) : readTable yearLabels su.suriyaValuesString.toList =
    some [su.Year, su.BE_Year, su.CS_Year, su.Horakhun, su.Kammacubala, su.Uccabala, su.Avoman, su.Masaken, su.Tithi] := by
  have e : su.suriyaValuesString.toList =
      "CE".toList ++ ':' :: ' ' :: ((toString su.Year).toList ++ '\n' ::
      ("BE".toList ++ ':' :: ' ' :: ((toString su.BE_Year).toList ++ '\n' ::
      ("CS".toList ++ ':' :: ' ' :: ((toString su.CS_Year).toList ++ '\n' ::
      ("Horakhun".toList ++ ':' :: ' ' :: ((toString su.Horakhun).toList ++ '\n' ::
      ("Kammacubala".toList ++ ':' :: ' ' :: ((toString su.Kammacubala).toList ++ '\n' ::
      ("Uccabala".toList ++ ':' :: ' ' :: ((toString su.Uccabala).toList ++ '\n' ::
      ("Avoman".toList ++ ':' :: ' ' :: ((toString su.Avoman).toList ++ '\n' ::
      ("Masaken".toList ++ ':' :: ' ' :: ((toString su.Masaken).toList ++ '\n' ::
      ("Tithi".toList ++ ':' :: ' ' :: ((toString su.Tithi).toList ++ '\n' :: []))))))))))))))))) := by
    unfold SuriyaYear.suriyaValuesString
    simp only [String.toList_append]
    simp
  rw [e]
  unfold yearLabels
  iterate 9 rw [readTable_line]
  rfl

/-- C67: the text determines the values. -/
theorem c67_determines (su su' : SuriyaYear) (h : su.suriyaValuesString = su'.suriyaValuesString) : su = su' := by
  have h1 := c67_read su
  rw [h, c67_read su'] at h1
  cases su; cases su'
  simp only [Option.some.injEq, List.cons.injEq, and_true] at h1
  obtain ⟨rfl, rfl, rfl, rfl, rfl, rfl, rfl, rfl, rfl⟩ := h1
  rfl

/-- C67: two years and their texts. -/
example : (SuriyaYear.init 1963).suriyaValuesString ≠ (SuriyaYear.init 1964).suriyaValuesString := by decide +kernel

/-- C67: `String` is the year, read back as the number it is; different years have different texts. -/
theorem c67_string (y z : Int) : readInt (SuriyaYear.init y).string.toList = some (y, []) ∧
    ((SuriyaYear.init y).string = (SuriyaYear.init z).string → y = z) := by
  refine ⟨?_, fun h => int_toString_injective h⟩
  have := readInt_text y (rest := []) (by intro c hc; simp at hc)
  rwa [List.append_nil] at this

/-- The text of CE 1963, with the values of the comments in suriya_year.go:65-89. -/
example : (SuriyaYear.init 1963).suriyaValuesString =
    "CE: 1963\nBE: 2506\nCS: 1325\nHorakhun: 483969\nKammacubala: 552\nUccabala: 1780\nAvoman: 61\nMasaken: 16388\nTithi: 23\n" := by
  decide +kernel

/-- A year before the era, with a minus sign. -/
example : readTable yearLabels (SuriyaYear.init (-1)).suriyaValuesString.toList =
    some [-1, 542, -639, -233398, 1500, -1315, -100, -7903, -18] := by
  decide +kernel

end Verif.Props
