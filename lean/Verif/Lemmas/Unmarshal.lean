import Verif.Spec.JsonGrammar
import Mathlib.Tactic.Ring
import Mathlib.Tactic.SplitIfs
import Mathlib.Data.List.TakeWhile
/-
The scanner of Model/Unmarshal.lean accepts the grammar of RFC 8259.
-/
set_option autoImplicit false

namespace Verif.Lemmas.Unmarshal
open Verif.Model.Unmarshal Verif.Spec.Grammar

theorem isSpace_iff (c : Char) : isSpace c = true ↔ c = ' ' ∨ c = '\t' ∨ c = '\n' ∨ c = '\r' := by
  unfold isSpace
  simp only [Bool.or_eq_true, decide_eq_true_eq]
  tauto

theorem skip_ws {w t : List Char} (hw : Ws w) : skipSpace (w ++ t) = skipSpace t := by
  unfold skipSpace
  induction w with
  | nil => rfl
  | cons c w ih =>
    rw [List.cons_append, List.dropWhile_cons, if_pos ((isSpace_iff c).2 (hw c List.mem_cons_self))]
    exact ih fun d hd => hw d (List.mem_cons_of_mem _ hd)

theorem skip_self {c : Char} {t : List Char} (h : isSpace c = false) : skipSpace (c :: t) = c :: t := by
  unfold skipSpace
  rw [List.dropWhile_cons, if_neg (by simp [h])]

theorem ws_split (t : List Char) : ∃ w, Ws w ∧ t = w ++ skipSpace t ∧ ∀ c r, skipSpace t = c :: r → isSpace c = false := by
  induction t with
  | nil => exact ⟨[], (by intro c hc; cases hc), rfl, (by intro c r h; cases h)⟩
  | cons c t ih =>
    by_cases hc : isSpace c = true
    · obtain ⟨w, h1, h2, h3⟩ := ih
      have e : skipSpace (c :: t) = skipSpace t := by
        unfold skipSpace; rw [List.dropWhile_cons, if_pos hc]
      refine ⟨c :: w, ?_, ?_, ?_⟩
      · intro d hd
        rcases List.mem_cons.1 hd with rfl | hd
        · exact (isSpace_iff d).1 hc
        · exact h1 d hd
      · rw [e, List.cons_append, ← h2]
      · rw [e]; exact h3
    · rw [Bool.not_eq_true] at hc
      refine ⟨[], (by intro c hc; cases hc), (skip_self hc).symm ▸ rfl, ?_⟩
      intro d r h
      rw [skip_self hc] at h
      cases h
      exact hc

/-! ### strings -/

theorem hex_iff (c : Char) : (hexVal c).isSome = true ↔ Hex c := by
  unfold hexVal Hex
  split_ifs with h1 h2 h3
  · simp [h1]
  · simp [h2]
  · simp [h3]
  · simp only [Option.isSome_none, Bool.false_eq_true, false_iff]
    tauto

theorem scanString_complete {r : List Char} (h : Chars r) (rest : List Char) : scanString (r ++ '"' :: rest) = some (r, rest) := by
  induction h with
  | nil => rw [List.nil_append, scanString]
  | @unescaped c l hc _ ih =>
    obtain ⟨h1, h2, h3⟩ := hc
    rw [List.cons_append, scanString.eq_5]
    · rw [if_neg (by rintro (h | h); omega; exact h2 h), ih]; rfl
    all_goals simp_all
  | @escape c l hc _ ih =>
    rw [List.cons_append, List.cons_append, scanString.eq_4]
    · rw [if_pos (by simp only [List.mem_cons, List.not_mem_nil, or_false] at hc ⊢; tauto), ih]; rfl
    · intro a b c' d r' hu
      subst hu
      simp at hc
  | @unicode a b c d l h _ ih =>
    simp only [List.cons_append]
    rw [scanString.eq_3, ih]
    rw [if_pos (by simp only [Bool.and_eq_true, hex_iff]; tauto)]
    rfl

theorem scanString_sound {t r rest : List Char} (h : scanString t = some (r, rest)) : Chars r ∧ t = r ++ '"' :: rest := by
  fun_induction scanString t generalizing r rest with
  | case1 => cases h
  | case2 => cases h; exact ⟨.nil, rfl⟩
  | case3 a b c d t hc ih =>
    rw [Option.map_eq_some_iff] at h
    obtain ⟨p, hp, h⟩ := h
    obtain ⟨h1, h2⟩ := ih hp
    cases h
    simp only [Bool.and_eq_true, hex_iff] at hc
    exact ⟨.unicode (by tauto) h1, by rw [h2]; rfl⟩
  | case4 => cases h
  | case5 c t _ hc ih =>
    rw [Option.map_eq_some_iff] at h
    obtain ⟨p, hp, h⟩ := h
    obtain ⟨h1, h2⟩ := ih hp
    cases h
    exact ⟨.escape (by simp only [List.mem_cons, List.not_mem_nil, or_false] at hc ⊢; tauto) h1, by rw [h2]; rfl⟩
  | case6 => cases h
  | case7 => cases h
  | case8 c t h1 h2 h3 hc ih =>
    rw [Option.map_eq_some_iff] at h
    obtain ⟨p, hp, h⟩ := h
    obtain ⟨g1, g2⟩ := ih hp
    cases h
    rw [not_or] at hc
    exact ⟨.unescaped ⟨by tauto, hc.2, by omega⟩ g1, by rw [g2]; rfl⟩

/-! ### numbers -/

/-- What may follow a number: nothing that could belong to it. -/
def Delim (rest : List Char) : Prop := ∀ c r, rest = c :: r → isDigit c = false ∧ c ≠ '.' ∧ c ≠ 'e' ∧ c ≠ 'E'

theorem isDigit_iff (c : Char) : isDigit c = true ↔ '0' ≤ c ∧ c ≤ '9' := by
  unfold isDigit; simp

theorem takeWhile_digits {ds rest : List Char} (hd : ∀ c ∈ ds, isDigit c = true) (hr : ∀ c r, rest = c :: r → isDigit c = false) :
    (ds ++ rest).takeWhile isDigit = ds ∧ (ds ++ rest).dropWhile isDigit = rest := by
  induction ds with
  | nil =>
    cases rest with
    | nil => exact ⟨rfl, rfl⟩
    | cons c r =>
      have := hr c r rfl
      simp [this]
  | cons c ds ih =>
    obtain ⟨h1, h2⟩ := ih fun d hd' => hd d (List.mem_cons_of_mem _ hd')
    have := hd c List.mem_cons_self
    simp only [List.cons_append, List.takeWhile_cons, List.dropWhile_cons, this, if_true, h1, h2, and_self]

theorem scanDigits_complete {ds rest : List Char} (hd : Digits ds) (hr : ∀ c r, rest = c :: r → isDigit c = false) :
    scanDigits (ds ++ rest) = some (ds, rest) := by
  obtain ⟨h1, h2⟩ := takeWhile_digits (fun c hc => (isDigit_iff c).2 (hd.2 c hc)) hr
  unfold scanDigits
  rw [h1, h2]
  cases ds with
  | nil => exact absurd rfl hd.1
  | cons c ds => rfl

theorem scanDigits_sound {t ds rest : List Char} (h : scanDigits t = some (ds, rest)) : Digits ds ∧ t = ds ++ rest ∧
    ∀ c r, rest = c :: r → isDigit c = false := by
  unfold scanDigits at h
  have key := List.takeWhile_append_dropWhile (p := isDigit) (l := t)
  have hall : ∀ c ∈ t.takeWhile isDigit, isDigit c = true := fun c hc => List.mem_takeWhile_imp hc
  split at h
  · cases h
  · rename_i hne
    cases h
    refine ⟨⟨by rintro h; exact hne (by rw [h]), fun c hc => (isDigit_iff c).1 (hall c hc)⟩, key.symm, ?_⟩
    intro c r hr
    have : (List.dropWhile isDigit t).head? = some c := by rw [hr]; rfl
    have := List.head?_dropWhile_not isDigit t
    rw [hr] at this
    simpa using this

theorem digit_not {c : Char} (h : isDigit c = true) : isSpace c = false ∧ c ≠ ']' ∧ c ≠ '}' ∧ c ≠ '"' ∧ c ≠ '[' ∧ c ≠ '{' ∧ c ≠ 'n' ∧
    c ≠ 't' ∧ c ≠ 'f' ∧ c ≠ '-' ∧ c ≠ '+' ∧ c ≠ '.' ∧ c ≠ 'e' ∧ c ≠ 'E' := by
  have key : ∀ d : Char, isDigit d = false → c ≠ d := by
    rintro d hd rfl
    rw [h] at hd
    cases hd
  refine ⟨?_, key _ rfl, key _ rfl, key _ rfl, key _ rfl, key _ rfl, key _ rfl, key _ rfl, key _ rfl, key _ rfl, key _ rfl, key _ rfl,
    key _ rfl, key _ rfl⟩
  rw [← Bool.not_eq_true, isSpace_iff]
  rintro (h | h | h | h)
  · exact key _ rfl h
  · exact key _ rfl h
  · exact key _ rfl h
  · exact key _ rfl h

/-- What may follow the whole part of a number, or its fraction. -/
theorem scanWhole_complete {a rest : List Char} (ha : Whole a) (hr : ∀ c r, rest = c :: r → isDigit c = false) :
    scanWhole (a ++ rest) = some (a, rest) := by
  rcases ha with rfl | ⟨hd, h0⟩
  · rfl
  · cases a with
    | nil => exact absurd rfl hd.1
    | cons c a =>
      have hc : c ≠ '0' := by rintro rfl; exact h0 rfl
      unfold scanWhole
      split
      · rename_i heq
        rw [List.cons_append, List.cons.injEq] at heq
        exact absurd heq.1 hc
      · exact scanDigits_complete hd hr

theorem scanWhole_sound {t a rest : List Char} (h : scanWhole t = some (a, rest)) : Whole a ∧ t = a ++ rest := by
  unfold scanWhole at h
  split at h
  · cases h; exact ⟨.inl rfl, rfl⟩
  · rename_i hne
    obtain ⟨h1, h2, _⟩ := scanDigits_sound h
    refine ⟨.inr ⟨h1, ?_⟩, h2⟩
    cases a with
    | nil => simp
    | cons c a =>
      rintro hc
      cases hc
      exact hne _ h2

theorem scanFraction_complete {b rest : List Char} (hb : Fraction b) (hr : ∀ c r, rest = c :: r → isDigit c = false ∧ c ≠ '.') :
    scanFraction (b ++ rest) = some (b, rest) := by
  rcases hb with rfl | ⟨ds, hd, rfl⟩
  · unfold scanFraction
    split
    · rename_i heq
      exact absurd rfl (hr _ _ heq).2
    · rfl
  · rw [List.cons_append, scanFraction, scanDigits_complete hd fun c r h => (hr c r h).1]
    rfl

theorem scanFraction_sound {t b rest : List Char} (h : scanFraction t = some (b, rest)) : Fraction b ∧ t = b ++ rest := by
  unfold scanFraction at h
  split at h
  · rw [Option.map_eq_some_iff] at h
    obtain ⟨p, hp, h⟩ := h
    cases h
    obtain ⟨h1, h2, _⟩ := scanDigits_sound hp
    exact ⟨.inr ⟨_, h1, rfl⟩, by rw [h2]; rfl⟩
  · cases h; exact ⟨.inl rfl, rfl⟩

theorem scanExponent_complete {e rest : List Char} (he : Exponent e) (hr : Delim rest) : scanExponent (e ++ rest) = some (e, rest) := by
  rcases he with rfl | ⟨e, s, ds, h1, h2, h3, rfl⟩
  · cases rest with
    | nil => rfl
    | cons c r =>
      obtain ⟨_, _, g1, g2⟩ := hr c r rfl
      simp [scanExponent, g1, g2]
  · have hd := scanDigits_complete h3 fun c r h => (hr c r h).1
    rw [List.cons_append]
    unfold scanExponent
    simp only [if_pos h1]
    rcases h2 with rfl | rfl | rfl
    · cases ds with
      | nil => exact absurd rfl h3.1
      | cons c ds =>
        have := digit_not ((isDigit_iff c).2 (h3.2 c List.mem_cons_self))
        simp only [List.nil_append, List.cons_append] at hd ⊢
        rw [if_neg (by tauto), hd]
        rfl
    · simp [hd]
    · simp [hd]

theorem scanExponent_sound {t e rest : List Char} (h : scanExponent t = some (e, rest)) : Exponent e ∧ t = e ++ rest := by
  unfold scanExponent at h
  split at h
  · rename_i c r
    split_ifs at h with hc
    · split at h
      · rename_i s r'
        split_ifs at h with hs
        · rw [Option.map_eq_some_iff] at h
          obtain ⟨p, hp, h⟩ := h
          cases h
          obtain ⟨h1, h2, _⟩ := scanDigits_sound hp
          refine ⟨.inr ⟨c, [s], _, hc, ?_, h1, rfl⟩, by rw [h2]; rfl⟩
          rcases hs with rfl | rfl <;> simp
        · rw [Option.map_eq_some_iff] at h
          obtain ⟨p, hp, h⟩ := h
          cases h
          obtain ⟨h1, h2, _⟩ := scanDigits_sound hp
          exact ⟨.inr ⟨c, [], _, hc, .inl rfl, h1, rfl⟩, by rw [h2]; rfl⟩
      · cases h
    · cases h; exact ⟨.inl rfl, rfl⟩
  · cases h; exact ⟨.inl rfl, rfl⟩

theorem scanUnsigned_complete {a b e rest : List Char} (ha : Whole a) (hb : Fraction b) (he : Exponent e) (hr : Delim rest) :
    scanUnsigned (a ++ b ++ e ++ rest) = some (a ++ b ++ e, rest) := by
  have h1 : ∀ c r, e ++ rest = c :: r → isDigit c = false ∧ c ≠ '.' := by
    intro c r h
    rcases he with rfl | ⟨e, s, ds, h1, h2, h3, rfl⟩
    · exact ⟨(hr c r h).1, (hr c r h).2.1⟩
    · rw [List.cons_append, List.cons.injEq] at h
      rw [← h.1]
      rcases h1 with rfl | rfl <;> decide
  have h2 : ∀ c r, b ++ (e ++ rest) = c :: r → isDigit c = false := by
    intro c r h
    rcases hb with rfl | ⟨ds, h2, rfl⟩
    · exact (h1 c r h).1
    · rw [List.cons_append, List.cons.injEq] at h
      rw [← h.1]
      decide
  unfold scanUnsigned
  rw [List.append_assoc, List.append_assoc, scanWhole_complete ha h2]
  simp only [scanFraction_complete hb h1, scanExponent_complete he hr, Option.map_some]

theorem whole_head {a : List Char} (ha : Whole a) : ∃ c r, a = c :: r ∧ isDigit c = true := by
  rcases ha with rfl | ⟨hd, _⟩
  · exact ⟨_, _, rfl, rfl⟩
  · cases a with
    | nil => exact absurd rfl hd.1
    | cons c a => exact ⟨c, a, rfl, (isDigit_iff c).2 (hd.2 c List.mem_cons_self)⟩

theorem scanNumber_complete {l rest : List Char} (hl : Number l) (hr : Delim rest) : scanNumber (l ++ rest) = some (l, rest) := by
  obtain ⟨m, a, b, e, hm, ha, hb, he, rfl⟩ := hl
  have hu := scanUnsigned_complete ha hb he hr
  rcases hm with rfl | rfl
  · unfold scanNumber
    split
    · rename_i heq
      obtain ⟨c, r, rfl, hc⟩ := whole_head ha
      simp only [List.nil_append, List.cons_append, List.cons.injEq] at heq
      exact absurd heq.1 (digit_not hc).2.2.2.2.2.2.2.2.2.1
    · exact hu
  · rw [List.append_assoc, List.singleton_append, scanNumber, hu]
    rfl

theorem scanNumber_sound {t l rest : List Char} (h : scanNumber t = some (l, rest)) : Number l ∧ t = l ++ rest := by
  have key : ∀ {t l rest : List Char}, scanUnsigned t = some (l, rest) →
      ∃ a b c, Whole a ∧ Fraction b ∧ Exponent c ∧ l = a ++ b ++ c ∧ t = l ++ rest := by
    intro t l rest h
    unfold scanUnsigned at h
    split at h
    · cases h
    · rename_i a t1 h1
      split at h
      · cases h
      · rename_i b t2 h2
        rw [Option.map_eq_some_iff] at h
        obtain ⟨p, hp, h⟩ := h
        cases h
        obtain ⟨a1, rfl⟩ := scanWhole_sound h1
        obtain ⟨b1, rfl⟩ := scanFraction_sound h2
        obtain ⟨c1, rfl⟩ := scanExponent_sound hp
        exact ⟨a, b, _, a1, b1, c1, rfl, by simp⟩
  unfold scanNumber at h
  split at h
  · rw [Option.map_eq_some_iff] at h
    obtain ⟨p, hp, h⟩ := h
    cases h
    obtain ⟨a, b, c, ha, hb, hc, h1, h2⟩ := key hp
    exact ⟨⟨['-'], a, b, c, .inr rfl, ha, hb, hc, by rw [h1]; rfl⟩, by rw [h2]; rfl⟩
  · obtain ⟨a, b, c, ha, hb, hc, h1, h2⟩ := key h
    exact ⟨⟨[], a, b, c, .inl rfl, ha, hb, hc, h1⟩, h2⟩

/-! ### values -/

theorem number_head {l : List Char} (hl : Number l) : ∃ c r, l = c :: r ∧ (isDigit c = true ∨ c = '-') := by
  obtain ⟨m, a, b, e, hm, ha, hb, he, rfl⟩ := hl
  rcases hm with rfl | rfl
  · obtain ⟨c, r, rfl, hc⟩ := whole_head ha
    exact ⟨c, _, rfl, .inl hc⟩
  · exact ⟨'-', _, rfl, .inr rfl⟩

/-- The first character of a value. -/
theorem text_head {v : JVal} {t : List Char} (h : Text v t) : ∃ c r, t = c :: r ∧ isSpace c = false ∧ c ≠ ']' ∧ c ≠ '}' := by
  cases h with
  | num h =>
    obtain ⟨c, r, rfl, hc | rfl⟩ := number_head h
    · have := digit_not hc
      exact ⟨c, r, rfl, this.1, this.2.1, this.2.2.1⟩
    · exact ⟨_, _, rfl, rfl, by decide, by decide⟩
  | _ => exact ⟨_, _, rfl, rfl, by decide, by decide⟩

theorem delim_cons {w : List Char} {c : Char} (r : List Char) (hw : Ws w) (hc : isDigit c = false ∧ c ≠ '.' ∧ c ≠ 'e' ∧ c ≠ 'E') :
    Delim (w ++ c :: r) := by
  intro d r' h
  cases w with
  | nil => cases h; exact hc
  | cons x w =>
    rw [List.cons_append, List.cons.injEq] at h
    rw [← h.1]
    rcases hw x List.mem_cons_self with rfl | rfl | rfl | rfl <;> decide

theorem delim_ws {w : List Char} (hw : Ws w) : Delim w := by
  intro d r' h
  subst h
  rcases hw d List.mem_cons_self with rfl | rfl | rfl | rfl <;> decide

theorem scanValue_num (n : Nat) {t : List Char} {c : Char} {r : List Char} (ht : skipSpace t = c :: r) (hc : isDigit c = true ∨ c = '-') :
    scanValue (n + 1) t = (scanNumber (c :: r)).map fun p => (.num p.1, p.2) := by
  have hd : c ≠ 'n' ∧ c ≠ 't' ∧ c ≠ 'f' ∧ c ≠ '"' ∧ c ≠ '[' ∧ c ≠ '{' := by
    rcases hc with hc | rfl
    · have := digit_not hc; tauto
    · decide
  rw [scanValue, ht]
  split <;> simp_all

theorem scanValue_arr (n : Nat) {t r : List Char} {c : Char} {r' : List Char} (ht : skipSpace t = '[' :: r) (hr : skipSpace r = c :: r')
    (hc : c ≠ ']') : scanValue (n + 1) t = (scanItems n r).map fun p => (.arr p.1, p.2) := by
  rw [scanValue, ht]
  simp only
  split
  · rename_i heq
    rw [hr, List.cons.injEq] at heq
    exact absurd heq.1 hc
  · rfl

theorem scanValue_obj (n : Nat) {t r : List Char} {c : Char} {r' : List Char} (ht : skipSpace t = '{' :: r) (hr : skipSpace r = c :: r')
    (hc : c ≠ '}') : scanValue (n + 1) t = (scanFields n r).map fun p => (.obj p.1, p.2) := by
  rw [scanValue, ht]
  simp only
  split
  · rename_i heq
    rw [hr, List.cons.injEq] at heq
    exact absurd heq.1 hc
  · rfl

theorem items_head {vs : List JVal} {t : List Char} (h : Items vs t) (rest : List Char) :
    ∃ c r, skipSpace (t ++ rest) = c :: r ∧ c ≠ ']' := by
  cases h with
  | last hw ht hw' =>
    obtain ⟨c, r, rfl, h1, h2, _⟩ := text_head ht
    exact ⟨c, _, by rw [List.append_assoc, skip_ws hw]; exact skip_self h1, h2⟩
  | more hw ht hw' hs =>
    obtain ⟨c, r, rfl, h1, h2, _⟩ := text_head ht
    exact ⟨c, _, by rw [List.append_assoc, skip_ws hw]; exact skip_self h1, h2⟩

theorem fields_head {fs : List (List Char × JVal)} {t : List Char} (h : Fields fs t) (rest : List Char) :
    ∃ c r, skipSpace (t ++ rest) = c :: r ∧ c ≠ '}' := by
  cases h with
  | last hw hk hw1 hw2 ht hw' =>
    exact ⟨'"', _, by rw [List.append_assoc, skip_ws hw]; exact skip_self rfl, by decide⟩
  | more hw hk hw1 hw2 ht hw' hs =>
    exact ⟨'"', _, by rw [List.append_assoc, skip_ws hw]; exact skip_self rfl, by decide⟩

theorem scanValue_skip (n : Nat) {w : List Char} (t : List Char) (hw : Ws w) : scanValue n (w ++ t) = scanValue n t := by
  cases n with
  | zero => rw [scanValue, scanValue]
  | succ n => rw [scanValue, scanValue, skip_ws hw]

theorem scanFields_skip (n : Nat) {w : List Char} (t : List Char) (hw : Ws w) : scanFields n (w ++ t) = scanFields n t := by
  cases n with
  | zero => rw [scanFields, scanFields]
  | succ n => rw [scanFields, scanFields, skip_ws hw]

theorem text_pos {v : JVal} {t : List Char} (h : Text v t) : 1 ≤ t.length := by
  obtain ⟨c, r, rfl, _⟩ := text_head h
  simp

mutual
theorem scanValue_complete {v : JVal} {t : List Char} (h : Text v t) (n : Nat) (rest : List Char) (hn : 2 * t.length ≤ n)
    (hr : Delim rest) : scanValue n (t ++ rest) = some (v, rest) := by
  obtain ⟨n, rfl⟩ : ∃ m, n = m + 1 := ⟨n - 1, by have := text_pos h; omega⟩
  match h with
  | .null => simp only [List.cons_append, List.nil_append]; rw [scanValue, skip_self rfl]; rfl
  | .true => simp only [List.cons_append, List.nil_append]; rw [scanValue, skip_self rfl]; rfl
  | .false => simp only [List.cons_append, List.nil_append]; rw [scanValue, skip_self rfl]; rfl
  | .num h =>
    obtain ⟨c, r, rfl, hc⟩ := number_head h
    have hs : isSpace c = false := by
      rcases hc with hc | rfl
      · exact (digit_not hc).1
      · rfl
    have key := scanNumber_complete h hr
    rw [List.cons_append] at key ⊢
    rw [scanValue_num n (skip_self hs) hc, key]
    rfl
  | .str (l := l) h =>
    have e : '"' :: (l ++ ['"']) ++ rest = '"' :: (l ++ '"' :: rest) := by simp
    rw [e, scanValue, skip_self rfl]
    simp only [scanString_complete h, Option.map_some]
  | .emptyArr (w := w') h =>
    have e : '[' :: (w' ++ [']']) ++ rest = '[' :: (w' ++ ']' :: rest) := by simp
    rw [e, scanValue, skip_self rfl]
    simp only [skip_ws h, skip_self (by rfl : isSpace ']' = false)]
  | .emptyObj (w := w') h =>
    have e : '{' :: (w' ++ ['}']) ++ rest = '{' :: (w' ++ '}' :: rest) := by simp
    rw [e, scanValue, skip_self rfl]
    simp only [skip_ws h, skip_self (by rfl : isSpace '}' = false)]
  | .arr (t := t) h =>
    obtain ⟨c, r, h1, h2⟩ := items_head h rest
    rw [List.cons_append, scanValue_arr n (skip_self rfl) h1 h2, scanItems_complete h n rest (by rw [List.length_cons] at hn; omega)]
    rfl
  | .obj (t := t) h =>
    obtain ⟨c, r, h1, h2⟩ := fields_head h rest
    rw [List.cons_append, scanValue_obj n (skip_self rfl) h1 h2, scanFields_complete h n rest (by rw [List.length_cons] at hn; omega)]
    rfl

theorem scanItems_complete {vs : List JVal} {t : List Char} (h : Items vs t) (n : Nat) (rest : List Char) (hn : 2 * t.length ≤ n) :
    scanItems n (t ++ rest) = some (vs, rest) := by
  match h with
  | .last (w := w) (t := t) (w' := w') hw ht hw' =>
    simp only [List.length_append, List.length_cons, List.length_nil] at hn
    obtain ⟨n, rfl⟩ : ∃ m, n = m + 1 := ⟨n - 1, by omega⟩
    have e : w ++ (t ++ (w' ++ [']'])) ++ rest = w ++ (t ++ (w' ++ ']' :: rest)) := by simp
    rw [scanItems, e, scanValue_skip n _ hw, scanValue_complete ht n _ (by omega) (delim_cons rest hw' (by decide))]
    simp only [skip_ws hw', skip_self (by rfl : isSpace ']' = false)]
  | .more (w := w) (t := t) (w' := w') (ts := ts) hw ht hw' hs =>
    simp only [List.length_append, List.length_cons] at hn
    obtain ⟨n, rfl⟩ : ∃ m, n = m + 1 := ⟨n - 1, by omega⟩
    have e : w ++ (t ++ (w' ++ ',' :: ts)) ++ rest = w ++ (t ++ (w' ++ ',' :: (ts ++ rest))) := by simp
    rw [scanItems, e, scanValue_skip n _ hw, scanValue_complete ht n _ (by omega) (delim_cons _ hw' (by decide))]
    simp only [skip_ws hw', skip_self (by rfl : isSpace ',' = false), scanItems_complete hs n rest (by omega), Option.map_some]

theorem scanFields_complete {fs : List (List Char × JVal)} {t : List Char} (h : Fields fs t) (n : Nat) (rest : List Char)
    (hn : 2 * t.length ≤ n) : scanFields n (t ++ rest) = some (fs, rest) := by
  match h with
  | .last (k := k) (w := w) (w1 := w1) (w2 := w2) (t := t) (w' := w') hw hk hw1 hw2 ht hw' =>
    simp only [List.length_append, List.length_cons, List.length_nil] at hn
    obtain ⟨n, rfl⟩ : ∃ m, n = m + 1 := ⟨n - 1, by omega⟩
    have e : w ++ '"' :: (k ++ '"' :: (w1 ++ ':' :: (w2 ++ (t ++ (w' ++ ['}']))))) ++ rest =
        w ++ '"' :: (k ++ '"' :: (w1 ++ ':' :: (w2 ++ (t ++ (w' ++ '}' :: rest))))) := by simp
    rw [e, scanFields_skip _ _ hw, scanFields, skip_self rfl]
    simp only [scanString_complete hk, skip_ws hw1, skip_self (by rfl : isSpace ':' = false), scanValue_skip n _ hw2,
      scanValue_complete ht n _ (by omega) (delim_cons (c := '}') rest hw' (by decide)), skip_ws hw', skip_self (by rfl : isSpace '}' = false)]
  | .more (k := k) (w := w) (w1 := w1) (w2 := w2) (t := t) (w' := w') (ts := ts) hw hk hw1 hw2 ht hw' hs =>
    simp only [List.length_append, List.length_cons] at hn
    obtain ⟨n, rfl⟩ : ∃ m, n = m + 1 := ⟨n - 1, by omega⟩
    have e : w ++ '"' :: (k ++ '"' :: (w1 ++ ':' :: (w2 ++ (t ++ (w' ++ ',' :: ts))))) ++ rest =
        w ++ '"' :: (k ++ '"' :: (w1 ++ ':' :: (w2 ++ (t ++ (w' ++ ',' :: (ts ++ rest)))))) := by simp
    rw [e, scanFields_skip _ _ hw, scanFields, skip_self rfl]
    simp only [scanString_complete hk, skip_ws hw1, skip_self (by rfl : isSpace ':' = false), scanValue_skip n _ hw2,
      scanValue_complete ht n _ (by omega) (delim_cons (c := ',') (ts ++ rest) hw' (by decide)), skip_ws hw', skip_self (by rfl : isSpace ',' = false),
      scanFields_complete hs n rest (by omega), Option.map_some]
end

theorem scan_all (n : Nat) :
    (∀ t v rest, scanValue n t = some (v, rest) → ∃ w u, Ws w ∧ Text v u ∧ t = w ++ (u ++ rest)) ∧
    (∀ t vs rest, scanItems n t = some (vs, rest) → ∃ u, Items vs u ∧ t = u ++ rest) ∧
    (∀ t fs rest, scanFields n t = some (fs, rest) → ∃ u, Fields fs u ∧ t = u ++ rest) := by
  induction n with
  | zero => refine ⟨?_, ?_, ?_⟩ <;> · intro t v rest h; simp [scanValue, scanItems, scanFields] at h
  | succ n ih =>
    obtain ⟨ih1, ih2, ih3⟩ := ih
    refine ⟨?_, ?_, ?_⟩
    · intro t v rest h
      obtain ⟨w, hw, ht, -⟩ := ws_split t
      rw [scanValue] at h
      split at h
      · rename_i heq; cases h
        exact ⟨w, _, hw, .null, by rw [heq] at ht; exact ht⟩
      · rename_i heq; cases h
        exact ⟨w, _, hw, .true, by rw [heq] at ht; exact ht⟩
      · rename_i heq; cases h
        exact ⟨w, _, hw, .false, by rw [heq] at ht; exact ht⟩
      · rename_i heq
        rw [Option.map_eq_some_iff] at h
        obtain ⟨p, hp, h⟩ := h
        cases h
        obtain ⟨h1, h2⟩ := scanString_sound hp
        exact ⟨w, _, hw, .str h1, by rw [ht, heq, h2]; simp⟩
      · rename_i r heq
        obtain ⟨w', hw', ht', -⟩ := ws_split r
        split at h
        · rename_i heq'
          cases h
          exact ⟨w, _, hw, .emptyArr hw', by rw [ht, heq, ht', heq']; simp⟩
        · rw [Option.map_eq_some_iff] at h
          obtain ⟨p, hp, h⟩ := h
          cases h
          obtain ⟨u, h1, h2⟩ := ih2 _ _ _ hp
          exact ⟨w, _, hw, .arr h1, by rw [ht, heq, h2]; simp⟩
      · rename_i r heq
        obtain ⟨w', hw', ht', -⟩ := ws_split r
        split at h
        · rename_i heq'
          cases h
          exact ⟨w, _, hw, .emptyObj hw', by rw [ht, heq, ht', heq']; simp⟩
        · rw [Option.map_eq_some_iff] at h
          obtain ⟨p, hp, h⟩ := h
          cases h
          obtain ⟨u, h1, h2⟩ := ih3 _ _ _ hp
          exact ⟨w, _, hw, .obj h1, by rw [ht, heq, h2]; simp⟩
      · rw [Option.map_eq_some_iff] at h
        obtain ⟨p, hp, h⟩ := h
        cases h
        obtain ⟨h1, h2⟩ := scanNumber_sound hp
        exact ⟨w, _, hw, .num h1, by rw [← h2]; exact ht⟩
    · intro t vs rest h
      rw [scanItems] at h
      split at h
      · cases h
      · rename_i v r hv
        obtain ⟨w, u, hw, hu, rfl⟩ := ih1 _ _ _ hv
        obtain ⟨w', hw', ht', -⟩ := ws_split r
        split at h
        · rename_i heq
          cases h
          exact ⟨_, .last hw hu hw', by rw [ht', heq]; simp⟩
        · rename_i heq
          rw [Option.map_eq_some_iff] at h
          obtain ⟨p, hp, h⟩ := h
          cases h
          obtain ⟨u', h1, h2⟩ := ih2 _ _ _ hp
          exact ⟨_, .more hw hu hw' h1, by rw [ht', heq, h2]; simp⟩
        · cases h
    · intro t fs rest h
      obtain ⟨w, hw, ht, -⟩ := ws_split t
      rw [scanFields] at h
      split at h
      · rename_i heq
        split at h
        · cases h
        · rename_i k r hk
          obtain ⟨hk1, hk2⟩ := scanString_sound hk
          obtain ⟨w1, hw1, ht1, -⟩ := ws_split r
          split at h
          · rename_i heq1
            split at h
            · cases h
            · rename_i v r' hv
              obtain ⟨w2, u, hw2, hu, h2⟩ := ih1 _ _ _ hv
              obtain ⟨w', hw', ht', -⟩ := ws_split r'
              split at h
              · rename_i heq'
                cases h
                exact ⟨_, .last hw hk1 hw1 hw2 hu hw', by rw [ht, heq, hk2, ht1, heq1, h2, ht', heq']; simp⟩
              · rename_i heq'
                rw [Option.map_eq_some_iff] at h
                obtain ⟨p, hp, h⟩ := h
                cases h
                obtain ⟨u', h1, h3⟩ := ih3 _ _ _ hp
                exact ⟨_, .more hw hk1 hw1 hw2 hu hw' h1, by rw [ht, heq, hk2, ht1, heq1, h2, ht', heq', h3]; simp⟩
              · cases h
          · cases h
      · cases h

theorem skip_nil_iff (t : List Char) : skipSpace t = [] ↔ Ws t := by
  constructor
  · intro h
    obtain ⟨w, hw, ht, _⟩ := ws_split t
    rw [h, List.append_nil] at ht
    rw [ht]; exact hw
  · intro h
    have := skip_ws (t := []) h
    rw [List.append_nil] at this
    rw [this]; rfl

/-- The scanner reads exactly the JSON texts and returns their values, but for the nesting limit. -/
theorem scanText_iff (t : List Char) (v : JVal) : scanText t = some v ↔ JsonText v t := by
  constructor
  · intro h
    unfold scanText at h
    split at h
    · rename_i v' rest hv
      split_ifs at h with hs
      cases h
      obtain ⟨w, u, hw, hu, rfl⟩ := (scan_all _).1 _ _ _ hv
      exact ⟨w, u, rest, hw, hu, (skip_nil_iff rest).1 hs, rfl⟩
    · cases h
  · rintro ⟨w, u, w', hw, hu, hw', rfl⟩
    unfold scanText
    rw [scanValue_skip _ _ hw, scanValue_complete hu _ _ (by simp only [List.length_append]; omega) (delim_ws hw')]
    simp only [(skip_nil_iff w').2 hw', if_true]

theorem nestedWithin_iff (n : Nat) (v : JVal) : nestedWithin n v = true ↔ Nested n v := by
  induction n generalizing v with
  | zero =>
    cases v with
    | null => exact ⟨fun _ => .null _, fun _ => by simp [nestedWithin]⟩
    | bool b => exact ⟨fun _ => .bool _ _, fun _ => by simp [nestedWithin]⟩
    | num t => exact ⟨fun _ => .num _ _, fun _ => by simp [nestedWithin]⟩
    | str t => exact ⟨fun _ => .str _ _, fun _ => by simp [nestedWithin]⟩
    | arr vs => exact ⟨fun h => by simp [nestedWithin] at h, fun h => by cases h⟩
    | obj fs => exact ⟨fun h => by simp [nestedWithin] at h, fun h => by cases h⟩
  | succ n ih =>
    cases v with
    | null => exact ⟨fun _ => .null _, fun _ => by simp [nestedWithin]⟩
    | bool b => exact ⟨fun _ => .bool _ _, fun _ => by simp [nestedWithin]⟩
    | num t => exact ⟨fun _ => .num _ _, fun _ => by simp [nestedWithin]⟩
    | str t => exact ⟨fun _ => .str _ _, fun _ => by simp [nestedWithin]⟩
    | arr vs =>
      rw [nestedWithin, List.all_eq_true]
      constructor
      · exact fun h => .arr n vs fun v hv => (ih v).1 (h v hv)
      · intro h
        cases h with
        | arr _ _ h => exact fun v hv => (ih v).2 (h v hv)
    | obj fs =>
      rw [nestedWithin, List.all_eq_true]
      constructor
      · exact fun h => .obj n fs fun f hf => (ih f.2).1 (h f hf)
      · intro h
        cases h with
        | obj _ _ h => exact fun f hf => (ih f.2).2 (h f hf)

/-- The scanner accepts exactly the JSON texts that keep to the nesting limit and returns their values. -/
theorem scan_iff (t : List Char) (v : JVal) : scan t = some v ↔ JsonText v t ∧ Nested 10000 v := by
  rw [← scanText_iff, ← nestedWithin_iff, scan]
  constructor
  · intro h
    split at h
    · rename_i v' hv
      split_ifs at h with hn
      cases h
      exact ⟨hv, hn⟩
    · cases h
  · rintro ⟨h1, h2⟩
    rw [h1]
    exact if_pos h2

end Verif.Lemmas.Unmarshal
