import Mathlib.Tactic.Common
import Verif.Model.Utf8
import Verif.Spec.Utf8
/-
Helper lemmas: the reading of UTF-8.
-/
set_option autoImplicit false

namespace Verif.Lemmas.Utf8
open Verif.Model.Utf8 Verif.Spec.Utf8

theorem char_range (c : Char) : c.toNat < 0xD800 ∨ (0xDFFF < c.toNat ∧ c.toNat < 0x110000) := c.valid

theorem encode_cases (c : Char) :
    (c.toNat < 0x80 ∧ encodeChar c = [c.toNat]) ∨
    (0x80 ≤ c.toNat ∧ c.toNat < 0x800 ∧ encodeChar c = [0xC0 + c.toNat / 0x40, 0x80 + c.toNat % 0x40]) ∨
    (0x800 ≤ c.toNat ∧ c.toNat < 0x10000 ∧ encodeChar c = [0xE0 + c.toNat / 0x1000, 0x80 + c.toNat / 0x40 % 0x40, 0x80 + c.toNat % 0x40]) ∨
    (0x10000 ≤ c.toNat ∧ encodeChar c = [0xF0 + c.toNat / 0x40000, 0x80 + c.toNat / 0x1000 % 0x40, 0x80 + c.toNat / 0x40 % 0x40, 0x80 + c.toNat % 0x40]) := by
  unfold encodeChar
  by_cases h1 : c.toNat < 0x80
  · exact .inl ⟨h1, by simp only [h1, if_true]⟩
  by_cases h2 : c.toNat < 0x800
  · exact .inr (.inl ⟨by omega, h2, by simp only [h1, h2, if_true, if_false]⟩)
  by_cases h3 : c.toNat < 0x10000
  · exact .inr (.inr (.inl ⟨by omega, h3, by simp only [h1, h2, h3, if_true, if_false]⟩))
  · exact .inr (.inr (.inr ⟨by omega, by simp only [h1, h2, h3, if_false]⟩))

theorem decodeRune_complete (c : Char) (rest : List Nat) : decodeRune (encodeChar c ++ rest) = some (c.toNat, (encodeChar c).length) := by
  have hc := char_range c
  rcases encode_cases c with ⟨h, e⟩ | ⟨h, h', e⟩ | ⟨h, h', e⟩ | ⟨h, e⟩ <;> rw [e] <;> generalize c.toNat = n at *
  · simp only [List.cons_append, List.nil_append, decodeRune, if_pos h, List.length_cons, List.length_nil]
  · simp only [List.cons_append, List.nil_append, decodeRune]
    rw [if_neg (by omega), if_neg (by omega), if_pos (by omega), if_pos, show (0xC0 + n / 0x40) % 0x20 * 0x40 + (0x80 + n % 0x40) % 0x40 = n by omega]
    · rfl
    · simp only [acceptSecond, Bool.and_eq_true, decide_eq_true_eq]
      split_ifs <;> omega
  · simp only [List.cons_append, List.nil_append, decodeRune]
    rw [if_neg (by omega), if_neg (by omega), if_neg (by omega), if_pos (by omega), if_pos,
      show (0xE0 + n / 0x1000) % 0x10 * 0x1000 + (0x80 + n / 0x40 % 0x40) % 0x40 * 0x40 + (0x80 + n % 0x40) % 0x40 = n by omega]
    · rfl
    · simp only [acceptSecond, continues, Bool.and_eq_true, decide_eq_true_eq]
      split_ifs <;> omega
  · simp only [List.cons_append, List.nil_append, decodeRune]
    rw [if_neg (by omega), if_neg (by omega), if_neg (by omega), if_neg (by omega), if_pos (by omega), if_pos,
      show (0xF0 + n / 0x40000) % 0x08 * 0x40000 + (0x80 + n / 0x1000 % 0x40) % 0x40 * 0x1000 + (0x80 + n / 0x40 % 0x40) % 0x40 * 0x40 +
        (0x80 + n % 0x40) % 0x40 = n by omega]
    · rfl
    · simp only [acceptSecond, continues, Bool.and_eq_true, decide_eq_true_eq]
      split_ifs <;> omega

theorem toNat_ofNat (n : Nat) (h : n < 0xD800 ∨ (0xDFFF < n ∧ n < 0x110000)) : (Char.ofNat n).toNat = n := by
  have hv : n.isValidChar := h
  rw [Char.ofNat, dif_pos hv]
  rfl

theorem decodeRune_sound {bytes : List Nat} {r width : Nat} (h : decodeRune bytes = some (r, width)) :
    (Char.ofNat r).toNat = r ∧ (encodeChar (Char.ofNat r)).length = width ∧ encodeChar (Char.ofNat r) <+: bytes := by
  have key : ∀ n : Nat, (n < 0xD800 ∨ (0xDFFF < n ∧ n < 0x110000)) →
      (∀ c : Char, c.toNat = n → encodeChar c <+: bytes ∧ (encodeChar c).length = width) → r = n →
      (Char.ofNat r).toNat = r ∧ (encodeChar (Char.ofNat r)).length = width ∧ encodeChar (Char.ofNat r) <+: bytes := by
    intro n hn hc hr
    subst hr
    have e := toNat_ofNat r hn
    have := hc _ e
    exact ⟨e, this.2, this.1⟩
  match bytes, h with
  | b :: rest, h =>
    unfold decodeRune at h
    dsimp only at h
    split_ifs at h with h1 h2 h3 h4 h5
    · simp only [Option.some.injEq, Prod.mk.injEq] at h
      obtain ⟨rfl, rfl⟩ := h
      refine key b (by omega) (fun c hc => ?_) rfl
      rcases encode_cases c with ⟨h, e⟩ | ⟨h, h', e⟩ | ⟨h, h', e⟩ | ⟨h, e⟩ <;> first | omega | skip
      rw [e, hc]
      exact ⟨⟨rest, rfl⟩, rfl⟩
    · split at h
      · rename_i x t
        split_ifs at h with ha
        simp only [acceptSecond, Bool.and_eq_true, decide_eq_true_eq] at ha
        simp only [Option.some.injEq, Prod.mk.injEq] at h
        obtain ⟨rfl, rfl⟩ := h
        rw [if_neg (by omega), if_neg (by omega), if_neg (by omega), if_neg (by omega)] at ha
        refine key _ (by omega) (fun c hc => ?_) rfl
        rcases encode_cases c with ⟨h, e⟩ | ⟨h, h', e⟩ | ⟨h, h', e⟩ | ⟨h, e⟩ <;> first | omega | skip
        rw [e, hc, show 0xC0 + (b % 0x20 * 0x40 + x % 0x40) / 0x40 = b by omega, show 0x80 + (b % 0x20 * 0x40 + x % 0x40) % 0x40 = x by omega]
        exact ⟨⟨t, rfl⟩, rfl⟩
      · cases h
    · split at h
      · rename_i x y t
        split_ifs at h with ha
        simp only [acceptSecond, continues, Bool.and_eq_true, decide_eq_true_eq] at ha
        simp only [Option.some.injEq, Prod.mk.injEq] at h
        obtain ⟨rfl, rfl⟩ := h
        have hx : 0x80 ≤ x ∧ x ≤ 0xBF ∧ (b = 0xE0 → 0xA0 ≤ x) ∧ (b = 0xED → x ≤ 0x9F) := by
          obtain ⟨⟨ha1, ha2⟩, _⟩ := ha
          split_ifs at ha1 ha2 <;> omega
        refine key _ (by omega) (fun c hc => ?_) rfl
        rcases encode_cases c with ⟨h, e⟩ | ⟨h, h', e⟩ | ⟨h, h', e⟩ | ⟨h, e⟩ <;> first | omega | skip
        rw [e, hc, show 0xE0 + (b % 0x10 * 0x1000 + x % 0x40 * 0x40 + y % 0x40) / 0x1000 = b by omega,
          show 0x80 + (b % 0x10 * 0x1000 + x % 0x40 * 0x40 + y % 0x40) / 0x40 % 0x40 = x by omega,
          show 0x80 + (b % 0x10 * 0x1000 + x % 0x40 * 0x40 + y % 0x40) % 0x40 = y by omega]
        exact ⟨⟨t, rfl⟩, rfl⟩
      · cases h
    · split at h
      · rename_i x y z t
        split_ifs at h with ha
        simp only [acceptSecond, continues, Bool.and_eq_true, decide_eq_true_eq] at ha
        simp only [Option.some.injEq, Prod.mk.injEq] at h
        obtain ⟨rfl, rfl⟩ := h
        have hx : 0x80 ≤ x ∧ x ≤ 0xBF ∧ (b = 0xF0 → 0x90 ≤ x) ∧ (b = 0xF4 → x ≤ 0x8F) := by
          obtain ⟨⟨⟨ha1, ha2⟩, _⟩, _⟩ := ha
          split_ifs at ha1 ha2 <;> omega
        refine key _ (by omega) (fun c hc => ?_) rfl
        rcases encode_cases c with ⟨h, e⟩ | ⟨h, h', e⟩ | ⟨h, h', e⟩ | ⟨h, e⟩ <;> first | omega | skip
        rw [e, hc, show 0xF0 + (b % 0x08 * 0x40000 + x % 0x40 * 0x1000 + y % 0x40 * 0x40 + z % 0x40) / 0x40000 = b by omega,
          show 0x80 + (b % 0x08 * 0x40000 + x % 0x40 * 0x1000 + y % 0x40 * 0x40 + z % 0x40) / 0x1000 % 0x40 = x by omega,
          show 0x80 + (b % 0x08 * 0x40000 + x % 0x40 * 0x1000 + y % 0x40 * 0x40 + z % 0x40) / 0x40 % 0x40 = y by omega,
          show 0x80 + (b % 0x08 * 0x40000 + x % 0x40 * 0x1000 + y % 0x40 * 0x40 + z % 0x40) % 0x40 = z by omega]
        exact ⟨⟨t, rfl⟩, rfl⟩
      · cases h

theorem encodeChar_ne_nil (c : Char) : encodeChar c ≠ [] := by
  rcases encode_cases c with ⟨h, e⟩ | ⟨h, h', e⟩ | ⟨h, h', e⟩ | ⟨h, e⟩ <;> rw [e] <;> simp

theorem decodeSteps_reads (n : Nat) (bytes : List Nat) (h : bytes.length ≤ n) : Reads bytes (decodeSteps n bytes) := by
  induction n generalizing bytes with
  | zero =>
    cases bytes with
    | nil => exact .nil
    | cons b rest => simp at h
  | succ n ih =>
    cases bytes with
    | nil => exact .nil
    | cons b rest =>
      rw [List.length_cons] at h
      rw [decodeSteps]
      split
      · rename_i r width hd
        obtain ⟨h1, h2, t, ht⟩ := decodeRune_sound hd
        have hne := List.length_pos_iff.2 (encodeChar_ne_nil (Char.ofNat r))
        have hdrop : rest.drop (width - 1) = t := by
          have : (b :: rest).drop width = t := by
            rw [← ht, ← h2, List.drop_left]
          rw [show width = (width - 1) + 1 by omega, List.drop_succ_cons] at this
          exact this
        rw [hdrop, ← ht]
        refine .char _ _ _ (ih t ?_)
        have := congrArg List.length ht
        simp only [List.length_append, List.length_cons] at this
        omega
      · rename_i hd
        refine .wrong _ _ _ ?_ (ih rest (by omega))
        rintro c ⟨t, ht⟩
        rw [← ht, decodeRune_complete] at hd
        cases hd

theorem reads_unique {bytes : List Nat} {text text' : List Char} (h : Reads bytes text) (h' : Reads bytes text') : text = text' := by
  induction h generalizing text' with
  | nil =>
    generalize hb : ([] : List Nat) = b at h'
    cases h' with
    | nil => rfl
    | char c _ _ _ =>
      have := congrArg List.length hb
      have := List.length_pos_iff.2 (encodeChar_ne_nil c)
      simp only [List.length_nil, List.length_append] at *
      omega
    | wrong => cases hb
  | char c bytes text h ih =>
    generalize hb : encodeChar c ++ bytes = b at h'
    cases h' with
    | nil =>
      have := congrArg List.length hb
      have := List.length_pos_iff.2 (encodeChar_ne_nil c)
      simp only [List.length_nil, List.length_append] at *
      omega
    | char c' bytes' text' h' =>
      have e1 := decodeRune_complete c bytes
      rw [hb, decodeRune_complete c' bytes', Option.some.injEq, Prod.mk.injEq] at e1
      have hcc : c' = c := by
        have := congrArg Char.ofNat e1.1
        rwa [Char.ofNat_toNat, Char.ofNat_toNat] at this
      subst hcc
      rw [List.append_cancel_left hb] at ih
      rw [ih h']
    | wrong x bytes' text' hx h' => exact absurd ⟨bytes, hb⟩ (hx c)
  | wrong x bytes text hx h ih =>
    generalize hb : x :: bytes = b at h'
    cases h' with
    | nil => cases hb
    | char c bytes' text' h' => exact absurd ⟨bytes', hb.symm⟩ (hx c)
    | wrong x' bytes' text' hx' h' =>
      cases hb
      rw [ih h']

/-- The reading of UTF-8. -/
theorem decodeUtf8_iff (bytes : List Nat) (text : List Char) : decodeUtf8 bytes = text ↔ Reads bytes text := by
  constructor
  · rintro rfl
    exact decodeSteps_reads _ _ (Nat.le_refl _)
  · exact fun h => reads_unique (decodeSteps_reads _ _ (Nat.le_refl _)) h

theorem reads_encode (text : List Char) : Reads (encode text) text := by
  induction text with
  | nil => exact .nil
  | cons c text ih => exact .char c _ _ ih

theorem decode_encode (text : List Char) : decodeUtf8 (encode text) = text := (decodeUtf8_iff _ _).2 (reads_encode text)

theorem decode_ascii (bytes : List Nat) (h : ∀ b ∈ bytes, b < 128) : decodeUtf8 bytes = bytes.map Char.ofNat := by
  rw [decodeUtf8_iff]
  induction bytes with
  | nil => exact .nil
  | cons b rest ih =>
    have hb := h b (by simp)
    have e := toNat_ofNat b (by omega)
    have he : encodeChar (Char.ofNat b) = [b] := by
      unfold encodeChar
      rw [e]
      exact if_pos hb
    have := Reads.char (Char.ofNat b) rest _ (ih fun x hx => h x (by simp [hx]))
    rw [he] at this
    exact this

end Verif.Lemmas.Utf8
