import Verif.Spec.JsonDecode
import Verif.Lemmas.Unmarshal
/-
Strings, keys and fields of the JSON decoder.
-/
set_option autoImplicit false

namespace Verif.Lemmas.Unmarshal
open Verif.Go Verif.Model.Unmarshal Verif.Spec.Grammar Verif.Spec.Decode

/-! ### strings -/

theorem hexVal_table : ∀ n : Fin 128, ∀ v : Fin 16, hexVal (Char.ofNat n.val) = some v.val ↔
    (Char.ofNat n.val = Nat.digitChar v.val ∨ Char.ofNat n.val = (Nat.digitChar v.val).toUpper) := by decide +kernel

theorem hexVal_lt : ∀ n : Fin 128, ∀ v, hexVal (Char.ofNat n.val) = some v → v < 16 := by
  have : ∀ n : Fin 128, (hexVal (Char.ofNat n.val)).getD 0 < 16 := by decide +kernel
  intro n v h
  have := this n
  rw [h] at this
  exact this

theorem digitChar_lt : ∀ v : Fin 16, (Nat.digitChar v.val).toNat < 128 ∧ ((Nat.digitChar v.val).toUpper).toNat < 128 := by decide +kernel

theorem hexVal_iff (c : Char) (v : Nat) : hexVal c = some v ↔ IsHexDigit c v := by
  by_cases hc : c.toNat < 128
  · have e : Char.ofNat c.toNat = c := Char.ofNat_toNat c
    unfold IsHexDigit
    constructor
    · intro h
      have hv := hexVal_lt ⟨c.toNat, hc⟩ v (by rw [e]; exact h)
      have := (hexVal_table ⟨c.toNat, hc⟩ ⟨v, hv⟩).1 (by rw [e]; exact h)
      simp only [e] at this
      exact ⟨hv, this⟩
    · rintro ⟨hv, h⟩
      have := (hexVal_table ⟨c.toNat, hc⟩ ⟨v, hv⟩).2
      simp only [e] at this
      exact this h
  · constructor
    · intro h
      exfalso
      have key : ∀ d : Char, d.toNat < 128 → ¬ c ≤ d := fun d hd hle => by
        have : c.toNat ≤ d.toNat := hle
        omega
      unfold hexVal at h
      rw [if_neg fun h => key '9' (by decide) h.2, if_neg fun h => key 'f' (by decide) h.2, if_neg fun h => key 'F' (by decide) h.2] at h
      cases h
    · rintro ⟨hv, h⟩
      exfalso
      have := digitChar_lt ⟨v, hv⟩
      rcases h with rfl | rfl
      · exact hc this.1
      · exact hc this.2

theorem hex4_of {a b c d : Char} {p q r s : Nat} (h1 : IsHexDigit a p) (h2 : IsHexDigit b q) (h3 : IsHexDigit c r) (h4 : IsHexDigit d s) :
    hex4 a b c d = p * 4096 + q * 256 + r * 16 + s := by
  rw [← hexVal_iff] at h1 h2 h3 h4
  unfold hex4
  rw [h1, h2, h3, h4]
  simp only [Option.getD_some]
  ring

theorem isHex4_cons {x : List Char} {n : Nat} (h : IsHex4 x n) : ∃ a b c d, x = [a, b, c, d] ∧ hex4 a b c d = n ∧
    (Hex a ∧ Hex b ∧ Hex c ∧ Hex d) := by
  obtain ⟨a, b, c, d, p, q, r, s, h1, h2, h3, h4, rfl, rfl⟩ := h
  refine ⟨a, b, c, d, rfl, hex4_of h1 h2 h3 h4, ?_⟩
  rw [← hexVal_iff] at h1 h2 h3 h4
  simp only [← hex_iff, h1, h2, h3, h4, Option.isSome_some, and_self]

theorem isHex4_of {a b c d : Char} (h : Hex a ∧ Hex b ∧ Hex c ∧ Hex d) : IsHex4 [a, b, c, d] (hex4 a b c d) := by
  simp only [← hex_iff, Option.isSome_iff_exists] at h
  obtain ⟨⟨p, hp⟩, ⟨q, hq⟩, ⟨r, hr⟩, ⟨s, hs⟩⟩ := h
  rw [hexVal_iff] at hp hq hr hs
  exact ⟨a, b, c, d, p, q, r, s, hp, hq, hr, hs, rfl, hex4_of hp hq hr hs⟩

theorem unescape_plain {c : Char} {l : List Char} (h : c ≠ '\\') : unescape (c :: l) = .inl c :: unescape l := by
  rw [unescape.eq_3]
  · rintro a b c' d r h1 h2; exact absurd h1 h
  · rintro a b h1 h2; exact absurd h1 h

theorem short_table : ∀ p ∈ shortEscapes, p.1 ≠ 'u' ∧ (if p.1 = 'b' then Char.ofNat 8 else if p.1 = 'f' then Char.ofNat 12 else
    if p.1 = 'n' then '\n' else if p.1 = 'r' then '\r' else if p.1 = 't' then '\t' else p.1) = Char.ofNat p.2 := by decide

theorem unescape_short {c : Char} {n : Nat} {l : List Char} (h : (c, n) ∈ shortEscapes) :
    unescape ('\\' :: c :: l) = .inl (Char.ofNat n) :: unescape l := by
  obtain ⟨h1, h2⟩ := short_table _ h
  rw [unescape.eq_2]
  · rw [← h2]
  · intro a b c' d r hu; exact absurd hu h1

theorem join_inr {r : Nat} {rest : List (Char ⊕ Nat)} (h : ∀ r' t, rest = .inr r' :: t → ¬ (High r ∧ Low r')) :
    joinSurrogates (.inr r :: rest) = (if 0xD800 ≤ r ∧ r < 0xE000 then Char.ofNat 0xFFFD else Char.ofNat r) :: joinSurrogates rest := by
  match rest, h with
  | [], _ => rfl
  | .inl c :: t, _ => rfl
  | .inr r' :: t, h =>
    rw [joinSurrogates, if_neg]
    have := h r' t rfl
    unfold High Low at this
    omega

theorem means_inr {l s : List Char} (h : Means l s) {r : Nat} {t : List (Char ⊕ Nat)} (hu : unescape l = .inr r :: t) :
    ∃ y rest, IsHex4 y r ∧ l = '\\' :: 'u' :: (y ++ rest) := by
  have key : ∀ {x rest : List Char} {n : Nat}, IsHex4 x n → unescape ('\\' :: 'u' :: (x ++ rest)) = .inr r :: t → n = r := by
    intro x rest n hx hu
    obtain ⟨a, b, c, d, rfl, rfl, -⟩ := isHex4_cons hx
    simp only [List.cons_append, List.nil_append] at hu
    rw [unescape] at hu
    cases hu
    rfl
  cases h with
  | nil => cases hu
  | plain h _ => rw [unescape_plain h.2.1] at hu; cases hu
  | short h _ => rw [unescape_short h] at hu; cases hu
  | unicode h _ _ => exact ⟨_, _, key h hu ▸ h, rfl⟩
  | pair h _ _ _ _ => exact ⟨_, _, key h hu ▸ h, rfl⟩
  | lone h _ _ => exact ⟨_, _, key h hu ▸ h, rfl⟩

theorem unquote_means {raw s : List Char} (h : Means raw s) : unquote raw = s := by
  unfold unquote
  induction h with
  | nil => rfl
  | plain h _ ih => rw [unescape_plain h.2.1, joinSurrogates, ih]
  | short h _ ih => rw [unescape_short h, joinSurrogates, ih]
  | unicode h hn _ ih =>
    obtain ⟨a, b, c, d, rfl, rfl, -⟩ := isHex4_cons h
    simp only [List.cons_append, List.nil_append]
    rw [unescape, join_inr (by tauto), ih, if_neg]
    unfold High Low at hn
    omega
  | pair hx hm hy hn _ ih =>
    obtain ⟨a, b, c, d, rfl, rfl, -⟩ := isHex4_cons hx
    obtain ⟨a', b', c', d', rfl, rfl, -⟩ := isHex4_cons hy
    simp only [List.cons_append, List.nil_append]
    rw [unescape, unescape, joinSurrogates, if_pos, ih]
    unfold High at hm
    unfold Low at hn
    omega
  | @lone n x l s h hn hl ih =>
    obtain ⟨a, b, c, d, rfl, rfl, -⟩ := isHex4_cons h
    simp only [List.cons_append, List.nil_append]
    rw [unescape, join_inr, ih, if_pos]
    · unfold High Low at hn
      omega
    · intro r' t hr hc
      rcases hn with hn | ⟨hn, hno⟩
      · unfold High Low at *; omega
      · obtain ⟨y, rest, hy, hl'⟩ := means_inr hl hr
        exact hno y r' rest hy hc.2 hl'

theorem means_length (k : Nat) : ∀ raw, raw.length ≤ k → Chars raw → ∃ s, Means raw s := by
  induction k with
  | zero =>
    intro raw h _
    have : raw = [] := by rw [← List.length_eq_zero_iff]; omega
    exact ⟨[], this ▸ .nil⟩
  | succ k ih =>
    intro raw h hc
    cases hc with
    | nil => exact ⟨_, .nil⟩
    | unescaped h' t =>
      obtain ⟨s, hs⟩ := ih _ (by simp only [List.length_cons] at h; omega) t
      exact ⟨_, .plain h' hs⟩
    | @escape c l h' t =>
      obtain ⟨s, hs⟩ := ih _ (by simp only [List.length_cons] at h; omega) t
      have : ∀ c ∈ ['"', '\\', '/', 'b', 'f', 'n', 'r', 't'], ∃ p ∈ shortEscapes, p.1 = c := by decide
      obtain ⟨⟨c', n⟩, hp, rfl⟩ := this c h'
      exact ⟨_, .short hp hs⟩
    | @unicode a b c d l h' t =>
      simp only [List.length_cons] at h
      obtain ⟨s, hs⟩ := ih _ (by omega) t
      have hx := isHex4_of h'
      by_cases hh : High (hex4 a b c d)
      · by_cases hp : ∃ y m r, IsHex4 y m ∧ Low m ∧ l = '\\' :: 'u' :: (y ++ r)
        · obtain ⟨y, m, r, hy, hm, rfl⟩ := hp
          have hr : Chars r := by
            obtain ⟨a', b', c', d', rfl, -, -⟩ := isHex4_cons hy
            generalize hg : '\\' :: 'u' :: ([a', b', c', d'] ++ r) = g at t
            cases t with
            | nil => cases hg
            | unescaped h _ => cases hg; exact absurd rfl h.2.1
            | escape h _ => cases hg; simp at h
            | unicode h t => cases hg; exact t
          simp only [List.length_append, List.length_cons] at h
          obtain ⟨s', hs'⟩ := ih r (by omega) hr
          exact ⟨_, .pair hx hh hy hm hs'⟩
        · exact ⟨_, .lone hx (.inr ⟨hh, fun y m r hy hm he => hp ⟨y, m, r, hy, hm, he⟩⟩) hs⟩
      · by_cases hl : Low (hex4 a b c d)
        · exact ⟨_, .lone hx (.inl hl) hs⟩
        · exact ⟨_, .unicode hx ⟨hh, hl⟩ hs⟩

/-- A string of the grammar means what `unquote` makes of it. -/
theorem means_iff {raw : List Char} (h : Chars raw) (s : List Char) : Means raw s ↔ unquote raw = s := by
  constructor
  · exact unquote_means
  · rintro rfl
    obtain ⟨s, hs⟩ := means_length _ raw le_rfl h
    rw [unquote_means hs]
    exact hs

theorem fold_table : ∀ n : Fin 128, foldChar (Char.ofNat n.val) = caseless (Char.ofNat n.val) := by decide +kernel

theorem foldChar_eq (c : Char) : foldChar c = caseless c := by
  by_cases hc : c.toNat < 128
  · have := fold_table ⟨c.toNat, hc⟩
    simp only [Char.ofNat_toNat] at this
    exact this
  · have key : ∀ d : Char, d.toNat < 128 → ¬ c ≤ d := fun d hd hle => by
      have : c.toNat ≤ d.toNat := hle
      omega
    have hl : c.toLower = c := by
      unfold Char.toLower
      rw [dif_neg]
      rintro ⟨-, h⟩
      have : c.toNat ≤ 90 := h
      omega
    unfold foldChar caseless
    rw [if_neg fun h => key 'Z' (by decide) h.2, hl]

/-- A key names a field as the specification says. -/
theorem sameName_iff {key : List Char} (h : Chars key) (name : String) : sameName key name = true ↔ Named key name := by
  unfold sameName Named
  have e : foldChar = caseless := funext foldChar_eq
  rw [e, beq_iff_eq]
  constructor
  · intro hn
    exact ⟨_, (means_iff h _).2 rfl, hn⟩
  · rintro ⟨s, hs, hn⟩
    rw [(means_iff h _).1 hs]
    exact hn

end Verif.Lemmas.Unmarshal
