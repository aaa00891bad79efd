import Verif.Spec.Base64
import Verif.Lemmas.Inflate
/-
The base64 decoder of Model/Gzip.lean accepts exactly the texts of Spec/Base64.lean.
-/
set_option autoImplicit false

namespace Verif.Lemmas.Base64
open Verif.Model.Gzip
open Verif.Spec.Base64 (alphabet char stream IsBase64 encode)
open Verif.Spec.Deflate (bitsOfNum lsb)
open Verif.Lemmas.Deflate (lsb_bitsOfNum length_bitsOfNum)

theorem b64val_char (v : Nat) (h : v < 64) : b64val (char v) = some v := by
  have : ∀ v < 64, b64val (char v) = some v := by decide +kernel
  exact this v h

theorem b64val_some {c v : Nat} (h : b64val c = some v) : v < 64 ∧ c = char v := by
  have key : ∀ c < 123, ∀ v ∈ (b64val c).toList, v < 64 ∧ c = char v := by decide +kernel
  have hc : c < 123 := by
    by_contra hc
    rw [b64val, if_neg (by omega), if_neg (by omega), if_neg (by omega), if_neg (by omega), if_neg (by omega)] at h
    simp at h
  exact key c hc v (by rw [h]; simp)

theorem char_ne {v : Nat} (h : v < 64) : char v ≠ 61 := by
  have : ∀ v < 64, char v ≠ 61 := by decide +kernel
  exact this v h

theorem char_end {v : Nat} (h : v < 64) : char v ≠ 10 ∧ char v ≠ 13 := by
  have : ∀ v < 64, char v ≠ 10 ∧ char v ≠ 13 := by decide +kernel
  exact this v h

/-! ### bits -/

theorem stream_cons (n v : Nat) (l : List Nat) : stream n (v :: l) = (bitsOfNum n v).reverse ++ stream n l := rfl

theorem length_stream (n : Nat) (l : List Nat) : (stream n l).length = n * l.length := by
  induction l with
  | nil => simp [stream]
  | cons v l ih => rw [stream_cons, List.length_append, List.length_reverse, length_bitsOfNum, ih, List.length_cons]; ring

theorem stream_injective {a b : List Nat} (ha : ∀ x ∈ a, x < 256) (hb : ∀ x ∈ b, x < 256) (hl : a.length = b.length) (h : stream 8 a = stream 8 b) :
    a = b := by
  induction a generalizing b with
  | nil => exact (List.eq_nil_of_length_eq_zero hl.symm).symm
  | cons x a ih =>
    match b, hl with
    | y :: b, hl =>
      rw [stream_cons, stream_cons] at h
      obtain ⟨h1, h2⟩ := List.append_inj h (by simp [length_bitsOfNum])
      have hxy : x = y := by
        have := congrArg lsb (List.reverse_inj.1 h1)
        rw [lsb_bitsOfNum, lsb_bitsOfNum, Nat.mod_eq_of_lt (show x < 2 ^ 8 from ha x (by simp)),
          Nat.mod_eq_of_lt (show y < 2 ^ 8 from hb y (by simp))] at this
        exact this
      rw [hxy, ih (fun z hz => ha z (by simp [hz])) (fun z hz => hb z (by simp [hz])) (by simpa using hl) h2]

def b6 (v : Nat) : List Bool := (bitsOfNum 6 v).reverse
def b8 (v : Nat) : List Bool := (bitsOfNum 8 v).reverse

theorem first_byte : ∀ x < 64, ∀ y < 64, b8 (x * 4 + y / 16) = b6 x ++ (b6 y).take 2 := by decide +kernel
theorem second_byte : ∀ y < 64, ∀ z < 64, b8 (y % 16 * 16 + z / 4) = (b6 y).drop 2 ++ (b6 z).take 4 := by decide +kernel
theorem third_byte : ∀ z < 64, ∀ w < 64, b8 (z % 4 * 64 + w) = (b6 z).drop 4 ++ b6 w := by decide +kernel

theorem length_b6 (v : Nat) : (b6 v).length = 6 := by rw [b6, List.length_reverse, length_bitsOfNum]

/-! ### decoding -/

/-- What a decoded text has to satisfy. -/
def Good (vs : List Nat) (pads : Nat) (data : List Nat) : Prop :=
  (∀ b ∈ data, b < 256) ∧ 8 * data.length + 2 * pads = 6 * vs.length ∧ stream 8 data = (stream 6 vs).take (8 * data.length)

theorem good_unique {vs : List Nat} {pads : Nat} {a b : List Nat} (ha : Good vs pads a) (hb : Good vs pads b) : a = b := by
  have hl : a.length = b.length := by have := ha.2.1; have := hb.2.1; omega
  exact stream_injective ha.1 hb.1 hl (by rw [ha.2.2, hb.2.2, hl])

theorem groups_good : ∀ (vs : List Nat) (pads : Nat), (∀ v ∈ vs, v < 64) → pads ≤ 2 → (vs.length + pads) % 4 = 0 →
    ∃ data, b64groups (vs.map char ++ List.replicate pads 61) = some data ∧ Good vs pads data
  | [], pads, _, h2, h3 => by
    simp only [List.length_nil, Nat.zero_add] at h3
    have : pads = 0 := by omega
    subst this
    exact ⟨[], rfl, by simp, rfl, rfl⟩
  | [a], pads, _, h2, h3 => by simp only [List.length_cons, List.length_nil] at h3; omega
  | [x, y], pads, h1, h2, h3 => by
    simp only [List.length_cons, List.length_nil] at h3
    have : pads = 2 := by omega
    subst this
    have hx := h1 x (by simp)
    have hy := h1 y (by simp)
    refine ⟨[x * 4 + y / 16], ?_, ?_, rfl, ?_⟩
    · simp [b64groups, b64val_char x hx, b64val_char y hy, List.replicate]
    · intro b hb
      rw [List.mem_singleton.1 hb]; omega
    · rw [stream_cons, stream_cons, stream_cons]
      show b8 _ ++ [] = (b6 x ++ (b6 y ++ [])).take 8
      rw [first_byte x hx y hy, List.append_nil, List.append_nil, List.take_append, length_b6, List.take_of_length_le (l := b6 x) (i := 8) (by rw [length_b6]; omega)]
  | [x, y, z], pads, h1, h2, h3 => by
    simp only [List.length_cons, List.length_nil] at h3
    have : pads = 1 := by omega
    subst this
    have hx := h1 x (by simp)
    have hy := h1 y (by simp)
    have hz := h1 z (by simp)
    refine ⟨[x * 4 + y / 16, y % 16 * 16 + z / 4], ?_, ?_, rfl, ?_⟩
    · simp [b64groups, b64val_char x hx, b64val_char y hy, b64val_char z hz, char_ne hz, List.replicate]
    · intro b hb
      simp only [List.mem_cons, List.not_mem_nil, or_false] at hb
      rcases hb with rfl | rfl <;> omega
    · simp only [stream_cons]
      show b8 _ ++ (b8 _ ++ []) = (b6 x ++ (b6 y ++ (b6 z ++ []))).take 16
      rw [first_byte x hx y hy, second_byte y hy z hz, List.append_nil, List.append_nil, List.take_append, length_b6,
        List.take_append, length_b6, List.take_of_length_le (l := b6 x) (i := 16) (by rw [length_b6]; omega),
        List.take_of_length_le (l := b6 y) (i := 16 - 6) (by rw [length_b6]; omega)]
      simp only [← List.append_assoc]
      rw [List.append_assoc (b6 x), List.take_append_drop]
  | x :: y :: z :: w :: vs, pads, h1, h2, h3 => by
    have hx := h1 x (by simp)
    have hy := h1 y (by simp)
    have hz := h1 z (by simp)
    have hw := h1 w (by simp)
    simp only [List.length_cons] at h3
    obtain ⟨data, e, g1, g2, g3⟩ := groups_good vs pads (fun v hv => h1 v (by simp [hv])) h2 (by omega)
    refine ⟨(x * 4 + y / 16) :: (y % 16 * 16 + z / 4) :: (z % 4 * 64 + w) :: data, ?_, ?_, ?_, ?_⟩
    · simp only [List.map_cons, List.cons_append]
      rw [b64groups, b64val_char x hx, b64val_char y hy]
      dsimp only
      rw [if_neg (char_ne hw), b64val_char z hz, b64val_char w hw]
      dsimp only
      rw [e]; rfl
    · intro b hb
      simp only [List.mem_cons] at hb
      rcases hb with rfl | rfl | rfl | hb
      · omega
      · omega
      · omega
      · exact g1 b hb
    · simp only [List.length_cons]; omega
    · simp only [stream_cons, g3]
      show b8 _ ++ (b8 _ ++ (b8 _ ++ _)) = (b6 x ++ (b6 y ++ (b6 z ++ (b6 w ++ stream 6 vs)))).take _
      rw [first_byte x hx y hy, second_byte y hy z hz, third_byte z hz w hw]
      have e1 : b6 x ++ List.take 2 (b6 y) ++ (List.drop 2 (b6 y) ++ List.take 4 (b6 z) ++ (List.drop 4 (b6 z) ++ b6 w ++
          List.take (8 * data.length) (stream 6 vs))) = b6 x ++ (b6 y ++ (b6 z ++ (b6 w ++ List.take (8 * data.length) (stream 6 vs)))) := by
        conv_rhs => rw [← List.take_append_drop 2 (b6 y), ← List.take_append_drop 4 (b6 z)]
        simp only [List.append_assoc]
      rw [e1]
      simp only [List.length_cons, List.take_append, length_b6]
      rw [List.take_of_length_le (l := b6 x) (by rw [length_b6]; omega), List.take_of_length_le (l := b6 y) (by rw [length_b6]; omega),
        List.take_of_length_le (l := b6 z) (by rw [length_b6]; omega), List.take_of_length_le (l := b6 w) (by rw [length_b6]; omega)]
      congr 5

theorem groups_shape : ∀ (l data : List Nat), b64groups l = some data →
    ∃ (vs : List Nat) (pads : Nat), l = vs.map char ++ List.replicate pads 61 ∧ (∀ v ∈ vs, v < 64) ∧ pads ≤ 2 ∧ (vs.length + pads) % 4 = 0
  | [], _, _ => ⟨[], 0, rfl, by simp, by omega, rfl⟩
  | [_], _, h => by simp [b64groups] at h
  | [_, _], _, h => by simp [b64groups] at h
  | [_, _, _], _, h => by simp [b64groups] at h
  | a :: b :: c :: d :: rest, data, h => by
    rw [b64groups] at h
    split at h
    · rename_i x y ha hb
      obtain ⟨hx, rfl⟩ := b64val_some ha
      obtain ⟨hy, rfl⟩ := b64val_some hb
      split at h
      · rename_i hd
        subst hd
        split at h
        · simp at h
        · rename_i hr
          have hr : rest = [] := by simpa using hr
          subst hr
          split at h
          · rename_i hc
            subst hc
            refine ⟨[x, y], 2, rfl, ?_, by omega, by simp⟩
            intro v hv
            simp only [List.mem_cons, List.not_mem_nil, or_false] at hv
            rcases hv with rfl | rfl <;> assumption
          · rw [Option.map_eq_some_iff] at h
            obtain ⟨z, hz, _⟩ := h
            obtain ⟨hz, rfl⟩ := b64val_some hz
            refine ⟨[x, y, z], 1, rfl, ?_, by omega, by simp⟩
            intro v hv
            simp only [List.mem_cons, List.not_mem_nil, or_false] at hv
            rcases hv with rfl | rfl | rfl <;> assumption
      · split at h
        · rename_i z w hz hw
          obtain ⟨hz, rfl⟩ := b64val_some hz
          obtain ⟨hw, rfl⟩ := b64val_some hw
          rw [Option.map_eq_some_iff] at h
          obtain ⟨l, hl, _⟩ := h
          obtain ⟨vs, pads, rfl, h1, h2, h3⟩ := groups_shape rest l hl
          refine ⟨x :: y :: z :: w :: vs, pads, rfl, ?_, h2, by simp only [List.length_cons]; omega⟩
          intro v hv
          simp only [List.mem_cons] at hv
          rcases hv with rfl | rfl | rfl | rfl | hv
          · assumption
          · assumption
          · assumption
          · assumption
          · exact h1 v hv
        · simp at h
    · simp at h

/-- The decoder accepts exactly the texts of base64. -/
theorem b64decode_iff (text data : List Nat) : b64decode text = some data ↔ IsBase64 text data := by
  rw [b64decode, IsBase64]
  constructor
  · intro h
    obtain ⟨vs, pads, e, h1, h2, h3⟩ := groups_shape _ _ h
    obtain ⟨d, h4, h5⟩ := groups_good vs pads h1 h2 h3
    rw [e, h4, Option.some.injEq] at h
    subst h
    exact ⟨vs, pads, e, h1, h2, h3, h5⟩
  · rintro ⟨vs, pads, e, h1, h2, h3, h5⟩
    obtain ⟨d, h4, h6⟩ := groups_good vs pads h1 h2 h3
    rw [e, h4, good_unique h6 h5]

/-- The encoder writes a text with this value. -/
theorem groups_encode : ∀ (data : List Nat), (∀ b ∈ data, b < 256) → b64groups (encode data) = some data
  | [], _ => rfl
  | [a], h => by
    have ha := h a (by simp)
    rw [encode, b64groups, b64val_char _ (by omega), b64val_char _ (by omega)]
    simp
    omega
  | [a, b], h => by
    have ha := h a (by simp)
    have hb := h b (by simp)
    rw [encode, b64groups, b64val_char _ (by omega), b64val_char _ (by omega)]
    dsimp only
    rw [if_pos rfl, if_neg (by simp), if_neg (char_ne (by omega)), b64val_char _ (by omega)]
    simp only [Option.map_some, Option.some.injEq, List.cons.injEq, and_true]
    omega
  | a :: b :: c :: rest, h => by
    have ha := h a (by simp)
    have hb := h b (by simp)
    have hc := h c (by simp)
    rw [encode, b64groups, b64val_char _ (by omega), b64val_char _ (by omega)]
    dsimp only
    rw [if_neg (char_ne (by omega)), b64val_char _ (by omega), b64val_char _ (by omega), groups_encode rest fun x hx => h x (by simp [hx])]
    simp only [Option.map_some, Option.some.injEq, List.cons.injEq, and_true]
    omega

theorem encode_ends : ∀ (data : List Nat), (∀ b ∈ data, b < 256) → ∀ c ∈ encode data, c ≠ 10 ∧ c ≠ 13
  | [], _, c, hc => by simp [encode] at hc
  | [a], h, c, hc => by
    have ha := h a (by simp)
    simp only [encode, List.mem_cons, List.not_mem_nil, or_false] at hc
    rcases hc with rfl | rfl | rfl | rfl
    · exact char_end (by omega)
    · exact char_end (by omega)
    · decide
    · decide
  | [a, b], h, c, hc => by
    have ha := h a (by simp)
    have hb := h b (by simp)
    simp only [encode, List.mem_cons, List.not_mem_nil, or_false] at hc
    rcases hc with rfl | rfl | rfl | rfl
    · exact char_end (by omega)
    · exact char_end (by omega)
    · exact char_end (by omega)
    · decide
  | x :: y :: z :: rest, h, c, hc => by
    have hx := h x (by simp)
    have hy := h y (by simp)
    have hz := h z (by simp)
    simp only [encode, List.mem_cons] at hc
    rcases hc with rfl | rfl | rfl | rfl | hc
    · exact char_end (by omega)
    · exact char_end (by omega)
    · exact char_end (by omega)
    · exact char_end (by omega)
    · exact encode_ends rest (fun b hb => h b (by simp [hb])) c hc

/-- A text in lines whose characters are those of the encoder. -/
theorem b64decode_encode (data text : List Nat) (h : ∀ b ∈ data, b < 256) (ht : (text.filter fun c => c ≠ 10 ∧ c ≠ 13) = encode data) :
    b64decode text = some data := by
  rw [b64decode, ht, groups_encode data h]

end Verif.Lemmas.Base64
