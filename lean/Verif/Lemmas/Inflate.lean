import Verif.Lemmas.Huffman
import Verif.Lemmas.GzipFast
/-
The decoder of Model/Gzip.lean accepts exactly the files of Spec/Deflate.lean and gives their contents.
-/
set_option autoImplicit false

namespace Verif.Lemmas.Deflate
open Verif.Model.Gzip
open Verif.Spec.Deflate (lsb msb IsCode Usable bitsOfNum bitsOfBytes lengthTable distTable Repeats Data Lengths DynamicHead Body Blocks
  Member Members GzipFile codeLengthOrder fixedLiterals fixedDistances Rules goRules IsExtra IsName Header)

/-! ### repeated bytes -/

theorem repeats_unique {a b b' : List Nat} {len dist : Nat} (h : Repeats a len dist b) (h' : Repeats a len dist b') : b = b' := by
  obtain ⟨h1, h2, h3, h4, h5⟩ := h
  obtain ⟨_, _, h3', h4', h5'⟩ := h'
  have hlen : b.length = b'.length := by omega
  have key : ∀ i : Nat, b[i]? = b'[i]? := by
    intro i
    induction i using Nat.strongRecOn with
    | ind i ih =>
      by_cases hi : i < a.length
      · obtain ⟨t, rfl⟩ := h4
        obtain ⟨t', rfl⟩ := h4'
        rw [List.getElem?_append_left hi, List.getElem?_append_left hi]
      · by_cases hb : i < b.length
        · rw [h5 i (by omega) hb, h5' i (by omega) (by omega)]
          exact ih (i - dist) (by omega)
        · rw [List.getElem?_eq_none (by omega), List.getElem?_eq_none (by omega)]
  exact List.ext_getElem? key

theorem copyBytes_repeats (dist : Nat) (hd : 1 ≤ dist) (len : Nat) (out : List Nat) (ho : dist ≤ out.length) :
    ∃ after, copyBytes dist len out = some after ∧ Repeats out.reverse len dist after.reverse := by
  induction len generalizing out with
  | zero =>
    refine ⟨out, rfl, hd, by simpa using ho, rfl, List.prefix_refl _, ?_⟩
    intro i h1 h2; omega
  | succ len ih =>
    rw [copyBytes, List.getElem?_eq_getElem (by omega)]
    dsimp only
    obtain ⟨after, h1, h2, h3, h4, h5, h6⟩ := ih (out[dist - 1] :: out) (by rw [List.length_cons]; omega)
    refine ⟨after, h1, h2, by simpa using ho, ?_, ?_, ?_⟩
    · rw [h4]; simp; omega
    · refine List.IsPrefix.trans ?_ h5
      rw [List.reverse_cons]; exact List.prefix_append _ _
    · intro i hi hlt
      by_cases he : i = out.length
      · obtain ⟨t, ht⟩ := h5
        rw [← ht, List.reverse_cons, List.append_assoc]
        subst he
        rw [List.getElem?_append_right (by simp)]
        conv_rhs => rw [List.getElem?_append_left (by simp; omega), List.getElem?_reverse (by omega)]
        simp only [List.length_reverse, Nat.sub_self]
        rw [show out.length - 1 - (out.length - dist) = dist - 1 by omega, List.getElem?_eq_getElem (show dist - 1 < out.length by omega)]
        simp
      · refine h6 i ?_ hlt
        simp at hi ⊢; omega

theorem copyBytes_iff (dist len : Nat) (hd : 1 ≤ dist) (hl : 1 ≤ len) (out after : List Nat) :
    copyBytes dist len out = some after ↔ Repeats out.reverse len dist after.reverse := by
  constructor
  · intro h
    by_cases ho : dist ≤ out.length
    · obtain ⟨a, h1, h2⟩ := copyBytes_repeats dist hd len out ho
      rw [h1, Option.some.injEq] at h
      exact h ▸ h2
    · rw [GzipFast.copyBytes_far dist len hd hl out (by omega)] at h; simp at h
  · intro h
    obtain ⟨a, h1, h2⟩ := copyBytes_repeats dist hd len out (by simpa using h.2.1)
    rw [h1, List.reverse_inj.1 (repeats_unique h2 h)]

/-! ### lengths and distances -/

theorem lengthCode_iff (x base extra : Nat) : lengthCode (257 + x) = some (base, extra) ↔ lengthTable[x]? = some (extra, base) := by
  have key : ∀ x < 29, (lengthCode (257 + x)).map (fun p => (p.2, p.1)) = lengthTable[x]? := by decide
  by_cases hx : x < 29
  · rw [← key x hx, Option.map_eq_some_iff]
    constructor
    · intro h; exact ⟨_, h, rfl⟩
    · rintro ⟨⟨a, b⟩, h, he⟩
      simp only [Prod.mk.injEq] at he
      rw [h, he.1, he.2]
  · have h1 : lengthCode (257 + x) = none := by
      rw [lengthCode, if_neg (by omega), if_neg (by omega), if_neg (by omega)]
    have h2 : lengthTable[x]? = none := List.getElem?_eq_none (by show 29 ≤ x; omega)
    rw [h1, h2]; simp

theorem distCode_iff (y base extra : Nat) : distCode y = some (base, extra) ↔ distTable[y]? = some (extra, base) := by
  have key : ∀ x < 30, (distCode x).map (fun p => (p.2, p.1)) = distTable[x]? := by decide
  by_cases hx : y < 30
  · rw [← key y hx, Option.map_eq_some_iff]
    constructor
    · intro h; exact ⟨_, h, rfl⟩
    · rintro ⟨⟨a, b⟩, h, he⟩
      simp only [Prod.mk.injEq] at he
      rw [h, he.1, he.2]
  · have h1 : distCode y = none := by
      rw [distCode, if_neg (by omega), if_neg (by omega)]
    have h2 : distTable[y]? = none := List.getElem?_eq_none (by show 30 ≤ y; omega)
    rw [h1, h2]; simp

theorem lengthTable_pos {x e b : Nat} (h : lengthTable[x]? = some (e, b)) : 1 ≤ b := by
  have : ∀ p ∈ lengthTable, 1 ≤ p.2 := by decide
  exact this _ (List.mem_of_getElem? h)

theorem distTable_pos {x e b : Nat} (h : distTable[x]? = some (e, b)) : 1 ≤ b := by
  have : ∀ p ∈ distTable, 1 ≤ p.2 := by decide
  exact this _ (List.mem_of_getElem? h)

/-! ### compressed blocks -/

/-- The tree holds the codes of the lengths. -/
def Codes (t : Tree) (lengths : List Nat) : Prop := ∀ c x, Path t c x ↔ IsCode lengths x c

theorem isCode_pos {lengths : List Nat} {x : Nat} {c : List Bool} (h : IsCode lengths x c) : 0 < c.length := by
  obtain ⟨len, _, h2, h3, _⟩ := h
  omega

theorem isCode_lt {lengths : List Nat} {x : Nat} {c : List Bool} (h : IsCode lengths x c) : x < lengths.length := by
  obtain ⟨len, h1, _⟩ := h
  exact (List.getElem?_eq_some_iff.1 h1).1

theorem read_code {t : Tree} {lengths : List Nat} (ht : Codes t lengths) {x : Nat} {c : List Bool} (h : IsCode lengths x c) (rest : List Bool) :
    t.read (enc (c ++ rest)) = some (x, enc rest) := read_path ((ht c x).2 h) rest

theorem huffmanBlock_complete {lit dist : Tree} {L D : List Nat} (hL : Codes lit L) (hD : Codes dist D) {bits : List Bool} {a b : List Nat}
    (h : Data L D bits a b) (rest : List Bool) (fuel : Nat) (hf : bits.length < fuel) :
    huffmanBlock bytes lit dist fuel (enc (bits ++ rest)) a.reverse = some (enc rest, b.reverse) := by
  induction h generalizing fuel with
  | stop c out hc =>
    obtain ⟨f, rfl⟩ := Nat.exists_eq_succ_of_ne_zero (show fuel ≠ 0 by omega)
    rw [huffmanBlock, read_code hL hc]; rfl
  | literal c bits x out out' hc hx h ih =>
    obtain ⟨f, rfl⟩ := Nat.exists_eq_succ_of_ne_zero (show fuel ≠ 0 by omega)
    have hp := isCode_pos hc
    rw [List.length_append] at hf
    rw [huffmanBlock, List.append_assoc, read_code hL hc]
    dsimp only
    rw [if_pos hx, ← ih f (by omega), List.reverse_append]; rfl
  | copy c e c' e' bits x y len d out mid out' hc hx hc' hy hr h ih =>
    obtain ⟨f, rfl⟩ := Nat.exists_eq_succ_of_ne_zero (show fuel ≠ 0 by omega)
    have hp := isCode_pos hc
    simp only [List.length_append] at hf
    simp only [List.append_assoc]
    rw [huffmanBlock, read_code hL hc]
    dsimp only
    rw [if_neg (by omega), if_neg (by omega), (lengthCode_iff x _ _).2 hx]
    dsimp only
    rw [readBits_append]
    dsimp only
    rw [read_code hD hc']
    dsimp only
    rw [(distCode_iff y _ _).2 hy]
    dsimp only
    rw [readBits_append]
    dsimp only
    have hcopy : bytes.copy out.reverse (len + lsb e) (d + lsb e') = some mid.reverse := by
      have := lengthTable_pos hx
      have := distTable_pos hy
      refine (copyBytes_iff _ _ (by omega) (by omega) _ _).2 ?_
      simpa using hr
    rw [hcopy]
    dsimp only
    exact ih f (by omega)

theorem huffmanBlock_sound {lit dist : Tree} {L D : List Nat} (hL : Codes lit L) (hD : Codes dist D) {fuel : Nat} {l : List Bool}
    {out out' : List Nat} {s : Nat} (h : huffmanBlock bytes lit dist fuel (enc l) out = some (s, out')) :
    ∃ bits rest, l = bits ++ rest ∧ s = enc rest ∧ Data L D bits out.reverse out'.reverse := by
  induction fuel generalizing l out with
  | zero => simp [huffmanBlock] at h
  | succ fuel ih =>
    rw [huffmanBlock] at h
    split at h
    · simp at h
    · rename_i x s1 h1
      obtain ⟨c, l1, rfl, rfl, hc⟩ := (read_iff lit l x s1).1 h1
      rw [hL] at hc
      split at h
      · rename_i hx
        obtain ⟨bits, rest, rfl, hs, hd⟩ := ih h
        refine ⟨c ++ bits, rest, by simp, hs, .literal _ _ x _ _ hc hx ?_⟩
        rw [← List.reverse_cons]; exact hd
      · split at h
        · rename_i hx
          simp only [Option.some.injEq, Prod.mk.injEq] at h
          obtain ⟨rfl, rfl⟩ := h
          subst hx
          exact ⟨c, l1, rfl, rfl, .stop _ _ hc⟩
        · rename_i hx1 hx2
          split at h
          · simp at h
          · rename_i base extra h2
            split at h
            · simp at h
            · rename_i k s2 h3
              obtain ⟨e, l2, rfl, rfl, rfl, rfl⟩ := (readBits_iff _ _ _ _).1 h3
              split at h
              · simp at h
              · rename_i y s3 h4
                obtain ⟨c', l3, rfl, rfl, hc'⟩ := (read_iff dist _ y s3).1 h4
                rw [hD] at hc'
                split at h
                · simp at h
                · rename_i dbase dextra h5
                  split at h
                  · simp at h
                  · rename_i dk s4 h6
                    obtain ⟨e', l4, rfl, rfl, rfl, rfl⟩ := (readBits_iff _ _ _ _).1 h6
                    split at h
                    · simp at h
                    · rename_i mid h7
                      obtain ⟨bits, rest, rfl, hs, hd⟩ := ih h
                      obtain ⟨x', rfl⟩ : ∃ x', x = 257 + x' := ⟨x - 257, by omega⟩
                      have hx := (lengthCode_iff x' _ _).1 h2
                      have hy := (distCode_iff y _ _).1 h5
                      have := lengthTable_pos hx
                      have := distTable_pos hy
                      refine ⟨c ++ (e ++ (c' ++ (e' ++ bits))), rest, by simp, hs, .copy _ _ _ _ _ x' y base dbase _ mid.reverse _ hc hx hc' hy ?_ hd⟩
                      exact (copyBytes_iff _ _ (by omega) (by omega) _ _).1 h7

/-! ### stored bytes -/

theorem lsb_bitsOfNum (n v : Nat) : lsb (bitsOfNum n v) = v % 2 ^ n := by
  induction n generalizing v with
  | zero => simp [bitsOfNum, lsb, Nat.mod_one]
  | succ n ih =>
    rw [bitsOfNum, lsb, ih, pow_succ, Nat.mul_comm (2 ^ n) 2, Nat.mod_mul]
    rcases Nat.mod_two_eq_zero_or_one v with h | h <;> simp [h]

theorem length_bitsOfNum (n v : Nat) : (bitsOfNum n v).length = n := by
  induction n generalizing v with
  | zero => rfl
  | succ n ih => rw [bitsOfNum, List.length_cons, ih]

theorem bitsOfNum_lsb (a : List Bool) : bitsOfNum a.length (lsb a) = a :=
  lsb_injective (length_bitsOfNum _ _) (by rw [lsb_bitsOfNum, Nat.mod_eq_of_lt (lsb_lt a)])

theorem bitsOfBytes_cons (b : Nat) (data : List Nat) : bitsOfBytes (b :: data) = bitsOfNum 8 b ++ bitsOfBytes data := rfl

theorem bitsOfBytes_append (a b : List Nat) : bitsOfBytes (a ++ b) = bitsOfBytes a ++ bitsOfBytes b := by
  rw [bitsOfBytes, List.flatMap_append]; rfl

theorem length_bitsOfBytes (data : List Nat) : (bitsOfBytes data).length = 8 * data.length := by
  induction data with
  | nil => rfl
  | cons b data ih => rw [bitsOfBytes_cons, List.length_append, length_bitsOfNum, ih, List.length_cons]; omega

theorem bitsOf_eq (file : List Nat) (h : ∀ b ∈ file, b < 256) : bitsOf file = enc (bitsOfBytes file) := by
  induction file with
  | nil => rfl
  | cons b file ih =>
    rw [bitsOf, bitsOfBytes_cons, enc_append, lsb_bitsOfNum, length_bitsOfNum, Nat.mod_eq_of_lt (show b < 2 ^ 8 from h b (by simp)),
      ih fun x hx => h x (by simp [hx])]
    rfl

theorem stored_complete (data : List Nat) (hb : ∀ b ∈ data, b < 256) (rest : List Bool) (out : List Nat) :
    stored bytes data.length (enc (bitsOfBytes data ++ rest)) out = some (enc rest, data.reverse ++ out) := by
  induction data generalizing out with
  | nil => rfl
  | cons b data ih =>
    have h8 := readBits_append (bitsOfNum 8 b) (bitsOfBytes data ++ rest)
    rw [length_bitsOfNum, lsb_bitsOfNum, Nat.mod_eq_of_lt (show b < 2 ^ 8 from hb b (by simp))] at h8
    rw [List.length_cons, stored, bitsOfBytes_cons, List.append_assoc, h8]
    dsimp only
    rw [ih (fun x hx => hb x (by simp [hx]))]
    simp [bytes]

theorem stored_sound {len : Nat} {l : List Bool} {out out' : List Nat} {s : Nat} (h : stored bytes len (enc l) out = some (s, out')) :
    ∃ data rest, l = bitsOfBytes data ++ rest ∧ s = enc rest ∧ data.length = len ∧ (∀ b ∈ data, b < 256) ∧ out' = data.reverse ++ out := by
  induction len generalizing l out with
  | zero =>
    simp only [stored, Option.some.injEq, Prod.mk.injEq] at h
    exact ⟨[], l, rfl, h.1.symm, rfl, by simp, by simp [h.2]⟩
  | succ len ih =>
    rw [stored] at h
    split at h
    · simp at h
    · rename_i b s1 h1
      obtain ⟨a, l1, rfl, ha, rfl, rfl⟩ := (readBits_iff _ _ _ _).1 h1
      obtain ⟨data, rest, rfl, hs, hlen, hb, ho⟩ := ih h
      have hlt := lsb_lt a
      rw [ha] at hlt
      refine ⟨lsb a :: data, rest, ?_, hs, by simp [hlen], ?_, by simp [ho, bytes]⟩
      · rw [bitsOfBytes_cons, List.append_assoc]
        congr 1
        rw [← ha]; exact (bitsOfNum_lsb a).symm
      · intro x hx
        rcases List.mem_cons.1 hx with rfl | hx
        · exact hlt
        · exact hb x hx

theorem lsb_not (a : List Bool) : lsb a + lsb (a.map (!·)) + 1 = 2 ^ a.length := by
  induction a with
  | nil => rfl
  | cons b a ih =>
    rw [List.map_cons, lsb, lsb, List.length_cons, pow_succ]
    cases b <;> simp <;> omega

/-! ### the codes of a dynamic block -/

theorem readOrder_complete (ps : List Nat) (codes : List (List Bool)) (hl : codes.length = ps.length) (h3 : ∀ c ∈ codes, c.length = 3)
    (rest : List Bool) : readOrder ps (enc (codes.flatten ++ rest)) = some (ps.zip (codes.map lsb), enc rest) := by
  induction ps generalizing codes with
  | nil => rw [List.eq_nil_of_length_eq_zero hl]; rfl
  | cons p ps ih =>
    match codes, hl, h3 with
    | c :: codes, hl, h3 =>
      have h := readBits_append c (codes.flatten ++ rest)
      rw [h3 c (by simp)] at h
      rw [readOrder, List.flatten_cons, List.append_assoc, h]
      dsimp only
      rw [ih codes (by simpa using hl) fun x hx => h3 x (by simp [hx])]
      rfl

theorem readOrder_sound {ps : List Nat} {l : List Bool} {order : List (Nat × Nat)} {s : Nat} (h : readOrder ps (enc l) = some (order, s)) :
    ∃ (codes : List (List Bool)) (rest : List Bool), l = codes.flatten ++ rest ∧ s = enc rest ∧ codes.length = ps.length ∧ (∀ c ∈ codes, c.length = 3) ∧ order = ps.zip (codes.map lsb) := by
  induction ps generalizing l order s with
  | nil =>
    simp only [readOrder, Option.some.injEq, Prod.mk.injEq] at h
    exact ⟨[], l, rfl, h.2.symm, rfl, by simp, by simp [h.1]⟩
  | cons p ps ih =>
    rw [readOrder] at h
    split at h
    · simp at h
    · rename_i len s1 h1
      obtain ⟨a, l1, rfl, ha, rfl, rfl⟩ := (readBits_iff _ _ _ _).1 h1
      rw [Option.map_eq_some_iff] at h
      obtain ⟨⟨o, s2⟩, h2, h3⟩ := h
      simp only [Prod.mk.injEq] at h3
      obtain ⟨codes, rest, rfl, hs, hlen, hc, rfl⟩ := ih h2
      refine ⟨a :: codes, rest, by simp, by rw [← h3.2, hs], by simp [hlen], ?_, ?_⟩
      · intro c hc'
        rcases List.mem_cons.1 hc' with rfl | hc'
        · exact ha
        · exact hc c hc'
      · rw [← h3.1]; rfl

theorem lookup_zip {ps vs : List Nat} (hn : ps.Nodup) {i s : Nat} (h : ps[i]? = some s) : (ps.zip vs).lookup s = vs[i]? := by
  induction ps generalizing vs i with
  | nil => simp at h
  | cons p ps ih =>
    rw [List.nodup_cons] at hn
    cases vs with
    | nil => simp
    | cons v vs =>
      rw [List.zip_cons_cons, List.lookup_cons]
      cases i with
      | zero =>
        simp only [List.getElem?_cons_zero, Option.some.injEq] at h
        subst h; simp
      | succ i =>
        rw [List.getElem?_cons_succ] at h
        have : s ≠ p := by
          rintro rfl
          exact hn.1 (List.mem_of_getElem? h)
        have hb : (s == p) = false := by simpa using this
        rw [hb]
        simp only [List.getElem?_cons_succ]
        exact ih hn.2 h

/-- The lengths of the code length codes. -/
theorem order_iff (codes : List (List Bool)) (hc : codes.length ≤ 19) (code : List Nat) :
    (code.length = 19 ∧ ∀ i s : Nat, codeLengthOrder[i]? = some s → code[s]? = some (match codes[i]? with | some c => lsb c | none => 0)) ↔
    code = (List.range 19).map fun p => (((codeOrder.take codes.length).zip (codes.map lsb)).lookup p).getD 0 := by
  have hzip : (codeOrder.take codes.length).zip (codes.map lsb) = codeOrder.zip (codes.map lsb) := by
    rw [List.zip_eq_zip_take_min (l₁ := codeOrder) (l₂ := codes.map lsb), List.length_map]
    have : min codeOrder.length codes.length = codes.length := Nat.min_eq_right hc
    rw [this, List.take_of_length_le (l := codes.map lsb) (by simp)]
  have hlook : ∀ i s : Nat, codeLengthOrder[i]? = some s →
      ((((codeOrder.take codes.length).zip (codes.map lsb)).lookup s).getD 0) = match codes[i]? with | some c => lsb c | none => 0 := by
    intro i s h
    rw [hzip, lookup_zip (by decide) (show codeOrder[i]? = some s from h), List.getElem?_map]
    cases codes[i]? <;> rfl
  have hin : ∀ s < 19, ∃ i < 19, codeLengthOrder[i]? = some s := by decide
  have hout : ∀ i s : Nat, codeLengthOrder[i]? = some s → s < 19 := by
    intro i s h
    have : ∀ x ∈ codeLengthOrder, x < 19 := by decide
    exact this s (List.mem_of_getElem? h)
  constructor
  · rintro ⟨h1, h2⟩
    apply List.ext_getElem?
    intro s
    by_cases hs : s < 19
    · obtain ⟨i, _, hi⟩ := hin s hs
      rw [h2 i s hi, List.getElem?_map, List.getElem?_range hs]
      simp only [Option.map_some]
      rw [hlook i s hi]
    · rw [List.getElem?_eq_none (by omega), List.getElem?_eq_none (by simp; omega)]
  · rintro rfl
    refine ⟨by simp, fun i s h => ?_⟩
    rw [List.getElem?_map, List.getElem?_range (hout i s h)]
    simp only [Option.map_some]
    rw [hlook i s h]

theorem lengths_ge {C acc r : List Nat} {bits : List Bool} (h : Lengths C acc bits r) : acc.length ≤ r.length := by
  induction h with
  | done => exact le_refl _
  | one acc r c bits x hc hx h ih => simp at ih; omega
  | previous acc r c e bits v hc he hv h ih => simp at ih; omega
  | zeros acc r c e bits hc he h ih => simp at ih; omega
  | manyZeros acc r c e bits hc he h ih => simp at ih; omega

theorem lengths_small {C acc r : List Nat} {bits : List Bool} (h : Lengths C acc bits r) (ha : ∀ x ∈ acc, x ≤ 15) : ∀ x ∈ r, x ≤ 15 := by
  induction h with
  | done => exact ha
  | one acc r c bits x hc hx h ih =>
    apply ih
    intro y hy
    rcases List.mem_append.1 hy with hy | hy
    · exact ha y hy
    · rw [List.mem_singleton.1 hy]; exact hx
  | previous acc r c e bits v hc he hv h ih =>
    apply ih
    intro y hy
    rcases List.mem_append.1 hy with hy | hy
    · exact ha y hy
    · rw [(List.mem_replicate.1 hy).2]; exact ha v (List.mem_of_getLast? hv)
  | zeros acc r c e bits hc he h ih =>
    apply ih
    intro y hy
    rcases List.mem_append.1 hy with hy | hy
    · exact ha y hy
    · rw [(List.mem_replicate.1 hy).2]; omega
  | manyZeros acc r c e bits hc he h ih =>
    apply ih
    intro y hy
    rcases List.mem_append.1 hy with hy | hy
    · exact ha y hy
    · rw [(List.mem_replicate.1 hy).2]; omega

theorem readLengths_complete {t : Tree} {C : List Nat} (hC : Codes t C) {acc r : List Nat} {bits : List Bool} (h : Lengths C acc bits r)
    (rest : List Bool) (fuel left : Nat) (hl : r.length = acc.length + left) (hf : left < fuel) :
    readLengths t fuel left (enc (bits ++ rest)) acc.reverse = some (r, enc rest) := by
  induction h generalizing fuel left with
  | done acc =>
    obtain ⟨f, rfl⟩ := Nat.exists_eq_succ_of_ne_zero (show fuel ≠ 0 by omega)
    rw [readLengths, if_pos (by omega), List.reverse_reverse]; rfl
  | one acc r c bits x hc hx h ih =>
    obtain ⟨f, rfl⟩ := Nat.exists_eq_succ_of_ne_zero (show fuel ≠ 0 by omega)
    have hg := lengths_ge h
    simp only [List.length_append, List.length_singleton] at hg
    rw [readLengths, if_neg (by omega), List.append_assoc, read_code hC hc]
    dsimp only
    rw [if_pos (by omega), ← ih f (left - 1) (by simp; omega) (by omega), List.reverse_append]; rfl
  | previous acc r c e bits v hc he hv h ih =>
    obtain ⟨f, rfl⟩ := Nat.exists_eq_succ_of_ne_zero (show fuel ≠ 0 by omega)
    have hg := lengths_ge h
    simp only [List.length_append, List.length_replicate] at hg
    have hb := readBits_append e (bits ++ rest)
    rw [he] at hb
    rw [readLengths, if_neg (by omega), List.append_assoc, read_code hC hc]
    dsimp only
    rw [if_neg (by omega), if_pos rfl, List.append_assoc]
    dsimp only
    rw [hb]
    dsimp only
    rw [if_pos rfl, List.head?_reverse, hv]
    dsimp only
    rw [if_neg (by omega), ← ih f (left - (3 + lsb e)) (by simp; omega) (by omega), List.reverse_append, List.reverse_replicate]
  | zeros acc r c e bits hc he h ih =>
    obtain ⟨f, rfl⟩ := Nat.exists_eq_succ_of_ne_zero (show fuel ≠ 0 by omega)
    have hg := lengths_ge h
    simp only [List.length_append, List.length_replicate] at hg
    have hb := readBits_append e (bits ++ rest)
    rw [he] at hb
    rw [readLengths, if_neg (by omega), List.append_assoc, read_code hC hc]
    dsimp only
    rw [if_neg (by omega), if_neg (by omega), if_pos rfl, List.append_assoc]
    dsimp only
    rw [hb]
    dsimp only
    rw [if_neg (by omega)]
    dsimp only
    rw [if_neg (by omega), ← ih f (left - (3 + lsb e)) (by simp; omega) (by omega), List.reverse_append, List.reverse_replicate]
  | manyZeros acc r c e bits hc he h ih =>
    obtain ⟨f, rfl⟩ := Nat.exists_eq_succ_of_ne_zero (show fuel ≠ 0 by omega)
    have hg := lengths_ge h
    simp only [List.length_append, List.length_replicate] at hg
    have hb := readBits_append e (bits ++ rest)
    rw [he] at hb
    rw [readLengths, if_neg (by omega), List.append_assoc, read_code hC hc]
    dsimp only
    rw [if_neg (by omega), if_neg (by omega), if_neg (by omega), List.append_assoc]
    dsimp only
    rw [hb]
    dsimp only
    rw [if_neg (by omega)]
    dsimp only
    rw [if_neg (by omega), ← ih f (left - (11 + lsb e)) (by simp; omega) (by omega), List.reverse_append, List.reverse_replicate]

theorem readLengths_sound {t : Tree} {C : List Nat} (hC : Codes t C) (h19 : C.length = 19) {fuel left : Nat} {l : List Bool} {acc r : List Nat}
    {s : Nat} (h : readLengths t fuel left (enc l) acc = some (r, s)) :
    ∃ bits rest, l = bits ++ rest ∧ s = enc rest ∧ Lengths C acc.reverse bits r ∧ r.length = acc.length + left := by
  induction fuel generalizing left l acc with
  | zero => simp [readLengths] at h
  | succ fuel ih =>
    rw [readLengths] at h
    split at h
    · rename_i h0
      simp only [Option.some.injEq, Prod.mk.injEq] at h
      refine ⟨[], l, rfl, h.2.symm, ?_, by rw [← h.1]; simp [h0]⟩
      rw [← h.1]; exact .done _
    · rename_i h0
      split at h
      · simp at h
      · rename_i x s1 h1
        obtain ⟨c, l1, rfl, rfl, hc⟩ := (read_iff t l x s1).1 h1
        rw [hC] at hc
        have hx19 := isCode_lt hc
        split at h
        · rename_i hx
          obtain ⟨bits, rest, rfl, hs, hd, hlen⟩ := ih h
          rw [List.length_cons] at hlen
          exact ⟨c ++ bits, rest, by simp, hs, .one _ _ _ _ x hc (by omega) (by rw [← List.reverse_cons]; exact hd), by omega⟩
        · rename_i hx
          by_cases h16 : x = 16
          · subst h16
            rw [if_pos rfl] at h
            dsimp only at h
            split at h
            · simp at h
            · rename_i k s2 h2
              obtain ⟨e, l2, rfl, he, rfl, rfl⟩ := (readBits_iff _ _ _ _).1 h2
              rw [if_pos rfl] at h
              split at h
              · simp at h
              · rename_i v hv
                split at h
                · simp at h
                · rename_i hrep
                  obtain ⟨bits, rest, rfl, hs, hd, hlen⟩ := ih h
                  rw [List.length_append, List.length_replicate] at hlen
                  rw [List.reverse_append, List.reverse_replicate] at hd
                  exact ⟨c ++ (e ++ bits), rest, by simp, hs, .previous _ _ _ _ _ v hc he (by rw [List.getLast?_reverse]; exact hv) hd, by omega⟩
          · by_cases h17 : x = 17
            · subst h17
              rw [if_neg (by omega), if_pos rfl] at h
              dsimp only at h
              split at h
              · simp at h
              · rename_i k s2 h2
                obtain ⟨e, l2, rfl, he, rfl, rfl⟩ := (readBits_iff _ _ _ _).1 h2
                rw [if_neg (by omega)] at h
                dsimp only at h
                split at h
                · simp at h
                · rename_i hrep
                  obtain ⟨bits, rest, rfl, hs, hd, hlen⟩ := ih h
                  rw [List.length_append, List.length_replicate] at hlen
                  rw [List.reverse_append, List.reverse_replicate] at hd
                  exact ⟨c ++ (e ++ bits), rest, by simp, hs, .zeros _ _ _ _ _ hc he hd, by omega⟩
            · obtain rfl : x = 18 := by omega
              rw [if_neg (by omega), if_neg (by omega)] at h
              dsimp only at h
              split at h
              · simp at h
              · rename_i k s2 h2
                obtain ⟨e, l2, rfl, he, rfl, rfl⟩ := (readBits_iff _ _ _ _).1 h2
                rw [if_neg (by omega)] at h
                dsimp only at h
                split at h
                · simp at h
                · rename_i hrep
                  obtain ⟨bits, rest, rfl, hs, hd, hlen⟩ := ih h
                  rw [List.length_append, List.length_replicate] at hlen
                  rw [List.reverse_append, List.reverse_replicate] at hd
                  exact ⟨c ++ (e ++ bits), rest, by simp, hs, .manyZeros _ _ _ _ _ hc he hd, by omega⟩

theorem code_small {codes : List (List Bool)} (h3 : ∀ c ∈ codes, c.length = 3) {code : List Nat} (hlen : code.length = 19)
    (h : ∀ i s : Nat, codeLengthOrder[i]? = some s → code[s]? = some (match codes[i]? with | some c => lsb c | none => 0)) :
    ∀ x ∈ code, x ≤ 15 := by
  intro x hx
  obtain ⟨s, hs⟩ := List.mem_iff_getElem?.1 hx
  have hs19 : s < 19 := by rw [← hlen]; exact (List.getElem?_eq_some_iff.1 hs).1
  have hin : ∀ s < 19, ∃ i < 19, codeLengthOrder[i]? = some s := by decide
  obtain ⟨i, _, hi⟩ := hin s hs19
  rw [h i s hi, Option.some.injEq] at hs
  cases hc : codes[i]? with
  | none => rw [hc] at hs; dsimp only at hs; omega
  | some c =>
    rw [hc] at hs
    dsimp only at hs
    have := lsb_lt c
    rw [h3 c (List.mem_of_getElem? hc)] at this
    omega

theorem readHuffman_complete {bits : List Bool} {L D : List Nat} (h : DynamicHead bits L D) (rest : List Bool) :
    ∃ lit dist, readHuffman (enc (bits ++ rest)) = some (lit, dist, enc rest) ∧ Codes lit L ∧ Codes dist D := by
  obtain ⟨hlit, hdist, hclen, runs, codes, code, rfl, h1, h2, h3, h4, h5, h6, h7, h8, h9, h10, h11, h12, h13, h14, h15⟩ := h
  have hsm := code_small h5 h6 h7
  have hr := lengths_small h13 (by simp)
  obtain ⟨ct, hct⟩ := Option.isSome_iff_exists.1 ((huffman_some hsm).2 h12)
  have hL : ∀ x ∈ L, x ≤ 15 := fun x hx => hr x (by simp [hx])
  have hD : ∀ x ∈ D, x ≤ 15 := fun x hx => hr x (by simp [hx])
  obtain ⟨lt, hlt⟩ := Option.isSome_iff_exists.1 ((huffman_some hL).2 h14)
  obtain ⟨dt, hdt⟩ := Option.isSome_iff_exists.1 ((huffman_some hD).2 h15)
  have hcl := lsb_lt hclen
  rw [h3] at hcl
  refine ⟨lt, dt, ?_, huffman_path hL hlt, huffman_path hD hdt⟩
  simp only [List.append_assoc]
  have b1 := readBits_append hlit (hdist ++ (hclen ++ (codes.flatten ++ (runs ++ rest))))
  have b2 := readBits_append hdist (hclen ++ (codes.flatten ++ (runs ++ rest)))
  have b3 := readBits_append hclen (codes.flatten ++ (runs ++ rest))
  rw [h1] at b1
  rw [h2] at b2
  rw [h3] at b3
  rw [readHuffman, b1]
  dsimp only
  rw [b2]
  dsimp only
  rw [b3]
  dsimp only
  rw [if_neg (by omega), readOrder_complete (codeOrder.take (lsb hclen + 4)) codes
    (by rw [h4, List.length_take]; show lsb hclen + 4 = min _ 19; omega) h5]
  dsimp only
  have ho := (order_iff codes (by omega) code).1 ⟨h6, h7⟩
  rw [h4] at ho
  rw [← ho, hct]
  dsimp only
  have hrl := readLengths_complete (huffman_path hsm hct) h13 rest (lsb hlit + 257 + (lsb hdist + 1) + 1) (lsb hlit + 257 + (lsb hdist + 1))
    (by simp [h8, h10]) (by omega)
  rw [List.reverse_nil] at hrl
  rw [hrl]
  dsimp only
  rw [← h8, List.take_left, List.drop_left, hlt, hdt]

theorem readHuffman_sound {l : List Bool} {lit dist : Tree} {s : Nat} (h : readHuffman (enc l) = some (lit, dist, s)) :
    ∃ bits rest L D, l = bits ++ rest ∧ s = enc rest ∧ DynamicHead bits L D ∧ Codes lit L ∧ Codes dist D := by
  rw [readHuffman] at h
  split at h
  · simp at h
  · rename_i v1 s1 h1
    obtain ⟨hlit, l1, rfl, e1, rfl, rfl⟩ := (readBits_iff _ _ _ _).1 h1
    split at h
    · simp at h
    · rename_i v2 s2 h2
      obtain ⟨hdist, l2, rfl, e2, rfl, rfl⟩ := (readBits_iff _ _ _ _).1 h2
      split at h
      · simp at h
      · rename_i v3 s3 h3
        obtain ⟨hclen, l3, rfl, e3, rfl, rfl⟩ := (readBits_iff _ _ _ _).1 h3
        have hcl := lsb_lt hclen
        rw [e3] at hcl
        split at h
        · simp at h
        · rename_i hr
          split at h
          · simp at h
          · rename_i order s4 h4
            obtain ⟨codes, l4, rfl, rfl, hlen, hc3, rfl⟩ := readOrder_sound h4
            have hlen' : codes.length = lsb hclen + 4 := by
              rw [hlen, List.length_take]; show min _ 19 = _; omega
            split at h
            · simp at h
            · rename_i ct hct
              dsimp only at h
              split at h
              · simp at h
              · rename_i lengths s5 h5
                have ho := (order_iff codes (by omega) _).2 rfl
                rw [hlen'] at ho
                have hsm := code_small hc3 ho.1 ho.2
                obtain ⟨runs, rest, rfl, rfl, hrun, hrl⟩ := readLengths_sound (huffman_path hsm hct) (by simp) h5
                rw [List.reverse_nil] at hrun
                simp only [List.length_nil, Nat.zero_add] at hrl
                have hsl := lengths_small hrun (by simp)
                have hL : ∀ x ∈ lengths.take (lsb hlit + 257), x ≤ 15 := fun x hx => hsl x (List.mem_of_mem_take hx)
                have hD : ∀ x ∈ lengths.drop (lsb hlit + 257), x ≤ 15 := fun x hx => hsl x (List.mem_of_mem_drop hx)
                split at h
                · rename_i lt dt hlt hdt
                  simp only [Option.some.injEq, Prod.mk.injEq] at h
                  obtain ⟨rfl, rfl, rfl⟩ := h
                  refine ⟨hlit ++ (hdist ++ (hclen ++ (codes.flatten ++ runs))), rest, lengths.take (lsb hlit + 257), lengths.drop (lsb hlit + 257),
                    by simp, rfl, ⟨hlit, hdist, hclen, runs, codes, _, rfl, e1, e2, e3, hlen', hc3, ho.1, ho.2, ?_, ?_, ?_, ?_,
                      (huffman_some hsm).1 (by rw [hct]; rfl), by rw [List.take_append_drop]; exact hrun,
                      (huffman_some hL).1 (by rw [hlt]; rfl), (huffman_some hD).1 (by rw [hdt]; rfl)⟩,
                    huffman_path hL hlt, huffman_path hD hdt⟩
                  · rw [List.length_take]; omega
                  · rw [List.length_take]; omega
                  · rw [List.length_drop]; omega
                  · rw [List.length_drop]; omega
                · simp at h

/-! ### blocks -/

theorem fixedLit_eq : fixedLit = fixedLiterals := by decide +kernel

theorem fixed_codes : ∃ lit dist, huffman fixedLit = some lit ∧ huffman fixedDist = some dist ∧
    Codes lit fixedLiterals ∧ Codes dist fixedDistances := by
  have h1 : ∀ x ∈ fixedLit, x ≤ 15 := by decide +kernel
  have h2 : ∀ x ∈ fixedDist, x ≤ 15 := by decide +kernel
  obtain ⟨lit, hl⟩ := Option.isSome_iff_exists.1 ((huffman_some h1).2 (Or.inl (by decide +kernel)))
  obtain ⟨dist, hd⟩ := Option.isSome_iff_exists.1 ((huffman_some h2).2 (Or.inl (by decide +kernel)))
  exact ⟨lit, dist, hl, hd, fixedLit_eq ▸ huffman_path h1 hl, huffman_path h2 hd⟩

theorem align_append (skip rest : List Bool) (hs : skip.length < 8) (hr : rest.length % 8 = 0) : align (enc (skip ++ rest)) = enc rest := by
  rw [align_enc, List.length_append, show (skip.length + rest.length) % 8 = skip.length by omega, List.drop_left]

theorem align_split (l : List Bool) : ∃ skip rest, l = skip ++ rest ∧ align (enc l) = enc rest ∧ skip.length < 8 ∧ rest.length % 8 = 0 := by
  refine ⟨l.take (l.length % 8), l.drop (l.length % 8), (List.take_append_drop _ _).symm, align_enc l, ?_, ?_⟩
  · rw [List.length_take]; omega
  · rw [List.length_drop]; omega

theorem block_complete {type pos : Nat} {bits : List Bool} {a b : List Nat} (h : Body type pos bits a b) (rest : List Bool)
    (hp : (pos + (bits ++ rest).length) % 8 = 0) : block bytes type (enc (bits ++ rest)) a.reverse = some (enc rest, b.reverse) := by
  cases h with
  | stored pos skip len nlen data out hs hps hl hn hd hb =>
    subst hn
    simp only [List.append_assoc] at hp ⊢
    have b1 := readBits_append len (len.map (!·) ++ (bitsOfBytes data ++ rest))
    have b2 := readBits_append (len.map (!·)) (bitsOfBytes data ++ rest)
    rw [hl] at b1
    rw [List.length_map, hl] at b2
    have hnot := lsb_not len
    rw [hl] at hnot
    rw [List.length_append] at hp
    rw [block, if_pos rfl, align_append skip _ hs (by omega), b1]
    dsimp only
    rw [b2]
    dsimp only
    rw [if_pos (by omega), ← hd, stored_complete data hb, List.reverse_append]
  | fixed pos bits out out' h =>
    obtain ⟨lit, dist, h1, h2, h3, h4⟩ := fixed_codes
    rw [block, if_neg (by decide), if_pos rfl, h1, h2]
    dsimp only
    exact huffmanBlock_complete h3 h4 h rest _ (by rw [log2_enc, List.length_append]; omega)
  | dynamic pos head bits L D out out' hh h =>
    obtain ⟨lit, dist, h1, h2, h3⟩ := readHuffman_complete hh (bits ++ rest)
    rw [block, if_neg (by decide), if_neg (by decide), if_pos rfl, List.append_assoc, h1]
    dsimp only
    exact huffmanBlock_complete h2 h3 h rest _ (by rw [log2_enc, List.length_append]; omega)

theorem block_sound {type pos : Nat} {l : List Bool} {out out' : List Nat} {s : Nat} (hp : (pos + l.length) % 8 = 0)
    (h : block bytes type (enc l) out = some (s, out')) :
    ∃ bits rest, l = bits ++ rest ∧ s = enc rest ∧ Body type pos bits out.reverse out'.reverse := by
  rw [block] at h
  split at h
  · rename_i ht
    subst ht
    obtain ⟨skip, l1, rfl, ha, hs, hm⟩ := align_split l
    rw [ha] at h
    split at h
    · simp at h
    · rename_i v1 s1 h1
      obtain ⟨len, l2, rfl, hl, rfl, rfl⟩ := (readBits_iff _ _ _ _).1 h1
      split at h
      · simp at h
      · rename_i v2 s2 h2
        obtain ⟨nlen, l3, rfl, hn, rfl, rfl⟩ := (readBits_iff _ _ _ _).1 h2
        split at h
        · rename_i hsum
          obtain ⟨data, rest, rfl, hs', hd, hb, rfl⟩ := stored_sound h
          refine ⟨skip ++ (len ++ (nlen ++ bitsOfBytes data)), rest, by simp, hs', ?_⟩
          rw [List.reverse_append, List.reverse_reverse]
          rw [List.length_append] at hp
          refine .stored pos skip len nlen data _ hs (by omega) hl ?_ hd hb
          apply lsb_injective (by rw [List.length_map, hn, hl])
          have := lsb_not len
          rw [hl] at this
          omega
        · simp at h
  · split at h
    · rename_i ht
      subst ht
      obtain ⟨lit, dist, h1, h2, h3, h4⟩ := fixed_codes
      rw [h1, h2] at h
      dsimp only at h
      obtain ⟨bits, rest, rfl, hs, hd⟩ := huffmanBlock_sound h3 h4 h
      exact ⟨bits, rest, rfl, hs, .fixed _ _ _ _ hd⟩
    · split at h
      · rename_i ht
        subst ht
        split at h
        · simp at h
        · rename_i lit dist s1 h1
          obtain ⟨head, l1, L, D, rfl, rfl, hh, hL, hD⟩ := readHuffman_sound h1
          obtain ⟨bits, rest, rfl, hs, hd⟩ := huffmanBlock_sound hL hD h
          exact ⟨head ++ bits, rest, by simp, hs, .dynamic _ _ _ _ _ _ _ hh hd⟩
      · simp at h

theorem inflate_complete {pos : Nat} {bits : List Bool} {a b : List Nat} (h : Blocks pos bits a b) (rest : List Bool) (fuel : Nat)
    (hf : bits.length < fuel) (hp : (pos + (bits ++ rest).length) % 8 = 0) :
    inflate bytes fuel (enc (bits ++ rest)) a.reverse = some (enc rest, b.reverse) := by
  induction h generalizing fuel with
  | last pos type bits out out' ht h =>
    obtain ⟨f, rfl⟩ := Nat.exists_eq_succ_of_ne_zero (show fuel ≠ 0 by omega)
    simp only [List.cons_append, List.append_assoc] at hp ⊢
    have b1 : readBits 1 (enc (true :: (type ++ (bits ++ rest)))) = _ := readBits_append [true] (type ++ (bits ++ rest))
    have b2 := readBits_append type (bits ++ rest)
    rw [ht] at b2
    simp only [List.length_cons, List.length_append, ht] at hp
    rw [inflate, b1]
    dsimp only
    rw [b2]
    dsimp only
    rw [block_complete h rest (by rw [List.length_append]; omega)]
    rfl
  | more pos type bits bits' out mid out' ht h h' ih =>
    obtain ⟨f, rfl⟩ := Nat.exists_eq_succ_of_ne_zero (show fuel ≠ 0 by omega)
    simp only [List.cons_append, List.append_assoc] at hp ⊢
    have b1 : readBits 1 (enc (false :: (type ++ (bits ++ (bits' ++ rest))))) = _ := readBits_append [false] (type ++ (bits ++ (bits' ++ rest)))
    have b2 := readBits_append type (bits ++ (bits' ++ rest))
    rw [ht] at b2
    simp only [List.length_cons, List.length_append, ht] at hp hf
    rw [inflate, b1]
    dsimp only
    rw [b2]
    dsimp only
    rw [block_complete h (bits' ++ rest) (by rw [List.length_append, List.length_append]; omega)]
    dsimp only
    rw [if_neg (by decide), ih f (by omega) (by rw [List.length_append]; omega)]

theorem inflate_sound {pos fuel : Nat} {l : List Bool} {out out' : List Nat} {s : Nat} (hp : (pos + l.length) % 8 = 0)
    (h : inflate bytes fuel (enc l) out = some (s, out')) :
    ∃ bits rest, l = bits ++ rest ∧ s = enc rest ∧ Blocks pos bits out.reverse out'.reverse := by
  induction fuel generalizing pos l out with
  | zero => simp [inflate] at h
  | succ fuel ih =>
    rw [inflate] at h
    split at h
    · simp at h
    · rename_i v1 s1 h1
      obtain ⟨f, l1, rfl, hf, rfl, rfl⟩ := (readBits_iff _ _ _ _).1 h1
      split at h
      · simp at h
      · rename_i v2 s2 h2
        obtain ⟨type, l2, rfl, ht, rfl, rfl⟩ := (readBits_iff _ _ _ _).1 h2
        simp only [List.length_append, hf, ht] at hp
        split at h
        · simp at h
        · rename_i s3 mid h3
          obtain ⟨bits, l3, rfl, rfl, hb⟩ := block_sound (pos := pos + 3) (by omega) h3
          rw [List.length_append] at hp
          match f, hf with
          | [true], _ =>
            rw [if_pos (by decide)] at h
            simp only [Option.some.injEq, Prod.mk.injEq] at h
            obtain ⟨rfl, rfl⟩ := h
            exact ⟨true :: (type ++ bits), l3, by simp, rfl, .last _ _ _ _ _ ht hb⟩
          | [false], _ =>
            rw [if_neg (by decide)] at h
            obtain ⟨bits', rest, rfl, hs, hb'⟩ := ih (pos := pos + 3 + bits.length) (by omega) h
            exact ⟨false :: (type ++ (bits ++ bits')), rest, by simp, hs, .more _ _ _ _ _ _ _ ht hb hb'⟩

/-! ### gzip -/

theorem crcEntry_eq (n : Nat) : Verif.Spec.Deflate.crcEntry n = crcByte n 0 := by
  have step : ∀ c : Nat, (if c &&& 1 ≠ 0 then 0xedb88320 ^^^ (c >>> 1) else c >>> 1) = crcBit c := by
    intro c
    rw [crcBit, Nat.and_one_is_mod, Nat.shiftRight_one, Nat.xor_comm]
    rcases Nat.mod_two_eq_zero_or_one c with h | h <;> simp [h]
  rw [Verif.Spec.Deflate.crcEntry]
  simp only [step]
  simp only [crcByte, Nat.xor_zero]
  rfl

theorem crc_eq (data : List Nat) (h : ∀ b ∈ data, b < 256) : crc32 data = Verif.Spec.Deflate.crc data := by
  rw [crc32, Verif.Spec.Deflate.crc]
  congr 1
  generalize 0xFFFFFFFF = c
  induction data generalizing c with
  | nil => rfl
  | cons b data ih =>
    have hb := h b (by simp)
    rw [List.foldl_cons, List.foldl_cons, ih fun x hx => h x (by simp [hx])]
    congr 1
    have e : crcByte c b = crcByte (c ^^^ b) 0 := by simp only [crcByte, Nat.xor_zero]
    have hdiv : (c ^^^ b) / 256 = c / 256 := by
      have := Nat.xor_div_two_pow (a := c) (b := b) (n := 8)
      rw [show (2 : Nat) ^ 8 = 256 from rfl] at this
      rw [this, Nat.div_eq_of_lt hb, Nat.xor_zero]
    rw [e, GzipFast.crcByte_split, crcEntry_eq, hdiv, Nat.shiftRight_eq_div_pow, show (0xff : Nat) = 2 ^ 8 - 1 from rfl, Nat.and_two_pow_sub_one_eq_mod]

/-- The bytes decoded are bytes. -/
theorem data_bytes {L D : List Nat} {bits : List Bool} {a b : List Nat} (h : Data L D bits a b) (ha : ∀ x ∈ a, x < 256) : ∀ x ∈ b, x < 256 := by
  induction h with
  | stop => exact ha
  | literal c bits x out out' hc hx h ih =>
    apply ih
    intro y hy
    rcases List.mem_append.1 hy with hy | hy
    · exact ha y hy
    · rw [List.mem_singleton.1 hy]; exact hx
  | copy c e c' e' bits x y len d out mid out' hc hx hc' hy hr h ih =>
    apply ih
    obtain ⟨h1, h2, h3, ⟨t, rfl⟩, h5⟩ := hr
    have key : ∀ (i : Nat) (v : Nat), (out ++ t)[i]? = some v → v < 256 := by
      intro i
      induction i using Nat.strongRecOn with
      | ind i ih2 =>
        intro v hv
        by_cases hi : i < out.length
        · rw [List.getElem?_append_left hi] at hv
          exact ha v (List.mem_of_getElem? hv)
        · have hlt := (List.getElem?_eq_some_iff.1 hv).1
          rw [h5 i (by omega) hlt] at hv
          exact ih2 _ (by omega) v hv
    intro v hv
    obtain ⟨i, hi⟩ := List.mem_iff_getElem?.1 hv
    exact key i v hi

theorem body_bytes {type pos : Nat} {bits : List Bool} {a b : List Nat} (h : Body type pos bits a b) (ha : ∀ x ∈ a, x < 256) : ∀ x ∈ b, x < 256 := by
  cases h with
  | stored pos skip len nlen data out hs hps hl hn hd hb =>
    intro y hy
    rcases List.mem_append.1 hy with hy | hy
    · exact ha y hy
    · exact hb y hy
  | fixed pos bits out out' h => exact data_bytes h ha
  | dynamic pos head bits L D out out' hh h => exact data_bytes h ha

theorem blocks_bytes {pos : Nat} {bits : List Bool} {a b : List Nat} (h : Blocks pos bits a b) (ha : ∀ x ∈ a, x < 256) : ∀ x ∈ b, x < 256 := by
  induction h with
  | last pos type bits out out' ht h => exact body_bytes h ha
  | more pos type bits bits' out mid out' ht h h' ih => exact ih (body_bytes h ha)

theorem readByte_iff (l : List Bool) (b s : Nat) : readBits 8 (enc l) = some (b, s) ↔
    ∃ rest, b < 256 ∧ l = bitsOfNum 8 b ++ rest ∧ s = enc rest := by
  rw [readBits_iff]
  constructor
  · rintro ⟨a, rest, rfl, ha, rfl, rfl⟩
    have h1 := lsb_lt a
    have h2 := bitsOfNum_lsb a
    rw [ha] at h1 h2
    exact ⟨rest, h1, by rw [h2], rfl⟩
  · rintro ⟨rest, hb, rfl, rfl⟩
    exact ⟨bitsOfNum 8 b, rest, rfl, length_bitsOfNum _ _, by rw [lsb_bitsOfNum]; exact Nat.mod_eq_of_lt hb, rfl⟩

theorem readBytes_iff (n : Nat) (l : List Bool) (bs : List Nat) (s : Nat) : readBytes n (enc l) = some (bs, s) ↔
    ∃ rest, bs.length = n ∧ (∀ b ∈ bs, b < 256) ∧ l = bitsOfBytes bs ++ rest ∧ s = enc rest := by
  induction n generalizing l bs s with
  | zero =>
    simp only [readBytes, Option.some.injEq, Prod.mk.injEq]
    constructor
    · rintro ⟨rfl, rfl⟩
      exact ⟨l, rfl, by simp, rfl, rfl⟩
    · rintro ⟨rest, h, -, rfl, rfl⟩
      have := List.eq_nil_of_length_eq_zero h
      subst this
      exact ⟨rfl, rfl⟩
  | succ n ih =>
    rw [readBytes]
    constructor
    · intro h
      split at h
      · simp at h
      · rename_i b s1 h1
        obtain ⟨rest, hb, rfl, rfl⟩ := (readByte_iff _ _ _).1 h1
        obtain ⟨⟨t, s2⟩, h2, h3⟩ := Option.map_eq_some_iff.1 h
        obtain ⟨rest', hl, ht, rfl, rfl⟩ := (ih _ _ _).1 h2
        simp only [Prod.mk.injEq] at h3
        obtain ⟨rfl, rfl⟩ := h3
        refine ⟨rest', by simp [hl], ?_, by rw [bitsOfBytes_cons, List.append_assoc], rfl⟩
        intro x hx
        rcases List.mem_cons.1 hx with rfl | hx
        · exact hb
        · exact ht x hx
    · rintro ⟨rest, hl, hb, rfl, rfl⟩
      cases bs with
      | nil => simp at hl
      | cons b t =>
        rw [bitsOfBytes_cons, List.append_assoc, (readByte_iff _ b _).2 ⟨_, hb b (by simp), rfl, rfl⟩]
        dsimp only
        rw [(ih _ t _).2 ⟨rest, by simpa using hl, fun x hx => hb x (by simp [hx]), rfl, rfl⟩]
        rfl

theorem readString_iff (n : Nat) (l : List Bool) (bs : List Nat) (s : Nat) : readString n (enc l) = some (bs, s) ↔
    ∃ name rest, bs = name ++ [0] ∧ (∀ b ∈ name, b ≠ 0) ∧ name.length < n ∧ (∀ b ∈ bs, b < 256) ∧ l = bitsOfBytes bs ++ rest ∧ s = enc rest := by
  induction n generalizing l bs s with
  | zero => simp [readString]
  | succ n ih =>
    rw [readString]
    constructor
    · intro h
      split at h
      · simp at h
      · rename_i b s1 h1
        obtain ⟨rest, hb, rfl, rfl⟩ := (readByte_iff _ _ _).1 h1
        split at h
        · rename_i h0
          subst h0
          simp only [Option.some.injEq, Prod.mk.injEq] at h
          obtain ⟨rfl, rfl⟩ := h
          exact ⟨[], rest, rfl, by simp, by simp, by simp, rfl, rfl⟩
        · rename_i h0
          obtain ⟨⟨t, s2⟩, h2, h3⟩ := Option.map_eq_some_iff.1 h
          obtain ⟨name, rest', rfl, hn, hl, ht, rfl, rfl⟩ := (ih _ _ _).1 h2
          simp only [Prod.mk.injEq] at h3
          obtain ⟨rfl, rfl⟩ := h3
          refine ⟨b :: name, rest', rfl, ?_, by simpa using hl, ?_, by rw [bitsOfBytes_cons, List.append_assoc], rfl⟩
          · intro x hx
            rcases List.mem_cons.1 hx with rfl | hx
            · exact h0
            · exact hn x hx
          · intro x hx
            rcases List.mem_cons.1 hx with rfl | hx
            · exact hb
            · exact ht x hx
    · rintro ⟨name, rest, rfl, hn, hl, hb, rfl, rfl⟩
      cases name with
      | nil =>
        rw [List.nil_append, bitsOfBytes_cons, List.append_assoc, (readByte_iff _ 0 _).2 ⟨_, by decide, rfl, rfl⟩]
        rfl
      | cons b t =>
        rw [List.cons_append, bitsOfBytes_cons, List.append_assoc, (readByte_iff _ b _).2 ⟨_, hb b (by simp), rfl, rfl⟩]
        dsimp only
        rw [if_neg (hn b (by simp)), (ih _ (t ++ [0]) _).2 ⟨t, rest, rfl, fun x hx => hn x (by simp [hx]), by simpa using hl,
          fun x hx => hb x (by simp only [List.cons_append, List.mem_cons]; exact .inr hx), rfl, rfl⟩]
        rfl

theorem readExtra_iff (l : List Bool) (bs : List Nat) (s : Nat) : readExtra (enc l) = some (bs, s) ↔
    ∃ rest, IsExtra bs ∧ (∀ b ∈ bs, b < 256) ∧ l = bitsOfBytes bs ++ rest ∧ s = enc rest := by
  rw [readExtra]
  constructor
  · intro h
    split at h
    · simp at h
    · rename_i len s1 h1
      obtain ⟨rest, hl, hb, rfl, rfl⟩ := (readBytes_iff _ _ _ _).1 h1
      obtain ⟨⟨t, s2⟩, h2, h3⟩ := Option.map_eq_some_iff.1 h
      obtain ⟨rest', hl', ht, rfl, rfl⟩ := (readBytes_iff _ _ _ _).1 h2
      simp only [Prod.mk.injEq] at h3
      obtain ⟨rfl, rfl⟩ := h3
      obtain ⟨x, y, rfl⟩ := List.length_eq_two.1 hl
      have hx := hb x (by simp)
      have hy := hb y (by simp)
      simp only [List.getD_cons_succ, List.getD_cons_zero] at hl'
      refine ⟨rest', ⟨t, by omega, ?_⟩, ?_, by rw [bitsOfBytes_append, List.append_assoc], rfl⟩
      · rw [show t.length % 256 = x by omega, show t.length / 256 = y by omega]; rfl
      · intro z hz
        rcases List.mem_append.1 hz with hz | hz
        · exact hb z hz
        · exact ht z hz
  · rintro ⟨rest, ⟨t, hl, rfl⟩, hb, rfl, rfl⟩
    rw [(readBytes_iff 2 _ [t.length % 256, t.length / 256] _).2 ⟨bitsOfBytes t ++ rest, rfl, fun x hx => hb x (by
      simp only [List.mem_cons, List.not_mem_nil, or_false] at hx ⊢
      tauto), by rw [← List.append_assoc, ← bitsOfBytes_append]; rfl, rfl⟩]
    dsimp only
    rw [(readBytes_iff _ _ t _).2 ⟨rest, by simp; omega, fun x hx => hb x (by simp [hx]), rfl, rfl⟩]
    rfl

theorem readName_iff (l : List Bool) (bs : List Nat) (s : Nat) : readString bufferSize (enc l) = some (bs, s) ↔
    ∃ rest, IsName goRules bs ∧ (∀ b ∈ bs, b < 256) ∧ l = bitsOfBytes bs ++ rest ∧ s = enc rest := by
  rw [readString_iff]
  constructor
  · rintro ⟨name, rest, h1, h2, h3, h4, h5, h6⟩
    have h3 : name.length < 512 := h3
    exact ⟨rest, ⟨name, h2, by change name.length ≤ 511; omega, h1⟩, h4, h5, h6⟩
  · rintro ⟨rest, ⟨name, h2, h3, h1⟩, h4, h5, h6⟩
    have h3 : name.length ≤ 511 := h3
    exact ⟨name, rest, h1, h2, by change name.length < 512; omega, h4, h5, h6⟩

theorem readField_iff {read : Nat → Option (List Nat × Nat)} {P : List Nat → Prop}
    (h : ∀ l bs s, read (enc l) = some (bs, s) ↔ ∃ rest, P bs ∧ (∀ b ∈ bs, b < 256) ∧ l = bitsOfBytes bs ++ rest ∧ s = enc rest)
    (flag : Bool) (l : List Bool) (bs : List Nat) (s : Nat) : readField flag read (enc l) = some (bs, s) ↔
      ∃ rest, (if flag then P bs else bs = []) ∧ (∀ b ∈ bs, b < 256) ∧ l = bitsOfBytes bs ++ rest ∧ s = enc rest := by
  cases flag with
  | true => exact h l bs s
  | false =>
    simp only [readField, Bool.false_eq_true, if_false, Option.some.injEq, Prod.mk.injEq]
    constructor
    · rintro ⟨rfl, rfl⟩
      exact ⟨l, rfl, by simp, rfl, rfl⟩
    · rintro ⟨rest, rfl, -, rfl, rfl⟩
      exact ⟨rfl, rfl⟩

theorem fixed_bytes {fixed : List Nat} (hl : fixed.length = 10) (hm : fixed.take 3 = [31, 139, 8]) :
    ∃ flags other, fixed = [31, 139, 8, flags] ++ other ∧ other.length = 6 := by
  match fixed, hl, hm with
  | [a, b, c, flags, x0, x1, x2, x3, x4, x5], _, hm =>
    simp only [List.take_succ_cons, List.take_zero, List.cons.injEq, and_true] at hm
    obtain ⟨rfl, rfl, rfl⟩ := hm
    exact ⟨flags, [x0, x1, x2, x3, x4, x5], rfl, rfl⟩

theorem gzipHeader_iff (l : List Bool) (s : Nat) : gzipHeader (enc l) = some s ↔
    ∃ bytes rest, Header goRules bytes ∧ l = bitsOfBytes bytes ++ rest ∧ s = enc rest := by
  rw [gzipHeader]
  constructor
  · intro h
    split at h
    · simp at h
    rename_i fixed s0 h0
    obtain ⟨l0, hl, hb0, rfl, rfl⟩ := (readBytes_iff _ _ _ _).1 h0
    split at h
    · rename_i hm
      obtain ⟨flags, other, rfl, ho⟩ := fixed_bytes hl hm
      have hflags : ([31, 139, 8, flags] ++ other).getD 3 0 = flags := rfl
      dsimp only at h
      rw [hflags] at h
      split at h
      · simp at h
      rename_i extra s1 h1
      obtain ⟨l1, hf1, hb1, rfl, rfl⟩ := (readField_iff readExtra_iff _ _ _ _).1 h1
      split at h
      · simp at h
      rename_i name s2 h2
      obtain ⟨l2, hf2, hb2, rfl, rfl⟩ := (readField_iff readName_iff _ _ _ _).1 h2
      split at h
      · simp at h
      rename_i comment s3 h3
      obtain ⟨l3, hf3, hb3, rfl, rfl⟩ := (readField_iff readName_iff _ _ _ _).1 h3
      split at h
      · simp at h
      rename_i check s4 h4
      obtain ⟨l4, hf4, hb4, rfl, rfl⟩ := (readField_iff (P := fun bs => bs.length = 2) (readBytes_iff 2) _ _ _ _).1 h4
      split at h
      · rename_i hc
        simp only [Option.some.injEq] at h
        have hbytes : ∀ b ∈ [31, 139, 8, flags] ++ other ++ extra ++ name ++ comment, b < 256 := by
          intro b hb
          rw [List.mem_append, List.mem_append, List.mem_append] at hb
          rcases hb with ((hb | hb) | hb) | hb
          · exact hb0 b hb
          · exact hb1 b hb
          · exact hb2 b hb
          · exact hb3 b hb
        refine ⟨([31, 139, 8, flags] ++ other ++ extra ++ name ++ comment) ++ check, l4,
          ⟨flags, other, extra, name, comment, check, rfl, ?_, ho, trivial, hf1, hf2, hf3, ?_⟩, ?_, h.symm⟩
        · intro b hb
          rcases List.mem_append.1 hb with hb | hb
          · exact hbytes b hb
          · exact hb4 b hb
        · cases hflag : flags.testBit 1 with
          | false => rw [hflag] at hf4; simpa using hf4
          | true =>
            rw [hflag] at hf4 hc
            simp only [if_true] at hf4
            have hc := hc rfl
            rw [if_pos rfl]
            rw [crc_eq _ hbytes] at hc
            obtain ⟨p, q, rfl⟩ := List.length_eq_two.1 hf4
            simp only [List.getD_cons_succ, List.getD_cons_zero] at hc
            have hp := hb4 p (by simp)
            have hq := hb4 q (by simp)
            dsimp only
            generalize Verif.Spec.Deflate.crc ([31, 139, 8, flags] ++ other ++ extra ++ name ++ comment) = c at hc ⊢
            rw [show p = c % 256 by omega, show q = c / 256 % 256 by omega]
        · simp only [bitsOfBytes_append, List.append_assoc]
      · simp at h
    · simp at h
  · rintro ⟨bytes, rest, ⟨flags, other, extra, name, comment, check, rfl, hb, ho, -, hf1, hf2, hf3, hf4⟩, rfl, rfl⟩
    have hb' : ∀ b ∈ [31, 139, 8, flags] ++ other ++ extra ++ name ++ comment, b < 256 := fun b h => hb b (List.mem_append_left _ h)
    have m0 : ∀ b ∈ [31, 139, 8, flags] ++ other, b < 256 := fun b h => hb' b (List.mem_append_left _ (List.mem_append_left _ (List.mem_append_left _ h)))
    have m1 : ∀ b ∈ extra, b < 256 := fun b h => hb' b (List.mem_append_left _ (List.mem_append_left _ (List.mem_append_right _ h)))
    have m2 : ∀ b ∈ name, b < 256 := fun b h => hb' b (List.mem_append_left _ (List.mem_append_right _ h))
    have m3 : ∀ b ∈ comment, b < 256 := fun b h => hb' b (List.mem_append_right _ h)
    have m4 : ∀ b ∈ check, b < 256 := fun b h => hb b (List.mem_append_right _ h)
    rw [bitsOfBytes_append, bitsOfBytes_append, bitsOfBytes_append, bitsOfBytes_append, List.append_assoc, List.append_assoc, List.append_assoc,
      List.append_assoc]
    rw [(readBytes_iff 10 _ ([31, 139, 8, flags] ++ other) _).2 ⟨_, by simp [ho], m0, rfl, rfl⟩]
    dsimp only
    rw [if_pos (by simp)]
    have hflags : ([31, 139, 8, flags] ++ other).getD 3 0 = flags := rfl
    rw [hflags, (readField_iff readExtra_iff _ _ extra _).2 ⟨_, hf1, m1, rfl, rfl⟩]
    dsimp only
    rw [(readField_iff readName_iff _ _ name _).2 ⟨_, hf2, m2, rfl, rfl⟩]
    dsimp only
    rw [(readField_iff readName_iff _ _ comment _).2 ⟨_, hf3, m3, rfl, rfl⟩]
    dsimp only
    rw [(readField_iff (P := fun bs => bs.length = 2) (readBytes_iff 2) _ _ check _).2 ⟨_, by
      cases hflag : flags.testBit 1 with
      | false => rw [hflag] at hf4; simpa using hf4
      | true => rw [hflag, if_pos rfl] at hf4; rw [if_pos rfl, hf4]; rfl, m4, rfl, rfl⟩]
    dsimp only
    rw [if_pos]
    intro hflag
    rw [hflag, if_pos rfl] at hf4
    rw [crc_eq _ hb', hf4]
    simp only [List.getD_cons_succ, List.getD_cons_zero]
    omega

theorem header_length {r : Rules} {bytes : List Nat} (h : Header r bytes) : 10 ≤ bytes.length := by
  obtain ⟨flags, other, extra, name, comment, check, rfl, -, ho, -⟩ := h
  simp only [List.length_append, List.length_cons, List.length_nil]
  omega

theorem gzipMember_complete {bits : List Bool} {data : List Nat} (h : Member goRules bits data) (rest : List Bool) (hr : rest.length % 8 = 0) :
    gzipMember (enc (bits ++ rest)) = some (data, enc rest) := by
  obtain ⟨header, blocks, skip, check, size, rfl, h1, h2, h3, h4, h5, h6, h7, h8⟩ := h
  simp only [List.append_assoc]
  have b1 := (gzipHeader_iff _ _).2 ⟨header, blocks ++ (skip ++ (check ++ (size ++ rest))), h1, rfl, rfl⟩
  have b3 := readBits_append check (size ++ rest)
  have b4 := readBits_append size rest
  rw [h5] at b3
  rw [h7] at b4
  have hi := inflate_complete h2 (skip ++ (check ++ (size ++ rest))) ((enc (blocks ++ (skip ++ (check ++ (size ++ rest))))).log2 + 1)
    (by rw [log2_enc, List.length_append]; omega) (by simp only [List.length_append]; omega)
  rw [List.reverse_nil] at hi
  rw [gzipMember, b1]
  dsimp only
  rw [hi]
  dsimp only
  rw [align_append skip _ h3 (by simp only [List.length_append]; omega), b3]
  dsimp only
  rw [b4]
  dsimp only
  rw [List.reverse_reverse, crc_eq data (blocks_bytes h2 (by simp)), if_pos ⟨h6, h8⟩]

theorem gzipMember_sound {l : List Bool} {data : List Nat} {s : Nat} (hp : l.length % 8 = 0) (h : gzipMember (enc l) = some (data, s)) :
    ∃ bits rest, l = bits ++ rest ∧ s = enc rest ∧ Member goRules bits data ∧ rest.length % 8 = 0 ∧ 144 ≤ bits.length := by
  rw [gzipMember] at h
  split at h
  · simp at h
  · rename_i s0 h0
    obtain ⟨header, l2, hh, rfl, rfl⟩ := (gzipHeader_iff _ _).1 h0
    have hl := header_length hh
    rw [List.length_append, length_bitsOfBytes] at hp
    split at h
    · simp at h
    · rename_i s3 out h3
      obtain ⟨blocks, l3, rfl, rfl, hb⟩ := inflate_sound (pos := 0) (by omega) h3
      dsimp only at h
      obtain ⟨skip, l4, rfl, ha, hs, hm4⟩ := align_split l3
      rw [ha] at h
      split at h
      · simp at h
      · rename_i v4 s4 h4
        obtain ⟨check, l5, rfl, hc, rfl, rfl⟩ := (readBits_iff _ _ _ _).1 h4
        split at h
        · simp at h
        · rename_i v5 s5 h5
          obtain ⟨size, l6, rfl, hz, rfl, rfl⟩ := (readBits_iff _ _ _ _).1 h5
          split at h
          · rename_i hok
            simp only [Option.some.injEq, Prod.mk.injEq] at h
            obtain ⟨rfl, rfl⟩ := h
            simp only [List.length_append] at hp hm4
            refine ⟨bitsOfBytes header ++ (blocks ++ (skip ++ (check ++ size))), l6, by simp, rfl,
              ⟨header, blocks, skip, check, size, rfl, hh, ?_, hs, by omega, hc, ?_, hz, hok.2⟩, by omega, ?_⟩
            · simpa using hb
            · rw [hok.1, crc_eq _ (blocks_bytes (by simpa using hb) (by simp))]
            · simp only [List.length_append, length_bitsOfBytes]; omega
          · simp at h

theorem gzipMembers_complete {bits : List Bool} {data : List Nat} (h : Members goRules bits data) (fuel : Nat) (hf : bits.length < 8 * fuel) (hp : bits.length % 8 = 0) :
    gzipMembers fuel (enc bits) = some data := by
  induction h generalizing fuel with
  | last bits data h =>
    obtain ⟨f, rfl⟩ := Nat.exists_eq_succ_of_ne_zero (show fuel ≠ 0 by omega)
    have := gzipMember_complete h [] rfl
    rw [List.append_nil] at this
    rw [gzipMembers, this]
    rfl
  | more bits bits' data data' h h' ih =>
    obtain ⟨f, rfl⟩ := Nat.exists_eq_succ_of_ne_zero (show fuel ≠ 0 by omega)
    have hlen : 144 ≤ bits.length ∧ bits.length % 8 = 0 := by
      obtain ⟨header, blocks, skip, check, size, rfl, h1, h2, h3, h4, h5, h6, h7, h8⟩ := h
      have := header_length h1
      simp only [List.length_append, length_bitsOfBytes]
      omega
    rw [List.length_append] at hf hp
    have hm' : bits' ≠ [] := by
      have key : ∀ (b : List Bool) (d : List Nat), Members goRules b d → 0 < b.length := by
        intro b d hm
        have first : ∀ (b : List Bool) (d : List Nat), Member goRules b d → 0 < b.length := by
          rintro b d ⟨header, blocks, skip, check, size, rfl, h1, _⟩
          have := header_length h1
          rw [List.length_append, length_bitsOfBytes]
          omega
        cases hm with
        | last _ _ h => exact first _ _ h
        | more b1 b2 _ _ h _ => have := first _ _ h; rw [List.length_append]; omega
      exact List.ne_nil_of_length_pos (key _ _ h')
    rw [gzipMembers, gzipMember_complete h bits' (by omega)]
    dsimp only
    rw [if_neg, ih f (by omega) (by omega)]
    · rfl
    · intro he
      exact hm' (enc_injective (b := []) he)

theorem gzipMembers_sound {fuel : Nat} {l : List Bool} {data : List Nat} (hp : l.length % 8 = 0) (h : gzipMembers fuel (enc l) = some data) :
    Members goRules l data := by
  induction fuel generalizing l data with
  | zero => simp [gzipMembers] at h
  | succ fuel ih =>
    rw [gzipMembers] at h
    split at h
    · simp at h
    · rename_i d s h1
      obtain ⟨bits, rest, rfl, rfl, hm, hr, _⟩ := gzipMember_sound hp h1
      split at h
      · rename_i he
        have hnil : rest = [] := enc_injective (b := []) he
        subst hnil
        simp only [Option.some.injEq] at h
        subst h
        rw [List.append_nil]
        exact .last _ _ hm
      · rw [Option.map_eq_some_iff] at h
        obtain ⟨d', h2, rfl⟩ := h
        exact .more _ _ _ _ hm (ih hr h2)

/-- The decoder accepts exactly the gzip files. -/
theorem gunzip_iff (file : List Nat) (hb : ∀ b ∈ file, b < 256) (data : List Nat) : gunzip file = some data ↔ GzipFile goRules file data := by
  rw [gunzip, bitsOf_eq file hb, GzipFile]
  have hl := length_bitsOfBytes file
  exact ⟨fun h => gzipMembers_sound (by omega) h, fun h => gzipMembers_complete h _ (by omega) (by omega)⟩

end Verif.Lemmas.Deflate
