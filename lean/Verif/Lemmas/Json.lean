import Verif.Spec.Json
/-
The JSON reader of the specification inverts the texts of the model.
-/
set_option autoImplicit false

namespace Verif.Lemmas
open Verif.Go Verif.Model Verif.Spec

/-! ### numbers -/

/-- The text after a value does not continue a number. -/
def Stops (rest : List Char) : Prop := ∀ c ∈ rest.head?, digitVal c = none

theorem digitVal_isDigit {c : Char} (h : c.isDigit = true) : digitVal c = some (c.toNat - '0'.toNat) := by
  unfold digitVal
  rw [if_pos]
  rw [Char.isDigit, Bool.and_eq_true, decide_eq_true_eq, decide_eq_true_eq] at h
  exact ⟨h.1, h.2⟩

theorem readDigits_append {l rest : List Char} (hr : Stops rest) (hl : ∀ c ∈ l, c.isDigit = true) (acc : Nat) :
    readDigits acc (l ++ rest) = (Nat.ofDigitChars 10 l acc, rest) := by
  induction l generalizing acc with
  | nil =>
    cases rest with
    | nil => simp [readDigits]
    | cons c rest =>
      have := hr c (by simp)
      simp [readDigits, this]
  | cons c l ih =>
    have hc := digitVal_isDigit (hl c (by simp))
    rw [List.cons_append, readDigits, hc]
    simp only
    rw [ih (fun c' h => hl c' (by simp [h])), Nat.ofDigitChars_cons, Nat.mul_comm]

theorem readNat_toDigits (n : Nat) {rest : List Char} (hr : Stops rest) :
    readNat (Nat.toDigits 10 n ++ rest) = some (n, rest) := by
  have hd : ∀ c ∈ Nat.toDigits 10 n, c.isDigit = true :=
    fun c hc => Nat.isDigit_of_mem_toDigits (by omega) (by omega) hc
  have hv := Nat.ofDigitChars_ten_toDigits (n := n)
  cases hl : Nat.toDigits 10 n with
  | nil => exact absurd hl Nat.toDigits_ne_nil
  | cons c l =>
    rw [hl] at hd hv
    rw [List.cons_append, readNat, digitVal_isDigit (hd c (by simp)), Option.map_some,
      readDigits_append hr (fun c' h => hd c' (by simp [h])), ← hv, Nat.ofDigitChars_cons]
    simp

/-! ### strings -/

theorem hexVal_hexDigit (n : Nat) (h : n < 16) : hexVal (hexDigit n) = some n := by
  have : ∀ k : Fin 16, hexVal (hexDigit k.val) = some k.val := by decide +kernel
  exact this ⟨n, h⟩

theorem readChars_plain {c : Char} (h1 : c ≠ '"') (h2 : c ≠ '\\') (rest : List Char) :
    readChars (c :: rest) = (readChars rest).bind fun p => some (c :: p.1, p.2) := by
  rw [readChars.eq_def]
  split <;> simp_all

theorem readChars_char (c : Char) (rest : List Char) :
    readChars (jsonChar c ++ rest) = (readChars rest).bind fun p => some (c :: p.1, p.2) := by
  unfold jsonChar
  split_ifs with h1 h2 h3 h4 h5
  · rcases h1 with rfl | rfl
    · simp [readChars]
    · simp [readChars]
  · subst h2; simp [readChars]
  · subst h3; simp [readChars]
  · subst h4; simp [readChars]
  · have hb : c.toNat < 65536 := by
      rcases h5 with h | rfl | rfl | rfl | h | h
      · omega
      · decide
      · decide
      · decide
      · omega
      · omega
    simp only [List.cons_append, List.nil_append]
    rw [readChars]
    simp only [hexVal_hexDigit _ (Nat.mod_lt _ (by omega : 16 > 0)), Option.bind_eq_bind, Option.bind_some]
    have e : (c.toNat / 4096 % 16 * 16 + c.toNat / 256 % 16) * 256 + c.toNat / 16 % 16 * 16 + c.toNat % 16 = c.toNat := by
      omega
    rw [e, Char.ofNat_toNat]
  · simp only [List.cons_append, List.nil_append]
    exact readChars_plain (fun h => h1 (Or.inl h)) (fun h => h1 (Or.inr h)) rest

theorem readChars_string (s rest : List Char) :
    readChars (s.flatMap jsonChar ++ '"' :: rest) = some (s, rest) := by
  induction s with
  | nil => simp [readChars]
  | cons c s ih =>
    rw [List.flatMap_cons, List.append_assoc, readChars_char, ih]
    rfl

theorem jsonString_append (s : String) (rest : List Char) :
    jsonString s ++ rest = '"' :: (s.toList.flatMap jsonChar ++ '"' :: rest) := by
  simp [jsonString]

/-! ### values -/

mutual
def jsonSize : Json → Nat
  | .bool _ | .num _ | .str _ => 1
  | .arr l => 1 + itemsSize l
  | .obj l => 1 + fieldsSize l
def itemsSize : List Json → Nat
  | [] => 0
  | x :: rest => 1 + jsonSize x + itemsSize rest
def fieldsSize : List (String × Json) → Nat
  | [] => 0
  | (_, x) :: rest => 1 + jsonSize x + fieldsSize rest
end

theorem textMore_head (l : List Json) : ∃ c r, textMoreItems l = c :: r ∧ (c = ']' ∨ c = ',') := by
  cases l <;> simp [textMoreItems]

theorem stops_moreItems (l : List Json) (rest : List Char) : Stops (textMoreItems l ++ rest) := by
  cases l with
  | nil => intro c hc; simp [textMoreItems] at hc; subst hc; decide
  | cons x l => intro c hc; simp [textMoreItems] at hc; subst hc; decide

theorem stops_moreFields (l : List (String × Json)) (rest : List Char) : Stops (textMoreFields l ++ rest) := by
  cases l with
  | nil => intro c hc; simp [textMoreFields] at hc; subst hc; decide
  | cons x l => intro c hc; simp [textMoreFields] at hc; subst hc; decide

theorem int_text (i : Int) : (toString i).toList = if 0 ≤ i then Nat.toDigits 10 i.toNat else '-' :: Nat.toDigits 10 (-i).toNat := by
  rw [Int.toString_eq_repr, Int.repr_eq_if]
  split_ifs with h
  · rw [Nat.toList_repr]
  · rw [String.toList_append, Nat.toList_repr]; rfl

theorem text_ne_close (j : Json) (rest : List Char) : ∃ c r, j.text ++ rest = c :: r ∧ c ≠ ']' := by
  cases j with
  | bool b => cases b <;> simp [Json.text]
  | num i =>
    rw [Json.text, int_text]
    split_ifs
    · cases h : Nat.toDigits 10 i.toNat with
      | nil => exact absurd h Nat.toDigits_ne_nil
      | cons c l =>
        refine ⟨c, l ++ rest, rfl, ?_⟩
        rintro rfl
        have := Nat.isDigit_of_mem_toDigits (n := i.toNat) (c := ']') (b := 10) (by omega) (by omega) (by rw [h]; simp)
        simp at this
    · simp
  | str s => simp [Json.text, jsonString]
  | arr l => simp [Json.text]
  | obj l => simp [Json.text]

theorem readValue_num (n : Nat) (i : Int) {rest : List Char} (hr : Stops rest) :
    readValue (n + 1) ((toString i).toList ++ rest) = some (.num i, rest) := by
  rw [int_text]
  split_ifs with h
  · have hn := readNat_toDigits i.toNat hr
    have hd : ∀ c ∈ Nat.toDigits 10 i.toNat, c.isDigit = true :=
      fun c hc => Nat.isDigit_of_mem_toDigits (by omega) (by omega) hc
    cases hl : Nat.toDigits 10 i.toNat with
    | nil => exact absurd hl Nat.toDigits_ne_nil
    | cons c l =>
      rw [hl] at hn hd
      have hc := hd c (by simp)
      rw [List.cons_append] at hn ⊢
      rw [readValue.eq_def]
      simp only
      split <;> (try (rename_i heq; simp only [List.cons.injEq] at heq; obtain ⟨rfl, -⟩ := heq; simp at hc))
      rw [hn]
      simp only [Option.map_some, Option.some.injEq, Prod.mk.injEq, Json.num.injEq, and_true]
      omega
  · have hn := readNat_toDigits (-i).toNat hr
    rw [List.cons_append, readValue]
    simp only [hn, Option.map_some, Option.some.injEq, Prod.mk.injEq, Json.num.injEq, and_true]
    omega

theorem read_all (n : Nat) :
    (∀ j : Json, jsonSize j ≤ n → ∀ rest, Stops rest → readValue n (j.text ++ rest) = some (j, rest)) ∧
    (∀ (x : Json) (l : List Json), 1 + jsonSize x + itemsSize l ≤ n → ∀ rest,
      readItems n (x.text ++ (textMoreItems l ++ rest)) = some (x :: l, rest)) ∧
    (∀ (k : String) (x : Json) (l : List (String × Json)), 1 + jsonSize x + fieldsSize l ≤ n → ∀ rest,
      readFields n (jsonString k ++ ':' :: (x.text ++ (textMoreFields l ++ rest))) = some ((k, x) :: l, rest)) := by
  induction n with
  | zero =>
    refine ⟨fun j hn => ?_, fun x l hn => by omega, fun k x l hn => by omega⟩
    cases j <;> simp [jsonSize] at hn
  | succ n ih =>
    obtain ⟨read_value, read_items, read_fields⟩ := ih
    refine ⟨fun j hn rest hr => ?_, fun x l hn rest => ?_, fun k x l hn rest => ?_⟩
    · match j, hn with
      | .bool true, _ => simp [Json.text, readValue]
      | .bool false, _ => simp [Json.text, readValue]
      | .num i, _ => rw [Json.text]; exact readValue_num n i hr
      | .str s, _ =>
        rw [Json.text, jsonString_append, readValue]
        simp only [readChars_string, Option.map_some, String.ofList_toList]
      | .arr [], _ => simp [Json.text, textItems, readValue]
      | .arr (x :: l), hn =>
        rw [jsonSize, itemsSize] at hn
        have := read_items x l (by omega) rest
        rw [Json.text, textItems]
        obtain ⟨c, r, hc, hne⟩ := text_ne_close x (textMoreItems l ++ rest)
        rw [List.cons_append, List.append_assoc] at *
        rw [hc] at this ⊢
        rw [readValue.eq_def]
        simp only
        split <;> simp_all
      | .obj [], _ => simp [Json.text, textFields, readValue]
      | .obj ((k, x) :: l), hn =>
        rw [jsonSize, fieldsSize] at hn
        have := read_fields k x l (by omega) rest
        rw [Json.text, textFields]
        simp only [List.cons_append, List.append_assoc, jsonString_append] at this ⊢
        rw [readValue]
        · rw [this]; rfl
        all_goals simp
    · have hx := read_value x (by omega) _ (stops_moreItems l rest)
      rw [readItems, hx]
      match l, hn with
      | [], _ => simp [textMoreItems]
      | y :: l, hn =>
        rw [itemsSize] at hn
        have := read_items y l (by omega) rest
        simp [textMoreItems, this]
    · have hx := read_value x (by omega) _ (stops_moreFields l rest)
      rw [jsonString_append, readFields]
      simp only [readChars_string, Option.bind_eq_bind, Option.bind_some, hx, String.ofList_toList]
      match l, hn with
      | [], _ => simp [textMoreFields]
      | (k', y) :: l, hn =>
        rw [fieldsSize] at hn
        have := read_fields k' y l (by omega) rest
        simp [textMoreFields, this]

mutual
theorem size_value (j : Json) : jsonSize j ≤ j.text.length := by
  match j with
  | .bool b => cases b <;> simp [Json.text, jsonSize]
  | .num i =>
    obtain ⟨c, r, h, -⟩ := text_ne_close (.num i) []
    rw [List.append_nil] at h
    rw [h, jsonSize]; simp
  | .str s => simp [Json.text, jsonString, jsonSize]
  | .arr [] => simp [Json.text, textItems, jsonSize, itemsSize]
  | .arr (x :: l) =>
    have h1 := size_value x
    have h2 := size_items l
    simp only [Json.text, textItems, jsonSize, itemsSize, List.length_cons, List.length_append] at *
    omega
  | .obj [] => simp [Json.text, textFields, jsonSize, fieldsSize]
  | .obj ((k, x) :: l) =>
    have h1 := size_value x
    have h2 := size_fields l
    simp only [Json.text, textFields, jsonSize, fieldsSize, List.length_cons, List.length_append] at *
    omega
theorem size_items (l : List Json) : 1 + itemsSize l ≤ (textMoreItems l).length := by
  match l with
  | [] => simp [textMoreItems, itemsSize]
  | x :: l =>
    have h1 := size_value x
    have h2 := size_items l
    simp only [textMoreItems, itemsSize, List.length_cons, List.length_append] at *
    omega
theorem size_fields (l : List (String × Json)) : 1 + fieldsSize l ≤ (textMoreFields l).length := by
  match l with
  | [] => simp [textMoreFields, fieldsSize]
  | (k, x) :: l =>
    have h1 := size_value x
    have h2 := size_fields l
    simp only [textMoreFields, fieldsSize, List.length_cons, List.length_append] at *
    omega
end

theorem readJson_text (j : Json) : readJson j.text = some j := by
  have h := (read_all (j.text.length + 1)).1 j (by have := size_value j; omega) [] (by intro c hc; simp at hc)
  rw [List.append_nil] at h
  unfold readJson
  rw [h]

end Verif.Lemmas
