import Verif.Props.Unmarshal
/-
C61, last part: the texts of the data files are decoded to the moons of the table.
-/
set_option autoImplicit false

namespace Verif.Props
open Verif.Go Verif.Model Verif.Model.Unmarshal Verif.Spec Verif.Spec.Grammar Verif.Spec.Decode Verif.Lemmas Verif.Lemmas.Unmarshal

theorem pad_mod (k n : Nat) : pad k n = pad k (n % 10 ^ k) := by
  induction k generalizing n with
  | zero => rfl
  | succ k ih =>
    rw [pad, pad, ih (n / 10)]
    have e1 : n % 10 ^ (k + 1) / 10 = n / 10 % 10 ^ k := by rw [Nat.pow_succ', Nat.mod_mul_right_div_self]
    have e2 : digitOf (n % 10 ^ (k + 1)) = digitOf n := by
      unfold digitOf
      rw [Nat.pow_succ', Nat.mod_mul_right_mod]
    rw [e1, e2]

theorem digitChar_mod (n : Nat) : Nat.digitChar (n % 10) = digitOf n := by
  have : ∀ k : Fin 10, Nat.digitChar k.val = Char.ofNat (48 + k.val) := by decide
  exact this ⟨n % 10, by omega⟩

/-- The decimal digits of a number, without leading zeros. -/
theorem toDigits_pad (n : Nat) : ∃ k, 1 ≤ k ∧ n < 10 ^ k ∧ Nat.toDigits 10 n = pad k n ∧ Whole (Nat.toDigits 10 n) := by
  induction n using Nat.strong_induction_on with
  | _ n ih =>
    by_cases h : n < 10
    · have e : Nat.toDigits 10 n = pad 1 n := by
        have := digitChar_mod n
        rw [Nat.mod_eq_of_lt h] at this
        rw [Nat.toDigits_of_lt_base h, this]
        rfl
      refine ⟨1, le_rfl, by omega, e, ?_⟩
      by_cases h0 : n = 0
      · subst h0
        exact .inl rfl
      · refine .inr ⟨⟨Nat.toDigits_ne_nil, ?_⟩, ?_⟩
        · intro c hc
          rw [e] at hc
          exact (isDigit_iff c).1 (pad_all 1 n c hc)
        · rw [e]
          have : ∀ k : Fin 10, k.val ≠ 0 → (pad 1 k.val).head? ≠ some '0' := by decide
          exact this ⟨n, h⟩ h0
    · obtain ⟨k, h1, h2, h3, h4⟩ := ih (n / 10) (by omega)
      have e : Nat.toDigits 10 n = pad (k + 1) n := by
        rw [Nat.toDigits_of_base_le (n := n) (by omega) (by omega), h3, digitChar_mod]
        rfl
      refine ⟨k + 1, by omega, by rw [pow_succ]; omega, e, .inr ⟨⟨Nat.toDigits_ne_nil, ?_⟩, ?_⟩⟩
      · intro c hc
        rw [e] at hc
        exact (isDigit_iff c).1 (pad_all _ n c hc)
      · rw [Nat.toDigits_of_base_le (n := n) (by omega) (by omega)]
        obtain ⟨c, r, hc, -⟩ := whole_head h4
        rw [hc, List.cons_append, List.head?_cons]
        rcases h4 with h4 | ⟨-, h4⟩
        · exfalso
          have := h3.symm.trans h4
          have hz : n / 10 = 0 := by
            have hk : k = 1 := by
              have := congrArg List.length this
              rw [pad_length] at this
              exact this
            subst hk
            have : ∀ m : Fin 10, pad 1 m.val = ['0'] → m.val = 0 := by decide
            exact this ⟨n / 10, by omega⟩ (by assumption)
          omega
        · rw [hc, List.head?_cons] at h4
          exact h4

theorem number_int (i : Int) : Number (toString i).toList := by
  rw [int_text]
  split_ifs with h
  · obtain ⟨k, -, -, -, hw⟩ := toDigits_pad i.toNat
    exact ⟨[], _, [], [], .inl rfl, hw, .inl rfl, .inl rfl, by simp⟩
  · obtain ⟨k, -, -, -, hw⟩ := toDigits_pad (-i).toNat
    exact ⟨['-'], _, [], [], .inr rfl, hw, .inl rfl, .inl rfl, by simp⟩

theorem parse_int (s : IntSize) (i : Int) (h1 : -s.half ≤ i) (h2 : i < s.half) : parseInt s (toString i).toList = some i := by
  rw [parseInt_iff, int_text]
  split_ifs with h
  · obtain ⟨k, hk, hn, e, -⟩ := toDigits_pad i.toNat
    exact ⟨k, i.toNat, hk, hn, .inl ⟨by rw [e], by omega⟩, h1, h2⟩
  · obtain ⟨k, hk, hn, e, -⟩ := toDigits_pad (-i).toNat
    exact ⟨k, (-i).toNat, hk, hn, .inr ⟨by rw [e], by omega⟩, h1, h2⟩

theorem chars_plain {l : List Char} (h : ∀ c ∈ l, c ≠ '"' ∧ c ≠ '\\' ∧ 32 ≤ c.toNat) : Chars l := by
  induction l with
  | nil => exact .nil
  | cons c l ih => exact .unescaped (h c List.mem_cons_self) (ih fun d hd => h d (List.mem_cons_of_mem _ hd))

theorem means_plain {l : List Char} (h : ∀ c ∈ l, c ≠ '"' ∧ c ≠ '\\' ∧ 32 ≤ c.toNat) : Means l l := by
  induction l with
  | nil => exact .nil
  | cons c l ih => exact .plain (h c List.mem_cons_self) (ih fun d hd => h d (List.mem_cons_of_mem _ hd))

/-! ### the texts -/

theorem moment_chars (n : Nat) : (momentText n).toList = pad 4 (n / 10 ^ 12) ++ ('-' :: (pad 2 (n / 10 ^ 10) ++ ('-' :: (pad 2 (n / 10 ^ 8) ++
    ('T' :: (pad 2 (n / 10 ^ 6) ++ (':' :: (pad 2 (n / 10 ^ 4) ++ (':' :: (pad 2 (n / 10 ^ 2) ++
      ([] ++ '+' :: (pad 2 (n / 10 % 10) ++ ':' :: pad 2 0)))))))))))) := by
  unfold momentText isoDate
  rw [String.toList_append, String.toList_ofList, String.toList_ofList]
  have e1 : pad 2 (n / 10 % 10) = '0' :: pad 1 (n / 10) := by
    have : ∀ k : Fin 10, pad 2 k.val = '0' :: pad 1 k.val := by decide
    rw [pad_mod 1 (n / 10)]
    exact this ⟨n / 10 % 10, by omega⟩
  rw [e1, show pad 2 0 = ['0', '0'] from rfl, show "+0".toList = ['+', '0'] from rfl, show ":00".toList = [':', '0', '0'] from rfl]
  simp only [List.append_assoc, List.cons_append, List.nil_append]

theorem moment_time (n : Nat) (h : IsRow n) : IsRfc3339 (momentText n).toList (aerisMoon n).DateTimeISO := by
  obtain ⟨h1, h2, h3, h4, h5, h6, h7, h8, -⟩ := h
  simp only [Nat.reducePow] at *
  unfold aerisMoon
  simp only [Nat.div_div_eq_div_mul, Nat.reduceMul]
  obtain ⟨g1, g2⟩ := date_local (y := (n / 1000000000000 : Nat)) (m := (n / 10000000000 % 100 : Nat)) (d := (n / 100000000 % 100 : Nat))
    (c := ((n / 1000000 % 100 * 3600 + n / 10000 % 100 * 60 + n / 100 % 100 : Nat) : Int) * nsPerSec) (o := ((n / 10 % 10 : Nat) : Int) * 3600)
    (by omega) (by omega) (by omega) h5 (by unfold nsPerSec; omega) (by unfold nsPerSec nsPerDay; omega)
  refine ⟨n / 1000000000000, n / 10000000000 % 100, n / 100000000 % 100, n / 1000000 % 100, n / 10000 % 100, n / 100 % 100, 0, [], _, h1, h6, h7, h8,
    g1, ?_, .inl ⟨rfl, rfl⟩, .inr ⟨n / 10 % 10, 0, by omega, by omega, .inl ⟨rfl, ?_⟩⟩, ?_⟩
  · rw [g2]; push_cast; ring
  · rw [date_eq]; push_cast; ring
  · rw [moment_chars, pad_mod 2 (n / 10 ^ 10), pad_mod 2 (n / 10 ^ 8), pad_mod 2 (n / 10 ^ 6), pad_mod 2 (n / 10 ^ 4), pad_mod 2 (n / 10 ^ 2)]
    simp only [Nat.reducePow]

theorem moment_plain (n : Nat) : ∀ c ∈ (momentText n).toList, c ≠ '"' ∧ c ≠ '\\' ∧ 32 ≤ c.toNat := by
  have hd : ∀ k m, ∀ c ∈ pad k m, c ≠ '"' ∧ c ≠ '\\' ∧ 32 ≤ c.toNat := by
    intro k m c hc
    obtain ⟨j, hj, rfl⟩ := isDigit_some (pad_all k m c hc)
    have : ∀ j : Fin 10, digitOf j.val ≠ '"' ∧ digitOf j.val ≠ '\\' ∧ 32 ≤ (digitOf j.val).toNat := by decide
    exact this ⟨j, hj⟩
  rw [moment_chars]
  intro c hc
  simp only [List.mem_append, List.mem_cons, List.nil_append] at hc
  rcases hc with h | rfl | h | rfl | h | rfl | h | rfl | h | rfl | h | rfl | h | rfl | h
  all_goals first | exact hd _ _ _ h | decide

theorem quarter_plain (n : Nat) (h : n < 4) : ∀ c ∈ (quarterName n).toList, c ≠ '"' ∧ c ≠ '\\' ∧ 32 ≤ c.toNat := by
  have : ∀ k : Fin 4, ∀ c ∈ (quarterName k.val).toList, c ≠ '"' ∧ c ≠ '\\' ∧ 32 ≤ c.toNat := by decide
  exact this ⟨n, h⟩

/-- The JSON value of a moon of the table. -/
def rowValue (n : Nat) : JVal :=
  .obj [("timestamp".toList, .num (toString (unixSeconds (aerisMoon n).DateTimeISO)).toList),
    ("dateTimeISO".toList, .str (momentText n).toList), ("code".toList, .num (pad 1 n)), ("name".toList, .str (quarterName (n % 10)).toList)]

theorem ws_nil : Ws [] := by intro c hc; cases hc

theorem number_pad1 (n : Nat) : Number (pad 1 n) := by
  refine ⟨[], pad 1 n, [], [], .inl rfl, ?_, .inl rfl, .inl rfl, by simp⟩
  rw [pad_mod]
  have : ∀ k : Fin 10, pad 1 k.val = ['0'] ∨ (pad 1 k.val ≠ [] ∧ (∀ c ∈ pad 1 k.val, '0' ≤ c ∧ c ≤ '9')) ∧ (pad 1 k.val).head? ≠ some '0' := by
    decide
  exact this ⟨n % 10 ^ 1, by omega⟩

theorem row_text (n : Nat) (h : n % 10 < 4) : Text (rowValue n) (rowText n).toList := by
  have l1 : ∀ c ∈ "timestamp".toList, c ≠ '"' ∧ c ≠ '\\' ∧ 32 ≤ c.toNat := by decide
  have l2 : ∀ c ∈ "dateTimeISO".toList, c ≠ '"' ∧ c ≠ '\\' ∧ 32 ≤ c.toNat := by decide
  have l3 : ∀ c ∈ "code".toList, c ≠ '"' ∧ c ≠ '\\' ∧ 32 ≤ c.toNat := by decide
  have l4 : ∀ c ∈ "name".toList, c ≠ '"' ∧ c ≠ '\\' ∧ 32 ≤ c.toNat := by decide
  have f4 := Fields.last ws_nil (chars_plain l4) ws_nil ws_nil (.str (chars_plain (quarter_plain _ h))) ws_nil
  have f3 := Fields.more ws_nil (chars_plain l3) ws_nil ws_nil (.num (number_pad1 n)) ws_nil f4
  have f2 := Fields.more ws_nil (chars_plain l2) ws_nil ws_nil (.str (chars_plain (moment_plain n))) ws_nil f3
  have f1 := Fields.more ws_nil (chars_plain l1) ws_nil ws_nil (.num (number_int (unixSeconds (aerisMoon n).DateTimeISO))) ws_nil f2
  have key := Text.obj f1
  unfold rowValue
  convert key using 1
  unfold rowText
  simp only [String.toList_append, String.toList_ofList, List.nil_append]
  rw [show "{\"timestamp\":".toList = '{' :: '"' :: ("timestamp".toList ++ ['"', ':']) by decide,
    show ",\"dateTimeISO\":\"".toList = ',' :: '"' :: ("dateTimeISO".toList ++ ['"', ':', '"']) by decide,
    show "\",\"code\":".toList = '"' :: ',' :: '"' :: ("code".toList ++ ['"', ':']) by decide,
    show ",\"name\":\"".toList = ',' :: '"' :: ("name".toList ++ ['"', ':', '"']) by decide,
    show "\"}".toList = ['"', '}'] by decide]
  simp only [List.append_assoc, List.cons_append, List.nil_append]

/-- The second of the moment, as an `int`. -/
def StampFits (s : IntSize) (n : Nat) : Prop :=
  -s.half ≤ unixSeconds (aerisMoon n).DateTimeISO ∧ unixSeconds (aerisMoon n).DateTimeISO < s.half

theorem unix_bounds (n : Nat) (h : IsRow n) : StampFits .bits64 n ∧
    (1902 ≤ n / 10 ^ 12 → n / 10 ^ 12 ≤ 2037 → StampFits .bits32 n) := by
  obtain ⟨h1, h2, h3, h4, h5, h6, h7, h8, -⟩ := h
  simp only [Nat.reducePow] at *
  have hm : ∀ m : Fin 13, 0 ≤ daysBefore ((m.val : Int) - 1) ∧ daysBefore ((m.val : Int) - 1) ≤ 334 := by decide
  have hm := hm ⟨n / 10000000000 % 100, by omega⟩
  unfold StampFits IntSize.half aerisMoon unixSeconds
  simp only [Nat.div_div_eq_div_mul, Nat.reduceMul]
  rw [date_eq]
  unfold monthStart
  have hy := daysSinceEpoch_bounds (n / 1000000000000 : Nat)
  unfold nsPerSec nsPerDay
  simp only at hm ⊢
  refine ⟨by split_ifs <;> constructor <;> omega, fun l1 l2 => ?_⟩
  have hy1 := daysSinceEpoch_mono (a := 1902) (b := (n / 1000000000000 : Nat)) (by omega)
  have hy2 := daysSinceEpoch_mono (a := (n / 1000000000000 : Nat)) (b := 2037) (by omega)
  rw [show daysSinceEpoch 1902 = 694325 by decide] at hy1
  rw [show daysSinceEpoch 2037 = 743634 by decide] at hy2
  have hd : monthDays (n / 1000000000000 : Nat) (n / 10000000000 % 100 : Nat) ≤ 31 := by unfold monthDays; split_ifs <;> omega
  split_ifs <;> constructor <;> omega

theorem row_moon (s : IntSize) (n : Nat) (h : IsRow n) (hs : StampFits s n) : storeMoon s {} (rowValue n) = some
    { Timestamp := unixSeconds (aerisMoon n).DateTimeISO, DateTimeISO := (aerisMoon n).DateTimeISO, Code := (aerisMoon n).Code,
      Name := (quarterName (n % 10)).toList } := by
  have p1 := parse_int s _ hs.1 hs.2
  have p2 := (c61_time _ _).2 (moment_time n h)
  have p3 : parseInt s (pad 1 n) = some ((n % 10 : Nat) : Int) := by
    rw [pad_mod 1 n, parseInt_iff]
    have := half_ge s
    exact ⟨1, n % 10, le_rfl, by omega, .inl ⟨rfl, rfl⟩, by omega, by omega⟩
  have p4 := (means_iff (chars_plain (quarter_plain _ h.2.2.2.2.2.2.2.2)) _).1 (means_plain (quarter_plain _ h.2.2.2.2.2.2.2.2))
  unfold rowValue storeMoon
  simp only [List.foldlM_cons, List.foldlM_nil]
  have n1 : sameName "timestamp".toList "timestamp" = true := by decide
  have n2 : sameName "dateTimeISO".toList "timestamp" = false := by decide
  have n3 : sameName "dateTimeISO".toList "dateTimeISO" = true := by decide
  have n4 : sameName "code".toList "timestamp" = false := by decide
  have n5 : sameName "code".toList "dateTimeISO" = false := by decide
  have n6 : sameName "code".toList "code" = true := by decide
  have n7 : sameName "name".toList "timestamp" = false := by decide
  have n8 : sameName "name".toList "dateTimeISO" = false := by decide
  have n9 : sameName "name".toList "code" = false := by decide
  have n10 : sameName "name".toList "name" = true := by decide
  simp only [storeMoonField, n1, n2, n3, n4, n5, n6, n7, n8, n9, n10, if_true, storeInt, storeTime, storeString, p1, p2, p3, p4,
    Option.map_some, Option.bind_eq_bind, Option.bind_some, Bool.false_eq_true, if_false]
  rfl

/-- The JSON value of a file. -/
def fileValue : Option (List Nat) → JVal
  | none => .obj [("success".toList, .bool true), ("error".toList, .obj [("code".toList, .str "warn_no_data".toList),
      ("description".toList, .str "No data was returned for the request.".toList)]), ("response".toList, .arr [])]
  | some rows => .obj [("success".toList, .bool true), ("error".toList, .null), ("response".toList, .arr (rows.map rowValue))]

theorem items_text : ∀ (n : Nat) (rows : List Nat), (∀ k ∈ n :: rows, k % 10 < 4) →
    Items ((n :: rows).map rowValue) ((",".intercalate ((n :: rows).map rowText)).toList ++ [']'])
  | n, [], h => by
    have := Items.last ws_nil (row_text n (h n (by simp))) ws_nil
    simpa [String.toList_intercalate] using this
  | n, m :: rows, h => by
    have ih := items_text m rows fun k hk => h k (List.mem_cons_of_mem _ hk)
    have := Items.more ws_nil (row_text n (h n (by simp))) ws_nil ih
    rw [List.map_cons]
    convert this using 1
    rw [String.toList_intercalate, String.toList_intercalate, List.map_cons, List.map_cons, List.map_cons, List.map_cons,
      List.intercalate_cons_cons]
    simp

theorem file_text (o : Option (List Nat)) (h : ∀ n ∈ o.getD [], n % 10 < 4) : Text (fileValue o) (fileText o).toList := by
  have l1 : ∀ c ∈ "success".toList, c ≠ '"' ∧ c ≠ '\\' ∧ 32 ≤ c.toNat := by decide
  have l2 : ∀ c ∈ "error".toList, c ≠ '"' ∧ c ≠ '\\' ∧ 32 ≤ c.toNat := by decide
  have l3 : ∀ c ∈ "response".toList, c ≠ '"' ∧ c ≠ '\\' ∧ 32 ≤ c.toNat := by decide
  cases o with
  | none =>
    have l4 : ∀ c ∈ "code".toList, c ≠ '"' ∧ c ≠ '\\' ∧ 32 ≤ c.toNat := by decide
    have l5 : ∀ c ∈ "description".toList, c ≠ '"' ∧ c ≠ '\\' ∧ 32 ≤ c.toNat := by decide
    have l6 : ∀ c ∈ "warn_no_data".toList, c ≠ '"' ∧ c ≠ '\\' ∧ 32 ≤ c.toNat := by decide
    have l7 : ∀ c ∈ "No data was returned for the request.".toList, c ≠ '"' ∧ c ≠ '\\' ∧ 32 ≤ c.toNat := by decide
    have e2 := Fields.last ws_nil (chars_plain l5) ws_nil ws_nil (.str (chars_plain l7)) ws_nil
    have e1 := Fields.more ws_nil (chars_plain l4) ws_nil ws_nil (.str (chars_plain l6)) ws_nil e2
    have f3 := Fields.last ws_nil (chars_plain l3) ws_nil ws_nil (.emptyArr ws_nil) ws_nil
    have f2 := Fields.more ws_nil (chars_plain l2) ws_nil ws_nil (.obj e1) ws_nil f3
    have f1 := Fields.more ws_nil (chars_plain l1) ws_nil ws_nil .true ws_nil f2
    have key := Text.obj f1
    unfold fileValue
    convert key using 1
    decide +kernel
  | some rows =>
    have hr : Text (.arr (rows.map rowValue)) ('[' :: ((",".intercalate (rows.map rowText)).toList ++ [']'])) := by
      cases rows with
      | nil => exact .emptyArr ws_nil
      | cons n rows => exact .arr (items_text n rows h)
    have f3 := Fields.last ws_nil (chars_plain l3) ws_nil ws_nil hr ws_nil
    have f2 := Fields.more ws_nil (chars_plain l2) ws_nil ws_nil .null ws_nil f3
    have f1 := Fields.more ws_nil (chars_plain l1) ws_nil ws_nil .true ws_nil f2
    have key := Text.obj f1
    unfold fileValue
    convert key using 1
    unfold fileText
    simp only [String.toList_append, List.nil_append]
    rw [show "{\"success\":true,\"error\":null,\"response\":[".toList = '{' :: '"' :: ("success".toList ++ '"' :: ':' :: (['t', 'r', 'u', 'e'] ++
        ',' :: '"' :: ("error".toList ++ '"' :: ':' :: (['n', 'u', 'l', 'l'] ++ ',' :: '"' :: ("response".toList ++ ['"', ':', '[']))))) by decide +kernel,
      show "]}".toList = [']', '}'] by decide]
    simp only [List.append_assoc, List.cons_append, List.nil_append]

theorem store_rows (s : IntSize) (rows : List Nat) (h : ∀ n ∈ rows, IsRow n ∧ StampFits s n) : overwrite s [] (rows.map rowValue) = some (rows.map fun n =>
    { Timestamp := unixSeconds (aerisMoon n).DateTimeISO, DateTimeISO := (aerisMoon n).DateTimeISO, Code := (aerisMoon n).Code,
      Name := (quarterName (n % 10)).toList }) := by
  induction rows with
  | nil => rfl
  | cons n rows ih =>
    rw [List.map_cons, overwrite, List.headD_nil, List.tail_nil, row_moon s n (h n List.mem_cons_self).1 (h n List.mem_cons_self).2,
      ih fun k hk => h k (List.mem_cons_of_mem _ hk)]
    rfl

theorem file_nested (rows : List Nat) : Nested 10000 (fileValue (some rows)) := by
  refine .obj _ _ fun f hf => ?_
  simp only [List.mem_cons, List.not_mem_nil, or_false] at hf
  rcases hf with rfl | rfl | rfl
  · exact .bool _ _
  · exact .null _
  · refine .arr _ _ fun v hv => ?_
    obtain ⟨n, -, rfl⟩ := List.mem_map.1 hv
    refine .obj _ _ fun f hf => ?_
    simp only [List.mem_cons, List.not_mem_nil, or_false] at hf
    rcases hf with rfl | rfl | rfl | rfl
    · exact .num _ _
    · exact .str _ _
    · exact .num _ _
    · exact .str _ _

/-- C61: the text that the service writes for any list of moons is decoded to these moons, all fields included, if the seconds fit
into an `int`. -/
theorem c61_file (s : IntSize) (rows : List Nat) (h : ∀ n ∈ rows, IsRow n ∧ StampFits s n) : unmarshal s (fileText (some rows)).toList = some
    { Success := true, Response := rows.map fun n =>
        { Timestamp := unixSeconds (aerisMoon n).DateTimeISO, DateTimeISO := (aerisMoon n).DateTimeISO, Code := (aerisMoon n).Code,
          Name := (quarterName (n % 10)).toList } } := by
  have ht := file_text (some rows) fun n hn => (h n hn).1.2.2.2.2.2.2.2.2
  have hs := (scan_iff _ _).2 ⟨⟨[], _, [], ws_nil, ht, ws_nil, rfl⟩, file_nested rows⟩
  rw [List.nil_append, List.append_nil] at hs
  unfold unmarshal
  rw [hs]
  have n1 : sameName "success".toList "success" = true := by decide
  have n2 : sameName "error".toList "success" = false := by decide
  have n3 : sameName "error".toList "error" = true := by decide
  have n4 : sameName "response".toList "success" = false := by decide
  have n5 : sameName "response".toList "error" = false := by decide
  have n6 : sameName "response".toList "Response" = true := by decide
  simp only [fileValue, storeResp, List.foldlM_cons, List.foldlM_nil, storeRespField, n1, n2, n3, n4, n5, n6, if_true, storeBool, storeError,
    storeMoons_nil, store_rows s rows h, Option.map_some, Option.bind_eq_bind, Option.bind_some, Bool.false_eq_true, if_false, Option.pure_def,
    Filling.resp, Slice.items]
  rw [List.take_of_length_le (by simp)]

theorem file_none (s : IntSize) : unmarshal s (fileText none).toList = some
    { Success := true, Error := { Code := "warn_no_data".toList, Description := "No data was returned for the request.".toList } } := by
  cases s <;> decide +kernel

/-- A row of the table, checked. -/
def rowValid (n : Nat) : Bool :=
  Nat.ble (n / 1000000000000) 9999 && (Nat.ble 1 (n / 10000000000 % 100) && (Nat.ble (n / 10000000000 % 100) 12 &&
    (Nat.ble 1 (n / 100000000 % 100) && (decide (((n / 100000000 % 100 : Nat) : Int) ≤
      monthDays (n / 1000000000000 : Nat) (n / 10000000000 % 100 : Nat)) && (Nat.blt (n / 1000000 % 100) 24 &&
        (Nat.blt (n / 10000 % 100) 60 && (Nat.blt (n / 100 % 100) 60 && Nat.blt (n % 10) 4)))))))

theorem rowValid_iff (n : Nat) (h : rowValid n = true) : IsRow n := by
  unfold rowValid at h
  simp only [Bool.and_eq_true, Nat.ble_eq, Nat.blt_eq, decide_eq_true_eq] at h
  unfold IsRow
  simp only [Nat.reducePow]
  exact h

theorem rows_valid : embeddedTable.all (fun e => (e.2.getD []).all rowValid) = true := by decide +kernel

/-- All embedded moons are moons of the years whose seconds fit into 32 bits. -/
theorem rows_years : embeddedTable.all (fun e => (e.2.getD []).all fun n => Nat.ble 1902 (n / 1000000000000) && Nat.ble (n / 1000000000000) 2037) =
    true := by decide +kernel

/-- C61: the embedded files, decompressed and decoded, are those that all other properties are about, whatever the size of an `int`. -/
theorem c61_data (s : IntSize) : dataFile s = embeddedFiles := by
  funext y
  have hf := (c59_files y).1
  unfold dataFile
  rw [hf]
  by_cases hy : 1900 ≤ y ∧ y ≤ 2040
  · rw [if_pos hy]
    obtain ⟨d, hd, hm⟩ := lookup_file hy.1 hy.2
    obtain ⟨rows, hr, hdec⟩ := c60_decoded y d hm
    have hv := List.all_eq_true.1 rows_valid _ hr
    have hv' := List.all_eq_true.1 rows_years _ hr
    have hmem := embeddedFiles_mem hr
    have hb : Utf8.decodeUtf8 (asciiBytes (fileText rows)) = (fileText rows).toList := by
      rw [Verif.Lemmas.Utf8.decode_ascii _ (Verif.Lemmas.AstroText.file_ascii rows)]
      unfold asciiBytes
      rw [List.map_map]
      conv => rhs; rw [← List.map_id (fileText rows).toList]
      exact List.map_congr_left fun c _ => Char.ofNat_toNat c
    simp only [hd]
    unfold asciiBytes at hdec
    rw [hdec]
    unfold asciiBytes at hb
    simp only [hb]
    simp only at hmem
    rw [hmem]
    cases rows with
    | none =>
      rw [file_none s]
      rfl
    | some rows =>
      have hrow : ∀ n ∈ rows, IsRow n ∧ StampFits s n := by
        intro n hn
        have h1 := rowValid_iff n (List.all_eq_true.1 hv n hn)
        have h2 := List.all_eq_true.1 hv' n hn
        rw [Bool.and_eq_true, Nat.ble_eq, Nat.ble_eq] at h2
        refine ⟨h1, ?_⟩
        cases s with
        | bits32 => exact (unix_bounds n h1).2 h2.1 h2.2
        | bits64 => exact (unix_bounds n h1).1
      rw [c61_file s rows hrow]
      simp only [Resp.file, List.map_map]
      rfl
  · rw [if_neg hy]
    exact ((c53_years y).2 (by omega)).symm

/-- C61: a record without a moment is not an error. It gets the first instant of year 1, so no range that starts later contains it and
it disappears. -/
theorem c61_no_moment (s : IntSize) (fs : Members) (hw : Wellformed (.obj fs)) (m : Moon) (h : storeMoon s {} (.obj fs) = some m)
    (ha : Absent fs "dateTimeISO") (fromDate toDate : Time) (hf : 0 < fromDate.nanos) :
    m.DateTimeISO = { nanos := 0, offset := 0 } ∧ ¬ Within fromDate toDate m.DateTimeISO := by
  rw [c61_moon s _ hw] at h
  rcases h with ⟨h, -⟩ | ⟨fs', h, hm⟩
  · cases h
  · cases h
    have : m.DateTimeISO = { nanos := 0, offset := 0 } := by
      rcases hm.dateTimeISO.2 with ⟨-, h⟩ | ⟨v, ⟨hv, pre, key, post, rfl, hn, -⟩, -⟩
      · exact h
      · exact absurd (ha (key, v) (by simp) hn) hv
    refine ⟨this, ?_⟩
    rw [this]
    unfold Within
    simp only
    omega

/-- C61: a record without a code is not an error either: it counts as a new moon. -/
theorem c61_no_code (s : IntSize) (fs : Members) (hw : Wellformed (.obj fs)) (m : Moon) (h : storeMoon s {} (.obj fs) = some m)
    (ha : Absent fs "code") : phases[m.Code.toNat]? = some "new" := by
  rw [c61_moon s _ hw] at h
  rcases h with ⟨h, -⟩ | ⟨fs', h, hm⟩
  · cases h
  · cases h
    rcases hm.code.2 with ⟨-, h⟩ | ⟨v, ⟨hv, pre, key, post, rfl, hn, -⟩, -⟩
    · rw [h]; rfl
    · exact absurd (ha (key, v) (by simp) hn) hv

/-- Concrete cases: other order, other case, escapes, white space, unknown fields; a fraction and an offset. -/
example : unmarshal .bits64 "{ \"RESPONSE\" : [ {\"code\":2, \"x\":[1,{}], \"datetimeiso\":\"2015-07-01T23:59:59.25-01:30\"}, null ],\n \"succe\\u0073s\":true}".toList =
    some { Success := true, Response := [{ DateTimeISO := date 2015 7 1 ((23 * 3600 + 59 * 60 + 59) * nsPerSec + 250000000) (-5400), Code := 2 }, {}] } := by
  decide +kernel

/-- What is rejected: a trailing comma, a leading zero, a number with a fraction for the code, a date without its time, a wrong day. -/
example : unmarshal .bits64 "{\"success\":true,}".toList = none ∧ unmarshal .bits64 "{\"response\":[{\"code\":01}]}".toList = none ∧
    unmarshal .bits64 "{\"response\":[{\"code\":1.0}]}".toList = none ∧ unmarshal .bits64 "{\"response\":[{\"dateTimeISO\":\"2015-07-01\"}]}".toList = none ∧
    unmarshal .bits64 "{\"response\":[{\"dateTimeISO\":\"2015-02-29T00:00:00Z\"}]}".toList = none ∧
    unmarshal .bits64 "{\"response\":{}}".toList = none ∧ unmarshal .bits64 "".toList = none := by decide +kernel

/-- The hypotheses of `c61_no_moment` and `c61_no_code` are met by a record that gives only a name. -/
example : storeMoon .bits64 {} (.obj [("name".toList, .str "full moon".toList)]) = some { Name := "full moon".toList } ∧
    Wellformed (.obj [("name".toList, .str "full moon".toList)]) ∧ Absent [("name".toList, .str "full moon".toList)] "dateTimeISO" ∧
    Absent [("name".toList, .str "full moon".toList)] "code" := by
  have l1 : ∀ c ∈ "name".toList, c ≠ '"' ∧ c ≠ '\\' ∧ 32 ≤ c.toNat := by decide
  have l2 : ∀ c ∈ "full moon".toList, c ≠ '"' ∧ c ≠ '\\' ∧ 32 ≤ c.toNat := by decide
  have ne : ∀ name, sameName "name".toList name = false → Absent [("name".toList, .str "full moon".toList)] name := by
    intro name h f hf hn
    rw [List.mem_singleton] at hf
    subst hf
    rw [← sameName_iff (chars_plain l1), h] at hn
    cases hn
  exact ⟨by decide +kernel,
    ⟨_, .obj (.last ws_nil (chars_plain l1) ws_nil ws_nil (.str (chars_plain l2)) ws_nil)⟩, ne _ (by decide), ne _ (by decide)⟩

/-- The hypotheses of `c61_response` are met by the file of a year without data. -/
example : ∃ fs, fileValue none = .obj fs ∧ JsonText (.obj fs) (fileText none).toList ∧ Nested 10000 (.obj fs) ∧ Once fs "error" ∧ Once fs "response" := by
  refine ⟨_, rfl, ⟨[], _, [], ws_nil, file_text none (by simp), ws_nil, by simp⟩, (nestedWithin_iff _ _).1 (by decide +kernel), ?_⟩
  have l1 : ∀ c ∈ "success".toList, c ≠ '"' ∧ c ≠ '\\' ∧ 32 ≤ c.toNat := by decide
  have l2 : ∀ c ∈ "error".toList, c ≠ '"' ∧ c ≠ '\\' ∧ 32 ≤ c.toNat := by decide
  have l3 : ∀ c ∈ "response".toList, c ≠ '"' ∧ c ≠ '\\' ∧ 32 ≤ c.toNat := by decide
  have s1 : ¬ Named "success".toList "response" := by rw [← sameName_iff (chars_plain l1)]; decide
  have s2 : ¬ Named "error".toList "response" := by rw [← sameName_iff (chars_plain l2)]; decide
  have s3 : ¬ Named "success".toList "error" := by rw [← sameName_iff (chars_plain l1)]; decide
  have s4 : ¬ Named "response".toList "error" := by rw [← sameName_iff (chars_plain l3)]; decide
  unfold Once
  constructor <;> simp only [List.pairwise_cons, List.mem_cons, List.not_mem_nil, or_false, forall_eq_or_imp, forall_eq, false_imp_iff,
    implies_true, List.Pairwise.nil, and_true] <;> tauto

/-- The hypothesis of `c61_file` is met by the first moons of 1902. -/
example : ∀ n ∈ [1902_01_01_16_08_36_0_3, 1902_01_09_21_14_24_0_0], IsRow n := by
  intro n hn
  apply rowValid_iff
  have : ∀ n ∈ [1902_01_01_16_08_36_0_3, 1902_01_09_21_14_24_0_0], rowValid n = true := by decide +kernel
  exact this n hn

end Verif.Props
