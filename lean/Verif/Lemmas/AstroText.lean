import Verif.Spec.AstroText
import Verif.Lemmas.Json
import Verif.Lemmas.GzipFast
import Mathlib.Tactic.IntervalCases
/-
The text of a data file as one number, in a form the kernel evaluates quickly.
-/
set_option autoImplicit false

namespace Verif.Lemmas.AstroText
open Verif.Go Verif.Model Verif.Spec Verif.Model.Gzip Verif.Lemmas Verif.Lemmas.GzipFast

/-- Append bytes to a number. -/
def app (acc : Nat) (l : List Nat) : Nat := l.foldl (fun a c => a * 256 + c) acc

theorem app_append (acc : Nat) (l l' : List Nat) : app acc (l ++ l') = app (app acc l) l' := List.foldl_append

theorem numOf_reverse (l : List Nat) : numOf l.reverse = app 1 l := by
  unfold app
  rw [← List.foldr_reverse]
  induction l.reverse with
  | nil => rfl
  | cons b t ih => rw [numOf, List.foldr_cons, ← ih]

theorem app_eq (acc : Nat) (l : List Nat) : app acc l = acc * 256 ^ l.length + app 0 l := by
  induction l generalizing acc with
  | nil => simp [app]
  | cons b t ih =>
    show app (acc * 256 + b) t = _ * _ + app (0 * 256 + b) t
    rw [ih, ih (0 * 256 + b), List.length_cons, pow_succ]
    ring

/-- Append a text given by its length and its number. -/
def lit (acc k n : Nat) : Nat := acc * 256 ^ k + n

/-- The text has this length and this number, and its characters are ASCII. -/
def Lit (s : String) (k n : Nat) : Prop := (∀ acc, app acc (asciiBytes s) = lit acc k n) ∧ ∀ c ∈ asciiBytes s, c < 128

theorem lit_of {s : String} {l : List Nat} {k n : Nat} (h : s.toList = l.map Char.ofNat) (hk : l.length = k) (hn : app 0 l = n)
    (hv : ∀ c ∈ l, c < 128 ∧ (Char.ofNat c).toNat = c) : Lit s k n := by
  have e : asciiBytes s = l := by
    unfold asciiBytes
    rw [h, List.map_map]
    conv => rhs; rw [← List.map_id l]
    exact List.map_congr_left fun c hc => (hv c hc).2
  unfold Lit
  rw [e]
  exact ⟨fun acc => by rw [app_eq, hk, hn]; rfl, fun c hc => (hv c hc).1⟩

theorem lit0 : Lit "new moon" 8 0x6e6577206d6f6f6e :=
  lit_of (l := [110, 101, 119, 32, 109, 111, 111, 110]) rfl rfl rfl (by decide)

theorem lit1 : Lit "first quarter" 13 0x66697273742071756172746572 :=
  lit_of (l := [102, 105, 114, 115, 116, 32, 113, 117, 97, 114, 116, 101, 114]) rfl rfl rfl (by decide)

theorem lit2 : Lit "full moon" 9 0x66756c6c206d6f6f6e :=
  lit_of (l := [102, 117, 108, 108, 32, 109, 111, 111, 110]) rfl rfl rfl (by decide)

theorem lit3 : Lit "last quarter" 12 0x6c6173742071756172746572 :=
  lit_of (l := [108, 97, 115, 116, 32, 113, 117, 97, 114, 116, 101, 114]) rfl rfl rfl (by decide)

theorem lit4 : Lit "{\"timestamp\":" 13 0x7b2274696d657374616d70223a :=
  lit_of (l := [123, 34, 116, 105, 109, 101, 115, 116, 97, 109, 112, 34, 58]) rfl rfl rfl (by decide)

theorem lit5 : Lit ",\"dateTimeISO\":\"" 16 0x2c226461746554696d6549534f223a22 :=
  lit_of (l := [44, 34, 100, 97, 116, 101, 84, 105, 109, 101, 73, 83, 79, 34, 58, 34]) rfl rfl rfl (by decide)

theorem lit6 : Lit "\",\"code\":" 9 0x222c22636f6465223a :=
  lit_of (l := [34, 44, 34, 99, 111, 100, 101, 34, 58]) rfl rfl rfl (by decide)

theorem lit7 : Lit ",\"name\":\"" 9 0x2c226e616d65223a22 :=
  lit_of (l := [44, 34, 110, 97, 109, 101, 34, 58, 34]) rfl rfl rfl (by decide)

theorem lit8 : Lit "\"}" 2 0x227d :=
  lit_of (l := [34, 125]) rfl rfl rfl (by decide)

theorem lit9 : Lit "+0" 2 0x2b30 :=
  lit_of (l := [43, 48]) rfl rfl rfl (by decide)

theorem lit10 : Lit ":00" 3 0x3a3030 :=
  lit_of (l := [58, 48, 48]) rfl rfl rfl (by decide)

set_option maxRecDepth 20000 in
theorem lit11 : Lit "{\"success\":true,\"error\":{\"code\":\"warn_no_data\",\"description\":\"No data was returned for the request.\"}," 102 0x7b2273756363657373223a747275652c226572726f72223a7b22636f6465223a227761726e5f6e6f5f64617461222c226465736372697074696f6e223a224e6f2064617461207761732072657475726e656420666f722074686520726571756573742e227d2c :=
  lit_of (l := [123, 34, 115, 117, 99, 99, 101, 115, 115, 34, 58, 116, 114, 117, 101, 44, 34, 101, 114, 114, 111, 114, 34, 58, 123, 34, 99, 111, 100, 101, 34, 58, 34, 119, 97, 114, 110, 95, 110, 111, 95, 100, 97, 116, 97, 34, 44, 34, 100, 101, 115, 99, 114, 105, 112, 116, 105, 111, 110, 34, 58, 34, 78, 111, 32, 100, 97, 116, 97, 32, 119, 97, 115, 32, 114, 101, 116, 117, 114, 110, 101, 100, 32, 102, 111, 114, 32, 116, 104, 101, 32, 114, 101, 113, 117, 101, 115, 116, 46, 34, 125, 44]) rfl rfl rfl (by decide)

theorem lit12 : Lit "\"response\":[]}" 14 0x22726573706f6e7365223a5b5d7d :=
  lit_of (l := [34, 114, 101, 115, 112, 111, 110, 115, 101, 34, 58, 91, 93, 125]) rfl rfl rfl (by decide)

theorem lit13 : Lit "{\"success\":true,\"error\":null,\"response\":[" 41 0x7b2273756363657373223a747275652c226572726f72223a6e756c6c2c22726573706f6e7365223a5b :=
  lit_of (l := [123, 34, 115, 117, 99, 99, 101, 115, 115, 34, 58, 116, 114, 117, 101, 44, 34, 101, 114, 114, 111, 114, 34, 58, 110, 117, 108, 108, 44, 34, 114, 101, 115, 112, 111, 110, 115, 101, 34, 58, 91]) rfl rfl rfl (by decide)

theorem lit14 : Lit "]}" 2 0x5d7d :=
  lit_of (l := [93, 125]) rfl rfl rfl (by decide)


theorem asciiBytes_append (s t : String) : asciiBytes (s ++ t) = asciiBytes s ++ asciiBytes t := by
  unfold asciiBytes
  rw [String.toList_append, List.map_append]

theorem app_string (acc : Nat) (s t : String) : app acc (asciiBytes (s ++ t)) = app (app acc (asciiBytes s)) (asciiBytes t) := by
  rw [asciiBytes_append, app_append]

theorem digit_code (n : Nat) : (digitOf n).toNat = 48 + n % 10 := by
  have h : n % 10 < 10 := Nat.mod_lt n (by decide)
  unfold digitOf
  generalize n % 10 = d at h ⊢
  interval_cases d <;> rfl

/-- Append the last two digits. -/
def two (acc n : Nat) : Nat := (acc * 256 + (48 + n / 10 % 10)) * 256 + (48 + n % 10)

theorem app_two (acc n : Nat) : app acc ((pad 2 n).map Char.toNat) = two acc n := by
  simp only [pad, List.nil_append, List.cons_append, List.map_cons, List.map_nil, digit_code]
  rfl

theorem app_one (acc n : Nat) : app acc ((pad 1 n).map Char.toNat) = acc * 256 + (48 + n % 10) := by
  simp only [pad, List.nil_append, List.map_cons, List.map_nil, digit_code]
  rfl

theorem app_four (acc n : Nat) : app acc ((pad 4 n).map Char.toNat) = two (two acc (n / 100)) n := by
  have e : pad 4 n = pad 2 (n / 100) ++ pad 2 n := by
    simp only [pad, List.nil_append, List.cons_append, Nat.div_div_eq_div_mul]
  rw [e, List.map_append, app_append, app_two, app_two]

/-- Append a decimal number. -/
noncomputable def dec (fuel : Nat) : Nat → Nat → Nat :=
  Nat.rec (fun m acc => app acc ((Nat.toDigits 10 m).map Char.toNat))
    (fun _ ih m acc => bif m.ble 9 then acc * 256 + (48 + m)
      else force (m / 10) fun q => force (m % 10) fun d => ih q acc * 256 + (48 + d)) fuel

theorem digitChar_code {n : Nat} (h : n < 10) : (Nat.digitChar n).toNat = 48 + n := by interval_cases n <;> rfl

theorem dec_eq (fuel m acc : Nat) : dec fuel m acc = app acc ((Nat.toDigits 10 m).map Char.toNat) := by
  induction fuel generalizing m acc with
  | zero => rfl
  | succ fuel ih =>
    show (bif m.ble 9 then acc * 256 + (48 + m)
      else force (m / 10) fun q => force (m % 10) fun d => dec fuel q acc * 256 + (48 + d)) = _
    by_cases h : m < 10
    · have e : m.ble 9 = true := by rw [Nat.ble_eq]; omega
      rw [e, cond_true, Nat.toDigits_of_lt_base h, List.map_cons, List.map_nil, digitChar_code h]
      rfl
    · have e : m.ble 9 = false := by rw [Bool.eq_false_iff, ne_eq, Nat.ble_eq]; omega
      rw [e, cond_false, force_eq, force_eq, ih, Nat.toDigits_of_base_le (n := m) (by omega) (by omega), List.map_append, app_append,
        List.map_cons, List.map_nil, digitChar_code (Nat.mod_lt _ (by omega))]
      rfl

/-- Append a whole number. -/
noncomputable def decInt (i : Int) (acc : Nat) : Nat :=
  Int.rec (fun m => force m fun m => dec 12 m acc) (fun m => force (m + 1) fun m => dec 12 m (acc * 256 + 45)) i

theorem decInt_eq (i : Int) (acc : Nat) : decInt i acc = app acc (asciiBytes (toString i)) := by
  unfold asciiBytes
  rw [int_text]
  cases i with
  | ofNat m =>
    show force m (fun m => dec 12 m acc) = _
    rw [force_eq, dec_eq, if_pos (by simp)]
    rfl
  | negSucc m =>
    show force (m + 1) (fun m => dec 12 m (acc * 256 + 45)) = _
    rw [force_eq, dec_eq, if_neg (by simp)]
    rfl

/-- Append the name of a quarter. -/
def nameNum (acc c : Nat) : Nat :=
  bif c.beq 0 then lit acc 8 0x6e6577206d6f6f6e
  else bif c.beq 1 then lit acc 13 0x66697273742071756172746572
  else bif c.beq 2 then lit acc 9 0x66756c6c206d6f6f6e
  else bif c.beq 3 then lit acc 12 0x6c6173742071756172746572
  else acc

/-- Append one moon. -/
noncomputable def rowNum (n acc : Nat) : Nat :=
  force (lit acc 13 0x7b2274696d657374616d70223a) fun acc =>
  force (decInt (unixSeconds (aerisMoon n).DateTimeISO) acc) fun acc =>
  force (lit acc 16 0x2c226461746554696d6549534f223a22) fun acc =>
  force (two (two acc (n / 10 ^ 14)) (n / 10 ^ 12)) fun acc =>
  force (two (acc * 256 + 45) (n / 10 ^ 10)) fun acc =>
  force (two (acc * 256 + 45) (n / 10 ^ 8)) fun acc =>
  force (two (acc * 256 + 84) (n / 10 ^ 6)) fun acc =>
  force (two (acc * 256 + 58) (n / 10 ^ 4)) fun acc =>
  force (two (acc * 256 + 58) (n / 10 ^ 2)) fun acc =>
  force (lit (lit acc 2 0x2b30 * 256 + (48 + n / 10 % 10)) 3 0x3a3030) fun acc =>
  force (lit acc 9 0x222c22636f6465223a) fun acc =>
  force (lit (acc * 256 + (48 + n % 10)) 9 0x2c226e616d65223a22) fun acc =>
  force (nameNum acc (n % 10)) fun acc =>
  lit acc 2 0x227d

theorem nameNum_eq (acc c : Nat) : nameNum acc c = app acc (asciiBytes (quarterName c)) := by
  rcases c with _ | _ | _ | _ | c
  · exact (lit0.1 acc).symm
  · exact (lit1.1 acc).symm
  · exact (lit2.1 acc).symm
  · exact (lit3.1 acc).symm
  · rfl

theorem moment_eq (n acc : Nat) : app acc (asciiBytes (momentText n)) =
    lit (lit (two (two (two (two (two (two (two acc (n / 10 ^ 14)) (n / 10 ^ 12) * 256 + 45) (n / 10 ^ 10) * 256 + 45) (n / 10 ^ 8) *
      256 + 84) (n / 10 ^ 6) * 256 + 58) (n / 10 ^ 4) * 256 + 58) (n / 10 ^ 2)) 2 0x2b30 * 256 + (48 + n / 10 % 10)) 3 0x3a3030 := by
  have cons : ∀ acc c, ∀ l : List Char, app acc ((c :: l).map Char.toNat) = app (acc * 256 + c.toNat) (l.map Char.toNat) :=
    fun _ _ _ => rfl
  unfold momentText isoDate
  rw [app_string]
  unfold asciiBytes
  simp only [String.toList_ofList, List.cons_append, List.append_assoc, List.map_append, app_append, cons, app_two, app_four, app_one]
  have e : n / 10 ^ 12 / 100 = n / 10 ^ 14 := by rw [Nat.div_div_eq_div_mul]; rfl
  have p1 := lit9.1
  have p2 := lit10.1
  unfold asciiBytes at p1 p2
  rw [e, p1, p2]
  rfl

theorem rowNum_eq (n acc : Nat) : rowNum n acc = app acc (asciiBytes (rowText n)) := by
  unfold rowNum rowText
  simp only [force_eq, app_string, moment_eq, nameNum_eq, decInt_eq]
  rw [lit4.1, lit5.1, lit6.1, lit7.1, lit8.1]
  have e : ∀ a, app a (asciiBytes (String.ofList (pad 1 n))) = a * 256 + (48 + n % 10) := fun a => by
    unfold asciiBytes
    rw [String.toList_ofList, app_one]
  rw [e]

/-- Append moons, each after a comma. -/
noncomputable def rowsNum (rows : List Nat) : Nat → Nat :=
  List.rec (fun acc => acc) (fun n _ ih acc => force (rowNum n (acc * 256 + 44)) ih) rows

theorem rowsNum_eq (rows : List Nat) (acc : Nat) :
    rowsNum rows acc = app acc (rows.flatMap fun n => 44 :: asciiBytes (rowText n)) := by
  induction rows generalizing acc with
  | nil => rfl
  | cons n rows ih =>
    show force (rowNum n (acc * 256 + 44)) (rowsNum rows) = _
    rw [force_eq, ih, rowNum_eq, List.flatMap_cons, app_append]
    rfl

/-- The whole file. -/
noncomputable def fileNum (o : Option (List Nat)) : Nat :=
  Option.rec (lit (lit 1 102 0x7b2273756363657373223a747275652c226572726f72223a7b22636f6465223a227761726e5f6e6f5f64617461222c226465736372697074696f6e223a224e6f2064617461207761732072657475726e656420666f722074686520726571756573742e227d2c) 14 0x22726573706f6e7365223a5b5d7d)
    (fun rows => List.rec (lit (lit 1 41 0x7b2273756363657373223a747275652c226572726f72223a6e756c6c2c22726573706f6e7365223a5b) 2 0x5d7d)
      (fun n rows _ => force (rowNum n (lit 1 41 0x7b2273756363657373223a747275652c226572726f72223a6e756c6c2c22726573706f6e7365223a5b)) fun acc =>
        force (rowsNum rows acc) fun acc => lit acc 2 0x5d7d) rows) o

theorem intercalate_bytes (s : String) (l : List String) :
    asciiBytes (",".intercalate (s :: l)) = asciiBytes s ++ l.flatMap fun t => 44 :: asciiBytes t := by
  have h : ∀ (s : String) (l : List String), (",".intercalate (s :: l)).toList = s.toList ++ l.flatMap fun t => ',' :: t.toList := by
    intro s l
    rw [String.toList_intercalate]
    induction l generalizing s with
    | nil => simp
    | cons t l ih =>
      have := ih t
      simp only [List.map_cons] at this ⊢
      rw [List.intercalate_cons_cons, this, List.flatMap_cons]
      simp
  unfold asciiBytes
  rw [h, List.map_append, List.map_flatMap]
  rfl

theorem fileNum_eq (o : Option (List Nat)) : fileNum o = numOf (asciiBytes (fileText o)).reverse := by
  rw [numOf_reverse]
  cases o with
  | none =>
    unfold fileText
    rw [app_string, lit11.1, lit12.1]
    rfl
  | some rows =>
    unfold fileText
    rw [app_string, app_string, lit13.1, lit14.1]
    cases rows with
    | nil => rfl
    | cons n rows =>
      rw [List.map_cons, intercalate_bytes, app_append, List.flatMap_map, ← rowsNum_eq, ← rowNum_eq]
      show force (rowNum n (lit 1 41 0x7b2273756363657373223a747275652c226572726f72223a6e756c6c2c22726573706f6e7365223a5b)) (fun acc =>
        force (rowsNum rows acc) fun acc => lit acc 2 0x5d7d) = _
      rw [force_eq, force_eq]

/-! ### a file of data.go -/

/-- The characters of a text stored in a number, the first one lowest. -/
def numChars : Nat → Nat → List Char
  | 0, _ => []
  | k + 1, n => Char.ofNat (n % 256) :: numChars k (n / 256)

theorem numChars_codes (k n : Nat) : (numChars k n).map Char.toNat = numCodes k n := by
  induction k generalizing n with
  | zero => rfl
  | succ k ih =>
    rw [numChars, numCodes, List.map_cons, ih]
    congr 1
    have h : n % 256 < 256 := Nat.mod_lt _ (by decide)
    have key : ∀ m < 256, (Char.ofNat m).toNat = m := by decide +kernel
    exact key _ h

/-! ### only ASCII -/

/-- All characters are ASCII. -/
def Ascii (s : String) : Prop := ∀ c ∈ asciiBytes s, c < 128

theorem Ascii.append {s t : String} (hs : Ascii s) (ht : Ascii t) : Ascii (s ++ t) := by
  unfold Ascii
  rw [asciiBytes_append]
  intro c hc
  rcases List.mem_append.1 hc with h | h
  · exact hs c h
  · exact ht c h

theorem ascii_ofList {l : List Char} (h : ∀ c ∈ l, c.toNat < 128) : Ascii (String.ofList l) := by
  unfold Ascii asciiBytes
  rw [String.toList_ofList]
  intro c hc
  obtain ⟨d, hd, rfl⟩ := List.mem_map.1 hc
  exact h d hd

theorem pad_ascii (k n : Nat) : ∀ c ∈ pad k n, c.toNat < 128 := by
  induction k generalizing n with
  | zero => simp [pad]
  | succ k ih =>
    intro c hc
    rw [pad] at hc
    rcases List.mem_append.1 hc with h | h
    · exact ih _ c h
    · rw [List.mem_singleton] at h
      rw [h, digit_code]
      omega

theorem toDigits_ascii (m : Nat) : ∀ c ∈ Nat.toDigits 10 m, c.toNat < 128 := by
  induction m using Nat.strong_induction_on with
  | _ m ih =>
    intro c hc
    by_cases h : m < 10
    · rw [Nat.toDigits_of_lt_base h, List.mem_singleton] at hc
      rw [hc, digitChar_code h]; omega
    · rw [Nat.toDigits_of_base_le (by omega) (by omega)] at hc
      rcases List.mem_append.1 hc with h1 | h1
      · exact ih _ (by omega) c h1
      · rw [List.mem_singleton] at h1
        have : m % 10 < 10 := Nat.mod_lt _ (by omega)
        rw [h1, digitChar_code this]; omega

theorem int_ascii (i : Int) : Ascii (toString i) := by
  unfold Ascii asciiBytes
  rw [int_text]
  intro c hc
  obtain ⟨d, hd, rfl⟩ := List.mem_map.1 hc
  split_ifs at hd
  · exact toDigits_ascii _ d hd
  · rcases List.mem_cons.1 hd with rfl | h
    · decide
    · exact toDigits_ascii _ d h

theorem name_ascii (c : Nat) : Ascii (quarterName c) := by
  rcases c with _ | _ | _ | _ | c
  · exact lit0.2
  · exact lit1.2
  · exact lit2.2
  · exact lit3.2
  · intro c hc; cases hc

theorem moment_ascii (n : Nat) : Ascii (momentText n) := by
  unfold momentText isoDate
  refine Ascii.append (ascii_ofList ?_) (ascii_ofList ?_)
  · intro c hc
    simp only [List.mem_append, List.mem_cons] at hc
    rcases hc with (h | rfl | h) | rfl | h
    · exact pad_ascii _ _ _ h
    · decide
    · exact pad_ascii _ _ _ h
    · decide
    · exact pad_ascii _ _ _ h
  · have l9 : ∀ c ∈ "+0".toList, c.toNat < 128 := by decide
    have l10 : ∀ c ∈ ":00".toList, c.toNat < 128 := by decide
    intro c hc
    simp only [List.mem_append, List.mem_cons] at hc
    rcases hc with (((((rfl | h) | rfl | h) | rfl | h) | h) | h) | h
    · decide
    · exact pad_ascii _ _ _ h
    · decide
    · exact pad_ascii _ _ _ h
    · decide
    · exact pad_ascii _ _ _ h
    · exact l9 c h
    · exact pad_ascii _ _ _ h
    · exact l10 c h

theorem row_ascii (n : Nat) : Ascii (rowText n) := by
  unfold rowText
  exact (((((((Ascii.append lit4.2 (int_ascii _)).append lit5.2).append (moment_ascii n)).append lit6.2).append
    (ascii_ofList (pad_ascii 1 n))).append lit7.2).append (name_ascii _)).append lit8.2

theorem file_ascii (o : Option (List Nat)) : Ascii (fileText o) := by
  cases o with
  | none => exact Ascii.append lit11.2 lit12.2
  | some rows =>
    refine Ascii.append (Ascii.append lit13.2 ?_) lit14.2
    cases rows with
    | nil => intro c hc; cases hc
    | cons n rows =>
      unfold Ascii
      rw [List.map_cons, intercalate_bytes]
      intro c hc
      rcases List.mem_append.1 hc with h | h
      · exact row_ascii n c h
      · obtain ⟨t, ht, h⟩ := List.mem_flatMap.1 h
        obtain ⟨m, -, rfl⟩ := List.mem_map.1 ht
        rcases List.mem_cons.1 h with rfl | h
        · decide
        · exact row_ascii m c h

/-! ### the check of one file -/

/-- The compressed text decodes to the text of the moons, of the given size. -/
def Decodes (text : String) (o : Option (List Nat)) (size : Nat) : Prop :=
  decode (asciiBytes text) = some (asciiBytes (fileText o)) ∧ (asciiBytes (fileText o)).length = size

noncomputable def check (k n : Nat) (o : Option (List Nat)) (size : Nat) : Bool :=
  force (fileNum o) fun e => checkFile k n e && ((256 ^ size).ble e && Nat.ble (e + 1) (2 * 256 ^ size))

theorem check_true {text : String} {k n size : Nat} {o : Option (List Nat)} (ht : text = String.ofList (numChars k n))
    (h : check k n o size = true) : Decodes text o size := by
  unfold check at h
  rw [force_eq, Bool.and_eq_true, Bool.and_eq_true, Nat.ble_eq, Nat.ble_eq] at h
  obtain ⟨hc, h1, h2⟩ := h
  obtain ⟨out, hst, hd⟩ := checkFile_true hc
  have hb : ∀ b ∈ (asciiBytes (fileText o)).reverse, b < 256 := fun b hb => by
    have := file_ascii o b (List.mem_reverse.1 hb)
    omega
  have e : out = (asciiBytes (fileText o)).reverse :=
    numOf_injective hst.2 hb (by rw [← hst.1, fileNum_eq])
  have hbd := numOf_bounds hb
  rw [← fileNum_eq, List.length_reverse] at hbd
  refine ⟨?_, ?_⟩
  · unfold asciiBytes at e ⊢
    rw [ht, String.toList_ofList, numChars_codes, hd, e, List.reverse_reverse]
  · rcases Nat.lt_trichotomy (asciiBytes (fileText o)).length size with hl | hl | hl
    · have : 256 ^ ((asciiBytes (fileText o)).length + 1) ≤ 256 ^ size := Nat.pow_le_pow_right (by decide) hl
      rw [pow_succ] at this
      have : 0 < 256 ^ (asciiBytes (fileText o)).length := by positivity
      omega
    · exact hl
    · have : 256 ^ (size + 1) ≤ 256 ^ (asciiBytes (fileText o)).length := Nat.pow_le_pow_right (by decide) hl
      rw [pow_succ] at this
      have : 0 < 256 ^ size := by positivity
      omega

end Verif.Lemmas.AstroText
