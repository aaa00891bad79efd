import Verif.Lemmas.Base64
import Verif.Props.EscData
/-
C69: the decoding of the embedded files follows RFC 4648, 1951 and 1952.
-/
set_option autoImplicit false

namespace Verif.Props
open Verif.Model Verif.Model.Esc Verif.Model.Gzip
open Verif.Spec.Deflate (lsb bitsOfNum bitsOfBytes Body Blocks Rules rfc1952 goRules IsExtra IsName Header Member Members GzipFile)
open Verif.Spec.Base64 (IsBase64 encode)
open Verif.Spec (asciiBytes fileText)
open Verif.Lemmas Verif.Lemmas.Deflate Verif.Lemmas.Base64 Verif.Lemmas.AstroText

/-! ### base64 -/

/-- The decoder accepts exactly the texts of RFC 4648 with line ends anywhere. -/
theorem c69_base64 (text data : List Nat) : b64decode text = some data ↔ IsBase64 text data := b64decode_iff text data

/-- Whatever is encoded, and broken into lines anywhere, is decoded. -/
theorem c69_encode (data text : List Nat) (h : ∀ b ∈ data, b < 256) (ht : (text.filter fun c => c ≠ 10 ∧ c ≠ 13) = encode data) :
    b64decode text = some data := b64decode_encode data text h ht

/-- `TW\nE=` stands for `Ma`. -/
example : (([84, 87, 10, 69, 61] : List Nat).filter fun c => c ≠ 10 ∧ c ≠ 13) = encode [77, 97] ∧ IsBase64 [84, 87, 10, 69, 61] [77, 97] ∧
    ¬ ∃ data, IsBase64 [84, 87, 69] data := by
  refine ⟨by decide, (c69_base64 _ _).1 (by decide), ?_⟩
  rintro ⟨data, h⟩
  have h := (c69_base64 _ _).2 h
  rw [show b64decode [84, 87, 69] = none by decide] at h
  simp at h

/-! ### gzip -/

/-- The decoder accepts exactly the gzip files, with any blocks and any number of members, and gives their contents. -/
theorem c69_gunzip (file : List Nat) (hb : ∀ b ∈ file, b < 256) (data : List Nat) : gunzip file = some data ↔ GzipFile goRules file data :=
  gunzip_iff file hb data

/-- Two members, one empty: the bytes `hi` in a stored block after an empty fixed block. -/
example : GzipFile goRules ([31, 139, 8, 0, 0, 0, 0, 0, 0, 255, 3, 0, 0, 0, 0, 0, 0, 0, 0, 0] ++
    [31, 139, 8, 0, 0, 0, 0, 0, 0, 255, 1, 2, 0, 253, 255, 104, 105, 172, 42, 147, 216, 2, 0, 0, 0]) [104, 105] :=
  (c69_gunzip _ (by decide) _).1 (by decide +kernel)

/-- All optional fields: extra bytes, the name `a.json`, the comment `c` and a check value of the header; the second file has it wrong. -/
example : GzipFile goRules [31, 139, 8, 30, 0, 0, 0, 0, 0, 255, 3, 0, 97, 0, 98, 97, 46, 106, 115, 111, 110, 0, 99, 0, 7, 39, 1, 2, 0, 253, 255, 104, 105, 172, 42, 147, 216, 2, 0, 0, 0]
      [104, 105] ∧
    gunzip [31, 139, 8, 30, 0, 0, 0, 0, 0, 255, 3, 0, 97, 0, 98, 97, 46, 106, 115, 111, 110, 0, 99, 0, 7, 38, 1, 2, 0, 253, 255, 104, 105, 172, 42, 147, 216, 2, 0, 0, 0] = none :=
  ⟨(c69_gunzip _ (by decide) _).1 (by decide +kernel), by decide +kernel⟩

theorem members_mono {r r' : Rules} (hn : ∀ n, r.nameLength n → r'.nameLength n) (hf : ∀ f, r.flags f → r'.flags f) {bits : List Bool} {data : List Nat}
    (h : Members r bits data) : Members r' bits data := by
  have name : ∀ field, IsName r field → IsName r' field := fun field ⟨n, h1, h2, h3⟩ => ⟨n, h1, hn _ h2, h3⟩
  have header : ∀ bytes, Header r bytes → Header r' bytes := by
    rintro bytes ⟨flags, other, extra, n, comment, check, h1, h2, h3, h4, h5, h6, h7, h8⟩
    refine ⟨flags, other, extra, n, comment, check, h1, h2, h3, hf _ h4, h5, ?_, ?_, h8⟩
    · split at h6 <;> rename_i hs
      · rw [if_pos hs]; exact name _ h6
      · rw [if_neg hs]; exact h6
    · split at h7 <;> rename_i hs
      · rw [if_pos hs]; exact name _ h7
      · rw [if_neg hs]; exact h7
  have member : ∀ bits data, Member r bits data → Member r' bits data := by
    rintro bits data ⟨bytes, blocks, skip, check, size, h1, h2, h3⟩
    exact ⟨bytes, blocks, skip, check, size, h1, header _ h2, h3⟩
  induction h with
  | last bits data h => exact .last _ _ (member _ _ h)
  | more bits bits' data data' h h' ih => exact .more _ _ _ _ (member _ _ h) ih

/-- A file after the RFC whose names and comments have at most 511 bytes is decoded. -/
theorem c69_rfc (file data : List Nat) (hb : ∀ b ∈ file, b < 256) (h : GzipFile ⟨fun n => n ≤ 511, fun flags => flags < 32⟩ file data) :
    gunzip file = some data :=
  (c69_gunzip file hb data).2 (members_mono (r := ⟨fun n => n ≤ 511, fun flags => flags < 32⟩) (r' := goRules) (fun _ h => h) (fun _ _ => trivial) h)

theorem bytes_of_bits (bits : List Bool) (h : bits.length % 8 = 0) : ∃ file : List Nat, (∀ b ∈ file, b < 256) ∧ bitsOfBytes file = bits := by
  obtain ⟨n, hn⟩ : ∃ n, bits.length = 8 * n := ⟨bits.length / 8, by omega⟩
  clear h
  induction n generalizing bits with
  | zero => exact ⟨[], by simp, (List.eq_nil_of_length_eq_zero (by omega)).symm⟩
  | succ n ih =>
    obtain ⟨file, h1, h2⟩ := ih (bits.drop 8) (by rw [List.length_drop]; omega)
    have hl : (bits.take 8).length = 8 := by rw [List.length_take]; omega
    have hlt := lsb_lt (bits.take 8)
    rw [hl] at hlt
    refine ⟨lsb (bits.take 8) :: file, ?_, ?_⟩
    · intro b hb
      rcases List.mem_cons.1 hb with rfl | hb
      · exact hlt
      · exact h1 b hb
    · have := bitsOfNum_lsb (bits.take 8)
      rw [hl] at this
      rw [bitsOfBytes_cons, h2, this, List.take_append_drop]

/-- A file has one contents only. -/
theorem c69_unique (file : List Nat) (hb : ∀ b ∈ file, b < 256) (data data' : List Nat) (h : GzipFile goRules file data) (h' : GzipFile goRules file data') :
    data = data' := by
  rw [← c69_gunzip file hb] at h h'
  rw [h, Option.some.injEq] at h'
  exact h'

/-- Nothing but `hi` is the contents of that file. -/
example (data : List Nat) (h : GzipFile goRules [31, 139, 8, 0, 0, 0, 0, 0, 0, 255, 1, 2, 0, 253, 255, 104, 105, 172, 42, 147, 216, 2, 0, 0, 0] data) :
    data = [104, 105] := c69_unique _ (by decide) _ _ h ((c69_gunzip _ (by decide) _).1 (by decide +kernel))

/-- The contents are bytes. -/
theorem c69_bytes (file data : List Nat) (h : GzipFile goRules file data) : ∀ b ∈ data, b < 256 := by
  rw [GzipFile] at h
  have key : ∀ (bits : List Bool) (d : List Nat), Member goRules bits d → ∀ b ∈ d, b < 256 := by
    rintro bits d ⟨_, _, _, _, _, _, _, h2, _⟩
    exact blocks_bytes h2 (by simp)
  generalize bitsOfBytes file = bits at h
  induction h with
  | last bits data h => exact key _ _ h
  | more bits bits' data data' h h' ih =>
    intro b hb
    rcases List.mem_append.1 hb with hb | hb
    · exact key _ _ h b hb
    · exact ih b hb

/-- The bytes of a small file. -/
example (data : List Nat) (h : GzipFile goRules [31, 139, 8, 0, 0, 0, 0, 0, 0, 255, 1, 2, 0, 253, 255, 104, 105, 172, 42, 147, 216, 2, 0, 0, 0] data) :
    ∀ b ∈ data, b < 256 := c69_bytes _ data h

theorem member_first {bits rest bits' rest' : List Bool} {d d' : List Nat} (h : Member goRules bits d) (h' : Member goRules bits' d')
    (hr : rest.length % 8 = 0) (hr' : rest'.length % 8 = 0) (he : bits ++ rest = bits' ++ rest') : bits = bits' ∧ rest = rest' ∧ d = d' := by
  have e := gzipMember_complete h rest hr
  have e' := gzipMember_complete h' rest' hr'
  rw [he, e'] at e
  simp only [Option.some.injEq, Prod.mk.injEq] at e
  have hrest := enc_injective e.2
  subst hrest
  exact ⟨List.append_cancel_right he, rfl, e.1.symm⟩

theorem member_length {bits : List Bool} {d : List Nat} (h : Member goRules bits d) : bits.length % 8 = 0 := by
  obtain ⟨header, blocks, skip, check, size, rfl, h1, h2, h3, h4, h5, h6, h7, h8⟩ := h
  simp only [List.length_append, length_bitsOfBytes]
  omega

theorem members_first {bits : List Bool} {d : List Nat} (h : Members goRules bits d) (hl : bits.length % 8 = 0) :
    ∃ first rest d1, bits = first ++ rest ∧ Member goRules first d1 ∧ rest.length % 8 = 0 ∧ d1 <+: d := by
  cases h with
  | last _ _ h => exact ⟨bits, [], d, by simp, h, rfl, List.prefix_refl _⟩
  | more bits bits' data data' h h' =>
    have := member_length h
    rw [List.length_append] at hl
    exact ⟨bits, bits', data, rfl, h, by omega, List.prefix_append _ _⟩

/-- Of a file with a single member no proper part from its beginning is accepted. -/
theorem c69_truncated (file part : List Nat) (data : List Nat) (hb : ∀ b ∈ file, b < 256) (h : Member goRules (bitsOfBytes file) data)
    (hp : part <+: file) (hne : part ≠ file) : gunzip part = none := by
  by_contra hn
  obtain ⟨d, hd⟩ := Option.ne_none_iff_exists'.1 hn
  obtain ⟨t, rfl⟩ := hp
  rw [gunzip_iff part (fun b hm => hb b (by simp [hm]))] at hd
  obtain ⟨first, rest, d1, e, hm, hr, _⟩ := members_first hd (by rw [length_bitsOfBytes]; omega)
  rw [bitsOfBytes_append] at h
  have := member_first (rest := []) (rest' := rest ++ bitsOfBytes t) h hm rfl
    (by rw [List.length_append, length_bitsOfBytes]; omega) (by rw [e]; simp)
  have ht : (rest ++ bitsOfBytes t).length = 0 := by rw [← this.2.1]; rfl
  rw [List.length_append, length_bitsOfBytes] at ht
  exact hne (by rw [List.eq_nil_of_length_eq_zero (show t.length = 0 by omega), List.append_nil])

/-- A file whose blocks hold `data` is only accepted with the check value and the size of `data`. -/
theorem c69_check (file data' data header : List Nat) (blocks skip check size rest : List Bool) (h : GzipFile goRules file data')
    (he : bitsOfBytes file = bitsOfBytes header ++ (blocks ++ (skip ++ (check ++ (size ++ rest)))))
    (hh : Header goRules header) (hb : Blocks 0 blocks [] data) (hs : skip.length < 8) (hm : (blocks.length + skip.length) % 8 = 0)
    (hc : check.length = 32) (hz : size.length = 32) :
    lsb check = Verif.Spec.Deflate.crc data ∧ lsb size = data.length % 2 ^ 32 ∧ data <+: data' := by
  have hlen := length_bitsOfBytes file
  obtain ⟨first, rest', d1, e, hmem, hr, hpre⟩ := members_first h (by omega)
  have hg := gzipMember_complete hmem rest' hr
  rw [← e, he] at hg
  have b1 := (gzipHeader_iff _ _).2 ⟨header, blocks ++ (skip ++ (check ++ (size ++ rest))), hh, rfl, rfl⟩
  have b3 := readBits_append check (size ++ rest)
  have b4 := readBits_append size rest
  rw [hc] at b3
  rw [hz] at b4
  have hrest : rest.length % 8 = 0 := by
    rw [he] at hlen
    simp only [List.length_append, length_bitsOfBytes] at hlen
    omega
  have hi := inflate_complete hb (skip ++ (check ++ (size ++ rest))) ((enc (blocks ++ (skip ++ (check ++ (size ++ rest))))).log2 + 1)
    (by rw [log2_enc, List.length_append]; omega) (by simp only [List.length_append]; omega)
  rw [List.reverse_nil] at hi
  rw [gzipMember, b1] at hg
  dsimp only at hg
  rw [hi] at hg
  dsimp only at hg
  rw [align_append skip _ hs (by simp only [List.length_append]; omega), b3] at hg
  dsimp only at hg
  rw [b4] at hg
  dsimp only at hg
  rw [List.reverse_reverse] at hg
  split at hg
  · rename_i hok
    simp only [Option.some.injEq, Prod.mk.injEq] at hg
    rw [crc_eq data (blocks_bytes hb (by simp))] at hok
    exact ⟨hok.1, hok.2, hg.1 ▸ hpre⟩
  · simp at hg

theorem crc_lt (data : List Nat) : Verif.Spec.Deflate.crc data < 2 ^ 32 := by
  rw [Verif.Spec.Deflate.crc]
  refine Nat.xor_lt_two_pow ?_ (by decide)
  have key : ∀ (l : List Nat) (c : Nat), c < 2 ^ 32 →
      l.foldl (fun c b => Verif.Spec.Deflate.crcEntry ((c ^^^ b) &&& 0xff) ^^^ (c >>> 8)) c < 2 ^ 32 := by
    intro l
    induction l with
    | nil => exact fun c h => h
    | cons b l ih =>
      intro c h
      rw [List.foldl_cons]
      apply ih
      refine Nat.xor_lt_two_pow ?_ ?_
      · rw [crcEntry_eq, show (0xff : Nat) = 2 ^ 8 - 1 from rfl, Nat.and_two_pow_sub_one_eq_mod, ← GzipFast.crcTable_get _ (Nat.mod_lt _ (by decide))]
        exact Nat.mod_lt _ (by decide)
      · rw [Nat.shiftRight_eq_div_pow]; omega
  exact key _ _ (by decide)

theorem stored_blocks (data : List Nat) (hb : ∀ b ∈ data, b < 256) (out : List Nat) (pos : Nat) (hp : pos % 8 = 0) :
    ∃ bits, Blocks pos bits out (out ++ data) ∧ bits.length % 8 = 0 := by
  have body : ∀ (d o : List Nat) (pos : Nat), pos % 8 = 0 → (∀ b ∈ d, b < 256) → d.length < 2 ^ 16 →
      ∃ bits, Body 0 (pos + 3) bits o (o ++ d) ∧ (3 + bits.length) % 8 = 0 := by
    intro d o pos hp hb hl
    refine ⟨_, .stored (pos + 3) (List.replicate 5 false) (bitsOfNum 16 d.length) _ d o (by simp) (by simp; omega)
      (length_bitsOfNum _ _) rfl (by rw [lsb_bitsOfNum, Nat.mod_eq_of_lt hl]) hb, ?_⟩
    simp only [List.length_append, List.length_map, length_bitsOfNum, length_bitsOfBytes, List.length_replicate]
    omega
  generalize hn : data.length = n
  induction n using Nat.strongRecOn generalizing data out pos with
  | ind n ih =>
    by_cases hl : data.length < 2 ^ 16
    · obtain ⟨bits, h1, h2⟩ := body data out pos hp hb hl
      refine ⟨true :: ([false, false] ++ bits), .last pos [false, false] bits _ _ rfl h1, ?_⟩
      simp; omega
    · obtain ⟨bits, h1, h2⟩ := body (data.take 65535) out pos hp (fun b hm => hb b (List.mem_of_mem_take hm)) (by rw [List.length_take]; omega)
      obtain ⟨bits', h3, h4⟩ := ih (data.drop 65535).length (by rw [List.length_drop]; omega) (data.drop 65535)
        (fun b hm => hb b (List.mem_of_mem_drop hm)) (out ++ data.take 65535) (pos + 3 + bits.length) (by omega) rfl
      rw [List.append_assoc, List.take_append_drop] at h3
      refine ⟨false :: ([false, false] ++ (bits ++ bits')), .more pos [false, false] bits bits' _ _ _ rfl h1 h3, ?_⟩
      simp; omega

theorem plain_header (r : Rules) (hr : r.flags 0) (other : List Nat) (hl : other.length = 6) (hb : ∀ b ∈ other, b < 256) :
    Header r ([31, 139, 8, 0] ++ other) := by
  refine ⟨0, other, [], [], [], [], by simp, ?_, hl, hr, rfl, rfl, rfl, rfl⟩
  intro b h
  rcases List.mem_append.1 h with h | h
  · simp only [List.mem_cons, List.not_mem_nil, or_false] at h
    omega
  · exact hb b h

/-- Any bytes are the contents of some file after the RFC. -/
theorem c69_every (data : List Nat) (hb : ∀ b ∈ data, b < 256) : ∃ file : List Nat, (∀ b ∈ file, b < 256) ∧ GzipFile rfc1952 file data ∧
    gunzip file = some data := by
  obtain ⟨bits, h1, h2⟩ := stored_blocks data hb [] 0 (by decide)
  rw [List.nil_append] at h1
  have hm : ∀ r : Rules, r.flags 0 → Member r (bitsOfBytes ([31, 139, 8, 0] ++ [0, 0, 0, 0, 0, 255]) ++ (bits ++ ([] ++
      (bitsOfNum 32 (Verif.Spec.Deflate.crc data) ++ bitsOfNum 32 (data.length % 2 ^ 32))))) data := fun r hr =>
    ⟨_, bits, [], _, _, rfl, plain_header r hr _ rfl (by decide), h1, by simp, by simpa using h2, length_bitsOfNum _ _,
      by rw [lsb_bitsOfNum, Nat.mod_eq_of_lt (crc_lt data)], length_bitsOfNum _ _, by rw [lsb_bitsOfNum, Nat.mod_mod]⟩
  obtain ⟨file, h3, h4⟩ := bytes_of_bits _ (member_length (hm goRules trivial))
  have hg : ∀ r : Rules, r.flags 0 → GzipFile r file data := by
    intro r hr
    rw [GzipFile, h4]; exact .last _ _ (hm r hr)
  exact ⟨file, h3, hg rfc1952 (by decide : 0 < 32), (c69_gunzip file h3 data).2 (hg goRules trivial)⟩

/-- A file with a fixed block, `a` nine times (two literals and a copy that overlaps itself), as the usual tools write it; no part of
it from its beginning is accepted. -/
example : let file := [31, 139, 8, 0, 0, 0, 0, 0, 2, 3, 75, 76, 132, 2, 0, 102, 222, 183, 119, 9, 0, 0, 0]
    GzipFile goRules file (List.replicate 9 97) ∧ ∀ n < file.length, gunzip (file.take n) = none := by
  refine ⟨(c69_gunzip _ (by decide) _).1 (by decide +kernel), by decide +kernel⟩

/-- The bytes `hi` in a stored block: a single member, so that c69_truncated and c69_check apply. -/
example : Blocks 0 (bitsOfBytes [1, 2, 0, 253, 255, 104, 105]) [] [104, 105] ∧
    Member goRules (bitsOfBytes [31, 139, 8, 0, 0, 0, 0, 0, 0, 255, 1, 2, 0, 253, 255, 104, 105, 172, 42, 147, 216, 2, 0, 0, 0]) [104, 105] ∧
    ¬ GzipFile goRules [31, 139, 8, 0, 0, 0, 0, 0, 0, 255, 1, 2, 0, 253, 255, 104, 105, 173, 42, 147, 216, 2, 0, 0, 0] [104, 105] := by
  have hb : Blocks 0 (bitsOfBytes [1, 2, 0, 253, 255, 104, 105]) [] [104, 105] :=
    .last 0 [false, false] (List.replicate 5 false ++ (bitsOfNum 16 2 ++ ((bitsOfNum 16 2).map (!·) ++ bitsOfBytes [104, 105]))) [] [104, 105] rfl
      (.stored 3 (List.replicate 5 false) (bitsOfNum 16 2) _ [104, 105] [] (by decide) (by decide) rfl rfl (by decide) (by decide))
  have hh := plain_header goRules trivial [0, 0, 0, 0, 0, 255] rfl (by decide)
  refine ⟨hb, ⟨[31, 139, 8, 0] ++ [0, 0, 0, 0, 0, 255], _, [], bitsOfBytes [172, 42, 147, 216], bitsOfBytes [2, 0, 0, 0], by decide +kernel, hh, hb,
    by decide, by decide, rfl, by decide +kernel, rfl, by decide +kernel⟩, fun h => ?_⟩
  have := c69_check _ _ [104, 105] ([31, 139, 8, 0] ++ [0, 0, 0, 0, 0, 255]) (bitsOfBytes [1, 2, 0, 253, 255, 104, 105]) []
    (bitsOfBytes [173, 42, 147, 216]) (bitsOfBytes [2, 0, 0, 0]) [] h (by decide +kernel) hh hb (by decide) (by decide) rfl rfl
  revert this
  decide +kernel

/-- The contents `hi` in a stored block with check value and size, behind any header. -/
theorem hi_member (r : Rules) (header : List Nat) (hh : Header r header) :
    GzipFile r (header ++ [1, 2, 0, 253, 255, 104, 105, 172, 42, 147, 216, 2, 0, 0, 0]) [104, 105] := by
  refine .last _ _ ⟨header, bitsOfBytes [1, 2, 0, 253, 255, 104, 105], [], bitsOfBytes [172, 42, 147, 216], bitsOfBytes [2, 0, 0, 0], ?_, hh,
    .last 0 [false, false] (List.replicate 5 false ++ (bitsOfNum 16 2 ++ ((bitsOfNum 16 2).map (!·) ++ bitsOfBytes [104, 105]))) [] [104, 105] rfl
      (.stored 3 (List.replicate 5 false) (bitsOfNum 16 2) _ [104, 105] [] (by decide) (by decide) rfl rfl (by decide) (by decide)),
    by decide, by decide, rfl, by decide +kernel, rfl, by decide +kernel⟩
  rw [bitsOfBytes_append]
  congr 1

/-- The small file is one after the RFC with short names. -/
example : gunzip [31, 139, 8, 0, 0, 0, 0, 0, 0, 255, 1, 2, 0, 253, 255, 104, 105, 172, 42, 147, 216, 2, 0, 0, 0] = some [104, 105] :=
  c69_rfc _ _ (by decide) (hi_member _ _ (plain_header _ (by decide : 0 < 32) [0, 0, 0, 0, 0, 255] rfl (by decide)))

/-- A file one of whose reserved flags is set is none after the RFC. -/
theorem c69_reserved (flags : Nat) (rest data : List Nat) (h1 : 32 ≤ flags) (h2 : flags < 256) : ¬ GzipFile rfc1952 (31 :: 139 :: 8 :: flags :: rest) data := by
  intro h
  have first : ∃ bits bits' d, bitsOfBytes (31 :: 139 :: 8 :: flags :: rest) = bits ++ bits' ∧ Member rfc1952 bits d := by
    rw [GzipFile] at h
    generalize bitsOfBytes (31 :: 139 :: 8 :: flags :: rest) = all at h
    cases h with
    | last _ _ h => exact ⟨_, [], _, (List.append_nil _).symm, h⟩
    | more bits bits' d _ h _ => exact ⟨bits, bits', d, rfl, h⟩
  obtain ⟨bits, bits', d, e, header, blocks, skip, check, size, rfl, ⟨flags', other, extra, name, comment, chk, rfl, hb, -, hf, -⟩, -⟩ := first
  have hf : flags' < 32 := hf
  simp only [List.append_assoc, List.cons_append, List.nil_append, bitsOfBytes_cons] at e
  have e2 := (List.append_inj (List.append_cancel_left (List.append_cancel_left (List.append_cancel_left e)))
    (by rw [length_bitsOfNum, length_bitsOfNum])).1
  have e3 := congrArg lsb e2
  rw [lsb_bitsOfNum, lsb_bitsOfNum] at e3
  omega

/-- The highest flag of a small file. -/
example : ¬ GzipFile rfc1952 [31, 139, 8, 128, 0, 0, 0, 0, 0, 255, 1, 2, 0, 253, 255, 104, 105, 172, 42, 147, 216, 2, 0, 0, 0] [104, 105] :=
  c69_reserved 128 _ _ (by decide) (by decide)

/-- The two departures from the RFC: a name of 512 bytes is refused, a reserved flag is not. -/
theorem c69_departs : (∃ file, (∀ b ∈ file, b < 256) ∧ GzipFile rfc1952 file [104, 105] ∧ gunzip file = none) ∧
    ∃ file, (∀ b ∈ file, b < 256) ∧ gunzip file = some [104, 105] ∧ ∀ data, ¬ GzipFile rfc1952 file data := by
  refine ⟨⟨([31, 139, 8, 8] ++ [0, 0, 0, 0, 0, 255] ++ [] ++ (List.replicate 512 97 ++ [0]) ++ []) ++ [] ++
    [1, 2, 0, 253, 255, 104, 105, 172, 42, 147, 216, 2, 0, 0, 0], by decide +kernel, hi_member _ _ ?_, by decide +kernel⟩,
    ⟨[31, 139, 8, 32, 0, 0, 0, 0, 0, 255, 1, 2, 0, 253, 255, 104, 105, 172, 42, 147, 216, 2, 0, 0, 0], by decide, by decide +kernel,
      fun data => c69_reserved 32 _ data (by decide) (by decide)⟩⟩
  exact ⟨8, [0, 0, 0, 0, 0, 255], [], List.replicate 512 97 ++ [0], [], [], rfl, by decide +kernel, rfl, (by decide : 8 < 32), rfl,
    ⟨List.replicate 512 97, by decide +kernel, trivial, rfl⟩, rfl, rfl⟩

/-! ### both -/

/-- A text is decoded exactly if it is the base64 text of a gzip file, and to the contents of this file. -/
theorem c69_decode (text data : List Nat) : decode text = some data ↔ ∃ file, IsBase64 text file ∧ GzipFile goRules file data := by
  rw [decode, Option.bind_eq_some_iff]
  constructor
  · rintro ⟨file, h1, h2⟩
    have h1 := (c69_base64 _ _).1 h1
    have hb : ∀ b ∈ file, b < 256 := by
      obtain ⟨_, _, _, _, _, _, h, _⟩ := h1; exact h
    exact ⟨file, h1, (c69_gunzip file hb data).1 h2⟩
  · rintro ⟨file, h1, h2⟩
    have hb : ∀ b ∈ file, b < 256 := by
      obtain ⟨_, _, _, _, _, _, h, _⟩ := h1; exact h
    exact ⟨file, (c69_base64 _ _).2 h1, (c69_gunzip file hb data).2 h2⟩

/-- The embedded strings are base64 texts of gzip files that hold the texts of the tables, and nothing else. -/
theorem c69_embedded (year : Int) (d : EscData) (h : (year, d) ∈ escFiles) :
    ∃ rows, (year, rows) ∈ embeddedTable ∧ ∃ file, IsBase64 (asciiBytes d.compressed) file ∧
      ∀ data, GzipFile goRules file data ↔ data = asciiBytes (fileText rows) := by
  obtain ⟨rows, h1, h2⟩ := c60_decoded year d h
  obtain ⟨file, h3, h4⟩ := (c69_decode _ _).1 h2
  have hb : ∀ b ∈ file, b < 256 := by
    obtain ⟨_, _, _, _, _, _, h, _⟩ := h3; exact h
  exact ⟨rows, h1, file, h3, fun data => ⟨fun h => c69_unique file hb _ _ h h4, fun h => h ▸ h4⟩⟩

/-- C69: the file of 1902 is one of them. -/
example : ∃ d, ((1902 : Int), d) ∈ escFiles := by
  obtain ⟨d, hm, -⟩ := env_file (arg := fun _ => String.ofList (astroPath 1902)) (i := 0) (y := 1902) (by
    have := (c59_files 1902).1
    rw [if_pos (by decide)] at this
    rw [String.toList_ofList]
    exact this) (by decide) (by decide)
  exact ⟨d, hm⟩

end Verif.Props
