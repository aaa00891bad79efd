/-
The formats RFC 1951 (DEFLATE) and RFC 1952 (gzip) as relations between bits and bytes, after the text of the RFCs and
independently of any decoder. Bytes are numbers below 256. Left out: optional fields of gzip headers.
-/
set_option autoImplicit false

namespace Verif.Spec.Deflate

/-! ### RFC 1951, 3.1.1: packing into bytes -/

/-- A number whose first bit is its least significant one. -/
def lsb : List Bool → Nat
  | [] => 0
  | b :: rest => b.toNat + 2 * lsb rest

/-- A Huffman code: its first bit is its most significant one. -/
def msb (bits : List Bool) : Nat := bits.foldl (fun n b => 2 * n + b.toNat) 0

/-- The `n` lowest bits of a number, the least significant one first. -/
def bitsOfNum : Nat → Nat → List Bool
  | 0, _ => []
  | n + 1, v => decide (v % 2 = 1) :: bitsOfNum n (v / 2)

/-- The bits of bytes. -/
def bitsOfBytes (bytes : List Nat) : List Bool := bytes.flatMap (bitsOfNum 8)

/-! ### RFC 1951, 3.2.2: Huffman codes given by the lengths of the codes -/

/-- `next_code`: the first code of a length. -/
def nextCode (lengths : List Nat) : Nat → Nat
  | 0 => 0
  | n + 1 => (nextCode lengths n + if n = 0 then 0 else lengths.count n) * 2

/-- `bits` is the code of `symbol`: consecutive codes of the same length go to the symbols in order. -/
def IsCode (lengths : List Nat) (symbol : Nat) (bits : List Bool) : Prop :=
  ∃ len, lengths[symbol]? = some len ∧ len ≠ 0 ∧ bits.length = len ∧
    msb bits = nextCode lengths len + (lengths.take symbol).count len

/-- The space taken by the codes, where all of it is 2^15. -/
def space (lengths : List Nat) : Nat := (lengths.map fun len => if len = 0 then 0 else 2 ^ (15 - len)).sum

/-- Lengths that make a code: it takes all the space, or it is empty, or it has one code of one bit. -/
def Usable (lengths : List Nat) : Prop :=
  space lengths = 2 ^ 15 ∨ (∀ len ∈ lengths, len = 0) ∨ ∃ n k, lengths = List.replicate n 0 ++ 1 :: List.replicate k 0

/-! ### RFC 1951, 3.2.5: lengths and distances -/

/-- Extra bits and first length of the codes 257, 258, … -/
def lengthTable : List (Nat × Nat) :=
  [(0, 3), (0, 4), (0, 5), (0, 6), (0, 7), (0, 8), (0, 9), (0, 10), (1, 11), (1, 13), (1, 15), (1, 17), (2, 19), (2, 23), (2, 27),
   (2, 31), (3, 35), (3, 43), (3, 51), (3, 59), (4, 67), (4, 83), (4, 99), (4, 115), (5, 131), (5, 163), (5, 195), (5, 227), (0, 258)]

/-- Extra bits and first distance of the codes 0, 1, … -/
def distTable : List (Nat × Nat) :=
  [(0, 1), (0, 2), (0, 3), (0, 4), (1, 5), (1, 7), (2, 9), (2, 13), (3, 17), (3, 25), (4, 33), (4, 49), (5, 65), (5, 97), (6, 129),
   (6, 193), (7, 257), (7, 385), (8, 513), (8, 769), (9, 1025), (9, 1537), (10, 2049), (10, 3073), (11, 4097), (11, 6145),
   (12, 8193), (12, 12289), (13, 16385), (13, 24577)]

/-- `after` is `before` and then `len` bytes each equal to the one `dist` bytes back. -/
def Repeats (before : List Nat) (len dist : Nat) (after : List Nat) : Prop :=
  1 ≤ dist ∧ dist ≤ before.length ∧ after.length = before.length + len ∧ before <+: after ∧
    ∀ i, before.length ≤ i → i < after.length → after[i]? = after[i - dist]?

/-- The compressed data of a block up to and including its end code, with the codes of the two lists of lengths. -/
inductive Data (lit dist : List Nat) : List Bool → List Nat → List Nat → Prop
  | stop (c : List Bool) (out : List Nat) (hc : IsCode lit 256 c) : Data lit dist c out out
  | literal (c bits : List Bool) (x : Nat) (out out' : List Nat) (hc : IsCode lit x c) (hx : x < 256)
      (h : Data lit dist bits (out ++ [x]) out') : Data lit dist (c ++ bits) out out'
  | copy (c e c' e' bits : List Bool) (x y len d : Nat) (out mid out' : List Nat)
      (hc : IsCode lit (257 + x) c) (hx : lengthTable[x]? = some (e.length, len))
      (hc' : IsCode dist y c') (hy : distTable[y]? = some (e'.length, d))
      (hr : Repeats out (len + lsb e) (d + lsb e') mid) (h : Data lit dist bits mid out') :
      Data lit dist (c ++ (e ++ (c' ++ (e' ++ bits)))) out out'

/-! ### RFC 1951, 3.2.6 and 3.2.7: the codes of a block -/

/-- The lengths of the fixed literal codes. -/
def fixedLiterals : List Nat :=
  (List.range 288).map fun x => if x ≤ 143 then 8 else if x ≤ 255 then 9 else if x ≤ 279 then 7 else 8

/-- The lengths of the fixed distance codes. -/
def fixedDistances : List Nat := List.replicate 32 5

/-- Code lengths written with the code length alphabet, after the lengths `acc`. -/
inductive Lengths (code : List Nat) : List Nat → List Bool → List Nat → Prop
  | done (acc : List Nat) : Lengths code acc [] acc
  | one (acc r : List Nat) (c bits : List Bool) (x : Nat) (hc : IsCode code x c) (hx : x ≤ 15)
      (h : Lengths code (acc ++ [x]) bits r) : Lengths code acc (c ++ bits) r
  | previous (acc r : List Nat) (c e bits : List Bool) (v : Nat) (hc : IsCode code 16 c) (he : e.length = 2)
      (hv : acc.getLast? = some v) (h : Lengths code (acc ++ List.replicate (3 + lsb e) v) bits r) : Lengths code acc (c ++ (e ++ bits)) r
  | zeros (acc r : List Nat) (c e bits : List Bool) (hc : IsCode code 17 c) (he : e.length = 3)
      (h : Lengths code (acc ++ List.replicate (3 + lsb e) 0) bits r) : Lengths code acc (c ++ (e ++ bits)) r
  | manyZeros (acc r : List Nat) (c e bits : List Bool) (hc : IsCode code 18 c) (he : e.length = 7)
      (h : Lengths code (acc ++ List.replicate (11 + lsb e) 0) bits r) : Lengths code acc (c ++ (e ++ bits)) r

/-- The order in which the lengths of the code length codes come. -/
def codeLengthOrder : List Nat := [16, 17, 18, 0, 8, 7, 9, 6, 10, 5, 11, 4, 12, 3, 13, 2, 14, 1, 15]

/-- The head of a dynamic block, giving the lengths of both codes. -/
def DynamicHead (bits : List Bool) (lit dist : List Nat) : Prop :=
  ∃ (hlit hdist hclen runs : List Bool) (codes : List (List Bool)) (code : List Nat),
    bits = hlit ++ (hdist ++ (hclen ++ (codes.flatten ++ runs))) ∧ hlit.length = 5 ∧ hdist.length = 5 ∧ hclen.length = 4 ∧
    codes.length = lsb hclen + 4 ∧ (∀ c ∈ codes, c.length = 3) ∧
    code.length = 19 ∧
    (∀ i s : Nat, codeLengthOrder[i]? = some s → code[s]? = some (match codes[i]? with | some c => lsb c | none => 0)) ∧
    lit.length = lsb hlit + 257 ∧ lit.length ≤ 286 ∧ dist.length = lsb hdist + 1 ∧ dist.length ≤ 30 ∧
    Usable code ∧ Lengths code [] runs (lit ++ dist) ∧ Usable lit ∧ Usable dist

/-! ### RFC 1951, 3.2.3: blocks -/

/-- The body of a block of a type, which begins `pos` bits after a border between bytes. -/
inductive Body : (type pos : Nat) → List Bool → List Nat → List Nat → Prop
  | stored (pos : Nat) (skip len nlen : List Bool) (data out : List Nat) (hs : skip.length < 8) (hp : (pos + skip.length) % 8 = 0)
      (hl : len.length = 16) (hn : nlen = len.map (!·)) (hd : data.length = lsb len) (hb : ∀ b ∈ data, b < 256) :
      Body 0 pos (skip ++ (len ++ (nlen ++ bitsOfBytes data))) out (out ++ data)
  | fixed (pos : Nat) (bits : List Bool) (out out' : List Nat) (h : Data fixedLiterals fixedDistances bits out out') : Body 1 pos bits out out'
  | dynamic (pos : Nat) (head bits : List Bool) (lit dist out out' : List Nat) (hh : DynamicHead head lit dist)
      (h : Data lit dist bits out out') : Body 2 pos (head ++ bits) out out'

/-- The blocks up to the one marked as last. -/
inductive Blocks : (pos : Nat) → List Bool → List Nat → List Nat → Prop
  | last (pos : Nat) (type bits : List Bool) (out out' : List Nat) (ht : type.length = 2) (h : Body (lsb type) (pos + 3) bits out out') :
      Blocks pos (true :: (type ++ bits)) out out'
  | more (pos : Nat) (type bits bits' : List Bool) (out mid out' : List Nat) (ht : type.length = 2)
      (h : Body (lsb type) (pos + 3) bits out mid) (h' : Blocks (pos + 3 + bits.length) bits' mid out') :
      Blocks pos (false :: (type ++ (bits ++ bits'))) out out'

/-! ### RFC 1952 -/

/-- Section 8: `make_crc_table`. -/
def crcEntry (n : Nat) : Nat :=
  (List.range 8).foldl (fun c _ => if c &&& 1 ≠ 0 then 0xedb88320 ^^^ (c >>> 1) else c >>> 1) n

/-- Section 8: `crc`. -/
def crc (data : List Nat) : Nat :=
  data.foldl (fun c b => crcEntry ((c ^^^ b) &&& 0xff) ^^^ (c >>> 8)) 0xffffffff ^^^ 0xffffffff

/-- How a decoder treats what the RFC does not settle for it: the lengths of names and comments and the flags it puts up with. -/
structure Rules where
  nameLength : Nat → Prop
  flags : Nat → Prop

/-- Section 2.3.1: no limit to names, and the three reserved flags have to be zero. -/
def rfc1952 : Rules := ⟨fun _ => True, fun flags => flags < 32⟩

/-- The package compress/gzip: names of at most 511 bytes, and reserved flags are ignored. -/
def goRules : Rules := ⟨fun n => n ≤ 511, fun _ => True⟩

/-- Section 2.3: two bytes with the number of the bytes that follow. -/
def IsExtra (field : List Nat) : Prop := ∃ data : List Nat, data.length < 2 ^ 16 ∧ field = data.length % 256 :: data.length / 256 :: data

/-- Section 2.3: a name or a comment ends with a zero. -/
def IsName (r : Rules) (field : List Nat) : Prop := ∃ name : List Nat, (∀ b ∈ name, b ≠ 0) ∧ r.nameLength name.length ∧ field = name ++ [0]

/-- Section 2.3: the header of a member: the fixed bytes, flags, time, system, and the fields the flags announce. -/
def Header (r : Rules) (bytes : List Nat) : Prop :=
  ∃ (flags : Nat) (other extra name comment check : List Nat),
    bytes = ([31, 139, 8, flags] ++ other ++ extra ++ name ++ comment) ++ check ∧ (∀ b ∈ bytes, b < 256) ∧
    other.length = 6 ∧ r.flags flags ∧
    (if flags.testBit 2 then IsExtra extra else extra = []) ∧
    (if flags.testBit 3 then IsName r name else name = []) ∧
    (if flags.testBit 4 then IsName r comment else comment = []) ∧
    (if flags.testBit 1 then
      let c := crc ([31, 139, 8, flags] ++ other ++ extra ++ name ++ comment)
      check = [c % 256, c / 256 % 256]
    else check = [])

/-- Section 2.3: a member: the header, the compressed blocks, bits up to the next border, check value and size. -/
def Member (r : Rules) (bits : List Bool) (data : List Nat) : Prop :=
  ∃ (header : List Nat) (blocks skip check size : List Bool), bits = bitsOfBytes header ++ (blocks ++ (skip ++ (check ++ size))) ∧
    Header r header ∧ Blocks 0 blocks [] data ∧ skip.length < 8 ∧ (blocks.length + skip.length) % 8 = 0 ∧
    check.length = 32 ∧ lsb check = crc data ∧ size.length = 32 ∧ lsb size = data.length % 2 ^ 32

/-- Section 2.2: members one after the other. -/
inductive Members (r : Rules) : List Bool → List Nat → Prop
  | last (bits : List Bool) (data : List Nat) (h : Member r bits data) : Members r bits data
  | more (bits bits' : List Bool) (data data' : List Nat) (h : Member r bits data) (h' : Members r bits' data') :
      Members r (bits ++ bits') (data ++ data')

/-- A gzip file and its contents. -/
def GzipFile (r : Rules) (file data : List Nat) : Prop := Members r (bitsOfBytes file) data

end Verif.Spec.Deflate
