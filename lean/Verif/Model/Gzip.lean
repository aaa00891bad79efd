/-
Model of the decoding of an embedded file, data.go:59-65: `base64.NewDecoder(base64.StdEncoding, …)`, `gzip.NewReader` and
`ioutil.ReadAll`, i.e. Go's packages encoding/base64, compress/gzip and compress/flate after RFC 4648, 1952 and 1951.
A byte is a number below 256. `none` is any error; the data read before an error are not modelled here.
The unread bits of a stream are one number: the next bit is the lowest one, and a 1 marks the end above the last bit.
-/
set_option autoImplicit false

namespace Verif.Model.Gzip

/-! ### base64 -/

/-- encoding/base64 `StdEncoding`: the value of a character. -/
def b64val (c : Nat) : Option Nat :=
  if 65 ≤ c ∧ c ≤ 90 then some (c - 65)
  else if 97 ≤ c ∧ c ≤ 122 then some (c - 71)
  else if 48 ≤ c ∧ c ≤ 57 then some (c + 4)
  else if c = 43 then some 62
  else if c = 47 then some 63
  else none

/-- encoding/base64: the groups of four characters; padding (`=`, 61) may only end the text. -/
def b64groups : List Nat → Option (List Nat)
  | [] => some []
  | a :: b :: c :: d :: rest =>
    match b64val a, b64val b with
    | some x, some y =>
      if d = 61 then
        if rest ≠ [] then none
        else if c = 61 then some [x * 4 + y / 16]
        else (b64val c).map fun z => [x * 4 + y / 16, y % 16 * 16 + z / 4]
      else
        match b64val c, b64val d with
        | some z, some w => (b64groups rest).map fun l => (x * 4 + y / 16) :: (y % 16 * 16 + z / 4) :: (z % 4 * 64 + w) :: l
        | _, _ => none
    | _, _ => none
  | _ => none

/-- `base64.NewDecoder(base64.StdEncoding, r)`, read to its end; line ends are ignored. -/
def b64decode (text : List Nat) : Option (List Nat) := b64groups (text.filter fun c => c ≠ 10 ∧ c ≠ 13)

/-! ### bits -/

/-- The bits of bytes, with the mark of their end. -/
def bitsOf : List Nat → Nat
  | [] => 1
  | b :: rest => b + 256 * bitsOf rest

/-- The next `n` bits as a number, the first bit lowest. -/
def readBits (n s : Nat) : Option (Nat × Nat) :=
  let rest := s / 2 ^ n
  if rest = 0 then none else some (s % 2 ^ n, rest)

/-- Skip to the next border between bytes. -/
def align (s : Nat) : Nat := s / 2 ^ (s.log2 % 8)

/-! ### Huffman codes -/

/-- A prefix code. -/
inductive Tree where
  | empty
  | leaf (symbol : Nat)
  | node (zero one : Tree)
deriving DecidableEq, Repr

/-- The next symbol. -/
def Tree.read : Tree → Nat → Option (Nat × Nat)
  | .empty, _ => none
  | .leaf x, s => some (x, s)
  | .node a b, s =>
    let rest := s / 2
    if rest = 0 then none else if s % 2 = 0 then a.read rest else b.read rest

/-- The symbols with the lengths of their codes, shortest code first, in alphabetical order for the same length. -/
def byLength (lengths : List Nat) : List (Nat × Nat) :=
  (List.range 15).flatMap fun l => lengths.zipIdx.filter fun p => p.1 = l + 1

/-- RFC 1951 3.2.2: the codes are given out in this order from left to right. The symbols left over come with the
tree; `fuel` bounds the depth. -/
def buildTree : (fuel depth : Nat) → List (Nat × Nat) → Tree × List (Nat × Nat)
  | _, _, [] => (.empty, [])
  | 0, _, l => (.empty, l)
  | fuel + 1, depth, (len, symbol) :: rest =>
    if len = depth then (.leaf symbol, rest)
    else
      let (a, l) := buildTree fuel (depth + 1) ((len, symbol) :: rest)
      let (b, l) := buildTree fuel (depth + 1) l
      (.node a b, l)

def Tree.complete : Tree → Bool
  | .empty => false
  | .leaf _ => true
  | .node a b => a.complete && b.complete

/-- compress/flate `huffmanDecoder.init`: fails if there are too many or too few codes; no code at all and a single code of
length 1 are allowed. -/
def huffman (lengths : List Nat) : Option Tree :=
  match byLength lengths with
  | [] => some .empty
  | [(1, x)] => some (.node (.leaf x) .empty)
  | l =>
    let (t, rest) := buildTree 16 0 l
    if rest = [] ∧ t.complete then some t else none

/-! ### DEFLATE -/

/-- Where the decompressed bytes go: one more byte, and `len` bytes repeated from `dist` bytes back. -/
structure Buffer (α : Type) where
  push : α → Nat → α
  copy : α → (len dist : Nat) → Option α

/-- Repeat one byte after the other. -/
def copyBytes (dist : Nat) : (len : Nat) → List Nat → Option (List Nat)
  | 0, out => some out
  | len + 1, out =>
    match out[dist - 1]? with
    | none => none
    | some b => copyBytes dist len (b :: out)

/-- The bytes so far, the last one first. -/
def bytes : Buffer (List Nat) where
  push := fun out b => b :: out
  copy := fun out len dist => copyBytes dist len out

/-- RFC 1951 3.2.5: base and extra bits of the length symbols 257..285. -/
def lengthCode (symbol : Nat) : Option (Nat × Nat) :=
  if symbol < 265 then some (symbol - 254, 0)
  else if symbol < 285 then
    let e := (symbol - 261) / 4
    some (3 + 2 ^ (e + 2) + (symbol - 261) % 4 * 2 ^ e, e)
  else if symbol = 285 then some (258, 0)
  else none

/-- RFC 1951 3.2.5: base and extra bits of the distance symbols 0..29. -/
def distCode (symbol : Nat) : Option (Nat × Nat) :=
  if symbol < 4 then some (symbol + 1, 0)
  else if symbol < 30 then
    let e := symbol / 2 - 1
    some (1 + (2 + symbol % 2) * 2 ^ e, e)
  else none

section
variable {α : Type} (B : Buffer α)

/-- compress/flate `decompressor.huffmanBlock`. -/
def huffmanBlock (lit dist : Tree) : (fuel : Nat) → (s : Nat) → (out : α) → Option (Nat × α)
  | 0, _, _ => none
  | fuel + 1, s, out =>
    match lit.read s with
    | none => none
    | some (x, s) =>
      if x < 256 then huffmanBlock lit dist fuel s (B.push out x)
      else if x = 256 then some (s, out)
      else
        match lengthCode x with
        | none => none
        | some (base, extra) =>
          match readBits extra s with
          | none => none
          | some (k, s) =>
            match dist.read s with
            | none => none
            | some (y, s) =>
              match distCode y with
              | none => none
              | some (dbase, dextra) =>
                match readBits dextra s with
                | none => none
                | some (dk, s) =>
                  match B.copy out (base + k) (dbase + dk) with
                  | none => none
                  | some out => huffmanBlock lit dist fuel s out

/-- The bytes of a stored block. -/
def stored : (len : Nat) → (s : Nat) → (out : α) → Option (Nat × α)
  | 0, s, out => some (s, out)
  | len + 1, s, out =>
    match readBits 8 s with
    | none => none
    | some (b, s) => stored len s (B.push out b)

/-- RFC 1951 3.2.6: the fixed codes. -/
def fixedLit : List Nat :=
  List.replicate 144 8 ++ List.replicate 112 9 ++ List.replicate 24 7 ++ List.replicate 8 8

def fixedDist : List Nat := List.replicate 32 5

/-- RFC 1951 3.2.7: the order of the code length codes. -/
def codeOrder : List Nat := [16, 17, 18, 0, 8, 7, 9, 6, 10, 5, 11, 4, 12, 3, 13, 2, 14, 1, 15]

/-- The lengths of the code length codes, as `(position, length)`. -/
def readOrder : List Nat → Nat → Option (List (Nat × Nat) × Nat)
  | [], s => some ([], s)
  | p :: rest, s =>
    match readBits 3 s with
    | none => none
    | some (len, s) => (readOrder rest s).map fun (l, s) => ((p, len) :: l, s)

/-- The code lengths of both codes; `acc` holds the lengths so far, the last one first, and `left` counts what is
missing. -/
def readLengths (code : Tree) : (fuel left s : Nat) → (acc : List Nat) → Option (List Nat × Nat)
  | 0, _, _, _ => none
  | fuel + 1, left, s, acc =>
    if left = 0 then some (acc.reverse, s)
    else
      match code.read s with
      | none => none
      | some (x, s) =>
        if x < 16 then readLengths code fuel (left - 1) s (x :: acc)
        else
          let (extra, base) := if x = 16 then (2, 3) else if x = 17 then (3, 3) else (7, 11)
          match readBits extra s with
          | none => none
          | some (k, s) =>
            let rep := base + k
            let what := if x = 16 then acc.head? else some 0
            match what with
            | none => none
            | some v => if left < rep then none else readLengths code fuel (left - rep) s (List.replicate rep v ++ acc)

/-- compress/flate `decompressor.readHuffman`: the two codes of a dynamic block. -/
def readHuffman (s : Nat) : Option (Tree × Tree × Nat) :=
  match readBits 5 s with
  | none => none
  | some (hlit, s) =>
    match readBits 5 s with
    | none => none
    | some (hdist, s) =>
      match readBits 4 s with
      | none => none
      | some (hclen, s) =>
        if 286 < hlit + 257 ∨ 30 < hdist + 1 then none
        else
          match readOrder (codeOrder.take (hclen + 4)) s with
          | none => none
          | some (order, s) =>
            match huffman ((List.range 19).map fun p => (order.lookup p).getD 0) with
            | none => none
            | some code =>
              let total := hlit + 257 + (hdist + 1)
              match readLengths code (total + 1) total s [] with
              | none => none
              | some (lengths, s) =>
                match huffman (lengths.take (hlit + 257)), huffman (lengths.drop (hlit + 257)) with
                | some lit, some dist => some (lit, dist, s)
                | _, _ => none

/-- compress/flate `decompressor.nextBlock`: the body of a block of a type. -/
def block (type s : Nat) (out : α) : Option (Nat × α) :=
  if type = 0 then
    match readBits 16 (align s) with
    | none => none
    | some (len, s) =>
      match readBits 16 s with
      | none => none
      | some (nlen, s) => if len + nlen = 65535 then stored B len s out else none
  else if type = 1 then
    match huffman fixedLit, huffman fixedDist with
    | some lit, some dist => huffmanBlock B lit dist (s.log2 + 1) s out
    | _, _ => none
  else if type = 2 then
    match readHuffman s with
    | none => none
    | some (lit, dist, s) => huffmanBlock B lit dist (s.log2 + 1) s out
  else none

/-- compress/flate: all blocks. -/
def inflate : (fuel s : Nat) → (out : α) → Option (Nat × α)
  | 0, _, _ => none
  | fuel + 1, s, out =>
    match readBits 1 s with
    | none => none
    | some (final, s) =>
      match readBits 2 s with
      | none => none
      | some (type, s) =>
        match block B type s out with
        | none => none
        | some (s, out) => if final = 1 then some (s, out) else inflate fuel s out

end

/-! ### gzip -/

/-- hash/crc32 (IEEE): one bit. -/
def crcBit (c : Nat) : Nat := if c % 2 = 1 then (c / 2) ^^^ 0xEDB88320 else c / 2

/-- hash/crc32 (IEEE): one byte. -/
def crcByte (c b : Nat) : Nat := crcBit (crcBit (crcBit (crcBit (crcBit (crcBit (crcBit (crcBit (c ^^^ b))))))))

/-- hash/crc32 `ChecksumIEEE`. -/
def crc32 (data : List Nat) : Nat := data.foldl crcByte 0xFFFFFFFF ^^^ 0xFFFFFFFF

/-- The next `n` bytes. -/
def readBytes : (n s : Nat) → Option (List Nat × Nat)
  | 0, s => some ([], s)
  | n + 1, s =>
    match readBits 8 s with
    | none => none
    | some (b, s) => (readBytes n s).map fun r => (b :: r.1, r.2)

/-- compress/gzip `Reader`: the size of `buf`. -/
def bufferSize : Nat := 512

/-- compress/gzip `Reader.readString`: the bytes up to a zero and the zero, within `size` bytes. -/
def readString : (size s : Nat) → Option (List Nat × Nat)
  | 0, _ => none
  | size + 1, s =>
    match readBits 8 s with
    | none => none
    | some (b, s) => if b = 0 then some ([0], s) else (readString size s).map fun r => (b :: r.1, r.2)

/-- compress/gzip `Reader.readHeader`: the field behind `flagExtra`, a length of two bytes and as many bytes. -/
def readExtra (s : Nat) : Option (List Nat × Nat) :=
  match readBytes 2 s with
  | none => none
  | some (len, s) => (readBytes (len.getD 0 0 + 256 * len.getD 1 0) s).map fun r => (len ++ r.1, r.2)

/-- compress/gzip `Reader.readHeader`: a field that is only there if its flag is set. -/
def readField (flag : Bool) (read : Nat → Option (List Nat × Nat)) (s : Nat) : Option (List Nat × Nat) :=
  if flag then read s else some ([], s)

/-- compress/gzip `Reader.readHeader`; the unknown flags are ignored, a name or a comment has to fit with its zero into 512 bytes. -/
def gzipHeader (s : Nat) : Option Nat :=
  match readBytes 10 s with
  | none => none
  | some (fixed, s) =>
    if fixed.take 3 = [31, 139, 8] then
      let flags := fixed.getD 3 0
      match readField (flags.testBit 2) readExtra s with
      | none => none
      | some (extra, s) =>
        match readField (flags.testBit 3) (readString bufferSize) s with
        | none => none
        | some (name, s) =>
          match readField (flags.testBit 4) (readString bufferSize) s with
          | none => none
          | some (comment, s) =>
            match readField (flags.testBit 1) (readBytes 2) s with
            | none => none
            | some (check, s) =>
              if flags.testBit 1 = true → check.getD 0 0 + 256 * check.getD 1 0 = crc32 (fixed ++ extra ++ name ++ comment) % 2 ^ 16 then some s
              else none
    else none

/-- compress/gzip `Reader.Read`: one member of a gzip file with checksum and size. -/
def gzipMember (s : Nat) : Option (List Nat × Nat) :=
  match gzipHeader s with
  | none => none
  | some s =>
    match inflate bytes (s.log2 + 1) s [] with
    | none => none
    | some (s, out) =>
      let data := out.reverse
      match readBits 32 (align s) with
      | none => none
      | some (crc, s) =>
        match readBits 32 s with
        | none => none
        | some (size, s) => if crc = crc32 data ∧ size = data.length % 2 ^ 32 then some (data, s) else none

/-- The members of a gzip file one after the other. -/
def gzipMembers : (fuel s : Nat) → Option (List Nat)
  | 0, _ => none
  | fuel + 1, s =>
    match gzipMember s with
    | none => none
    | some (data, s) => if s = 1 then some data else (gzipMembers fuel s).map (data ++ ·)

/-- `gzip.NewReader(r)` with `ioutil.ReadAll`. -/
def gunzip (file : List Nat) : Option (List Nat) := gzipMembers (file.length + 1) (bitsOf file)

/-- data.go:59-65: the contents of an embedded file. -/
def decode (compressed : List Nat) : Option (List Nat) := (b64decode compressed).bind gunzip

end Verif.Model.Gzip
