import Verif.Model.Esc
/-
Model of the exported file functions of data.go: opened files (data.go:73-128), `FS`, `Dir` (132-148), `FSByte`, `FSMustByte`,
`FSString`, `FSMustString` (150-185), all with `useLocal = false`, as operations on a shared state; an operation is one
atomic step (Model/Esc.lean has the steps inside `prepare`). The file an opened handle reads is the slice `f.data` itself
(`bytes.NewReader` does not copy), and `FSByte` hands out that same slice: a caller may store into it.
Of `bytes.Reader`, `Read` and `Seek` are modelled: the other methods of `http.File` come from `_escFile`. Simplifications:
the wrap of an offset beyond 2^63 and memory beyond the length of the slice (its capacity) are left out.
-/
set_option autoImplicit false

namespace Verif.Model.EscOpen
open Verif.Model.Esc (EscFile Err)

/-- What does not change: the table `_escData` with the fields of the files, and the two `path` functions. -/
structure Env where
  escData : String → Option EscFile
  isDir : String → Bool
  modtime : String → Int
  clean : String → String
  base : String → String

/-- data.go:35-37. -/
structure FileState where
  done : Bool := false
  data : List UInt8 := []
  name : String := ""

/-- data.go:86-93 `httpFile`: the file, by its key, and the position `i` of the `bytes.Reader`. -/
structure Handle where
  key : String
  pos : Int := 0

/-- The files, the opened handles and the slices handed out by `FSByte` (the file whose data each one is), oldest first. -/
structure State where
  file : String → FileState := fun _ => {}
  handles : List Handle := []
  slices : List String := []

/-- data.go:98-128: what `Stat` gives (the file itself as `os.FileInfo`). -/
structure Info where
  name : String
  size : Int
  mode : Int
  modtime : Int
  isDir : Bool
deriving DecidableEq, Repr

/-- The operations of callers. Handles and slices are numbered in the order in which they were given out. -/
inductive Op where
  | openFile (name : String)                  -- FS(false).Open
  | openIn (dir name : String)                -- Dir(false, dir).Open
  | read (h n : Nat)                          -- Read into a buffer of n bytes
  | seek (h : Nat) (offset : Int) (whence : Int)
  | stat (h : Nat)
  | readdir (h : Nat) (count : Int)
  | close (h : Nat)
  | fsByte (name : String)
  | fsMustByte (name : String)
  | fsString (name : String)
  | fsMustString (name : String)
  | store (s i : Nat) (b : UInt8)             -- the caller stores into a slice got from FSByte or FSMustByte

/-- What an operation returns. -/
inductive Res where
  | handle (h : Nat)
  | bytes (b : List UInt8)
  | slice (s : Nat) (b : List UInt8)
  | position (p : Int)
  | info (i : Info)
  | nothing
  | eof
  | error (e : Err)
  | panics
deriving DecidableEq, Repr

def State.setFile (s : State) (k : String) (f : FileState) : State :=
  { s with file := fun k' => if k' = k then f else s.file k' }

/-- data.go:59-65: data and error of decoding. -/
def decode (e : EscFile) : List UInt8 × Option Err :=
  if e.size = 0 then ([], none) else match e.newReader with | some x => ([], some x) | none => e.readAll

/-- data.go:47-71 `prepare`, run alone. -/
def prepare (env : Env) (s : State) (name : String) : State × (Err ⊕ String) :=
  let k := env.clean name
  match env.escData k with
  | none => (s, .inl .notExist)
  | some e =>
    if (s.file k).done then (s, .inr k)
    else
      let (data, err) := decode e
      let s := s.setFile k { done := true, data := data, name := env.base name }
      match err with
      | some x => (s, .inl x)
      | none => (s, .inr k)

/-- data.go:73-79 and 85-94. -/
def openFile (env : Env) (s : State) (name : String) : State × Res :=
  match prepare env s name with
  | (s, .inl x) => (s, .error x)
  | (s, .inr k) => ({ s with handles := s.handles ++ [{ key := k }] }, .handle s.handles.length)

/-- data.go:152-166 `FSByte(false, name)`. -/
def fsByte (env : Env) (s : State) (name : String) : State × Res :=
  match prepare env s name with
  | (s, .inl x) => (s, .error x)
  | (s, .inr k) => ({ s with slices := s.slices ++ [k] }, .slice s.slices.length (s.file k).data)

/-- data.go:175-178 `FSString(false, name)`: `string(b)` copies. -/
def fsString (env : Env) (s : State) (name : String) : State × Res :=
  match prepare env s name with
  | (s, .inl x) => (s, .error x)
  | (s, .inr k) => (s, .bytes (s.file k).data)

/-- data.go:168-174 and 180-183: panic instead of an error. -/
def must : State × Res → State × Res
  | (s, .error _) => (s, .panics)
  | r => r

/-- Go `(*bytes.Reader).Read` on data `d` at position `pos`: the new position and the result. -/
def readAt (d : List UInt8) (pos : Int) (n : Nat) : Int × Res :=
  if pos ≥ d.length then (pos, .eof)
  else
    let b := (d.drop pos.toNat).take n
    (pos + b.length, .bytes b)

/-- Go `(*bytes.Reader).Seek`. -/
def seekTo (d : List UInt8) (pos offset whence : Int) : Int × Res :=
  let abs := if whence = 0 then some offset else if whence = 1 then some (pos + offset)
    else if whence = 2 then some (d.length + offset) else none
  match abs with
  | none => (pos, .error (.other "bytes.Reader.Seek: invalid whence"))
  | some a => if a < 0 then (pos, .error (.other "bytes.Reader.Seek: negative position")) else (a, .position a)

/-- One operation. Operations on handles or slices that were not given out cannot be written; they do nothing. -/
def step (env : Env) (s : State) : Op → State × Res
  | .openFile name => openFile env s name
  | .openIn dir name => openFile env s (dir ++ name)
  | .read h n =>
    match s.handles[h]? with
    | none => (s, .nothing)
    | some x =>
      let (p, r) := readAt (s.file x.key).data x.pos n
      ({ s with handles := s.handles.set h { x with pos := p } }, r)
  | .seek h offset whence =>
    match s.handles[h]? with
    | none => (s, .nothing)
    | some x =>
      let (p, r) := seekTo (s.file x.key).data x.pos offset whence
      ({ s with handles := s.handles.set h { x with pos := p } }, r)
  | .stat h =>
    match s.handles[h]? with
    | none => (s, .nothing)
    | some x => (s, .info {
        name := (s.file x.key).name, size := ((env.escData x.key).map (·.size)).getD 0, mode := 0,
        modtime := env.modtime x.key, isDir := env.isDir x.key })
  | .readdir _ _ => (s, .nothing)
  | .close _ => (s, .nothing)
  | .fsByte name => fsByte env s name
  | .fsMustByte name => must (fsByte env s name)
  | .fsString name => fsString env s name
  | .fsMustString name => must (fsString env s name)
  | .store j i b =>
    match s.slices[j]? with
    | none => (s, .nothing)
    | some k =>
      if i < (s.file k).data.length then (s.setFile k { s.file k with data := (s.file k).data.set i b }, .nothing)
      else (s, .panics)

/-- A history: the operations in the order in which they happen; the results are in the same order. -/
def run (env : Env) (s : State) : List Op → State × List Res
  | [] => (s, [])
  | op :: ops =>
    let (s, r) := step env s op
    let (s, rs) := run env s ops
    (s, r :: rs)

end Verif.Model.EscOpen
