import Verif.Model.Path
/-
Model of the embedded files with `useLocal = true`, data.go:40-46, 81-83 and 132-185: the files of the machine are used instead.
The machine is an input: what `os.Open` finds under a path, and how many files a process may have open. A file opened by
`FSByte` is not closed there, only later by the garbage collector (`collect`), whenever it runs.
Simplification: nothing else changes the machine; a file that can be opened can be read to its end.
-/
set_option autoImplicit false

namespace Verif.Model.EscLocal
open Verif.Model Verif.Model.Esc

/-- What a path leads to. -/
inductive Node where
  | file (data : List UInt8)
  | dir
deriving DecidableEq, Repr

/-- The machine as the process sees it: files by the paths handed to `os.Open` (relative ones from the working directory), the bound on
open files, those opened by callers and those `FSByte` left open, and all paths handed to `os.Open` so far, the last one first. -/
structure Machine where
  node : List Char → Option Node
  limit : Nat
  held : Nat := 0
  leaked : Nat := 0
  tried : List (List Char) := []

/-- data.go:187 to the end, the fields `local`: the name without its first slash for files, the whole name for directories
(compared with all 144 entries by a script). -/
def localPath (key : List Char) : Option (List Char) :=
  (escData.lookup key).map fun
    | .file _ => key.tail
    | .dir => key

/-- `os.Open`. -/
def osOpen (m : Machine) (path : List Char) : Machine × (Err ⊕ Node) :=
  let m := { m with tried := path :: m.tried }
  match m.node path with
  | none => (m, .inl .notExist)
  | some n => if m.limit ≤ m.held + m.leaked then (m, .inl (.other "too many open files")) else (m, .inr n)

/-- data.go:40-46 `_escLocalFS.Open`, before the descriptor is counted. -/
def localOpen (m : Machine) (name : List Char) : Machine × (Err ⊕ Node) :=
  match localPath (pathClean name) with
  | none => (m, .inl .notExist)
  | some path => osOpen m path

/-- `FS(true).Open(name)`; the caller holds the file. -/
def openFile (m : Machine) (name : List Char) : Machine × (Err ⊕ Node) :=
  match localOpen m name with
  | (m, .inl e) => (m, .inl e)
  | (m, .inr n) => ({ m with held := m.held + 1 }, .inr n)

/-- data.go:81-83 `Dir(true, dir).Open(name)`. -/
def openIn (m : Machine) (dir name : List Char) : Machine × (Err ⊕ Node) := openFile m (dir ++ name)

/-- `ioutil.ReadAll` of an opened file. -/
def readAll : Node → List UInt8 × Option Err
  | .file data => (data, none)
  | .dir => ([], some (.other "is a directory"))

/-- data.go:152-159 `FSByte(true, name)`, and data.go:177-180 `FSString(true, name)`. -/
def fsByte (m : Machine) (name : List Char) : Machine × List UInt8 × Option Err :=
  match localOpen m name with
  | (m, .inl e) => (m, [], some e)
  | (m, .inr n) => ({ m with leaked := m.leaked + 1 }, readAll n)

/-- data.go:168-174 and 183-185 `FSMustByte(true, name)`, `FSMustString(true, name)`; `none` is a panic. -/
def fsMust (m : Machine) (name : List Char) : Machine × Option (List UInt8) :=
  match fsByte m name with
  | (m, _, some _) => (m, none)
  | (m, data, none) => (m, some data)

/-- The garbage collector closes what `FSByte` left open. -/
def collect (m : Machine) : Machine := { m with leaked := 0 }

/-- What callers and the runtime do. -/
inductive Op where
  | openFile (name : List Char)
  | openIn (dir name : List Char)
  | close                             -- a caller closes a file got from `Open`
  | fsByte (name : List Char)
  | fsMust (name : List Char)
  | collect

/-- One operation. -/
def step (m : Machine) : Op → Machine
  | .openFile name => (openFile m name).1
  | .openIn dir name => (openIn m dir name).1
  | .close => { m with held := m.held - 1 }
  | .fsByte name => (fsByte m name).1
  | .fsMust name => (fsMust m name).1
  | .collect => collect m

def run (m : Machine) (ops : List Op) : Machine := ops.foldl step m

end Verif.Model.EscLocal
