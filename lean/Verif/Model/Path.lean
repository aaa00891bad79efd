import Verif.Model.Esc
import Verif.Model.AstroData
/-
Model of the names of embedded files: `path.Clean`, `path.Base` and `filepath.Join` of Go's standard library (on Unix), the
name built in astro_moon.go:50-53, the keys of `_escData` and the file systems of data.go:73-83 and 132-148.
Simplification: names are lists of characters, not of bytes (`/` and `.` are single bytes in UTF-8).
-/
set_option autoImplicit false

namespace Verif.Model
open Verif.Go

/-- path.Clean, "back up" in the case of `..`: the buffer is reversed; the last character is removed, and further ones
until a slash has been removed or `dotdot` characters are left. -/
def backUp (dotdot : Nat) : List Char → List Char
  | [] => []
  | c :: out => if dotdot < out.length ∧ c ≠ '/' then backUp dotdot out else out

/-- The loop of path.Clean: what is left of the path, the reversed buffer and `dotdot`. Every turn takes at least one
character; `fuel` bounds the number of turns. -/
def cleanLoop (rooted : Bool) : Nat → List Char → List Char → Nat → List Char
  | 0, _, out, _ => out
  | _ + 1, [], out, _ => out
  | fuel + 1, c :: rest, out, dotdot =>
    if c = '/' then cleanLoop rooted fuel rest out dotdot
    else if c = '.' ∧ (rest = [] ∨ rest.head? = some '/') then cleanLoop rooted fuel rest out dotdot
    else if c = '.' ∧ rest.head? = some '.' ∧ (rest.tail = [] ∨ rest.tail.head? = some '/') then
      if dotdot < out.length then cleanLoop rooted fuel rest.tail (backUp dotdot out) dotdot
      else if !rooted then
        let out := '.' :: '.' :: (if 0 < out.length then '/' :: out else out)
        cleanLoop rooted fuel rest.tail out out.length
      else cleanLoop rooted fuel rest.tail out dotdot
    else
      let out := if (rooted && out.length != 1) || (!rooted && out.length != 0) then '/' :: out else out
      let path := c :: rest
      cleanLoop rooted fuel (path.dropWhile (· ≠ '/')) ((path.takeWhile (· ≠ '/')).reverse ++ out) dotdot

/-- Go `path.Clean`. -/
def pathClean (path : List Char) : List Char :=
  if path = [] then ['.']
  else
    let rooted := path.head? = some '/'
    let out :=
      if rooted then cleanLoop true (path.length + 1) path.tail ['/'] 1 else cleanLoop false (path.length + 1) path [] 0
    if out.length = 0 then ['.'] else out.reverse

/-- Go `path.Base`. -/
def pathBase (path : List Char) : List Char :=
  if path = [] then ['.']
  else
    let last := (path.reverse.dropWhile (· = '/')).takeWhile (· ≠ '/')
    if last = [] then ['/'] else last.reverse

/-- Go `filepath.Join` on Unix. -/
def pathJoin (elem : List (List Char)) : List Char :=
  match elem.dropWhile (· = []) with
  | [] => []
  | e :: es => pathClean (es.foldl (fun s x => s ++ '/' :: x) e)

/-- astro_moon.go:14 `AstroMoonDir`. -/
def astroMoonDir : List Char := "./data/astro".toList

/-- astro_moon.go:52-53. -/
def astroPath (year : Int) : List Char :=
  let filename := "astro-".toList ++ (toString year).toList ++ ".json".toList
  '/' :: pathJoin [astroMoonDir, filename]

/-- A value of the map `_escData`: the file of a year or a directory. -/
inductive EscEntry where
  | file (year : Int)
  | dir
deriving DecidableEq, Repr

/-- data.go:187-end `_escData`: the keys in the order of the text. The contents of the file of a year are
`embeddedFiles`. -/
def escData : List (List Char × EscEntry) :=
  ((List.range 141).map fun (i : Nat) =>
    ("/data/astro/astro-".toList ++ (toString (1900 + (i : Int))).toList ++ ".json".toList, EscEntry.file (1900 + (i : Int)))) ++
  [("/".toList, .dir), ("/data".toList, .dir), ("/data/astro".toList, .dir)]

/-- data.go:48-52 and 39-45: the lookup of a name; `none` is `os.ErrNotExist`. -/
def escFind (name : List Char) : Option EscEntry := escData.lookup (pathClean name)

/-- data.go:81-83: `Open` of the file system `Dir(useLocal, prefix)`, up to the entry found. -/
def dirFind (pre name : List Char) : Option EscEntry := escFind (pre ++ name)

/-- astro_moon.go:57-66: what reading and decoding the file of a name gives, with the embedded data. A directory has no
contents, on which `json.Unmarshal` fails. -/
def readFile (name : List Char) : AstroFile :=
  match escFind name with
  | none => .missing
  | some (.file year) => embeddedFiles year
  | some .dir => .undecodable

end Verif.Model
