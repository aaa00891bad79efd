/-
Names of files: the meaning of a path as a list of segments, with `.` and `..` resolved.
-/
set_option autoImplicit false

namespace Verif.Spec

/-- The parts of a path between slashes. -/
def segments : List Char → List (List Char)
  | [] => [[]]
  | c :: rest =>
    if c = '/' then [] :: segments rest
    else
      match segments rest with
      | s :: ss => (c :: s) :: ss
      | [] => [[c]]

/-- Go one segment further; `dirs` holds the segments so far, the last one first. Above the root is the root; above the
start of a relative path is `..`. -/
def walk (rooted : Bool) (dirs : List (List Char)) (s : List Char) : List (List Char) :=
  if s = [] ∨ s = ['.'] then dirs
  else if s = ['.', '.'] then
    match dirs with
    | [] => if rooted then [] else [s]
    | d :: rest => if d = ['.', '.'] then s :: d :: rest else rest
  else s :: dirs

/-- Where a path leads: the segments from the start, with `.` and `..` resolved. -/
def resolved (path : List Char) : List (List Char) :=
  ((segments path).foldl (walk (path.head? = some '/')) []).reverse

/-- The shortest name of the place to which segments lead. -/
def pathName (rooted : Bool) (segs : List (List Char)) : List Char :=
  if rooted then '/' :: ['/'].intercalate segs
  else if segs = [] then ['.'] else ['/'].intercalate segs

/-- `k` times "/..". -/
def upwards (k : Nat) : List Char := (List.replicate k "/..".toList).flatten

/-- The last part of a path that is not empty. -/
def lastPart (path : List Char) : Option (List Char) := ((segments path).filter (· ≠ [])).getLast?

end Verif.Spec
