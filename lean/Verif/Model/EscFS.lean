import Verif.Model.Esc
import Verif.Model.EscData
import Verif.Model.Gzip
import Verif.Model.Path
/-
The environment of Model/Esc.lean as it is in data.go: the real table `_escData` and the real `path` functions.
Simplification: a file that does not decode would count as one whose gzip header is unreadable (theorem c60_decoded shows that
there is no such file). The characters of the compressed texts are ASCII, so characters and bytes are the same.
-/
set_option autoImplicit false

namespace Verif.Model
open Verif.Model.Esc

/-- data.go:59-65 for one file. -/
def decoded (d : EscData) : EscFile :=
  match Gzip.decode (d.compressed.toList.map Char.toNat) with
  | none => { size := d.size, newReader := some (.other "invalid"), readAll := ([], none) }
  | some bytes => { size := d.size, newReader := none, readAll := (bytes.map UInt8.ofNat, none) }

/-- A directory of data.go: it has no size. -/
def directory : EscFile := { size := 0, newReader := none, readAll := ([], none) }

/-- data.go:187-end. -/
def embeddedEnv (arg : Nat → String) : Env where
  escData name := (escData.lookup name.toList).map fun
    | .file year => ((escFiles.lookup year).map decoded).getD directory
    | .dir => directory
  clean name := String.ofList (pathClean name.toList)
  base name := String.ofList (pathBase name.toList)
  arg := arg

end Verif.Model
