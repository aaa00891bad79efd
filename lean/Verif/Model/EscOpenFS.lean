import Verif.Model.EscOpen
import Verif.Model.EscFS
/-
The environment of Model/EscOpen.lean as it is in data.go. The modification times are copied by a script.
-/
set_option autoImplicit false

namespace Verif.Model
open Verif.Model.Esc

/-- data.go:190-3507, the fields `modtime` of the files of 1900 to 2040. -/
def escModtimes : List Int := [
  1439039563, 1439039563, 1439039565, 1439039565, 1439039565, 1439039566, 1439039567, 1439039567, 1439039567, 1439039568, 1439039568, 1439039623,
  1439039623, 1439039624, 1439039625, 1439039626, 1439039627, 1439039627, 1439039628, 1439039629, 1439039629, 1439039630, 1439039682, 1439039684,
  1439039684, 1439039684, 1439039685, 1439039685, 1439039686, 1439039686, 1439039686, 1439039687, 1439039688, 1439039743, 1439039743, 1439039743,
  1439039744, 1439039744, 1439039744, 1439039745, 1439039745, 1439039745, 1439039746, 1439039747, 1439039803, 1439039803, 1439039804, 1439039805,
  1439039805, 1439039806, 1439039806, 1439039806, 1439039807, 1439039807, 1439039808, 1439039862, 1439039863, 1439039863, 1439039864, 1439039864,
  1439039864, 1439039865, 1439039865, 1439039866, 1439039866, 1439039866, 1439039922, 1439039923, 1439039923, 1439039923, 1439039924, 1439039924,
  1439039925, 1439039925, 1439039926, 1439039926, 1439039926, 1439039982, 1439039982, 1439039983, 1439039983, 1439039984, 1439039984, 1439039985,
  1439039985, 1439039985, 1439039986, 1439039986, 1439040045, 1439040046, 1439040048, 1439040049, 1439040049, 1439040050, 1439040053, 1439040055,
  1439040057, 1439040058, 1439040060, 1439040102, 1439040103, 1439040103, 1439040104, 1439040104, 1439040105, 1439040105, 1439040106, 1439040106,
  1439040107, 1439040107, 1439040163, 1439040163, 1439040164, 1439040164, 1439040165, 1439040165, 1439040165, 1439040166, 1439040166, 1439040167,
  1439040167, 1439040223, 1439040224, 1439040224, 1439040224, 1439040225, 1439040225, 1439040226, 1439040226, 1439040227, 1439040227, 1439040227,
  1439040282, 1439040282, 1439040283, 1439040283, 1439040284, 1439040284, 1439040284, 1439040285, 1439040285]

/-- data.go:187-end. -/
def openEnv : EscOpen.Env where
  escData := (embeddedEnv fun _ => "").escData
  isDir name := escData.lookup name.toList == some .dir
  modtime name :=
    match escData.lookup name.toList with
    | some (.file year) => (escModtimes[(year - 1900).toNat]?).getD 0
    | _ => 0
  clean := (embeddedEnv fun _ => "").clean
  base := (embeddedEnv fun _ => "").base

end Verif.Model
