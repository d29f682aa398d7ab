import Verif.Model.Old
import Verif.Model.WBSM4
import Verif.Model.AES

/-!
# The demos compiled against the older library next to them

`/repo/test/WBSM4/WBMatrix/src/WBMatrix/WBMatrix.c` and `/repo/test/WBAES/WBMatrix/src/WBMatrix/WBMatrix.c`.  Functions
whose text is the same in both versions are taken from the current library.
-/
namespace WB

/-- The functions of the bundled library that the white-box SM4 demo uses. -/
def wbsm4.Lib.bundled (env : Env) : wbsm4.Lib where
  genaffinepairM32 := old.genaffinepairM32 env
  genaffinepairM8 := old.genaffinepairM8 env
  affinecomM8to32 := WB.affinecomM8to32 env
  affinemixM32 := old.affinemixM32 env
  MatMulMatM32 := old.MatMulMatM32 env
  affineU8 := WB.affineU8 env
  affineU32 := WB.affineU32 env
  xorU8 := WB.xorU8 env

/-- The functions of the bundled library that the white-box AES demo uses. -/
def aes.Lib.bundled (env : Env) : aes.Lib where
  genMatpairM32 := old.genMatpairM32 env
  genMatpairM8 := old.genMatpairM8 env
  MatMulNumM8 := WB.MatMulNumM8 env
  MatMulNumM32 := WB.MatMulNumM32 env

end WB
