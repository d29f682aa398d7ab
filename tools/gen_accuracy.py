"""Generate lean/Verif/Model/Accuracy.lean: the main function of /repo/test/Accuracy_test.c."""
import os
HERE = os.path.dirname(os.path.abspath(__file__))
ALL = [4, 8, 16, 32, 64, 128, 256]
AFF = [4, 8, 16, 32, 64, 128]
NUM = [4, 8, 16, 32, 64]
K = {4: '0x0c', 8: '0x87', 16: '0x8778', 32: '0x87788778', 64: '0x8778877887788778',
     128: '#v[0x8778877887788778, 0x8778877887788778]'}
KMIX = dict(K); KMIX[64] = '0x87877887788778'
BIT = {4: '9-35', 8: '37-63', 16: '65-91', 32: '93-119', 64: '121-147', 128: '149-175', 256: '177-203'}
NUML = {4: '206-215', 8: '217-226', 16: '228-237', 32: '239-248', 64: '250-259'}
VECL = {4: '262-273', 8: '275-286', 16: '288-299', 32: '301-312', 64: '314-325', 128: '327-338', 256: '340-351'}
MATL = {4: '354-368', 8: '370-384', 16: '386-400', 32: '402-416', 64: '418-432', 128: '434-448', 256: '450-464'}
INVL = {4: '467-480', 8: '482-495', 16: '497-510', 32: '512-525', 64: '527-540', 128: '542-555', 256: '557-570'}
AFFL = {4: '573-579', 8: '581-587', 16: '589-595', 32: '597-603', 64: '605-611', 128: '613-619'}
MIXL = {4: '622-631', 8: '633-642', 16: '644-653', 32: '655-664', 64: '666-675', 128: '677-686'}
o = []
a = o.append
a('''import Verif.Model.Com
import Verif.Model.Basic
import Verif.Model.M4
import Verif.Model.M8
import Verif.Model.M16
import Verif.Model.M32
import Verif.Model.M64
import Verif.Model.M128
import Verif.Model.M256

/-!
# The accuracy test — `/repo/test/Accuracy_test.c`

Generated by `tools/gen_accuracy.py`.

The program repeats the same block of statements for every width.  Each block is written down once, for the
library functions of one width (`Lib`, `AffLib`), and is instantiated with the functions of that width.
The statements of the instances were compared with the file by `tools/check_accuracy.py`.
-/
namespace WB.accuracy

/-- `TEST` — line 3. -/
def TEST : Nat := 100000

/-- The matrix and vector functions of one width that the program calls. -/
structure Lib (σ ν : Type) where
  initM : σ → C σ
  identityM : σ → C σ
  setbitM : σ → Int → Int → Int → C σ
  readbitM : σ → Int → Int → C Int
  flipbitM : σ → Int → Int → C σ
  isequalM : σ → σ → C Int
  isequalV : ν → ν → C Int
  randM : σ → CM σ
  randV : ν → CM ν
  genMatpairM : σ → σ → CM (σ × σ)
  MatMulVecM : σ → ν → ν → C ν
  MatMulMatM : σ → σ → σ → C σ
  isinvertM : σ → C Int
  invsM : σ → σ → C σ

/-- The affine functions of one width that the program calls.  The last argument of `affineU` is the old
contents of the result (only `affineU128` stores through a pointer). -/
structure AffLib (α ν : Type) where
  genaffinepairM : α → α → CM (α × α)
  affineU : α → ν → ν → C ν
  affinemixM : α → α → α → C α
''')
for n in ALL:
    e = ' env' if n >= 64 else ''
    a(f'''/-- The functions `...M{n}` and `...V{n}`. -/
def lib{n} (env : Env) : Lib M{n} V{n} where
  initM := initM{n}
  identityM := identityM{n}
  setbitM := setbitM{n}
  readbitM := readbitM{n}
  flipbitM := flipbitM{n}
  isequalM := isequalM{n}
  isequalV := isequalV{n}
  randM := randM{n}{e}
  randV := randV{n}{e}
  genMatpairM := genMatpairM{n} env
  MatMulVecM := MatMulVecM{n} env
  MatMulMatM := MatMulMatM{n} env
  isinvertM := isinvertM{n}
  invsM := invsM{n}
''')
for n in AFF:
    u = f'fun f x _ => affineU{n} env f x' if n < 128 else 'affineU128 env'
    a(f'''/-- The affine functions for {n} bits. -/
def affLib{n} (env : Env) : AffLib Aff{n} V{n} where
  genaffinepairM := genaffinepairM{n} env
  affineU := {u}
  affinemixM := affinemixM{n} env
''')
a('''/-- The contents of the automatic variables of `main` before they are written: `m4 k` is the `k`-th object of
type `M4` of a block, and so on.  They are arbitrary. -/
structure Stack where''')
for n in ALL:
    a(f'  m{n} : Nat → M{n}')
for n in ALL:
    a(f'  v{n} : Nat → V{n}')
for n in AFF:
    a(f'  a{n} : Nat → Aff{n}')
a('''
/-- The statement `if(ok) printf(pass); else {printf(err); flag = 0;}`; the result is the new `flag`. -/
def report (pass err : String) (ok : Bool) (flag : Int) : CM Int :=
  if ok then do
    printf pass []
    pure flag
  else do
    printf err []
    pure 0

/-- The statement `if(i < TEST) {printf(err); flag = 0;} else printf(pass);` after a loop over `i` that may be
left with `break`: `i < TEST` holds exactly if it was. -/
def reportLoop {σ : Type} (pass err : String) (r : Step Unit σ) (flag : Int) : CM Int :=
  match r with
  | .stop _ => report pass err false flag
  | .next _ => report pass err true flag

/-- Bitwise operations, e.g. lines 9-35. -/
def bitTest {σ ν : Type} (L : Lib σ ν) (n : Nat) (pass err : String) (m1 m2 m3 : σ) (flag : Int) : CM Int := do
  let ok ← liftC do
    let m1 ← L.initM m1
    let m2 ← L.identityM m2
    let m3 ← L.initM m3
    let m1 ← forUp 0 n m1 fun i m1 => L.setbitM m1 i i 1
    let flag1 : Int := if (← L.isequalM m1 m2) == 0 then 0 else 1
    let flag2 ← forBrk 0 n (1 : Int) fun i flag2 => do
      if (← L.readbitM m1 i i) == 0 then pure (.stop 0) else pure (.next flag2)
    let m1 ← forUp 0 n m1 fun i m1 => L.flipbitM m1 i i
    let flag1 : Int := if (← L.isequalM m1 m3) == 0 then 0 else flag1
    let flag3 : Int := 1
    pure (flag1 != 0 && flag2 != 0 && flag3 != 0)
  report pass err ok flag

/-- Matrix times number, e.g. lines 206-215. -/
def numTest {σ ν : Type} [BEq ν] (L : Lib σ ν) (MatMulNumM : σ → ν → C ν) (x : ν) (pass err : String)
    (m1 m2 : σ) (flag : Int) : CM Int := do
  let r ← forRet (ρ := Unit) 0 TEST (m1, m2) fun _ (m1, m2) => do
    let (m1, m2) ← L.genMatpairM m1 m2
    let y ← liftC do MatMulNumM m2 (← MatMulNumM m1 x)
    if x != y then pure (.stop ()) else pure (.next (m1, m2))
  reportLoop pass err r flag

/-- Matrix times vector, e.g. lines 262-273. -/
def vecTest {σ ν : Type} (L : Lib σ ν) (pass err : String) (m1 m2 : σ) (v1 v2 v3 : ν) (flag : Int) :
    CM Int := do
  let r ← forRet (ρ := Unit) 0 TEST (m1, m2, v1, v2, v3) fun _ (m1, m2, v1, v2, v3) => do
    let (m1, m2) ← L.genMatpairM m1 m2
    let v1 ← L.randV v1
    let v2 ← liftC (L.MatMulVecM m1 v1 v2)
    let v3 ← liftC (L.MatMulVecM m2 v2 v3)
    if (← liftC (L.isequalV v1 v3)) == 0 then pure (.stop ()) else pure (.next (m1, m2, v1, v2, v3))
  reportLoop pass err r flag

/-- Matrix times matrix, e.g. lines 354-368. -/
def matTest {σ ν : Type} (L : Lib σ ν) (pass err : String) (m1 m2 m3 : σ) (v1 v2 v3 v4 : ν) (flag : Int) :
    CM Int := do
  let r ← forRet (ρ := Unit) 0 TEST (m1, m2, m3, v1, v2, v3, v4) fun _ (m1, m2, m3, v1, v2, v3, v4) => do
    let m1 ← L.randM m1
    let m2 ← L.randM m2
    let v1 ← L.randV v1
    let v2 ← liftC (L.MatMulVecM m1 v1 v2)
    let v3 ← liftC (L.MatMulVecM m2 v2 v3)
    let m3 ← liftC (L.MatMulMatM m2 m1 m3)
    let v4 ← liftC (L.MatMulVecM m3 v1 v4)
    if (← liftC (L.isequalV v3 v4)) == 0 then pure (.stop ())
    else pure (.next (m1, m2, m3, v1, v2, v3, v4))
  reportLoop pass err r flag

/-- Invertibility and inverse, e.g. lines 467-480. -/
def invTest {σ ν : Type} (L : Lib σ ν) (pass err : String) (m1 m2 m3 m4 m5 : σ) (flag : Int) : CM Int := do
  let m4 ← liftC (L.identityM m4)
  let r ← forRet (ρ := Unit) 0 TEST (m1, m2, m3, m5) fun _ (m1, m2, m3, m5) => do
    let (m1, m2) ← L.genMatpairM m1 m2
    if (← liftC (L.isinvertM m1)) == 0 then pure (.stop ()) else
    if (← liftC (L.isinvertM m2)) == 0 then pure (.stop ()) else
    let m3 ← liftC (L.MatMulMatM m1 m2 m3)
    if (← liftC (L.isequalM m3 m4)) == 0 then pure (.stop ()) else
    let m5 ← liftC (L.invsM m1 m5)
    if (← liftC (L.isequalM m2 m5)) == 0 then pure (.stop ()) else pure (.next (m1, m2, m3, m5))
  reportLoop pass err r flag

/-- Invertible affine maps, e.g. lines 573-579. -/
def affTest {α ν : Type} [BEq ν] (L : AffLib α ν) (x : ν) (pass err : String) (a1 a2 : α) (u2 u3 : ν)
    (flag : Int) : CM Int := do
  let (a1, a2) ← L.genaffinepairM a1 a2
  let u2 ← liftC (L.affineU a1 x u2)
  let u3 ← liftC (L.affineU a2 u2 u3)
  report pass err (x == u3) flag

/-- Composition of affine maps, e.g. lines 622-631. -/
def mixTest {α ν : Type} [BEq ν] (L : AffLib α ν) (x : ν) (pass err : String) (a1 a2 a3 a4 a5 : α)
    (u2 u4 u5 : ν) (flag : Int) : CM Int := do
  let (a1, a2) ← L.genaffinepairM a1 a2
  let (a3, a4) ← L.genaffinepairM a3 a4
  let u2 ← liftC (L.affineU a1 x u2)
  let a5 ← liftC (L.affinemixM a3 a2 a5)
  let u4 ← liftC (L.affineU a5 u2 u4)
  let u5 ← liftC (L.affineU a4 u4 u5)
  report pass err (x == u5) flag
''')
def sect(name, doc, title, lines):
    a(f'/-- {doc} -/')
    a(f'def {name} (env : Env) (S : Stack) (flag : Int) : CM Int := do')
    a(f'  printf "{title}" []')
    for x in lines:
        a(f'  let flag ← {x} flag')
    a('  pure flag\n')
pe = lambda n: f'"{n}bit: PASS\\n" "{n}bit: ERROR\\n"'
args = lambda t, n, k, base=0: ' '.join(f'(S.{t}{n} {i+base})' for i in range(k))
sect('bits', 'Lines 8-203.', '-----bitwise operation (read/set/flip) test-----\\n',
     [f'bitTest (lib{n} env) {n} {pe(n)} {args("m",n,3)}' for n in ALL])
sect('nums', 'Lines 205-259.', '-----mat mul num test-----\\n',
     [f'numTest (lib{n} env) (MatMulNumM{n} env) {K[n]} {pe(n)} {args("m",n,2,3)}' for n in NUM])
sect('vecs', 'Lines 261-351.', '-----mat mul vec test-----\\n',
     [f'vecTest (lib{n} env) {pe(n)} {args("m",n,2,5)} {args("v",n,3)}' for n in ALL])
sect('mats', 'Lines 353-464.', '-----mat mul mat (includes mat transpositon) test-----\\n',
     [f'matTest (lib{n} env) {pe(n)} {args("m",n,3,7)} {args("v",n,4,3)}' for n in ALL])
sect('invs', 'Lines 466-570.', '-----invertible and inverse test-----\\n',
     [f'invTest (lib{n} env) {pe(n)} {args("m",n,5,10)}' for n in ALL])
sect('affs', 'Lines 572-619.', '-----invertible affine and affine transform test-----\\n',
     [f'affTest (affLib{n} env) {K[n]} {pe(n)} {args("a",n,2)} {args("v",n,2,7)}' for n in AFF])
sect('mixes', 'Lines 621-686.', '-----affine mix test-----\\n',
     [f'mixTest (affLib{n} env) {KMIX[n]} {pe(n)} {args("a",n,5,2)} {args("v",n,3,9)}' for n in AFF])
a('''/-- Lines 688-738.  The array element `acm8[i]` is `(identityM8 ..., 0xff)` for all `i`, and likewise for
`acm16` and `acm32`; the elements are passed to the library by value. -/
def coms (env : Env) (S : Stack) (flag : Int) : CM Int := do
  printf "-----affine concatenation test-----\\n" []
  let i32 ← liftC (identityM32 (S.a32 7).Mat)
  let i64 ← liftC (identityM64 (S.a64 7).Mat)
  let i128 ← liftC (identityM128 (S.a128 7).Mat)
  let acm8 ← liftC <| forUp 0 16 (Vector.ofFn fun i : Fin 16 => S.a8 (10 + i)) fun i acm8 => do
    let Mat ← identityM8 (← rd acm8 i).Mat
    wr acm8 i ⟨Mat, 0xff⟩''')
def call(frm, to, cnt, off, src):
    A = ' '.join(f'(← rd {src} {i})' for i in range(cnt))
    a(f'  let f ← liftC do affinecomM{frm}to{to} env {A} {off}')
    if to == 32: c = 'f.Vec == 0xffffffff'
    if to == 64: c = 'f.Vec == 0xffffffffffffffff'
    if to == 128: c = 'f.Vec[0] == 0xffffffffffffffff && f.Vec[1] == 0xffffffffffffffff'
    a(f'  let flag ← report "{frm}to{to}: PASS\\n" "{frm}to{to}: ERROR\\n" ((← liftC (isequalM{to} f.Mat i{to})) != 0 && {c}) flag')
call(8, 32, 4, '(S.a32 8)', 'acm8')
call(8, 64, 8, '(S.a64 8)', 'acm8')
a('  let acm64 := f')
call(8, 128, 16, '(S.a128 8)', 'acm8')
a('''  let acm128 := f
  let (acm16, acm32) ← liftC <|
    forUp 0 4 ((Vector.ofFn fun i : Fin 8 => S.a16 (10 + i)), (Vector.ofFn fun i : Fin 4 => S.a32 (10 + i)))
      fun i (acm16, acm32) => do
        let Mat ← identityM16 (← rd acm16 i).Mat
        let acm16 ← wr acm16 i ⟨Mat, 0xffff⟩
        let Mat ← identityM32 (← rd acm32 i).Mat
        let acm32 ← wr acm32 i ⟨Mat, 0xffffffff⟩
        pure (acm16, acm32)
  let acm16 ← liftC <| forUp 4 8 acm16 fun i acm16 => do
    let Mat ← identityM16 (← rd acm16 i).Mat
    wr acm16 i ⟨Mat, 0xffff⟩''')
call(16, 64, 4, 'acm64', 'acm16')
call(32, 128, 4, 'acm128', 'acm32')
a('  let acm128 := f')
call(16, 128, 8, 'acm128', 'acm16')
a('''  pure flag

/-- `main` — lines 4-744. -/
def main (env : Env) (S : Stack) : CM Int := do
  let flag ← bits env S 1
  let flag ← nums env S flag
  let flag ← vecs env S flag
  let flag ← mats env S flag
  let flag ← invs env S flag
  let flag ← affs env S flag
  let flag ← mixes env S flag
  let flag ← coms env S flag
  if flag != 0 then printf "\\nALL PASS!" [] else printf "\\nERROR!" []
  pure 0

end WB.accuracy''')
open(os.path.join(HERE, '../lean/Verif/Model/Accuracy.lean'), 'w').write('\n'.join(o) + '\n')
