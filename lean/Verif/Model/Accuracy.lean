import Verif.Model.Com
import Verif.Model.Basic
import Verif.Model.M4
import Verif.Model.M8
import Verif.Model.M16
import Verif.Model.M32
import Verif.Model.M64
import Verif.Model.M128
import Verif.Model.M256

/-!
# The accuracy test — `/repo/test/Accuracy_test.c`

Generated by `tools/gen_accuracy.py`.

The program repeats the same block of statements for every width.  Each block is written down once, for the
library functions of one width (`Lib`, `AffLib`), and is instantiated with the functions of that width.
The statements of the instances were compared with the file by `tools/check_accuracy.py`.
-/
namespace WB.accuracy

/-- `TEST` — line 3. -/
def TEST : Nat := 100000

/-- The matrix and vector functions of one width that the program calls. -/
structure Lib (σ ν : Type) where
  initM : σ → C σ
  identityM : σ → C σ
  setbitM : σ → Int → Int → Int → C σ
  readbitM : σ → Int → Int → C Int
  flipbitM : σ → Int → Int → C σ
  isequalM : σ → σ → C Int
  isequalV : ν → ν → C Int
  randM : σ → CM σ
  randV : ν → CM ν
  genMatpairM : σ → σ → CM (σ × σ)
  MatMulVecM : σ → ν → ν → C ν
  MatMulMatM : σ → σ → σ → C σ
  isinvertM : σ → C Int
  invsM : σ → σ → C σ

/-- The affine functions of one width that the program calls.  The last argument of `affineU` is the old
contents of the result (only `affineU128` stores through a pointer). -/
structure AffLib (α ν : Type) where
  genaffinepairM : α → α → CM (α × α)
  affineU : α → ν → ν → C ν
  affinemixM : α → α → α → C α

/-- The functions `...M4` and `...V4`. -/
def lib4 (env : Env) : Lib M4 V4 where
  initM := initM4
  identityM := identityM4
  setbitM := setbitM4
  readbitM := readbitM4
  flipbitM := flipbitM4
  isequalM := isequalM4
  isequalV := isequalV4
  randM := randM4
  randV := randV4
  genMatpairM := genMatpairM4 env
  MatMulVecM := MatMulVecM4 env
  MatMulMatM := MatMulMatM4 env
  isinvertM := isinvertM4
  invsM := invsM4

/-- The functions `...M8` and `...V8`. -/
def lib8 (env : Env) : Lib M8 V8 where
  initM := initM8
  identityM := identityM8
  setbitM := setbitM8
  readbitM := readbitM8
  flipbitM := flipbitM8
  isequalM := isequalM8
  isequalV := isequalV8
  randM := randM8
  randV := randV8
  genMatpairM := genMatpairM8 env
  MatMulVecM := MatMulVecM8 env
  MatMulMatM := MatMulMatM8 env
  isinvertM := isinvertM8
  invsM := invsM8

/-- The functions `...M16` and `...V16`. -/
def lib16 (env : Env) : Lib M16 V16 where
  initM := initM16
  identityM := identityM16
  setbitM := setbitM16
  readbitM := readbitM16
  flipbitM := flipbitM16
  isequalM := isequalM16
  isequalV := isequalV16
  randM := randM16
  randV := randV16
  genMatpairM := genMatpairM16 env
  MatMulVecM := MatMulVecM16 env
  MatMulMatM := MatMulMatM16 env
  isinvertM := isinvertM16
  invsM := invsM16

/-- The functions `...M32` and `...V32`. -/
def lib32 (env : Env) : Lib M32 V32 where
  initM := initM32
  identityM := identityM32
  setbitM := setbitM32
  readbitM := readbitM32
  flipbitM := flipbitM32
  isequalM := isequalM32
  isequalV := isequalV32
  randM := randM32
  randV := randV32
  genMatpairM := genMatpairM32 env
  MatMulVecM := MatMulVecM32 env
  MatMulMatM := MatMulMatM32 env
  isinvertM := isinvertM32
  invsM := invsM32

/-- The functions `...M64` and `...V64`. -/
def lib64 (env : Env) : Lib M64 V64 where
  initM := initM64
  identityM := identityM64
  setbitM := setbitM64
  readbitM := readbitM64
  flipbitM := flipbitM64
  isequalM := isequalM64
  isequalV := isequalV64
  randM := randM64 env
  randV := randV64 env
  genMatpairM := genMatpairM64 env
  MatMulVecM := MatMulVecM64 env
  MatMulMatM := MatMulMatM64 env
  isinvertM := isinvertM64
  invsM := invsM64

/-- The functions `...M128` and `...V128`. -/
def lib128 (env : Env) : Lib M128 V128 where
  initM := initM128
  identityM := identityM128
  setbitM := setbitM128
  readbitM := readbitM128
  flipbitM := flipbitM128
  isequalM := isequalM128
  isequalV := isequalV128
  randM := randM128 env
  randV := randV128 env
  genMatpairM := genMatpairM128 env
  MatMulVecM := MatMulVecM128 env
  MatMulMatM := MatMulMatM128 env
  isinvertM := isinvertM128
  invsM := invsM128

/-- The functions `...M256` and `...V256`. -/
def lib256 (env : Env) : Lib M256 V256 where
  initM := initM256
  identityM := identityM256
  setbitM := setbitM256
  readbitM := readbitM256
  flipbitM := flipbitM256
  isequalM := isequalM256
  isequalV := isequalV256
  randM := randM256 env
  randV := randV256 env
  genMatpairM := genMatpairM256 env
  MatMulVecM := MatMulVecM256 env
  MatMulMatM := MatMulMatM256 env
  isinvertM := isinvertM256
  invsM := invsM256

/-- The affine functions for 4 bits. -/
def affLib4 (env : Env) : AffLib Aff4 V4 where
  genaffinepairM := genaffinepairM4 env
  affineU := fun f x _ => affineU4 env f x
  affinemixM := affinemixM4 env

/-- The affine functions for 8 bits. -/
def affLib8 (env : Env) : AffLib Aff8 V8 where
  genaffinepairM := genaffinepairM8 env
  affineU := fun f x _ => affineU8 env f x
  affinemixM := affinemixM8 env

/-- The affine functions for 16 bits. -/
def affLib16 (env : Env) : AffLib Aff16 V16 where
  genaffinepairM := genaffinepairM16 env
  affineU := fun f x _ => affineU16 env f x
  affinemixM := affinemixM16 env

/-- The affine functions for 32 bits. -/
def affLib32 (env : Env) : AffLib Aff32 V32 where
  genaffinepairM := genaffinepairM32 env
  affineU := fun f x _ => affineU32 env f x
  affinemixM := affinemixM32 env

/-- The affine functions for 64 bits. -/
def affLib64 (env : Env) : AffLib Aff64 V64 where
  genaffinepairM := genaffinepairM64 env
  affineU := fun f x _ => affineU64 env f x
  affinemixM := affinemixM64 env

/-- The affine functions for 128 bits. -/
def affLib128 (env : Env) : AffLib Aff128 V128 where
  genaffinepairM := genaffinepairM128 env
  affineU := affineU128 env
  affinemixM := affinemixM128 env

/-- The contents of the automatic variables of `main` before they are written: `m4 k` is the `k`-th object of
type `M4` of a block, and so on.  They are arbitrary. -/
structure Stack where
  m4 : Nat → M4
  m8 : Nat → M8
  m16 : Nat → M16
  m32 : Nat → M32
  m64 : Nat → M64
  m128 : Nat → M128
  m256 : Nat → M256
  v4 : Nat → V4
  v8 : Nat → V8
  v16 : Nat → V16
  v32 : Nat → V32
  v64 : Nat → V64
  v128 : Nat → V128
  v256 : Nat → V256
  a4 : Nat → Aff4
  a8 : Nat → Aff8
  a16 : Nat → Aff16
  a32 : Nat → Aff32
  a64 : Nat → Aff64
  a128 : Nat → Aff128

/-- The statement `if(ok) printf(pass); else {printf(err); flag = 0;}`; the result is the new `flag`. -/
def report (pass err : String) (ok : Bool) (flag : Int) : CM Int :=
  if ok then do
    printf pass []
    pure flag
  else do
    printf err []
    pure 0

/-- The statement `if(i < TEST) {printf(err); flag = 0;} else printf(pass);` after a loop over `i` that may be
left with `break`: `i < TEST` holds exactly if it was. -/
def reportLoop {σ : Type} (pass err : String) (r : Step Unit σ) (flag : Int) : CM Int :=
  match r with
  | .stop _ => report pass err false flag
  | .next _ => report pass err true flag

/-- Bitwise operations, e.g. lines 9-35. -/
def bitTest {σ ν : Type} (L : Lib σ ν) (n : Nat) (pass err : String) (m1 m2 m3 : σ) (flag : Int) : CM Int := do
  let ok ← liftC do
    let m1 ← L.initM m1
    let m2 ← L.identityM m2
    let m3 ← L.initM m3
    let m1 ← forUp 0 n m1 fun i m1 => L.setbitM m1 i i 1
    let flag1 : Int := if (← L.isequalM m1 m2) == 0 then 0 else 1
    let flag2 ← forBrk 0 n (1 : Int) fun i flag2 => do
      if (← L.readbitM m1 i i) == 0 then pure (.stop 0) else pure (.next flag2)
    let m1 ← forUp 0 n m1 fun i m1 => L.flipbitM m1 i i
    let flag1 : Int := if (← L.isequalM m1 m3) == 0 then 0 else flag1
    let flag3 : Int := 1
    pure (flag1 != 0 && flag2 != 0 && flag3 != 0)
  report pass err ok flag

/-- Matrix times number, e.g. lines 206-215. -/
def numTest {σ ν : Type} [BEq ν] (L : Lib σ ν) (MatMulNumM : σ → ν → C ν) (x : ν) (pass err : String)
    (m1 m2 : σ) (flag : Int) : CM Int := do
  let r ← forRet (ρ := Unit) 0 TEST (m1, m2) fun _ (m1, m2) => do
    let (m1, m2) ← L.genMatpairM m1 m2
    let y ← liftC do MatMulNumM m2 (← MatMulNumM m1 x)
    if x != y then pure (.stop ()) else pure (.next (m1, m2))
  reportLoop pass err r flag

/-- Matrix times vector, e.g. lines 262-273. -/
def vecTest {σ ν : Type} (L : Lib σ ν) (pass err : String) (m1 m2 : σ) (v1 v2 v3 : ν) (flag : Int) :
    CM Int := do
  let r ← forRet (ρ := Unit) 0 TEST (m1, m2, v1, v2, v3) fun _ (m1, m2, v1, v2, v3) => do
    let (m1, m2) ← L.genMatpairM m1 m2
    let v1 ← L.randV v1
    let v2 ← liftC (L.MatMulVecM m1 v1 v2)
    let v3 ← liftC (L.MatMulVecM m2 v2 v3)
    if (← liftC (L.isequalV v1 v3)) == 0 then pure (.stop ()) else pure (.next (m1, m2, v1, v2, v3))
  reportLoop pass err r flag

/-- Matrix times matrix, e.g. lines 354-368. -/
def matTest {σ ν : Type} (L : Lib σ ν) (pass err : String) (m1 m2 m3 : σ) (v1 v2 v3 v4 : ν) (flag : Int) :
    CM Int := do
  let r ← forRet (ρ := Unit) 0 TEST (m1, m2, m3, v1, v2, v3, v4) fun _ (m1, m2, m3, v1, v2, v3, v4) => do
    let m1 ← L.randM m1
    let m2 ← L.randM m2
    let v1 ← L.randV v1
    let v2 ← liftC (L.MatMulVecM m1 v1 v2)
    let v3 ← liftC (L.MatMulVecM m2 v2 v3)
    let m3 ← liftC (L.MatMulMatM m2 m1 m3)
    let v4 ← liftC (L.MatMulVecM m3 v1 v4)
    if (← liftC (L.isequalV v3 v4)) == 0 then pure (.stop ())
    else pure (.next (m1, m2, m3, v1, v2, v3, v4))
  reportLoop pass err r flag

/-- Invertibility and inverse, e.g. lines 467-480. -/
def invTest {σ ν : Type} (L : Lib σ ν) (pass err : String) (m1 m2 m3 m4 m5 : σ) (flag : Int) : CM Int := do
  let m4 ← liftC (L.identityM m4)
  let r ← forRet (ρ := Unit) 0 TEST (m1, m2, m3, m5) fun _ (m1, m2, m3, m5) => do
    let (m1, m2) ← L.genMatpairM m1 m2
    if (← liftC (L.isinvertM m1)) == 0 then pure (.stop ()) else
    if (← liftC (L.isinvertM m2)) == 0 then pure (.stop ()) else
    let m3 ← liftC (L.MatMulMatM m1 m2 m3)
    if (← liftC (L.isequalM m3 m4)) == 0 then pure (.stop ()) else
    let m5 ← liftC (L.invsM m1 m5)
    if (← liftC (L.isequalM m2 m5)) == 0 then pure (.stop ()) else pure (.next (m1, m2, m3, m5))
  reportLoop pass err r flag

/-- Invertible affine maps, e.g. lines 573-579. -/
def affTest {α ν : Type} [BEq ν] (L : AffLib α ν) (x : ν) (pass err : String) (a1 a2 : α) (u2 u3 : ν)
    (flag : Int) : CM Int := do
  let (a1, a2) ← L.genaffinepairM a1 a2
  let u2 ← liftC (L.affineU a1 x u2)
  let u3 ← liftC (L.affineU a2 u2 u3)
  report pass err (x == u3) flag

/-- Composition of affine maps, e.g. lines 622-631. -/
def mixTest {α ν : Type} [BEq ν] (L : AffLib α ν) (x : ν) (pass err : String) (a1 a2 a3 a4 a5 : α)
    (u2 u4 u5 : ν) (flag : Int) : CM Int := do
  let (a1, a2) ← L.genaffinepairM a1 a2
  let (a3, a4) ← L.genaffinepairM a3 a4
  let u2 ← liftC (L.affineU a1 x u2)
  let a5 ← liftC (L.affinemixM a3 a2 a5)
  let u4 ← liftC (L.affineU a5 u2 u4)
  let u5 ← liftC (L.affineU a4 u4 u5)
  report pass err (x == u5) flag

/-- Lines 8-203. -/
def bits (env : Env) (S : Stack) (flag : Int) : CM Int := do
  printf "-----bitwise operation (read/set/flip) test-----\n" []
  let flag ← bitTest (lib4 env) 4 "4bit: PASS\n" "4bit: ERROR\n" (S.m4 0) (S.m4 1) (S.m4 2) flag
  let flag ← bitTest (lib8 env) 8 "8bit: PASS\n" "8bit: ERROR\n" (S.m8 0) (S.m8 1) (S.m8 2) flag
  let flag ← bitTest (lib16 env) 16 "16bit: PASS\n" "16bit: ERROR\n" (S.m16 0) (S.m16 1) (S.m16 2) flag
  let flag ← bitTest (lib32 env) 32 "32bit: PASS\n" "32bit: ERROR\n" (S.m32 0) (S.m32 1) (S.m32 2) flag
  let flag ← bitTest (lib64 env) 64 "64bit: PASS\n" "64bit: ERROR\n" (S.m64 0) (S.m64 1) (S.m64 2) flag
  let flag ← bitTest (lib128 env) 128 "128bit: PASS\n" "128bit: ERROR\n" (S.m128 0) (S.m128 1) (S.m128 2) flag
  let flag ← bitTest (lib256 env) 256 "256bit: PASS\n" "256bit: ERROR\n" (S.m256 0) (S.m256 1) (S.m256 2) flag
  pure flag

/-- Lines 205-259. -/
def nums (env : Env) (S : Stack) (flag : Int) : CM Int := do
  printf "-----mat mul num test-----\n" []
  let flag ← numTest (lib4 env) (MatMulNumM4 env) 0x0c "4bit: PASS\n" "4bit: ERROR\n" (S.m4 3) (S.m4 4) flag
  let flag ← numTest (lib8 env) (MatMulNumM8 env) 0x87 "8bit: PASS\n" "8bit: ERROR\n" (S.m8 3) (S.m8 4) flag
  let flag ← numTest (lib16 env) (MatMulNumM16 env) 0x8778 "16bit: PASS\n" "16bit: ERROR\n" (S.m16 3) (S.m16 4) flag
  let flag ← numTest (lib32 env) (MatMulNumM32 env) 0x87788778 "32bit: PASS\n" "32bit: ERROR\n" (S.m32 3) (S.m32 4) flag
  let flag ← numTest (lib64 env) (MatMulNumM64 env) 0x8778877887788778 "64bit: PASS\n" "64bit: ERROR\n" (S.m64 3) (S.m64 4) flag
  pure flag

/-- Lines 261-351. -/
def vecs (env : Env) (S : Stack) (flag : Int) : CM Int := do
  printf "-----mat mul vec test-----\n" []
  let flag ← vecTest (lib4 env) "4bit: PASS\n" "4bit: ERROR\n" (S.m4 5) (S.m4 6) (S.v4 0) (S.v4 1) (S.v4 2) flag
  let flag ← vecTest (lib8 env) "8bit: PASS\n" "8bit: ERROR\n" (S.m8 5) (S.m8 6) (S.v8 0) (S.v8 1) (S.v8 2) flag
  let flag ← vecTest (lib16 env) "16bit: PASS\n" "16bit: ERROR\n" (S.m16 5) (S.m16 6) (S.v16 0) (S.v16 1) (S.v16 2) flag
  let flag ← vecTest (lib32 env) "32bit: PASS\n" "32bit: ERROR\n" (S.m32 5) (S.m32 6) (S.v32 0) (S.v32 1) (S.v32 2) flag
  let flag ← vecTest (lib64 env) "64bit: PASS\n" "64bit: ERROR\n" (S.m64 5) (S.m64 6) (S.v64 0) (S.v64 1) (S.v64 2) flag
  let flag ← vecTest (lib128 env) "128bit: PASS\n" "128bit: ERROR\n" (S.m128 5) (S.m128 6) (S.v128 0) (S.v128 1) (S.v128 2) flag
  let flag ← vecTest (lib256 env) "256bit: PASS\n" "256bit: ERROR\n" (S.m256 5) (S.m256 6) (S.v256 0) (S.v256 1) (S.v256 2) flag
  pure flag

/-- Lines 353-464. -/
def mats (env : Env) (S : Stack) (flag : Int) : CM Int := do
  printf "-----mat mul mat (includes mat transpositon) test-----\n" []
  let flag ← matTest (lib4 env) "4bit: PASS\n" "4bit: ERROR\n" (S.m4 7) (S.m4 8) (S.m4 9) (S.v4 3) (S.v4 4) (S.v4 5) (S.v4 6) flag
  let flag ← matTest (lib8 env) "8bit: PASS\n" "8bit: ERROR\n" (S.m8 7) (S.m8 8) (S.m8 9) (S.v8 3) (S.v8 4) (S.v8 5) (S.v8 6) flag
  let flag ← matTest (lib16 env) "16bit: PASS\n" "16bit: ERROR\n" (S.m16 7) (S.m16 8) (S.m16 9) (S.v16 3) (S.v16 4) (S.v16 5) (S.v16 6) flag
  let flag ← matTest (lib32 env) "32bit: PASS\n" "32bit: ERROR\n" (S.m32 7) (S.m32 8) (S.m32 9) (S.v32 3) (S.v32 4) (S.v32 5) (S.v32 6) flag
  let flag ← matTest (lib64 env) "64bit: PASS\n" "64bit: ERROR\n" (S.m64 7) (S.m64 8) (S.m64 9) (S.v64 3) (S.v64 4) (S.v64 5) (S.v64 6) flag
  let flag ← matTest (lib128 env) "128bit: PASS\n" "128bit: ERROR\n" (S.m128 7) (S.m128 8) (S.m128 9) (S.v128 3) (S.v128 4) (S.v128 5) (S.v128 6) flag
  let flag ← matTest (lib256 env) "256bit: PASS\n" "256bit: ERROR\n" (S.m256 7) (S.m256 8) (S.m256 9) (S.v256 3) (S.v256 4) (S.v256 5) (S.v256 6) flag
  pure flag

/-- Lines 466-570. -/
def invs (env : Env) (S : Stack) (flag : Int) : CM Int := do
  printf "-----invertible and inverse test-----\n" []
  let flag ← invTest (lib4 env) "4bit: PASS\n" "4bit: ERROR\n" (S.m4 10) (S.m4 11) (S.m4 12) (S.m4 13) (S.m4 14) flag
  let flag ← invTest (lib8 env) "8bit: PASS\n" "8bit: ERROR\n" (S.m8 10) (S.m8 11) (S.m8 12) (S.m8 13) (S.m8 14) flag
  let flag ← invTest (lib16 env) "16bit: PASS\n" "16bit: ERROR\n" (S.m16 10) (S.m16 11) (S.m16 12) (S.m16 13) (S.m16 14) flag
  let flag ← invTest (lib32 env) "32bit: PASS\n" "32bit: ERROR\n" (S.m32 10) (S.m32 11) (S.m32 12) (S.m32 13) (S.m32 14) flag
  let flag ← invTest (lib64 env) "64bit: PASS\n" "64bit: ERROR\n" (S.m64 10) (S.m64 11) (S.m64 12) (S.m64 13) (S.m64 14) flag
  let flag ← invTest (lib128 env) "128bit: PASS\n" "128bit: ERROR\n" (S.m128 10) (S.m128 11) (S.m128 12) (S.m128 13) (S.m128 14) flag
  let flag ← invTest (lib256 env) "256bit: PASS\n" "256bit: ERROR\n" (S.m256 10) (S.m256 11) (S.m256 12) (S.m256 13) (S.m256 14) flag
  pure flag

/-- Lines 572-619. -/
def affs (env : Env) (S : Stack) (flag : Int) : CM Int := do
  printf "-----invertible affine and affine transform test-----\n" []
  let flag ← affTest (affLib4 env) 0x0c "4bit: PASS\n" "4bit: ERROR\n" (S.a4 0) (S.a4 1) (S.v4 7) (S.v4 8) flag
  let flag ← affTest (affLib8 env) 0x87 "8bit: PASS\n" "8bit: ERROR\n" (S.a8 0) (S.a8 1) (S.v8 7) (S.v8 8) flag
  let flag ← affTest (affLib16 env) 0x8778 "16bit: PASS\n" "16bit: ERROR\n" (S.a16 0) (S.a16 1) (S.v16 7) (S.v16 8) flag
  let flag ← affTest (affLib32 env) 0x87788778 "32bit: PASS\n" "32bit: ERROR\n" (S.a32 0) (S.a32 1) (S.v32 7) (S.v32 8) flag
  let flag ← affTest (affLib64 env) 0x8778877887788778 "64bit: PASS\n" "64bit: ERROR\n" (S.a64 0) (S.a64 1) (S.v64 7) (S.v64 8) flag
  let flag ← affTest (affLib128 env) #v[0x8778877887788778, 0x8778877887788778] "128bit: PASS\n" "128bit: ERROR\n" (S.a128 0) (S.a128 1) (S.v128 7) (S.v128 8) flag
  pure flag

/-- Lines 621-686. -/
def mixes (env : Env) (S : Stack) (flag : Int) : CM Int := do
  printf "-----affine mix test-----\n" []
  let flag ← mixTest (affLib4 env) 0x0c "4bit: PASS\n" "4bit: ERROR\n" (S.a4 2) (S.a4 3) (S.a4 4) (S.a4 5) (S.a4 6) (S.v4 9) (S.v4 10) (S.v4 11) flag
  let flag ← mixTest (affLib8 env) 0x87 "8bit: PASS\n" "8bit: ERROR\n" (S.a8 2) (S.a8 3) (S.a8 4) (S.a8 5) (S.a8 6) (S.v8 9) (S.v8 10) (S.v8 11) flag
  let flag ← mixTest (affLib16 env) 0x8778 "16bit: PASS\n" "16bit: ERROR\n" (S.a16 2) (S.a16 3) (S.a16 4) (S.a16 5) (S.a16 6) (S.v16 9) (S.v16 10) (S.v16 11) flag
  let flag ← mixTest (affLib32 env) 0x87788778 "32bit: PASS\n" "32bit: ERROR\n" (S.a32 2) (S.a32 3) (S.a32 4) (S.a32 5) (S.a32 6) (S.v32 9) (S.v32 10) (S.v32 11) flag
  let flag ← mixTest (affLib64 env) 0x87877887788778 "64bit: PASS\n" "64bit: ERROR\n" (S.a64 2) (S.a64 3) (S.a64 4) (S.a64 5) (S.a64 6) (S.v64 9) (S.v64 10) (S.v64 11) flag
  let flag ← mixTest (affLib128 env) #v[0x8778877887788778, 0x8778877887788778] "128bit: PASS\n" "128bit: ERROR\n" (S.a128 2) (S.a128 3) (S.a128 4) (S.a128 5) (S.a128 6) (S.v128 9) (S.v128 10) (S.v128 11) flag
  pure flag

/-- Lines 688-738.  The array element `acm8[i]` is `(identityM8 ..., 0xff)` for all `i`, and likewise for
`acm16` and `acm32`; the elements are passed to the library by value. -/
def coms (env : Env) (S : Stack) (flag : Int) : CM Int := do
  printf "-----affine concatenation test-----\n" []
  let i32 ← liftC (identityM32 (S.a32 7).Mat)
  let i64 ← liftC (identityM64 (S.a64 7).Mat)
  let i128 ← liftC (identityM128 (S.a128 7).Mat)
  let acm8 ← liftC <| forUp 0 16 (Vector.ofFn fun i : Fin 16 => S.a8 (10 + i)) fun i acm8 => do
    let Mat ← identityM8 (← rd acm8 i).Mat
    wr acm8 i ⟨Mat, 0xff⟩
  let f ← liftC do affinecomM8to32 env (← rd acm8 0) (← rd acm8 1) (← rd acm8 2) (← rd acm8 3) (S.a32 8)
  let flag ← report "8to32: PASS\n" "8to32: ERROR\n" ((← liftC (isequalM32 f.Mat i32)) != 0 && f.Vec == 0xffffffff) flag
  let f ← liftC do affinecomM8to64 env (← rd acm8 0) (← rd acm8 1) (← rd acm8 2) (← rd acm8 3) (← rd acm8 4) (← rd acm8 5) (← rd acm8 6) (← rd acm8 7) (S.a64 8)
  let flag ← report "8to64: PASS\n" "8to64: ERROR\n" ((← liftC (isequalM64 f.Mat i64)) != 0 && f.Vec == 0xffffffffffffffff) flag
  let acm64 := f
  let f ← liftC do affinecomM8to128 env (← rd acm8 0) (← rd acm8 1) (← rd acm8 2) (← rd acm8 3) (← rd acm8 4) (← rd acm8 5) (← rd acm8 6) (← rd acm8 7) (← rd acm8 8) (← rd acm8 9) (← rd acm8 10) (← rd acm8 11) (← rd acm8 12) (← rd acm8 13) (← rd acm8 14) (← rd acm8 15) (S.a128 8)
  let flag ← report "8to128: PASS\n" "8to128: ERROR\n" ((← liftC (isequalM128 f.Mat i128)) != 0 && f.Vec[0] == 0xffffffffffffffff && f.Vec[1] == 0xffffffffffffffff) flag
  let acm128 := f
  let (acm16, acm32) ← liftC <|
    forUp 0 4 ((Vector.ofFn fun i : Fin 8 => S.a16 (10 + i)), (Vector.ofFn fun i : Fin 4 => S.a32 (10 + i)))
      fun i (acm16, acm32) => do
        let Mat ← identityM16 (← rd acm16 i).Mat
        let acm16 ← wr acm16 i ⟨Mat, 0xffff⟩
        let Mat ← identityM32 (← rd acm32 i).Mat
        let acm32 ← wr acm32 i ⟨Mat, 0xffffffff⟩
        pure (acm16, acm32)
  let acm16 ← liftC <| forUp 4 8 acm16 fun i acm16 => do
    let Mat ← identityM16 (← rd acm16 i).Mat
    wr acm16 i ⟨Mat, 0xffff⟩
  let f ← liftC do affinecomM16to64 env (← rd acm16 0) (← rd acm16 1) (← rd acm16 2) (← rd acm16 3) acm64
  let flag ← report "16to64: PASS\n" "16to64: ERROR\n" ((← liftC (isequalM64 f.Mat i64)) != 0 && f.Vec == 0xffffffffffffffff) flag
  let f ← liftC do affinecomM32to128 env (← rd acm32 0) (← rd acm32 1) (← rd acm32 2) (← rd acm32 3) acm128
  let flag ← report "32to128: PASS\n" "32to128: ERROR\n" ((← liftC (isequalM128 f.Mat i128)) != 0 && f.Vec[0] == 0xffffffffffffffff && f.Vec[1] == 0xffffffffffffffff) flag
  let acm128 := f
  let f ← liftC do affinecomM16to128 env (← rd acm16 0) (← rd acm16 1) (← rd acm16 2) (← rd acm16 3) (← rd acm16 4) (← rd acm16 5) (← rd acm16 6) (← rd acm16 7) acm128
  let flag ← report "16to128: PASS\n" "16to128: ERROR\n" ((← liftC (isequalM128 f.Mat i128)) != 0 && f.Vec[0] == 0xffffffffffffffff && f.Vec[1] == 0xffffffffffffffff) flag
  pure flag

/-- `main` — lines 4-744. -/
def main (env : Env) (S : Stack) : CM Int := do
  let flag ← bits env S 1
  let flag ← nums env S flag
  let flag ← vecs env S flag
  let flag ← mats env S flag
  let flag ← invs env S flag
  let flag ← affs env S flag
  let flag ← mixes env S flag
  let flag ← coms env S flag
  if flag != 0 then printf "\nALL PASS!" [] else printf "\nERROR!" []
  pure 0

end WB.accuracy
