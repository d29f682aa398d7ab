import Verif.Model.AES
import Verif.Model.MatGf2

/-!
# Model of the white-box AES demo that uses M4RI

`/repo/test/WBAES/M4RI/src/matrixlib/genTables.c` (cited as `genTables.c`) and `/repo/test/WBAES/M4RI/test/main.c`.  The files
`aes.c` and `aes.h` of this demo are those of `/repo/test/WBAES/WBMatrix` (up to line ends and include paths), and so are the
global variables, `mixColumns_table`, `aes_128_table_encrypt` and the parts of `computeTables` that use no matrices, so that the
model of these is used.  `unsigned long` has 64 bits.

Not modelled: `printTables`, the timing and the output of `main`, and the functions of `main.c` that are never called.
-/
namespace WB.m4ri.aes
open WB.aes
open WB.wbsm4 (rd3 wr3)

/-- The local arrays of pointers to matrices in `computeTables`, `genTables.c:120` -/
structure Mixing where
  mb_8x8 : Vector (Vector (Vector Nat 2) 16) 10
  mb_32x32 : Vector (Vector (Vector Nat 2) 4) 10

/-- Their uninitialised contents. -/
def Mixing.junk (env : Env) : Mixing where
  mb_8x8 := Vector.ofFn fun i => Vector.ofFn fun k => Vector.ofFn fun c => (env.junk 64 ((i.val * 16 + k.val) * 2 + c.val)).toNat
  mb_32x32 := Vector.ofFn fun i => Vector.ofFn fun k => Vector.ofFn fun c => (env.junk 64 ((i.val * 4 + k.val) * 2 + c.val)).toNat

/-- `genTables.c:123-134` -/
def genMixing (lib : M4ri) (fuel : Nat) (m : Mixing) : MM Mixing :=
  forUp 0 10 m fun i m => do
    let m ← forUp 0 4 m fun k m => do
      let t ← liftC (wr3 m.mb_32x32 i k 0 (← GenInvertibleMatGf2 lib fuel 32 32))
      let t ← liftC (wr3 t i k 1 (← GenMatGf2Inv lib (← liftC (rd3 t i k 0))))
      pure { m with mb_32x32 := t }
    forUp 0 16 m fun k m => do
      let t ← liftC (wr3 m.mb_8x8 i k 0 (← GenInvertibleMatGf2 lib fuel 8 8))
      let t ← liftC (wr3 t i k 1 (← GenMatGf2Inv lib (← liftC (rd3 t i k 0))))
      pure { m with mb_8x8 := t }

/-- `getDigitalFromVec(GenMatGf2Mul(a, v))`; the product is not freed -/
def mulDigital (lib : M4ri) (a v : Nat) : MM (BitVec 32) := do
  getDigitalFromVec (← GenMatGf2Mul lib a v)

/-- `get32FromVec(GenMatGf2Mul(a, v))`; the product is not freed -/
def mul32 (lib : M4ri) (a v : Nat) : MM (BitVec 32) := do
  get32FromVec (← GenMatGf2Mul lib a v)

/-- `MatGf2 xx; xx=GenMatGf2(8,1); InitVecFromBit(x,xx);`; nothing frees this matrix -/
def newXX (x : Nat) : MM Nat := do
  let xx ← GenMatGf2 8 1
  InitVecFromBit (BitVec.ofNat 64 x) xx
  pure xx

/-- `genTables.c:144-147` -/
def bijInEntry (lib : M4ri) (m : Mixing) (i j x : Nat) (t : Vector (Vector (Vector (BitVec 32) 256) 16) 10) :
    MM (Vector (Vector (Vector (BitVec 32) 256) 16) 10) := do
  let xx ← newXX x
  liftC (wr3 t i j x (← mulDigital lib (← liftC (rd3 m.mb_8x8 i j 0)) xx))

/-- `genTables.c:151-163`: the value of `tmp` in front of the key addition -/
def boxInput (lib : M4ri) (m : Mixing) (T : Tables) (i j x : Nat) : MM (BitVec 32) := do
  let tmp : BitVec 32 := BitVec.ofNat 32 x
  let xx ← newXX x
  let tmp ← if 0 < i ∧ i < 9 then do mulDigital lib (← liftC (rd3 m.mb_8x8 (i - 1) j 1)) xx
    else pure tmp
  if 0 < i ∧ i < 9 then liftC (rd3 T.mixBijIn (i - 1) j tmp.toNat) else pure tmp

/-- `genTables.c:151-174`: the loop body for one value of `i`, `j`, `x` -/
def fillBox (lib : M4ri) (m : Mixing) (expandedKey : Vector (BitVec 8) 176) (i j x : Nat) (T : Tables) : MM Tables := do
  let tmp ← boxInput lib m T i j x
  let tmp : BitVec 32 := (← liftC (rd SBox (tmp ^^^ (← liftC (rd expandedKey (16 * i + j))).setWidth 32).toNat)).setWidth 32
  let TBoxes ← liftC (wr3 T.TBoxes i j x (tmp.setWidth 8))
  if i = 9 then do
    let TBoxes ← liftC (wr3 TBoxes i j x ((← liftC (rd3 TBoxes i j x)) ^^^ (← liftC (rd expandedKey (160 + j)))))
    pure { T with TBoxes := TBoxes }
  else do
    let TyiBoxes ← liftC (wr3 T.TyiBoxes i j x (← liftC (rd2 T.TyiTables (j % 4) tmp.toNat)))
    pure { T with TBoxes := TBoxes, TyiBoxes := TyiBoxes }

/-- `genTables.c:136-177` -/
def fillBoxes (lib : M4ri) (env : Env) (m : Mixing) (T : Tables) (expandedKey : Vector (BitVec 8) 176) :
    MM (Tables × Vector (BitVec 8) 176) :=
  forUp 0 10 (T, expandedKey) fun i (T, expandedKey) => do
    let expandedKey ← liftC (shiftRows env expandedKey (16 * i))
    let T ← forUp 0 16 T fun j T => do
      let mixBijIn ← forUp 0 256 T.mixBijIn fun x t => bijInEntry lib m i j x t
      forUp 0 256 { T with mixBijIn := mixBijIn } fun x T => fillBox lib m expandedKey i j x T
    pure (T, expandedKey)

/-- `genTables.c:183-200`: `mixBijIn[i][4*j..4*j+3]` -/
def fillBijIn (lib : M4ri) (m : Mixing) (i j : Nat) (t : Vector (Vector (Vector (BitVec 32) 256) 16) 10) :
    MM (Vector (Vector (Vector (BitVec 32) 256) 16) 10) :=
  forUp 0 256 t fun x t =>
    if i < 9 then do
      let xi : BitVec 32 := BitVec.ofNat 32 x
      let xx ← newXX x
      let t ← liftC (wr3 t i (4 * j + 0) x (← mulDigital lib (← liftC (rd3 m.mb_8x8 i (4 * j + 0) 0)) xx))
      let t ← liftC (wr3 t i (4 * j + 1) x (← mulDigital lib (← liftC (rd3 m.mb_8x8 i (4 * j + 1) 0)) xx))
      let t ← liftC (wr3 t i (4 * j + 2) x (← mulDigital lib (← liftC (rd3 m.mb_8x8 i (4 * j + 2) 0)) xx))
      let t ← liftC (wr3 t i (4 * j + 3) x (← mulDigital lib (← liftC (rd3 m.mb_8x8 i (4 * j + 3) 0)) xx))
      let t ← liftC (wr3 t i (4 * j + 0) x xi)
      let t ← liftC (wr3 t i (4 * j + 1) x xi)
      let t ← liftC (wr3 t i (4 * j + 2) x xi)
      liftC (wr3 t i (4 * j + 3) x xi)
    else pure t

/-- The local variables `vAA`, `vBB`, `vCC`, `vDD` of `computeTables`. -/
structure Vecs where
  AA : Nat
  BB : Nat
  CC : Nat
  DD : Nat

/-- `InitVecFromBit(x << k, v)`: the `int` is converted to `unsigned long` -/
def initShifted (strict : Bool) (x k v : Nat) : MM Unit := do
  let y ← liftC (shlInt strict (BitVec.ofNat 32 x) k)
  InitVecFromBit (y.signExtend 64) v

/-- `genTables.c:204-242`: the loop body for one value of `i`, `j`, `x` -/
def mixBox (lib : M4ri) (strict : Bool) (m : Mixing) (v : Vecs) (i j x : Nat) (T : Tables) : MM Tables :=
  if i < 9 then do
    InitVecFromBit ((← liftC (rd3 T.TyiBoxes i (4 * j + 0) x)).setWidth 64) v.AA
    InitVecFromBit ((← liftC (rd3 T.TyiBoxes i (4 * j + 1) x)).setWidth 64) v.BB
    InitVecFromBit ((← liftC (rd3 T.TyiBoxes i (4 * j + 2) x)).setWidth 64) v.CC
    InitVecFromBit ((← liftC (rd3 T.TyiBoxes i (4 * j + 3) x)).setWidth 64) v.DD
    let t ← liftC (wr3 T.TyiBoxes i (4 * j + 0) x (← mulDigital lib (← liftC (rd3 m.mb_32x32 i j 0)) v.AA))
    let t ← liftC (wr3 t i (4 * j + 1) x (← mulDigital lib (← liftC (rd3 m.mb_32x32 i j 0)) v.BB))
    let t ← liftC (wr3 t i (4 * j + 2) x (← mulDigital lib (← liftC (rd3 m.mb_32x32 i j 0)) v.CC))
    let t ← liftC (wr3 t i (4 * j + 3) x (← mulDigital lib (← liftC (rd3 m.mb_32x32 i j 0)) v.DD))
    initShifted strict x 24 v.AA
    initShifted strict x 16 v.BB
    initShifted strict x 8 v.CC
    initShifted strict x 0 v.DD
    let aa ← mul32 lib (← liftC (rd3 m.mb_32x32 i j 1)) v.AA
    let bb ← mul32 lib (← liftC (rd3 m.mb_32x32 i j 1)) v.BB
    let cc ← mul32 lib (← liftC (rd3 m.mb_32x32 i j 1)) v.CC
    let dd ← mul32 lib (← liftC (rd3 m.mb_32x32 i j 1)) v.DD
    let o ← liftC (wr3 T.mixBijOut i (4 * j + 0) x (← liftC (bijWord T i j aa)))
    let o ← liftC (wr3 o i (4 * j + 1) x (← liftC (bijWord T i j bb)))
    let o ← liftC (wr3 o i (4 * j + 2) x (← liftC (bijWord T i j cc)))
    let o ← liftC (wr3 o i (4 * j + 3) x (← liftC (bijWord T i j dd)))
    pure { T with TyiBoxes := t, mixBijOut := o }
  else pure T

/-- `genTables.c:179-246` -/
def mixBoxes (lib : M4ri) (strict : Bool) (m : Mixing) (v : Vecs) (T : Tables) : MM Tables :=
  forUp 0 10 T fun i T =>
    forUp 0 4 T fun j T => do
      let mixBijIn ← fillBijIn lib m i j T.mixBijIn
      forUp 0 256 { T with mixBijIn := mixBijIn } fun x T => mixBox lib strict m v i j x T

/-- `genTables.c:260-279` -/
def freeAll (m : Mixing) (v : Vecs) : MM Unit := do
  MatGf2Free v.AA
  MatGf2Free v.BB
  MatGf2Free v.CC
  MatGf2Free v.DD
  forUp 0 10 () fun i _ => forUp 0 16 () fun j _ => do
    MatGf2Free (← liftC (rd3 m.mb_8x8 i j 0))
    MatGf2Free (← liftC (rd3 m.mb_8x8 i j 1))
  forUp 0 10 () fun i _ => forUp 0 4 () fun j _ => do
    MatGf2Free (← liftC (rd3 m.mb_32x32 i j 0))
    MatGf2Free (← liftC (rd3 m.mb_32x32 i j 1))

/-- `genTables.c:100-281`; the result is the tables and the final contents of `expandedKey`.  The parts without matrices
(`genTables.c:103-112` and `247-259`) are those of the WBMatrix demo. -/
def computeTables (lib : M4ri) (strict : Bool) (fuel : Nat) (env : Env) (T : Tables) (expandedKey : Vector (BitVec 8) 176) :
    MM (Tables × Vector (BitVec 8) 176) := do
  let TyiTables ← liftC (fillTyi strict T.TyiTables)
  let AA ← GenMatGf2 32 1
  let BB ← GenMatGf2 32 1
  let CC ← GenMatGf2 32 1
  let DD ← GenMatGf2 32 1
  let v : Vecs := ⟨AA, BB, CC, DD⟩
  let m ← genMixing lib fuel (Mixing.junk env)
  let (T, expandedKey) ← fillBoxes lib env m { T with TyiTables := TyiTables } expandedKey
  let T ← mixBoxes lib strict m v T
  let xorTable ← liftC (fillXor T.xorTable)
  freeAll m v
  pure ({ T with xorTable := xorTable }, expandedKey)

/-- `main.c:65-104` for `TEST = n`: the calls of the modelled functions; `expandedKey` is uninitialised -/
def main (lib : M4ri) (strict : Bool) (fuel : Nat) (env : Env) (n : Nat) (T : Tables) :
    MM (Tables × Vector (BitVec 8) 176) := do
  let key : Vector (BitVec 8) 16 := Vector.replicate 16 0#8
  let expandedKey ← liftC (expandKey key (env.junkArr 8 176))
  forUp 0 n (T, expandedKey) fun _ (T, expandedKey) => computeTables lib strict fuel env T expandedKey

end WB.m4ri.aes
