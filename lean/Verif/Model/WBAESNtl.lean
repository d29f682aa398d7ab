import Verif.Model.AES
import Verif.Model.Ntl

/-!
# Model of the white-box AES demo that uses NTL

`/repo/test/WBAES/NTL/src/genTables.cpp` (cited as `genTables.cpp`) and `/repo/test/WBAES/NTL/test/main.cpp`.  The files
`aes.cpp` and `aes.h` of this demo are those of `/repo/test/WBAES/WBMatrix` (up to line ends and include paths), and so are the
global variables, `mixColumns_table`, `aes_128_table_encrypt` and the parts of `computeTables` that use no matrices, so that the
model of these is used.  The program is C++, where `x << 24` on an `int` `x` between 0 and 255 is defined (the value modulo
2^32, C++14 and later), so the shifts are not `strict`.

Not modelled: `printTables`, the timing and the output of `main`, and the functions of `main.cpp` that are never called.
-/
namespace WB.ntl.aes
open WB.aes
open WB.wbsm4 (rd3 wr3)

/-- `genTables.cpp:101-117` -/
def int2vec (iIn : BitVec 32) (size : Nat) : C VecGF2 :=
  forUp 0 size ((default : VecGF2).SetLength size) fun i vOut =>
    if (iIn >>> i).umod 2 = 1 then vOut.put (size - 1 - i) 1 else vOut.put (size - 1 - i) 0

/-- `genTables.cpp:119-129` -/
def vec2int (vIn : VecGF2) (size : Nat) : C (BitVec 32) :=
  forUp 0 size (0 : BitVec 32) fun i iOut => do
    let iOut := iOut * 2
    if (← vIn.get i) = 1 then pure (iOut + 1) else pure iOut

/-- `vec2int(mat * int2vec(x, size), size)` -/
def mulInt (mat : MatGF2) (x : BitVec 32) (size : Nat) : C (BitVec 32) := do
  vec2int (← mulVec mat (← int2vec x size)) size

/-- The local arrays of matrices in `computeTables`, `genTables.cpp:147` -/
structure Mixing where
  mb_8x8 : Vector (Vector RandMat 16) 10
  mb_32x32 : Vector (Vector RandMat 4) 10

/-- Default constructed. -/
def Mixing.new : Mixing := ⟨Vector.replicate 10 (Vector.replicate 16 default), Vector.replicate 10 (Vector.replicate 4 default)⟩

/-- `genTables.cpp:150-159` -/
def genMixing (stale : Nat → Nat → ZMod 2) (fuel : Nat) (m : Mixing) : NM Mixing :=
  forUp 0 10 m fun i m => do
    let m ← forUp 0 4 m fun k m => do
      let a ← (← liftC (rd2 m.mb_32x32 i k)).init stale fuel 32
      let t ← liftC (wr2 m.mb_32x32 i k a)
      pure { m with mb_32x32 := t }
    forUp 0 16 m fun k m => do
      let a ← (← liftC (rd2 m.mb_8x8 i k)).init stale fuel 8
      let t ← liftC (wr2 m.mb_8x8 i k a)
      pure { m with mb_8x8 := t }

/-- `genTables.cpp:173-182`: the value of `tmp` in front of the key addition -/
def boxInput (m : Mixing) (T : Tables) (i j x : Nat) : C (BitVec 32) := do
  let tmp : BitVec 32 := BitVec.ofNat 32 x
  let tmp ← if 0 < i ∧ i < 9 then do mulInt (← rd2 m.mb_8x8 (i - 1) j).invMat (BitVec.ofNat 32 x) 8 else pure tmp
  if 0 < i ∧ i < 9 then rd3 T.mixBijIn (i - 1) j tmp.toNat else pure tmp

/-- `genTables.cpp:173-193`: the loop body for one value of `i`, `j`, `x` -/
def fillBox (m : Mixing) (expandedKey : Vector (BitVec 8) 176) (i j x : Nat) (T : Tables) : C Tables := do
  let tmp ← boxInput m T i j x
  let tmp : BitVec 32 := (← rd SBox (tmp ^^^ (← rd expandedKey (16 * i + j)).setWidth 32).toNat).setWidth 32
  let TBoxes ← wr3 T.TBoxes i j x (tmp.setWidth 8)
  if i = 9 then do
    let TBoxes ← wr3 TBoxes i j x ((← rd3 TBoxes i j x) ^^^ (← rd expandedKey (160 + j)))
    pure { T with TBoxes := TBoxes }
  else do
    let TyiBoxes ← wr3 T.TyiBoxes i j x (← rd2 T.TyiTables (j % 4) tmp.toNat)
    pure { T with TBoxes := TBoxes, TyiBoxes := TyiBoxes }

/-- `genTables.cpp:161-196` -/
def fillBoxes (env : Env) (m : Mixing) (T : Tables) (expandedKey : Vector (BitVec 8) 176) :
    C (Tables × Vector (BitVec 8) 176) :=
  forUp 0 10 (T, expandedKey) fun i (T, expandedKey) => do
    let expandedKey ← shiftRows env expandedKey (16 * i)
    let T ← forUp 0 16 T fun j T => do
      let mixBijIn ← forUp 0 256 T.mixBijIn fun x t => do
        wr3 t i j x (← mulInt (← rd2 m.mb_8x8 i j).mat (BitVec.ofNat 32 x) 8)
      forUp 0 256 { T with mixBijIn := mixBijIn } fun x T => fillBox m expandedKey i j x T
    pure (T, expandedKey)

/-- `genTables.cpp:202-216`: `mixBijIn[i][4*j..4*j+3]` -/
def fillBijIn (m : Mixing) (i j : Nat) (t : Vector (Vector (Vector (BitVec 32) 256) 16) 10) :
    C (Vector (Vector (Vector (BitVec 32) 256) 16) 10) :=
  forUp 0 256 t fun x t =>
    if i < 9 then do
      let xi : BitVec 32 := BitVec.ofNat 32 x
      let t ← wr3 t i (4 * j + 0) x (← mulInt (← rd2 m.mb_8x8 i (4 * j + 0)).mat xi 8)
      let t ← wr3 t i (4 * j + 1) x (← mulInt (← rd2 m.mb_8x8 i (4 * j + 1)).mat xi 8)
      let t ← wr3 t i (4 * j + 2) x (← mulInt (← rd2 m.mb_8x8 i (4 * j + 2)).mat xi 8)
      let t ← wr3 t i (4 * j + 3) x (← mulInt (← rd2 m.mb_8x8 i (4 * j + 3)).mat xi 8)
      let t ← wr3 t i (4 * j + 0) x xi
      let t ← wr3 t i (4 * j + 1) x xi
      let t ← wr3 t i (4 * j + 2) x xi
      wr3 t i (4 * j + 3) x xi
    else pure t

/-- `genTables.cpp:220-258`: the loop body for one value of `i`, `j`, `x` -/
def mixBox (m : Mixing) (i j x : Nat) (T : Tables) : C Tables :=
  if i < 9 then do
    let vAA ← int2vec (← rd3 T.TyiBoxes i (4 * j + 0) x) 32
    let vBB ← int2vec (← rd3 T.TyiBoxes i (4 * j + 1) x) 32
    let vCC ← int2vec (← rd3 T.TyiBoxes i (4 * j + 2) x) 32
    let vDD ← int2vec (← rd3 T.TyiBoxes i (4 * j + 3) x) 32
    let t ← wr3 T.TyiBoxes i (4 * j + 0) x (← vec2int (← mulVec (← rd2 m.mb_32x32 i j).mat vAA) 32)
    let t ← wr3 t i (4 * j + 1) x (← vec2int (← mulVec (← rd2 m.mb_32x32 i j).mat vBB) 32)
    let t ← wr3 t i (4 * j + 2) x (← vec2int (← mulVec (← rd2 m.mb_32x32 i j).mat vCC) 32)
    let t ← wr3 t i (4 * j + 3) x (← vec2int (← mulVec (← rd2 m.mb_32x32 i j).mat vDD) 32)
    let xi : BitVec 32 := BitVec.ofNat 32 x
    let vAA ← int2vec (← shlInt false xi 24) 32
    let vBB ← int2vec (← shlInt false xi 16) 32
    let vCC ← int2vec (← shlInt false xi 8) 32
    let vDD ← int2vec (← shlInt false xi 0) 32
    let aa ← vec2int (← mulVec (← rd2 m.mb_32x32 i j).invMat vAA) 32
    let bb ← vec2int (← mulVec (← rd2 m.mb_32x32 i j).invMat vBB) 32
    let cc ← vec2int (← mulVec (← rd2 m.mb_32x32 i j).invMat vCC) 32
    let dd ← vec2int (← mulVec (← rd2 m.mb_32x32 i j).invMat vDD) 32
    let o ← wr3 T.mixBijOut i (4 * j + 0) x (← bijWord T i j aa)
    let o ← wr3 o i (4 * j + 1) x (← bijWord T i j bb)
    let o ← wr3 o i (4 * j + 2) x (← bijWord T i j cc)
    let o ← wr3 o i (4 * j + 3) x (← bijWord T i j dd)
    pure { T with TyiBoxes := t, mixBijOut := o }
  else pure T

/-- `genTables.cpp:198-262` -/
def mixBoxes (m : Mixing) (T : Tables) : C Tables :=
  forUp 0 10 T fun i T =>
    forUp 0 4 T fun j T => do
      let mixBijIn ← fillBijIn m i j T.mixBijIn
      forUp 0 256 { T with mixBijIn := mixBijIn } fun x T => mixBox m i j x T

/-- `genTables.cpp:131-276`; the result is the tables and the final contents of `expandedKey`.  The parts without matrices
(`genTables.cpp:134-143` and `263-275`) are those of the WBMatrix demo. -/
def computeTables (stale : Nat → Nat → ZMod 2) (fuel : Nat) (env : Env) (T : Tables) (expandedKey : Vector (BitVec 8) 176) :
    NM (Tables × Vector (BitVec 8) 176) := do
  let TyiTables ← liftC (fillTyi false T.TyiTables)
  let m ← genMixing stale fuel Mixing.new
  let (T, expandedKey) ← liftC (fillBoxes env m { T with TyiTables := TyiTables } expandedKey)
  let T ← liftC (mixBoxes m T)
  let xorTable ← liftC (fillXor T.xorTable)
  pure ({ T with xorTable := xorTable }, expandedKey)

/-- `main.cpp:65-104` for `TEST = n`: the calls of the modelled functions; `expandedKey` is uninitialised -/
def main (stale : Nat → Nat → ZMod 2) (fuel : Nat) (env : Env) (n : Nat) (T : Tables) :
    NM (Tables × Vector (BitVec 8) 176) := do
  let key : Vector (BitVec 8) 16 := Vector.replicate 16 0#8
  let expandedKey ← liftC (expandKey key (env.junkArr 8 176))
  forUp 0 n (T, expandedKey) fun _ (T, expandedKey) => computeTables stale fuel env T expandedKey

end WB.ntl.aes
