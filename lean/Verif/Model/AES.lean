import Verif.Model.WBSM4

/-!
# Model of the white-box AES demo

`/repo/test/WBAES/WBMatrix/src/aes.c`, `/repo/test/WBAES/WBMatrix/include/aes.h` (plain AES) and
`/repo/test/WBAES/WBMatrix/src/genTables.c` (table generation and encryption with the tables).  The functions of the
matrix library that the demo calls are collected in a record `Lib`.

Not modelled: `printState`, `printTables` (output to a file), `test/main.c` (timing loop around `computeTables`; the
encryption calls are commented out).
-/
namespace WB.aes
open wbsm4 (rd3 wr3)

set_option maxRecDepth 4096 in
/-- `/repo/test/WBAES/WBMatrix/include/aes.h:14-32` -/
def SBox : Vector (BitVec 8) 256 :=
  #v[0x63, 0x7c, 0x77, 0x7b, 0xf2, 0x6b, 0x6f, 0xc5, 0x30, 0x01, 0x67, 0x2b, 0xfe, 0xd7, 0xab, 0x76,
    0xca, 0x82, 0xc9, 0x7d, 0xfa, 0x59, 0x47, 0xf0, 0xad, 0xd4, 0xa2, 0xaf, 0x9c, 0xa4, 0x72, 0xc0,
    0xb7, 0xfd, 0x93, 0x26, 0x36, 0x3f, 0xf7, 0xcc, 0x34, 0xa5, 0xe5, 0xf1, 0x71, 0xd8, 0x31, 0x15,
    0x04, 0xc7, 0x23, 0xc3, 0x18, 0x96, 0x05, 0x9a, 0x07, 0x12, 0x80, 0xe2, 0xeb, 0x27, 0xb2, 0x75,
    0x09, 0x83, 0x2c, 0x1a, 0x1b, 0x6e, 0x5a, 0xa0, 0x52, 0x3b, 0xd6, 0xb3, 0x29, 0xe3, 0x2f, 0x84,
    0x53, 0xd1, 0x00, 0xed, 0x20, 0xfc, 0xb1, 0x5b, 0x6a, 0xcb, 0xbe, 0x39, 0x4a, 0x4c, 0x58, 0xcf,
    0xd0, 0xef, 0xaa, 0xfb, 0x43, 0x4d, 0x33, 0x85, 0x45, 0xf9, 0x02, 0x7f, 0x50, 0x3c, 0x9f, 0xa8,
    0x51, 0xa3, 0x40, 0x8f, 0x92, 0x9d, 0x38, 0xf5, 0xbc, 0xb6, 0xda, 0x21, 0x10, 0xff, 0xf3, 0xd2,
    0xcd, 0x0c, 0x13, 0xec, 0x5f, 0x97, 0x44, 0x17, 0xc4, 0xa7, 0x7e, 0x3d, 0x64, 0x5d, 0x19, 0x73,
    0x60, 0x81, 0x4f, 0xdc, 0x22, 0x2a, 0x90, 0x88, 0x46, 0xee, 0xb8, 0x14, 0xde, 0x5e, 0x0b, 0xdb,
    0xe0, 0x32, 0x3a, 0x0a, 0x49, 0x06, 0x24, 0x5c, 0xc2, 0xd3, 0xac, 0x62, 0x91, 0x95, 0xe4, 0x79,
    0xe7, 0xc8, 0x37, 0x6d, 0x8d, 0xd5, 0x4e, 0xa9, 0x6c, 0x56, 0xf4, 0xea, 0x65, 0x7a, 0xae, 0x08,
    0xba, 0x78, 0x25, 0x2e, 0x1c, 0xa6, 0xb4, 0xc6, 0xe8, 0xdd, 0x74, 0x1f, 0x4b, 0xbd, 0x8b, 0x8a,
    0x70, 0x3e, 0xb5, 0x66, 0x48, 0x03, 0xf6, 0x0e, 0x61, 0x35, 0x57, 0xb9, 0x86, 0xc1, 0x1d, 0x9e,
    0xe1, 0xf8, 0x98, 0x11, 0x69, 0xd9, 0x8e, 0x94, 0x9b, 0x1e, 0x87, 0xe9, 0xce, 0x55, 0x28, 0xdf,
    0x8c, 0xa1, 0x89, 0x0d, 0xbf, 0xe6, 0x42, 0x68, 0x41, 0x99, 0x2d, 0x0f, 0xb0, 0x54, 0xbb, 0x16]

/-- `/repo/test/WBAES/WBMatrix/include/aes.h:34-37` -/
def rCon : Vector (BitVec 8) 11 := #v[0x8d, 0x01, 0x02, 0x04, 0x08, 0x10, 0x20, 0x40, 0x80, 0x1b, 0x36]

/-- `/repo/test/WBAES/WBMatrix/include/aes.h:9` -/
def ROTL8 (x : BitVec 8) (shift : Nat) : BitVec 8 := x <<< shift ||| x >>> (8 - shift)

/-- The `do … while (p != 1)` loop of `initialize_aes_sbox`, with at most `fuel` iterations. -/
def sboxLoop : Nat → BitVec 8 → BitVec 8 → Vector (BitVec 8) 256 → C (Vector (BitVec 8) 256)
  | 0, _, _, _ => .error .diverge
  | fuel + 1, p, q, sbox => do
    let p := p ^^^ (p <<< 1) ^^^ (if p &&& 0x80 != 0 then 0x1B else 0)
    let q := q ^^^ q <<< 1
    let q := q ^^^ q <<< 2
    let q := q ^^^ q <<< 4
    let q := q ^^^ (if q &&& 0x80 != 0 then 0x09 else 0)
    let xformed := q ^^^ ROTL8 q 1 ^^^ ROTL8 q 2 ^^^ ROTL8 q 3 ^^^ ROTL8 q 4
    let sbox ← wr sbox p.toNat (xformed ^^^ 0x63)
    if p != 1 then sboxLoop fuel p q sbox else pure sbox

/-- `/repo/test/WBAES/WBMatrix/src/aes.c:3-25`; `fuel` bounds the number of iterations of the loop, running out of it
is the outcome `Fault.diverge` -/
def initialize_aes_sbox (fuel : Nat) (sbox : Vector (BitVec 8) 256) : C (Vector (BitVec 8) 256) := do
  let sbox ← sboxLoop fuel 1 1 sbox
  wr sbox 0 0x63

/-- `/repo/test/WBAES/WBMatrix/src/aes.c:34-37` -/
def subBytes (state : Vector (BitVec 8) 16) : C (Vector (BitVec 8) 16) :=
  forUp 0 16 state fun i state => do wr state i (← rd SBox (← rd state i).toNat)

/-- The array `shiftTab` of `shiftRows`. -/
def shiftTab : Vector Nat 16 := #v[0, 5, 10, 15, 4, 9, 14, 3, 8, 13, 2, 7, 12, 1, 6, 11]

/-- `/repo/test/WBAES/WBMatrix/src/aes.c:40-47`, applied to the 16 bytes at `mem + off` -/
def shiftRows {N : Nat} (env : Env) (mem : Vector (BitVec 8) N) (off : Nat) : C (Vector (BitVec 8) N) := do
  let out ← forUp 0 16 (env.junkArr 8 16) fun i out => do wr out i (← rd mem (off + (← rd shiftTab i)))
  forUp 0 16 mem fun i mem => do wr mem (off + i) (← rd out i)

/-- `/repo/test/WBAES/WBMatrix/src/aes.c:49-52`; `roundKey` points to `key + off` -/
def addRoundKey {N : Nat} (state : Vector (BitVec 8) 16) (key : Vector (BitVec 8) N) (off : Nat) :
    C (Vector (BitVec 8) 16) :=
  forUp 0 16 state fun i state => do wr state i ((← rd state i) ^^^ (← rd key (off + i)))

/-- `/repo/test/WBAES/WBMatrix/src/aes.c:54-68` -/
def gMul (a b : BitVec 8) : C (BitVec 8) := do
  let (p, _, _) ← forUp 0 8 ((0, a, b) : BitVec 8 × BitVec 8 × BitVec 8) fun _ (p, a, b) => do
    let p := if b &&& 1 == 1 then p ^^^ a else p
    let hi_bit_set := a &&& 0x80
    let a := a <<< 1
    let a := if hi_bit_set == 0x80 then a ^^^ 0x1b else a
    let b := b >>> 1
    pure (p, a, b)
  pure p

/-- `/repo/test/WBAES/WBMatrix/src/aes.c:69-79` -/
def mixColumns (env : Env) (state : Vector (BitVec 8) 16) : C (Vector (BitVec 8) 16) := do
  let out ← forUp 0 4 (env.junkArr 8 16) fun i out => do
    let s0 ← rd state (4 * i)
    let s1 ← rd state (4 * i + 1)
    let s2 ← rd state (4 * i + 2)
    let s3 ← rd state (4 * i + 3)
    let out ← wr out (4 * i) ((← gMul 2 s0) ^^^ (← gMul 3 s1) ^^^ s2 ^^^ s3)
    let out ← wr out (4 * i + 1) (s0 ^^^ (← gMul 2 s1) ^^^ (← gMul 3 s2) ^^^ s3)
    let out ← wr out (4 * i + 2) (s0 ^^^ s1 ^^^ (← gMul 2 s2) ^^^ (← gMul 3 s3))
    wr out (4 * i + 3) ((← gMul 3 s0) ^^^ s1 ^^^ s2 ^^^ (← gMul 2 s3))
  forUp 0 16 state fun i state => do wr state i (← rd out i)

/-- `/repo/test/WBAES/WBMatrix/src/aes.c:81-111` -/
def expandKey (key : Vector (BitVec 8) 16) (expandedKey : Vector (BitVec 8) 176) : C (Vector (BitVec 8) 176) := do
  let expandedKey ← forUp 0 4 expandedKey fun i ek => do
    let ek ← wr ek (4 * i) (← rd key (4 * i))
    let ek ← wr ek (4 * i + 1) (← rd key (4 * i + 1))
    let ek ← wr ek (4 * i + 2) (← rd key (4 * i + 2))
    wr ek (4 * i + 3) (← rd key (4 * i + 3))
  forUp 4 44 expandedKey fun i ek => do
    let t0 ← rd ek (4 * (i - 1))
    let t1 ← rd ek (4 * (i - 1) + 1)
    let t2 ← rd ek (4 * (i - 1) + 2)
    let t3 ← rd ek (4 * (i - 1) + 3)
    let (t0, t1, t2, t3) ← if i % 4 = 0 then do
        let k := t0
        let t0 := (← rd SBox t1.toNat) ^^^ (← rd rCon (i / 4))
        let t1 ← rd SBox t2.toNat
        let t2 ← rd SBox t3.toNat
        let t3 ← rd SBox k.toNat
        pure (t0, t1, t2, t3)
      else pure (t0, t1, t2, t3)
    let ek ← wr ek (4 * i) ((← rd ek (4 * (i - 4))) ^^^ t0)
    let ek ← wr ek (4 * i + 1) ((← rd ek (4 * (i - 4) + 1)) ^^^ t1)
    let ek ← wr ek (4 * i + 2) ((← rd ek (4 * (i - 4) + 2)) ^^^ t2)
    wr ek (4 * i + 3) ((← rd ek (4 * (i - 4) + 3)) ^^^ t3)

/-- `/repo/test/WBAES/WBMatrix/src/aes.c:114-139`; the result is the final contents of `input` and of `output` (two
separate arrays) -/
def aes_128_encrypt (env : Env) (input output : Vector (BitVec 8) 16) :
    C (Vector (BitVec 8) 16 × Vector (BitVec 8) 16) := do
  let expandedKey := env.junkArr 8 176
  let key : Vector (BitVec 8) 16 := Vector.replicate 16 0
  let expandedKey ← expandKey key expandedKey
  let (input, expandedKey) ← forUp 0 9 (input, expandedKey) fun i (input, expandedKey) => do
    let input ← shiftRows env input 0
    let expandedKey ← shiftRows env expandedKey (16 * i)
    let input ← addRoundKey input expandedKey (16 * i)
    let input ← subBytes input
    let input ← mixColumns env input
    pure (input, expandedKey)
  let input ← shiftRows env input 0
  let expandedKey ← shiftRows env expandedKey 144
  let input ← addRoundKey input expandedKey 144
  let input ← subBytes input
  let input ← addRoundKey input expandedKey 160
  let output ← forUp 0 16 output fun i output => do wr output i (← rd input i)
  pure (input, output)

/-! ## Table generation -/

/-- The functions of the matrix library that the demo calls. -/
structure Lib where
  genMatpairM32 : M32 → M32 → CM (M32 × M32)
  genMatpairM8 : M8 → M8 → CM (M8 × M8)
  MatMulNumM8 : M8 → BitVec 8 → C (BitVec 8)
  MatMulNumM32 : M32 → BitVec 32 → C (BitVec 32)

/-- The current library. -/
def Lib.current (env : Env) : Lib where
  genMatpairM32 := WB.genMatpairM32 env
  genMatpairM8 := WB.genMatpairM8 env
  MatMulNumM8 := WB.MatMulNumM8 env
  MatMulNumM32 := WB.MatMulNumM32 env

/-- The global variables, `/repo/test/WBAES/WBMatrix/src/genTables.c:2-7` -/
structure Tables where
  TBoxes : Vector (Vector (Vector (BitVec 8) 256) 16) 10
  TyiTables : Vector (Vector (BitVec 32) 256) 4
  TyiBoxes : Vector (Vector (Vector (BitVec 32) 256) 16) 9
  mixBijIn : Vector (Vector (Vector (BitVec 32) 256) 16) 10
  mixBijOut : Vector (Vector (Vector (BitVec 32) 256) 16) 10
  xorTable : Vector (Vector (Vector (Vector (BitVec 8) 16) 16) 96) 9

/-- `a[x][y][z][t]` -/
def rd4 {α : Type} {n m l k : Nat} (a : Vector (Vector (Vector (Vector α k) l) m) n) (x y z t : Nat) : C α := do
  rd3 (← rd a x) y z t

/-- `a[x][y][z][t] = v` -/
def wr4 {α : Type} {n m l k : Nat} (a : Vector (Vector (Vector (Vector α k) l) m) n) (x y z t : Nat) (v : α) :
    C (Vector (Vector (Vector (Vector α k) l) m) n) := do
  wr a x (← wr3 (← rd a x) y z t v)

/-- `/repo/test/WBAES/WBMatrix/src/genTables.c:8-22` -/
def mixColumns_table (env : Env) (T : Tables) (state : Vector (BitVec 8) 16) : C (Vector (BitVec 8) 16) := do
  let out ← forUp 0 4 (env.junkArr 8 16) fun j out => do
    let tmp := (← rd2 T.TyiTables 0 (← rd state (4 * j)).toNat) ^^^ (← rd2 T.TyiTables 1 (← rd state (4 * j + 1)).toNat)
      ^^^ (← rd2 T.TyiTables 2 (← rd state (4 * j + 2)).toNat) ^^^ (← rd2 T.TyiTables 3 (← rd state (4 * j + 3)).toNat)
    let out ← wr out (4 * j + 0) ((tmp >>> 24).setWidth 8)
    let out ← wr out (4 * j + 1) ((tmp >>> 16).setWidth 8)
    let out ← wr out (4 * j + 2) ((tmp >>> 8).setWidth 8)
    wr out (4 * j + 3) ((tmp >>> 0).setWidth 8)
  forUp 0 16 state fun i state => do wr state i (← rd out i)

/-- `v << k` on a non-negative `int` (32 bits).  A result that does not fit is undefined in ISO C (`strict`); compilers
such as gcc document that they produce the low 32 bits (`¬ strict`). -/
def shlInt (strict : Bool) (v : BitVec 32) (k : Nat) : C (BitVec 32) :=
  if strict ∧ 2 ^ 31 ≤ v.toNat * 2 ^ k then .error .overflow else .ok (v <<< k)

/-- `/repo/test/WBAES/WBMatrix/src/genTables.c:138-141` -/
def tyiEntry (strict : Bool) (x : Nat) (t : Vector (Vector (BitVec 32) 256) 4) :
    C (Vector (Vector (BitVec 32) 256) 4) := do
  let xi : BitVec 32 := BitVec.ofNat 32 x
  let g2 : BitVec 32 := (← gMul 2 (BitVec.ofNat 8 x)).setWidth 32
  let g3 : BitVec 32 := (← gMul 3 (BitVec.ofNat 8 x)).setWidth 32
  let t ← wr2 t 0 x ((← shlInt strict g2 24) ||| (← shlInt strict xi 16) ||| (← shlInt strict xi 8) ||| g3)
  let t ← wr2 t 1 x ((← shlInt strict g3 24) ||| (← shlInt strict g2 16) ||| (← shlInt strict xi 8) ||| xi)
  let t ← wr2 t 2 x ((← shlInt strict xi 24) ||| (← shlInt strict g3 16) ||| (← shlInt strict g2 8) ||| xi)
  wr2 t 3 x ((← shlInt strict xi 24) ||| (← shlInt strict xi 16) ||| (← shlInt strict g3 8) ||| g2)

/-- `/repo/test/WBAES/WBMatrix/src/genTables.c:134-143` -/
def fillTyi (strict : Bool) (t : Vector (Vector (BitVec 32) 256) 4) : C (Vector (Vector (BitVec 32) 256) 4) :=
  forUp 0 4 t fun _ t => forUp 0 256 t fun x t => tyiEntry strict x t

/-- The local arrays of matrices in `computeTables`. -/
structure Mixing where
  mb_8x8 : Vector (Vector (Vector M8 2) 16) 10
  mb_32x32 : Vector (Vector (Vector M32 2) 4) 10

/-- Their uninitialised contents. -/
def Mixing.junk (env : Env) : Mixing where
  mb_8x8 := Vector.ofFn fun i => Vector.ofFn fun k => Vector.ofFn fun c => Vector.ofFn fun r =>
    env.junk 8 (((i.val * 16 + k.val) * 2 + c.val) * 8 + r.val)
  mb_32x32 := Vector.ofFn fun i => Vector.ofFn fun k => Vector.ofFn fun c => Vector.ofFn fun r =>
    env.junk 32 (((i.val * 4 + k.val) * 2 + c.val) * 32 + r.val)

/-- `/repo/test/WBAES/WBMatrix/src/genTables.c:151-160` -/
def genMixing (lib : Lib) (m : Mixing) : CM Mixing :=
  forUp 0 10 m fun i m => do
    let m ← forUp 0 4 m fun k m => do
      let (a, b) ← lib.genMatpairM32 (← liftC (rd3 m.mb_32x32 i k 0)) (← liftC (rd3 m.mb_32x32 i k 1))
      let t ← liftC (wr3 m.mb_32x32 i k 0 a)
      let t ← liftC (wr3 t i k 1 b)
      pure { m with mb_32x32 := t }
    forUp 0 16 m fun k m => do
      let (a, b) ← lib.genMatpairM8 (← liftC (rd3 m.mb_8x8 i k 0)) (← liftC (rd3 m.mb_8x8 i k 1))
      let t ← liftC (wr3 m.mb_8x8 i k 0 a)
      let t ← liftC (wr3 t i k 1 b)
      pure { m with mb_8x8 := t }

/-- `/repo/test/WBAES/WBMatrix/src/genTables.c:174-183`: the value of `tmp` in front of the key addition -/
def boxInput (lib : Lib) (m : Mixing) (T : Tables) (i j x : Nat) : C (BitVec 32) := do
  let tmp : BitVec 32 := BitVec.ofNat 32 x
  let tmp ← if 0 < i ∧ i < 9 then do
      pure ((← lib.MatMulNumM8 (← rd3 m.mb_8x8 (i - 1) j 1) (BitVec.ofNat 8 x)).setWidth 32)
    else pure tmp
  if 0 < i ∧ i < 9 then rd3 T.mixBijIn (i - 1) j tmp.toNat else pure tmp

/-- `/repo/test/WBAES/WBMatrix/src/genTables.c:174-194`: the loop body for one value of `i`, `j`, `x` -/
def fillBox (lib : Lib) (m : Mixing) (expandedKey : Vector (BitVec 8) 176) (i j x : Nat) (T : Tables) : C Tables := do
  let tmp ← boxInput lib m T i j x
  let tmp : BitVec 32 := (← rd SBox (tmp ^^^ (← rd expandedKey (16 * i + j)).setWidth 32).toNat).setWidth 32
  let TBoxes ← wr3 T.TBoxes i j x (tmp.setWidth 8)
  if i = 9 then do
    let TBoxes ← wr3 TBoxes i j x ((← rd3 TBoxes i j x) ^^^ (← rd expandedKey (160 + j)))
    pure { T with TBoxes := TBoxes }
  else do
    let TyiBoxes ← wr3 T.TyiBoxes i j x (← rd2 T.TyiTables (j % 4) tmp.toNat)
    pure { T with TBoxes := TBoxes, TyiBoxes := TyiBoxes }

/-- `/repo/test/WBAES/WBMatrix/src/genTables.c:162-197` -/
def fillBoxes (env : Env) (lib : Lib) (m : Mixing) (T : Tables) (expandedKey : Vector (BitVec 8) 176) :
    C (Tables × Vector (BitVec 8) 176) :=
  forUp 0 10 (T, expandedKey) fun i (T, expandedKey) => do
    let expandedKey ← shiftRows env expandedKey (16 * i)
    let T ← forUp 0 16 T fun j T => do
      let mixBijIn ← forUp 0 256 T.mixBijIn fun x t => do
        wr3 t i j x ((← lib.MatMulNumM8 (← rd3 m.mb_8x8 i j 0) (BitVec.ofNat 8 x)).setWidth 32)
      forUp 0 256 { T with mixBijIn := mixBijIn } fun x T => fillBox lib m expandedKey i j x T
    pure (T, expandedKey)

/-- `/repo/test/WBAES/WBMatrix/src/genTables.c:203-217`: `mixBijIn[i][4*j..4*j+3]` -/
def fillBijIn (lib : Lib) (m : Mixing) (i j : Nat) (t : Vector (Vector (Vector (BitVec 32) 256) 16) 10) :
    C (Vector (Vector (Vector (BitVec 32) 256) 16) 10) :=
  forUp 0 256 t fun x t =>
    if i < 9 then do
      let xi : BitVec 32 := BitVec.ofNat 32 x
      let t ← wr3 t i (4 * j + 0) x ((← lib.MatMulNumM8 (← rd3 m.mb_8x8 i (4 * j + 0) 0) (BitVec.ofNat 8 x)).setWidth 32)
      let t ← wr3 t i (4 * j + 1) x ((← lib.MatMulNumM8 (← rd3 m.mb_8x8 i (4 * j + 1) 0) (BitVec.ofNat 8 x)).setWidth 32)
      let t ← wr3 t i (4 * j + 2) x ((← lib.MatMulNumM8 (← rd3 m.mb_8x8 i (4 * j + 2) 0) (BitVec.ofNat 8 x)).setWidth 32)
      let t ← wr3 t i (4 * j + 3) x ((← lib.MatMulNumM8 (← rd3 m.mb_8x8 i (4 * j + 3) 0) (BitVec.ofNat 8 x)).setWidth 32)
      let t ← wr3 t i (4 * j + 0) x xi
      let t ← wr3 t i (4 * j + 1) x xi
      let t ← wr3 t i (4 * j + 2) x xi
      wr3 t i (4 * j + 3) x xi
    else pure t

/-- `/repo/test/WBAES/WBMatrix/src/genTables.c:244-247`: the four bytes of `aa` looked up in `mixBijIn[i][4*j..4*j+3]` -/
def bijWord (T : Tables) (i j : Nat) (aa : BitVec 32) : C (BitVec 32) := do
  pure ((← rd3 T.mixBijIn i (4 * j + 0) (aa >>> 24 &&& 0xff).toNat) <<< 24 |||
    (← rd3 T.mixBijIn i (4 * j + 1) (aa >>> 16 &&& 0xff).toNat) <<< 16 |||
    (← rd3 T.mixBijIn i (4 * j + 2) (aa >>> 8 &&& 0xff).toNat) <<< 8 |||
    (← rd3 T.mixBijIn i (4 * j + 3) (aa >>> 0 &&& 0xff).toNat) <<< 0)

/-- `/repo/test/WBAES/WBMatrix/src/genTables.c:221-260`: the loop body for one value of `i`, `j`, `x` -/
def mixBox (lib : Lib) (m : Mixing) (i j x : Nat) (T : Tables) : C Tables :=
  if i < 9 then do
    let vAA ← rd3 T.TyiBoxes i (4 * j + 0) x
    let vBB ← rd3 T.TyiBoxes i (4 * j + 1) x
    let vCC ← rd3 T.TyiBoxes i (4 * j + 2) x
    let vDD ← rd3 T.TyiBoxes i (4 * j + 3) x
    let t ← wr3 T.TyiBoxes i (4 * j + 0) x (← lib.MatMulNumM32 (← rd3 m.mb_32x32 i j 0) vAA)
    let t ← wr3 t i (4 * j + 1) x (← lib.MatMulNumM32 (← rd3 m.mb_32x32 i j 0) vBB)
    let t ← wr3 t i (4 * j + 2) x (← lib.MatMulNumM32 (← rd3 m.mb_32x32 i j 0) vCC)
    let t ← wr3 t i (4 * j + 3) x (← lib.MatMulNumM32 (← rd3 m.mb_32x32 i j 0) vDD)
    let xi : BitVec 32 := BitVec.ofNat 32 x
    let aa ← lib.MatMulNumM32 (← rd3 m.mb_32x32 i j 1) (xi <<< 24)
    let bb ← lib.MatMulNumM32 (← rd3 m.mb_32x32 i j 1) (xi <<< 16)
    let cc ← lib.MatMulNumM32 (← rd3 m.mb_32x32 i j 1) (xi <<< 8)
    let dd ← lib.MatMulNumM32 (← rd3 m.mb_32x32 i j 1) (xi <<< 0)
    let o ← wr3 T.mixBijOut i (4 * j + 0) x (← bijWord T i j aa)
    let o ← wr3 o i (4 * j + 1) x (← bijWord T i j bb)
    let o ← wr3 o i (4 * j + 2) x (← bijWord T i j cc)
    let o ← wr3 o i (4 * j + 3) x (← bijWord T i j dd)
    pure { T with TyiBoxes := t, mixBijOut := o }
  else pure T

/-- `/repo/test/WBAES/WBMatrix/src/genTables.c:199-264` -/
def mixBoxes (lib : Lib) (m : Mixing) (T : Tables) : C Tables :=
  forUp 0 10 T fun i T =>
    forUp 0 4 T fun j T => do
      let mixBijIn ← fillBijIn lib m i j T.mixBijIn
      forUp 0 256 { T with mixBijIn := mixBijIn } fun x T => mixBox lib m i j x T

/-- `/repo/test/WBAES/WBMatrix/src/genTables.c:265-277` -/
def fillXor (t : Vector (Vector (Vector (Vector (BitVec 8) 16) 16) 96) 9) :
    C (Vector (Vector (Vector (Vector (BitVec 8) 16) 16) 96) 9) :=
  forUp 0 9 t fun i t => forUp 0 96 t fun j t => forUp 0 16 t fun x t => forUp 0 16 t fun y t =>
    wr4 t i j x y (BitVec.ofNat 8 (x ^^^ y))

/-- `/repo/test/WBAES/WBMatrix/src/genTables.c:131-278`; the result is the tables and the final contents of
`expandedKey` -/
def computeTables (strict : Bool) (env : Env) (lib : Lib) (T : Tables) (expandedKey : Vector (BitVec 8) 176) :
    CM (Tables × Vector (BitVec 8) 176) := do
  let TyiTables ← liftC (fillTyi strict T.TyiTables)
  let m ← genMixing lib (Mixing.junk env)
  let (T, expandedKey) ← liftC (fillBoxes env lib m { T with TyiTables := TyiTables } expandedKey)
  let T ← liftC (mixBoxes lib m T)
  let xorTable ← liftC (fillXor T.xorTable)
  pure ({ T with xorTable := xorTable }, expandedKey)

/-- The loop `/repo/test/WBAES/WBMatrix/test/main.c:81-84`, with `n` for `TEST`: `computeTables` again and again on the
same `expandedKey`. -/
def computeTablesLoop (env : Env) (lib : Lib) (n : Nat) (T : Tables) (expandedKey : Vector (BitVec 8) 176) :
    CM (Tables × Vector (BitVec 8) 176) :=
  forUp 0 n (T, expandedKey) fun _ (T, expandedKey) => computeTables false env lib T expandedKey

/-! ## Encryption with the tables -/

/-- One output byte: `/repo/test/WBAES/WBMatrix/src/genTables.c:36-40` (and the seven other groups of five statements of the
same form): the high and the low nibbles at bit `hi` and `lo` of `a`, `b`, `c`, `d`, added with six tables from `t` on -/
def xorByte (T : Tables) (i t hi lo : Nat) (a b c d : BitVec 32) : C (BitVec 8) := do
  let aa ← rd4 T.xorTable i (t + 0) (a >>> hi &&& 0xf).toNat (b >>> hi &&& 0xf).toNat
  let bb ← rd4 T.xorTable i (t + 1) (c >>> hi &&& 0xf).toNat (d >>> hi &&& 0xf).toNat
  let cc ← rd4 T.xorTable i (t + 2) (a >>> lo &&& 0xf).toNat (b >>> lo &&& 0xf).toNat
  let dd ← rd4 T.xorTable i (t + 3) (c >>> lo &&& 0xf).toNat (d >>> lo &&& 0xf).toNat
  pure ((← rd4 T.xorTable i (t + 4) aa.toNat bb.toNat) <<< 4 ||| (← rd4 T.xorTable i (t + 5) cc.toNat dd.toNat))

/-- `/repo/test/WBAES/WBMatrix/src/genTables.c:36-58` (and again `66-88`) -/
def xorColumn (T : Tables) (i j : Nat) (a b c d : BitVec 32) (input : Vector (BitVec 8) 16) :
    C (Vector (BitVec 8) 16) := do
  let input ← wr input (4 * j + 0) (← xorByte T i (24 * j + 0) 28 24 a b c d)
  let input ← wr input (4 * j + 1) (← xorByte T i (24 * j + 6) 20 16 a b c d)
  let input ← wr input (4 * j + 2) (← xorByte T i (24 * j + 12) 12 8 a b c d)
  wr input (4 * j + 3) (← xorByte T i (24 * j + 18) 4 0 a b c d)

/-- The loop body of `aes_128_table_encrypt` for one column. -/
def tableColumn (T : Tables) (i j : Nat) (input : Vector (BitVec 8) 16) : C (Vector (BitVec 8) 16) := do
  let a ← rd3 T.TyiBoxes i (4 * j + 0) (← rd input (4 * j + 0)).toNat
  let b ← rd3 T.TyiBoxes i (4 * j + 1) (← rd input (4 * j + 1)).toNat
  let c ← rd3 T.TyiBoxes i (4 * j + 2) (← rd input (4 * j + 2)).toNat
  let d ← rd3 T.TyiBoxes i (4 * j + 3) (← rd input (4 * j + 3)).toNat
  let input ← xorColumn T i j a b c d input
  let a ← rd3 T.mixBijOut i (4 * j + 0) (← rd input (4 * j + 0)).toNat
  let b ← rd3 T.mixBijOut i (4 * j + 1) (← rd input (4 * j + 1)).toNat
  let c ← rd3 T.mixBijOut i (4 * j + 2) (← rd input (4 * j + 2)).toNat
  let d ← rd3 T.mixBijOut i (4 * j + 3) (← rd input (4 * j + 3)).toNat
  xorColumn T i j a b c d input

/-- `/repo/test/WBAES/WBMatrix/src/genTables.c:24-99`; the result is the final contents of `input` and of
`output` (two separate arrays) -/
def aes_128_table_encrypt (env : Env) (T : Tables) (input output : Vector (BitVec 8) 16) :
    C (Vector (BitVec 8) 16 × Vector (BitVec 8) 16) := do
  let input ← forUp 0 9 input fun i input => do
    let input ← shiftRows env input 0
    forUp 0 4 input fun j input => tableColumn T i j input
  let input ← shiftRows env input 0
  let input ← forUp 0 16 input fun j input => do wr input j (← rd3 T.TBoxes 9 j (← rd input j).toNat)
  let output ← forUp 0 16 output fun i output => do wr output i (← rd input i)
  pure (input, output)

end WB.aes
