import Verif.C

/-!
# Model of the SM4 implementation of the white-box demo

`/repo/test/WBSM4/WBMatrix/src/sm4.c`.  `unsigned long` is modelled as `BitVec W` with `W` a parameter (32 on
LLP64 and 32-bit platforms, 64 on LP64); `unsigned char` is `BitVec 8`.  The macros `GET_ULONG_BE`, `PUT_ULONG_BE`,
`SHL`, `ROTL` become functions.

Caller supplied byte buffers live in one memory `mem` and pointers are offsets into it, so that the input and the
output of a function may be the same buffer or overlap.
-/
namespace WB.sm4

set_option maxRecDepth 4096 in
/-- `/repo/test/WBSM4/WBMatrix/src/sm4.c:48-66`, read through the flat pointer `pTable` of line 92 -/
def SboxTable : Vector (BitVec 8) 256 :=
  #v[0xd6, 0x90, 0xe9, 0xfe, 0xcc, 0xe1, 0x3d, 0xb7, 0x16, 0xb6, 0x14, 0xc2, 0x28, 0xfb, 0x2c, 0x05,
   0x2b, 0x67, 0x9a, 0x76, 0x2a, 0xbe, 0x04, 0xc3, 0xaa, 0x44, 0x13, 0x26, 0x49, 0x86, 0x06, 0x99,
   0x9c, 0x42, 0x50, 0xf4, 0x91, 0xef, 0x98, 0x7a, 0x33, 0x54, 0x0b, 0x43, 0xed, 0xcf, 0xac, 0x62,
   0xe4, 0xb3, 0x1c, 0xa9, 0xc9, 0x08, 0xe8, 0x95, 0x80, 0xdf, 0x94, 0xfa, 0x75, 0x8f, 0x3f, 0xa6,
   0x47, 0x07, 0xa7, 0xfc, 0xf3, 0x73, 0x17, 0xba, 0x83, 0x59, 0x3c, 0x19, 0xe6, 0x85, 0x4f, 0xa8,
   0x68, 0x6b, 0x81, 0xb2, 0x71, 0x64, 0xda, 0x8b, 0xf8, 0xeb, 0x0f, 0x4b, 0x70, 0x56, 0x9d, 0x35,
   0x1e, 0x24, 0x0e, 0x5e, 0x63, 0x58, 0xd1, 0xa2, 0x25, 0x22, 0x7c, 0x3b, 0x01, 0x21, 0x78, 0x87,
   0xd4, 0x00, 0x46, 0x57, 0x9f, 0xd3, 0x27, 0x52, 0x4c, 0x36, 0x02, 0xe7, 0xa0, 0xc4, 0xc8, 0x9e,
   0xea, 0xbf, 0x8a, 0xd2, 0x40, 0xc7, 0x38, 0xb5, 0xa3, 0xf7, 0xf2, 0xce, 0xf9, 0x61, 0x15, 0xa1,
   0xe0, 0xae, 0x5d, 0xa4, 0x9b, 0x34, 0x1a, 0x55, 0xad, 0x93, 0x32, 0x30, 0xf5, 0x8c, 0xb1, 0xe3,
   0x1d, 0xf6, 0xe2, 0x2e, 0x82, 0x66, 0xca, 0x60, 0xc0, 0x29, 0x23, 0xab, 0x0d, 0x53, 0x4e, 0x6f,
   0xd5, 0xdb, 0x37, 0x45, 0xde, 0xfd, 0x8e, 0x2f, 0x03, 0xff, 0x6a, 0x72, 0x6d, 0x6c, 0x5b, 0x51,
   0x8d, 0x1b, 0xaf, 0x92, 0xbb, 0xdd, 0xbc, 0x7f, 0x11, 0xd9, 0x5c, 0x41, 0x1f, 0x10, 0x5a, 0xd8,
   0x0a, 0xc1, 0x31, 0x88, 0xa5, 0xcd, 0x7b, 0xbd, 0x2d, 0x74, 0xd0, 0x12, 0xb8, 0xe5, 0xb4, 0xb0,
   0x89, 0x69, 0x97, 0x4a, 0x0c, 0x96, 0x77, 0x7e, 0x65, 0xb9, 0xf1, 0x09, 0xc5, 0x6e, 0xc6, 0x84,
   0x18, 0xf0, 0x7d, 0xec, 0x3a, 0xdc, 0x4d, 0x20, 0x79, 0xee, 0x5f, 0x3e, 0xd7, 0xcb, 0x39, 0x48]

variable {W : Nat}

/-- `/repo/test/WBSM4/WBMatrix/src/sm4.c:69` -/
def FK : Vector (BitVec W) 4 :=
  #v[0xa3b1bac6, 0x56aa3350, 0x677d9197, 0xb27022dc]

/-- `/repo/test/WBSM4/WBMatrix/src/sm4.c:72-82` -/
def CK : Vector (BitVec W) 32 :=
  #v[0x00070e15, 0x1c232a31, 0x383f464d, 0x545b6269,
   0x70777e85, 0x8c939aa1, 0xa8afb6bd, 0xc4cbd2d9,
   0xe0e7eef5, 0xfc030a11, 0x181f262d, 0x343b4249,
   0x50575e65, 0x6c737a81, 0x888f969d, 0xa4abb2b9,
   0xc0c7ced5, 0xdce3eaf1, 0xf8ff060d, 0x141b2229,
   0x30373e45, 0x4c535a61, 0x686f767d, 0x848b9299,
   0xa0a7aeb5, 0xbcc3cad1, 0xd8dfe6ed, 0xf4fb0209,
   0x10171e25, 0x2c333a41, 0x484f565d, 0x646b7279]

/-- `/repo/test/WBSM4/WBMatrix/src/sm4.c:16-22`: the value assigned by `GET_ULONG_BE(n,b,i)` -/
def GET_ULONG_BE {N : Nat} (b : Vector (BitVec 8) N) (i : Nat) : C (BitVec W) := do
  let b0 ← rd b i
  let b1 ← rd b (i + 1)
  let b2 ← rd b (i + 2)
  let b3 ← rd b (i + 3)
  pure (b0.setWidth W <<< 24 ||| b1.setWidth W <<< 16 ||| b2.setWidth W <<< 8 ||| b3.setWidth W)

/-- `/repo/test/WBSM4/WBMatrix/src/sm4.c:26-32` -/
def PUT_ULONG_BE {N : Nat} (n : BitVec W) (b : Vector (BitVec 8) N) (i : Nat) : C (Vector (BitVec 8) N) := do
  let b ← wr b i ((n >>> 24).setWidth 8)
  let b ← wr b (i + 1) ((n >>> 16).setWidth 8)
  let b ← wr b (i + 2) ((n >>> 8).setWidth 8)
  wr b (i + 3) (n.setWidth 8)

/-- `/repo/test/WBSM4/WBMatrix/src/sm4.c:39` -/
def SHL (x : BitVec W) (n : Nat) : BitVec W := (x &&& 0xFFFFFFFF) <<< n

/-- `/repo/test/WBSM4/WBMatrix/src/sm4.c:40` -/
def ROTL (x : BitVec W) (n : Nat) : BitVec W := SHL x n ||| x >>> (32 - n)

/-- `/repo/test/WBSM4/WBMatrix/src/sm4.c:90-95` -/
def sm4Sbox (inch : BitVec 8) : C (BitVec 8) := rd SboxTable inch.toNat

/-- `/repo/test/WBSM4/WBMatrix/src/sm4.c:103-117` -/
def sm4Lt (env : Env) (ka : BitVec W) : C (BitVec W) := do
  let a := env.junkArr 8 4
  let b := env.junkArr 8 4
  let a ← PUT_ULONG_BE ka a 0
  let b ← wr b 0 (← sm4Sbox (← rd a 0))
  let b ← wr b 1 (← sm4Sbox (← rd a 1))
  let b ← wr b 2 (← sm4Sbox (← rd a 2))
  let b ← wr b 3 (← sm4Sbox (← rd a 3))
  let bb : BitVec W ← GET_ULONG_BE b 0
  pure (bb ^^^ ROTL bb 2 ^^^ ROTL bb 10 ^^^ ROTL bb 18 ^^^ ROTL bb 24)

/-- `/repo/test/WBSM4/WBMatrix/src/sm4.c:129-132` -/
def sm4F (env : Env) (x0 x1 x2 x3 rk : BitVec W) : C (BitVec W) := do
  pure (x0 ^^^ (← sm4Lt env (x1 ^^^ x2 ^^^ x3 ^^^ rk)))

/-- `/repo/test/WBSM4/WBMatrix/src/sm4.c:140-154` -/
def sm4CalciRK (env : Env) (ka : BitVec W) : C (BitVec W) := do
  let a := env.junkArr 8 4
  let b := env.junkArr 8 4
  let a ← PUT_ULONG_BE ka a 0
  let b ← wr b 0 (← sm4Sbox (← rd a 0))
  let b ← wr b 1 (← sm4Sbox (← rd a 1))
  let b ← wr b 2 (← sm4Sbox (← rd a 2))
  let b ← wr b 3 (← sm4Sbox (← rd a 3))
  let bb : BitVec W ← GET_ULONG_BE b 0
  pure (bb ^^^ ROTL bb 13 ^^^ ROTL bb 23)

/-- `/repo/test/WBSM4/WBMatrix/src/sm4.c:156-176`; `key` is the array of 16 bytes pointed to -/
def sm4_setkey (env : Env) (key : Vector (BitVec 8) 16) (SK : Vector (BitVec W) 32) : C (Vector (BitVec W) 32) := do
  let MK := env.junkArr W 4
  let k := env.junkArr W 36
  let MK ← wr MK 0 (← GET_ULONG_BE key 0)
  let MK ← wr MK 1 (← GET_ULONG_BE key 4)
  let MK ← wr MK 2 (← GET_ULONG_BE key 8)
  let MK ← wr MK 3 (← GET_ULONG_BE key 12)
  let k ← wr k 0 ((← rd MK 0) ^^^ (← rd FK 0))
  let k ← wr k 1 ((← rd MK 1) ^^^ (← rd FK 1))
  let k ← wr k 2 ((← rd MK 2) ^^^ (← rd FK 2))
  let k ← wr k 3 ((← rd MK 3) ^^^ (← rd FK 3))
  let (_, SK) ← forUp 0 32 (k, SK) fun i (k, SK) => do
    let t ← sm4CalciRK env ((← rd k (i + 1)) ^^^ (← rd k (i + 2)) ^^^ (← rd k (i + 3)) ^^^ (← rd CK i))
    let k ← wr k (i + 4) ((← rd k i) ^^^ t)
    let SK ← wr SK i (← rd k (i + 4))
    pure (k, SK)
  pure SK

/-- `/repo/test/WBSM4/WBMatrix/src/sm4.c:182-206`; `input`, `output` are offsets into `mem` -/
def sm4_one_round {N : Nat} (env : Env) (sk : Vector (BitVec W) 32) (mem : Vector (BitVec 8) N)
    (input output : Nat) : C (Vector (BitVec 8) N) := do
  let ulbuf : Vector (BitVec W) 36 := Vector.replicate 36 0
  let ulbuf ← wr ulbuf 0 (← GET_ULONG_BE mem input)
  let ulbuf ← wr ulbuf 1 (← GET_ULONG_BE mem (input + 4))
  let ulbuf ← wr ulbuf 2 (← GET_ULONG_BE mem (input + 8))
  let ulbuf ← wr ulbuf 3 (← GET_ULONG_BE mem (input + 12))
  let ulbuf ← forUp 0 32 ulbuf fun i ulbuf => do
    wr ulbuf (i + 4) (← sm4F env (← rd ulbuf i) (← rd ulbuf (i + 1)) (← rd ulbuf (i + 2)) (← rd ulbuf (i + 3))
      (← rd sk i))
  let mem ← PUT_ULONG_BE (← rd ulbuf 35) mem output
  let mem ← PUT_ULONG_BE (← rd ulbuf 34) mem (output + 4)
  let mem ← PUT_ULONG_BE (← rd ulbuf 33) mem (output + 8)
  PUT_ULONG_BE (← rd ulbuf 32) mem (output + 12)

/-- `/repo/test/WBSM4/WBMatrix/include/sm4.h:16-21` -/
structure sm4_context (W : Nat) where
  mode : Int
  sk : Vector (BitVec W) 32

/-- `/repo/test/WBSM4/WBMatrix/include/sm4.h:10` -/
def SM4_ENCRYPT : Int := 1

/-- `/repo/test/WBSM4/WBMatrix/include/sm4.h:11` -/
def SM4_DECRYPT : Int := 0

/-- `/repo/test/WBSM4/WBMatrix/src/sm4.c:211-215` -/
def sm4_setkey_enc (env : Env) (key : Vector (BitVec 8) 16) (ctx : sm4_context W) : C (sm4_context W) := do
  let ctx := { ctx with mode := SM4_ENCRYPT }
  pure { ctx with sk := ← sm4_setkey env key ctx.sk }

/-- `/repo/test/WBSM4/WBMatrix/src/sm4.c:220-229` (macro `SWAP`: line 42) -/
def sm4_setkey_dec (env : Env) (key : Vector (BitVec 8) 16) (ctx : sm4_context W) : C (sm4_context W) := do
  let ctx := { ctx with mode := SM4_ENCRYPT }
  let sk ← sm4_setkey env key ctx.sk
  let sk ← forUp 0 16 sk fun i sk => do
    let t ← rd sk i
    let sk ← wr sk i (← rd sk (31 - i))
    wr sk (31 - i) t
  pure { ctx with sk := sk }

/-- The number of iterations of `while (length > 0) { …; length -= 16; }`. -/
def blocks (length : Int) : Nat := (length.toNat + 15) / 16

/-- `/repo/test/WBSM4/WBMatrix/src/sm4.c:236-250`; iteration `n` of the `while` loop works at the pointers
`input + 16 n`, `output + 16 n` -/
def sm4_crypt_ecb {N : Nat} (env : Env) (ctx : sm4_context W) (_mode : Int) (length : Int) (mem : Vector (BitVec 8) N)
    (input output : Nat) : C (Vector (BitVec 8) N) :=
  forUp 0 (blocks length) mem fun n mem =>
    sm4_one_round env ctx.sk mem (input + 16 * n) (output + 16 * n)

/-- `memcpy(dst, src, 16)` from `mem + src` to a separate array of 16 bytes. -/
def memcpy16 {N : Nat} (mem : Vector (BitVec 8) N) (src : Nat) (dst : Vector (BitVec 8) 16) :
    C (Vector (BitVec 8) 16) :=
  forUp 0 16 dst fun i dst => do wr dst i (← rd mem (src + i))

/-- `/repo/test/WBSM4/WBMatrix/src/sm4.c:255-297`; `iv` is an array outside `mem` (the caller's `iv` does not overlap
the buffers); the result is the memory and the final `iv` -/
def sm4_crypt_cbc {N : Nat} (env : Env) (ctx : sm4_context W) (mode : Int) (length : Int)
    (iv : Vector (BitVec 8) 16) (mem : Vector (BitVec 8) N) (input output : Nat) :
    C (Vector (BitVec 8) N × Vector (BitVec 8) 16) :=
  let temp := env.junkArr 8 16
  if mode = SM4_ENCRYPT then
    forUp 0 (blocks length) (mem, iv) fun n (mem, iv) => do
      let mem ← forUp 0 16 mem fun i mem => do
        wr mem (output + 16 * n + i) ((← rd mem (input + 16 * n + i)) ^^^ (← rd iv i))
      let mem ← sm4_one_round env ctx.sk mem (output + 16 * n) (output + 16 * n)
      let iv ← memcpy16 mem (output + 16 * n) iv
      pure (mem, iv)
  else do
    let (mem, iv, _) ← forUp 0 (blocks length) (mem, iv, temp) fun n (mem, iv, temp) => do
      let temp ← memcpy16 mem (input + 16 * n) temp
      let mem ← sm4_one_round env ctx.sk mem (input + 16 * n) (output + 16 * n)
      let mem ← forUp 0 16 mem fun i mem => do
        wr mem (output + 16 * n + i) ((← rd mem (output + 16 * n + i)) ^^^ (← rd iv i))
      let iv ← forUp 0 16 iv fun i iv => do wr iv i (← rd temp i)
      pure (mem, iv, temp)
    pure (mem, iv)

end WB.sm4
