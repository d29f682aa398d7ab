import Verif.Model.Seed

/-!
# Reverse LU decomposition — `/repo/test/RLUDMethod_test.c`

Generated by `tools/gen_methods.py`.
-/
namespace WB.rlud

/-- `identM4[]` — `/repo/test/RLUDMethod_test.c:27-27`. -/
def identM4 : Vector (BitVec 8) 4 :=
  #v[0x08, 0x04, 0x02, 0x01]

/-- `identM8[]` — `/repo/test/RLUDMethod_test.c:28-28`. -/
def identM8 : Vector (BitVec 8) 8 :=
  #v[0x80, 0x40, 0x20, 0x10, 0x08, 0x04, 0x02, 0x01]

/-- `identM16[]` — `/repo/test/RLUDMethod_test.c:29-29`. -/
def identM16 : Vector (BitVec 16) 16 :=
  #v[0x8000, 0x4000, 0x2000, 0x1000, 0x800, 0x400, 0x200, 0x100,
    0x80, 0x40, 0x20, 0x10, 0x8, 0x4, 0x2, 0x1]

/-- `identM32[]` — `/repo/test/RLUDMethod_test.c:30-30`. -/
def identM32 : Vector (BitVec 32) 32 :=
  #v[0x80000000, 0x40000000, 0x20000000, 0x10000000, 0x8000000, 0x4000000, 0x2000000, 0x1000000,
    0x800000, 0x400000, 0x200000, 0x100000, 0x80000, 0x40000, 0x20000, 0x10000,
    0x8000, 0x4000, 0x2000, 0x1000, 0x800, 0x400, 0x200, 0x100,
    0x80, 0x40, 0x20, 0x10, 0x8, 0x4, 0x2, 0x1]

/-- `identM64[]` — `/repo/test/RLUDMethod_test.c:31-32`. -/
def identM64 : Vector (BitVec 64) 64 :=
  #v[0x8000000000000000, 0x4000000000000000, 0x2000000000000000, 0x1000000000000000, 0x800000000000000, 0x400000000000000, 0x200000000000000, 0x100000000000000,
    0x80000000000000, 0x40000000000000, 0x20000000000000, 0x10000000000000, 0x8000000000000, 0x4000000000000, 0x2000000000000, 0x1000000000000,
    0x800000000000, 0x400000000000, 0x200000000000, 0x100000000000, 0x80000000000, 0x40000000000, 0x20000000000, 0x10000000000,
    0x8000000000, 0x4000000000, 0x2000000000, 0x1000000000, 0x800000000, 0x400000000, 0x200000000, 0x100000000,
    0x80000000, 0x40000000, 0x20000000, 0x10000000, 0x8000000, 0x4000000, 0x2000000, 0x1000000,
    0x800000, 0x400000, 0x200000, 0x100000, 0x80000, 0x40000, 0x20000, 0x10000,
    0x8000, 0x4000, 0x2000, 0x1000, 0x800, 0x400, 0x200, 0x100,
    0x80, 0x40, 0x20, 0x10, 0x8, 0x4, 0x2, 0x1]

/-- The statement `if(cus_random()%2) M[i] ^= id[j];`. -/
def flip {w n m : Nat} (M : Vector (BitVec w) n) (i : Nat) (id : Vector (BitVec w) m) (j : Nat) :
    CM (Vector (BitVec w) n) := do
  let r ← cus_random
  liftC do if (← umod r 2) != 0 then wr M i ((← rd M i) ^^^ (← rd id j)) else pure M

/-- The statement `if(cus_random()%2) M[i][k] ^= id[j];`. -/
def flip2 {w n l m : Nat} (M : Vector (Vector (BitVec w) l) n) (i k : Nat)
    (id : Vector (BitVec w) m) (j : Nat) : CM (Vector (Vector (BitVec w) l) n) := do
  let r ← cus_random
  liftC do if (← umod r 2) != 0 then wr2 M i k ((← rd2 M i k) ^^^ (← rd id j)) else pure M

/-- How a machine executes an access `M[i][k]` to an array `M[n][l]` when `k` is not below `l`. -/
inductive Rows
  /-- as ISO C says: undefined behaviour -/
  | strict
  /-- the rows follow each other in memory, so that the access reaches into the next row -/
  | flat
  deriving DecidableEq

/-- `flip2` with a column index that may be out of range, see `Rows`. -/
def flip2X {w n l m : Nat} (rows : Rows) (M : Vector (Vector (BitVec w) l) n) (i k : Nat)
    (id : Vector (BitVec w) m) (j : Nat) : CM (Vector (Vector (BitVec w) l) n) :=
  match rows with
  | .strict => flip2 M i k id j
  | .flat => flip2 M (i + k / l) (k % l) id j

/-- `lowM4` — `/repo/test/RLUDMethod_test.c:34-46`. -/
def lowM4 (Mat : M4) : CM M4 := do
  reseedInt
  forUp 0 4 Mat fun i Mat => do
    let Mat ← liftC do wr Mat i (← rd identM4 i)
    forUp 0 i Mat fun j Mat => flip Mat i identM4 j

/-- `upM4` — `/repo/test/RLUDMethod_test.c:193-205`. -/
def upM4 (Mat : M4) : CM M4 := do
  reseedInt
  forUp 0 4 Mat fun i Mat => do
    let Mat ← liftC do wr Mat i (← rd identM4 i)
    forUp (i + 1) 4 Mat fun j Mat => flip Mat i identM4 j

/-- `lowM8` — `/repo/test/RLUDMethod_test.c:47-59`. -/
def lowM8 (Mat : M8) : CM M8 := do
  reseedInt
  forUp 0 8 Mat fun i Mat => do
    let Mat ← liftC do wr Mat i (← rd identM8 i)
    forUp 0 i Mat fun j Mat => flip Mat i identM8 j

/-- `upM8` — `/repo/test/RLUDMethod_test.c:206-218`. -/
def upM8 (Mat : M8) : CM M8 := do
  reseedInt
  forUp 0 8 Mat fun i Mat => do
    let Mat ← liftC do wr Mat i (← rd identM8 i)
    forUp (i + 1) 8 Mat fun j Mat => flip Mat i identM8 j

/-- `lowM16` — `/repo/test/RLUDMethod_test.c:60-72`. -/
def lowM16 (Mat : M16) : CM M16 := do
  reseedInt
  forUp 0 16 Mat fun i Mat => do
    let Mat ← liftC do wr Mat i (← rd identM16 i)
    forUp 0 i Mat fun j Mat => flip Mat i identM16 j

/-- `upM16` — `/repo/test/RLUDMethod_test.c:219-231`. -/
def upM16 (Mat : M16) : CM M16 := do
  reseedInt
  forUp 0 16 Mat fun i Mat => do
    let Mat ← liftC do wr Mat i (← rd identM16 i)
    forUp (i + 1) 16 Mat fun j Mat => flip Mat i identM16 j

/-- `lowM32` — `/repo/test/RLUDMethod_test.c:73-85`. -/
def lowM32 (Mat : M32) : CM M32 := do
  reseedInt
  forUp 0 32 Mat fun i Mat => do
    let Mat ← liftC do wr Mat i (← rd identM32 i)
    forUp 0 i Mat fun j Mat => flip Mat i identM32 j

/-- `upM32` — `/repo/test/RLUDMethod_test.c:232-244`. -/
def upM32 (Mat : M32) : CM M32 := do
  reseedInt
  forUp 0 32 Mat fun i Mat => do
    let Mat ← liftC do wr Mat i (← rd identM32 i)
    forUp (i + 1) 32 Mat fun j Mat => flip Mat i identM32 j

/-- `lowM64` — `/repo/test/RLUDMethod_test.c:86-98`. -/
def lowM64 (Mat : M64) : CM M64 := do
  reseedInt
  forUp 0 64 Mat fun i Mat => do
    let Mat ← liftC do wr Mat i (← rd identM64 i)
    forUp 0 i Mat fun j Mat => flip Mat i identM64 j

/-- `upM64` — `/repo/test/RLUDMethod_test.c:245-257`. -/
def upM64 (Mat : M64) : CM M64 := do
  reseedInt
  forUp 0 64 Mat fun i Mat => do
    let Mat ← liftC do wr Mat i (← rd identM64 i)
    forUp (i + 1) 64 Mat fun j Mat => flip Mat i identM64 j

/-- `lowM128` — `/repo/test/RLUDMethod_test.c:99-124`. -/
def lowM128 (Mat : M128) : CM M128 := do
  reseedInt
  let Mat ← forUp 0 64 Mat fun i Mat => do
    let Mat ← liftC do wr2 Mat i 0 (← rd identM64 i)
    let Mat ← forUp 0 i Mat fun j Mat => flip2 Mat i 0 identM64 j
    liftC (wr2 Mat i 1 0)
  forUp 64 128 Mat fun i Mat => do
    let Mat ← liftC do wr2 Mat i 1 (← rd identM64 (i - 64))
    let Mat ← forUp 64 i Mat fun j Mat => flip2 Mat i 1 identM64 (j - 64)
    forUp 0 64 Mat fun j Mat => flip2 Mat i 0 identM64 j

/-- `upM128` — `/repo/test/RLUDMethod_test.c:258-283`. -/
def upM128 (Mat : M128) : CM M128 := do
  reseedInt
  let Mat ← forUp 0 64 Mat fun i Mat => do
    let Mat ← liftC do wr2 Mat i 0 (← rd identM64 i)
    let Mat ← forUp (i + 1) 64 Mat fun j Mat => flip2 Mat i 0 identM64 j
    forUp 0 64 Mat fun j Mat => flip2 Mat i 1 identM64 j
  forUp 64 128 Mat fun i Mat => do
    let Mat ← liftC do wr2 Mat i 1 (← rd identM64 (i - 64))
    let Mat ← forUp (i + 1) 128 Mat fun j Mat => flip2 Mat i 1 identM64 (j - 64)
    liftC (wr2 Mat i 0 0)

/-- `lowM256` — `/repo/test/RLUDMethod_test.c:125-191`. -/
def lowM256 (Mat : M256) : CM M256 := do
  reseedInt
  let Mat ← forUp 0 64 Mat fun i Mat => do
    let Mat ← liftC do wr2 Mat i 0 (← rd identM64 i)
    let Mat ← forUp 0 i Mat fun j Mat => flip2 Mat i 0 identM64 j
    let Mat ← liftC (wr2 Mat i 1 0)
    let Mat ← liftC (wr2 Mat i 2 0)
    liftC (wr2 Mat i 3 0)
  let Mat ← forUp 64 128 Mat fun i Mat => do
    let Mat ← liftC do wr2 Mat i 1 (← rd identM64 (i - 64))
    let Mat ← forUp 64 i Mat fun j Mat => flip2 Mat i 1 identM64 (j - 64)
    let Mat ← forUp 0 64 Mat fun j Mat => flip2 Mat i 0 identM64 j
    let Mat ← liftC (wr2 Mat i 2 0)
    liftC (wr2 Mat i 3 0)
  let Mat ← forUp 128 192 Mat fun i Mat => do
    let Mat ← liftC do wr2 Mat i 2 (← rd identM64 (i - 128))
    let Mat ← forUp 128 i Mat fun j Mat => flip2 Mat i 2 identM64 (j - 128)
    let Mat ← forUp 64 128 Mat fun j Mat => flip2 Mat i 1 identM64 (j - 64)
    let Mat ← forUp 0 64 Mat fun j Mat => flip2 Mat i 0 identM64 j
    liftC (wr2 Mat i 3 0)
  forUp 192 256 Mat fun i Mat => do
    let Mat ← liftC do wr2 Mat i 3 (← rd identM64 (i - 192))
    let Mat ← forUp 192 i Mat fun j Mat => flip2 Mat i 3 identM64 (j - 192)
    let Mat ← forUp 128 192 Mat fun j Mat => flip2 Mat i 2 identM64 (j - 128)
    let Mat ← forUp 64 128 Mat fun j Mat => flip2 Mat i 1 identM64 (j - 64)
    forUp 0 64 Mat fun j Mat => flip2 Mat i 0 identM64 j

/-- `upM256` — `/repo/test/RLUDMethod_test.c:284-350`.  Line 347 accesses `M[i][4]`. -/
def upM256 (rows : Rows) (Mat : M256) : CM M256 := do
  reseedInt
  let Mat ← forUp 0 64 Mat fun i Mat => do
    let Mat ← liftC do wr2 Mat i 0 (← rd identM64 i)
    let Mat ← forUp (i + 1) 64 Mat fun j Mat => flip2 Mat i 0 identM64 j
    let Mat ← forUp 64 128 Mat fun j Mat => flip2 Mat i 1 identM64 (j - 64)
    let Mat ← forUp 128 192 Mat fun j Mat => flip2 Mat i 2 identM64 (j - 128)
    forUp 192 256 Mat fun j Mat => flip2 Mat i 3 identM64 (j - 192)
  let Mat ← forUp 64 128 Mat fun i Mat => do
    let Mat ← liftC (wr2 Mat i 0 0)
    let Mat ← liftC do wr2 Mat i 1 (← rd identM64 (i - 64))
    let Mat ← forUp (i + 1) 128 Mat fun j Mat => flip2 Mat i 1 identM64 (j - 64)
    let Mat ← forUp 128 192 Mat fun j Mat => flip2 Mat i 2 identM64 (j - 128)
    forUp 192 256 Mat fun j Mat => flip2 Mat i 3 identM64 (j - 192)
  let Mat ← forUp 128 192 Mat fun i Mat => do
    let Mat ← liftC (wr2 Mat i 0 0)
    let Mat ← liftC (wr2 Mat i 1 0)
    let Mat ← liftC do wr2 Mat i 2 (← rd identM64 (i - 128))
    let Mat ← forUp (i + 1) 192 Mat fun j Mat => flip2 Mat i 2 identM64 (j - 128)
    forUp 192 256 Mat fun j Mat => flip2 Mat i 3 identM64 (j - 192)
  forUp 192 256 Mat fun i Mat => do
    let Mat ← liftC (wr2 Mat i 0 0)
    let Mat ← liftC (wr2 Mat i 1 0)
    let Mat ← liftC (wr2 Mat i 2 0)
    let Mat ← liftC do wr2 Mat i 3 (← rd identM64 (i - 192))
    forUp (i + 1) 256 Mat fun j Mat => flip2X rows Mat i 4 identM64 (j - 192)

/-- `InvTMatM4` — `/repo/test/RLUDMethod_test.c:352-370`. -/
def InvTMatM4 (env : Env) (Mat : M4) : CM M4 := do
  reseedInt
  let mat1 ← lowM4 (env.junkArr 8 4)
  let mat2 ← upM4 (env.junkArr 8 4)
  let mat3 ← liftC (MatMulMatM4 env mat1 mat2 (env.junkArr 8 4))
  let mat3 ← forUp 0 3 mat3 fun i mat3 => do
    let r ← cus_random
    liftC do
      let randpivot := i + 1 + (← umod r (BitVec.ofNat 32 (3 - i))).toNat
      swapRow mat3 i randpivot
  liftC (copyM4 mat3 Mat)

/-- `InvTMatM8` — `/repo/test/RLUDMethod_test.c:371-389`. -/
def InvTMatM8 (env : Env) (Mat : M8) : CM M8 := do
  reseedInt
  let mat1 ← lowM8 (env.junkArr 8 8)
  let mat2 ← upM8 (env.junkArr 8 8)
  let mat3 ← liftC (MatMulMatM8 env mat1 mat2 (env.junkArr 8 8))
  let mat3 ← forUp 0 7 mat3 fun i mat3 => do
    let r ← cus_random
    liftC do
      let randpivot := i + 1 + (← umod r (BitVec.ofNat 32 (7 - i))).toNat
      swapRow mat3 i randpivot
  liftC (copyM8 mat3 Mat)

/-- `InvTMatM16` — `/repo/test/RLUDMethod_test.c:390-408`. -/
def InvTMatM16 (env : Env) (Mat : M16) : CM M16 := do
  reseedInt
  let mat1 ← lowM16 (env.junkArr 16 16)
  let mat2 ← upM16 (env.junkArr 16 16)
  let mat3 ← liftC (MatMulMatM16 env mat1 mat2 (env.junkArr 16 16))
  let mat3 ← forUp 0 15 mat3 fun i mat3 => do
    let r ← cus_random
    liftC do
      let randpivot := i + 1 + (← umod r (BitVec.ofNat 32 (15 - i))).toNat
      swapRow mat3 i randpivot
  liftC (copyM16 mat3 Mat)

/-- `InvTMatM32` — `/repo/test/RLUDMethod_test.c:409-427`. -/
def InvTMatM32 (env : Env) (Mat : M32) : CM M32 := do
  reseedInt
  let mat1 ← lowM32 (env.junkArr 32 32)
  let mat2 ← upM32 (env.junkArr 32 32)
  let mat3 ← liftC (MatMulMatM32 env mat1 mat2 (env.junkArr 32 32))
  let mat3 ← forUp 0 31 mat3 fun i mat3 => do
    let r ← cus_random
    liftC do
      let randpivot := i + 1 + (← umod r (BitVec.ofNat 32 (31 - i))).toNat
      swapRow mat3 i randpivot
  liftC (copyM32 mat3 Mat)

/-- `InvTMatM64` — `/repo/test/RLUDMethod_test.c:428-446`. -/
def InvTMatM64 (env : Env) (Mat : M64) : CM M64 := do
  reseedInt
  let mat1 ← lowM64 (env.junkArr 64 64)
  let mat2 ← upM64 (env.junkArr 64 64)
  let mat3 ← liftC (MatMulMatM64 env mat1 mat2 (env.junkArr 64 64))
  let mat3 ← forUp 0 63 mat3 fun i mat3 => do
    let r ← cus_random
    liftC do
      let randpivot := i + 1 + (← umod r (BitVec.ofNat 32 (63 - i))).toNat
      swapRow mat3 i randpivot
  liftC (copyM64 mat3 Mat)

/-- `InvTMatM128` — `/repo/test/RLUDMethod_test.c:447-469`. -/
def InvTMatM128 (env : Env) (Mat : M128) : CM M128 := do
  reseedInt
  let mat1 ← lowM128 (env.junkArr2 64 2 128)
  let mat2 ← upM128 (env.junkArr2 64 2 128)
  let mat3 ← liftC (MatMulMatM128 env mat1 mat2 (env.junkArr2 64 2 128))
  let mat3 ← forUp 0 127 mat3 fun i mat3 => do
    let r ← cus_random
    liftC do
      let randpivot := i + 1 + (← umod r (BitVec.ofNat 32 (127 - i))).toNat
      swapWords [0, 1] mat3 i randpivot
  liftC (copyM128 mat3 Mat)

/-- `InvTMatM256` — `/repo/test/RLUDMethod_test.c:470-500`. -/
def InvTMatM256 (env : Env) (rows : Rows) (Mat : M256) : CM M256 := do
  reseedInt
  let mat1 ← lowM256 (env.junkArr2 64 4 256)
  let mat2 ← upM256 rows (env.junkArr2 64 4 256)
  let mat3 ← liftC (MatMulMatM256 env mat1 mat2 (env.junkArr2 64 4 256))
  let mat3 ← forUp 0 255 mat3 fun i mat3 => do
    let r ← cus_random
    liftC do
      let randpivot := i + 1 + (← umod r (BitVec.ofNat 32 (255 - i))).toNat
      swapWords [0, 1, 2, 3] mat3 i randpivot
  liftC (copyM256 mat3 Mat)

end WB.rlud
