import Verif.C

/-!
# Data types, constant tables and the random number generator

Generated once by `tools/gen_basic.py` (the tables are copied from the C text).
C structs with a single member are modelled by that member.
-/
namespace WB

/-! ## Types — `/repo/include/WBMatrix/structure.h` -/

/-- `M4`: `uint8_t M[4]`; row `i` is the word `M[i]`. -/
abbrev M4 := Vector (BitVec 8) 4
/-- `V4`: `uint8_t V`. -/
abbrev V4 := BitVec 8
/-- `M8`: `uint8_t M[8]`; row `i` is the word `M[i]`. -/
abbrev M8 := Vector (BitVec 8) 8
/-- `V8`: `uint8_t V`. -/
abbrev V8 := BitVec 8
/-- `M16`: `uint16_t M[16]`; row `i` is the word `M[i]`. -/
abbrev M16 := Vector (BitVec 16) 16
/-- `V16`: `uint16_t V`. -/
abbrev V16 := BitVec 16
/-- `M32`: `uint32_t M[32]`; row `i` is the word `M[i]`. -/
abbrev M32 := Vector (BitVec 32) 32
/-- `V32`: `uint32_t V`. -/
abbrev V32 := BitVec 32
/-- `M64`: `uint64_t M[64]`; row `i` is the word `M[i]`. -/
abbrev M64 := Vector (BitVec 64) 64
/-- `V64`: `uint64_t V`. -/
abbrev V64 := BitVec 64
/-- `M128`: `uint64_t M[128][2]`. -/
abbrev M128 := Vector (Vector (BitVec 64) 2) 128
/-- `V128`: `uint64_t V[2]`. -/
abbrev V128 := Vector (BitVec 64) 2
/-- `M256`: `uint64_t M[256][4]`. -/
abbrev M256 := Vector (Vector (BitVec 64) 4) 256
/-- `V256`: `uint64_t V[4]`. -/
abbrev V256 := Vector (BitVec 64) 4
/-- `Aff4`: an affine map `x ↦ Mat·x + Vec`. -/
structure Aff4 where
  Mat : M4
  Vec : V4
/-- `Aff8`: an affine map `x ↦ Mat·x + Vec`. -/
structure Aff8 where
  Mat : M8
  Vec : V8
/-- `Aff16`: an affine map `x ↦ Mat·x + Vec`. -/
structure Aff16 where
  Mat : M16
  Vec : V16
/-- `Aff32`: an affine map `x ↦ Mat·x + Vec`. -/
structure Aff32 where
  Mat : M32
  Vec : V32
/-- `Aff64`: an affine map `x ↦ Mat·x + Vec`. -/
structure Aff64 where
  Mat : M64
  Vec : V64
/-- `Aff128`: an affine map `x ↦ Mat·x + Vec`. -/
structure Aff128 where
  Mat : M128
  Vec : V128
/-- `Aff256`: an affine map `x ↦ Mat·x + Vec`. -/
structure Aff256 where
  Mat : M256
  Vec : V256

/-! ## Tables -/

set_option maxRecDepth 4096 in
/-- 8-bit parity table `xor[]` — `/repo/src/WBMatrix/WBMatrix.c:6-18`. -/
def xorTab : Vector Int 256 :=
  #v[0, 1, 1, 0, 1, 0, 0, 1, 1, 0, 0, 1, 0, 1, 1, 0, 1, 0, 0, 1, 0, 1, 1, 0, 0, 1, 1, 0, 1, 0, 0, 1,
    1, 0, 0, 1, 0, 1, 1, 0, 0, 1, 1, 0, 1, 0, 0, 1, 0, 1, 1, 0, 1, 0, 0, 1, 1, 0, 0, 1, 0, 1, 1, 0,
    1, 0, 0, 1, 0, 1, 1, 0, 0, 1, 1, 0, 1, 0, 0, 1, 0, 1, 1, 0, 1, 0, 0, 1, 1, 0, 0, 1, 0, 1, 1, 0,
    0, 1, 1, 0, 1, 0, 0, 1, 1, 0, 0, 1, 0, 1, 1, 0, 1, 0, 0, 1, 0, 1, 1, 0, 0, 1, 1, 0, 1, 0, 0, 1,
    1, 0, 0, 1, 0, 1, 1, 0, 0, 1, 1, 0, 1, 0, 0, 1, 0, 1, 1, 0, 1, 0, 0, 1, 1, 0, 0, 1, 0, 1, 1, 0,
    0, 1, 1, 0, 1, 0, 0, 1, 1, 0, 0, 1, 0, 1, 1, 0, 1, 0, 0, 1, 0, 1, 1, 0, 0, 1, 1, 0, 1, 0, 0, 1,
    0, 1, 1, 0, 1, 0, 0, 1, 1, 0, 0, 1, 0, 1, 1, 0, 1, 0, 0, 1, 0, 1, 1, 0, 0, 1, 1, 0, 1, 0, 0, 1,
    1, 0, 0, 1, 0, 1, 1, 0, 0, 1, 1, 0, 1, 0, 0, 1, 0, 1, 1, 0, 1, 0, 0, 1, 1, 0, 0, 1, 0, 1, 1, 0]

set_option maxRecDepth 4096 in
/-- 8-bit Hamming weight table `HW[]` — `/repo/src/WBMatrix/WBMatrix.c:21-33`. -/
def hwTab : Vector Int 256 :=
  #v[0, 1, 1, 2, 1, 2, 2, 3, 1, 2, 2, 3, 2, 3, 3, 4, 1, 2, 2, 3, 2, 3, 3, 4, 2, 3, 3, 4, 3, 4, 4, 5,
    1, 2, 2, 3, 2, 3, 3, 4, 2, 3, 3, 4, 3, 4, 4, 5, 2, 3, 3, 4, 3, 4, 4, 5, 3, 4, 4, 5, 4, 5, 5, 6,
    1, 2, 2, 3, 2, 3, 3, 4, 2, 3, 3, 4, 3, 4, 4, 5, 2, 3, 3, 4, 3, 4, 4, 5, 3, 4, 4, 5, 4, 5, 5, 6,
    2, 3, 3, 4, 3, 4, 4, 5, 3, 4, 4, 5, 4, 5, 5, 6, 3, 4, 4, 5, 4, 5, 5, 6, 4, 5, 5, 6, 5, 6, 6, 7,
    1, 2, 2, 3, 2, 3, 3, 4, 2, 3, 3, 4, 3, 4, 4, 5, 2, 3, 3, 4, 3, 4, 4, 5, 3, 4, 4, 5, 4, 5, 5, 6,
    2, 3, 3, 4, 3, 4, 4, 5, 3, 4, 4, 5, 4, 5, 5, 6, 3, 4, 4, 5, 4, 5, 5, 6, 4, 5, 5, 6, 5, 6, 6, 7,
    2, 3, 3, 4, 3, 4, 4, 5, 3, 4, 4, 5, 4, 5, 5, 6, 3, 4, 4, 5, 4, 5, 5, 6, 4, 5, 5, 6, 5, 6, 6, 7,
    3, 4, 4, 5, 4, 5, 5, 6, 4, 5, 5, 6, 5, 6, 6, 7, 4, 5, 5, 6, 5, 6, 6, 7, 5, 6, 6, 7, 6, 7, 7, 8]

/-- `idM4[]` — `/repo/src/WBMatrix/WBMatrix.c:35-35`. -/
def idM4 : Vector (BitVec 8) 4 :=
  #v[0x08, 0x04, 0x02, 0x01]

/-- `idM8[]` — `/repo/src/WBMatrix/WBMatrix.c:36-36`. -/
def idM8 : Vector (BitVec 8) 8 :=
  #v[0x80, 0x40, 0x20, 0x10, 0x08, 0x04, 0x02, 0x01]

/-- `idM16[]` — `/repo/src/WBMatrix/WBMatrix.c:37-37`. -/
def idM16 : Vector (BitVec 16) 16 :=
  #v[0x8000, 0x4000, 0x2000, 0x1000, 0x800, 0x400, 0x200, 0x100,
    0x80, 0x40, 0x20, 0x10, 0x8, 0x4, 0x2, 0x1]

/-- `idM32[]` — `/repo/src/WBMatrix/WBMatrix.c:38-38`. -/
def idM32 : Vector (BitVec 32) 32 :=
  #v[0x80000000, 0x40000000, 0x20000000, 0x10000000, 0x8000000, 0x4000000, 0x2000000, 0x1000000,
    0x800000, 0x400000, 0x200000, 0x100000, 0x80000, 0x40000, 0x20000, 0x10000,
    0x8000, 0x4000, 0x2000, 0x1000, 0x800, 0x400, 0x200, 0x100,
    0x80, 0x40, 0x20, 0x10, 0x8, 0x4, 0x2, 0x1]

/-- `idM64[]` — `/repo/src/WBMatrix/WBMatrix.c:39-40`. -/
def idM64 : Vector (BitVec 64) 64 :=
  #v[0x8000000000000000, 0x4000000000000000, 0x2000000000000000, 0x1000000000000000, 0x800000000000000, 0x400000000000000, 0x200000000000000, 0x100000000000000,
    0x80000000000000, 0x40000000000000, 0x20000000000000, 0x10000000000000, 0x8000000000000, 0x4000000000000, 0x2000000000000, 0x1000000000000,
    0x800000000000, 0x400000000000, 0x200000000000, 0x100000000000, 0x80000000000, 0x40000000000, 0x20000000000, 0x10000000000,
    0x8000000000, 0x4000000000, 0x2000000000, 0x1000000000, 0x800000000, 0x400000000, 0x200000000, 0x100000000,
    0x80000000, 0x40000000, 0x20000000, 0x10000000, 0x8000000, 0x4000000, 0x2000000, 0x1000000,
    0x800000, 0x400000, 0x200000, 0x100000, 0x80000, 0x40000, 0x20000, 0x10000,
    0x8000, 0x4000, 0x2000, 0x1000, 0x800, 0x400, 0x200, 0x100,
    0x80, 0x40, 0x20, 0x10, 0x8, 0x4, 0x2, 0x1]

/-! ## Random numbers — `/repo/src/WBMatrix/random.c` -/

/-- `permuteQPR` — `/repo/src/WBMatrix/random.c:6-13`.
The product is computed in `unsigned long long` (64 bits), the result is converted back to
`unsigned int`. -/
def permuteQPR (x : BitVec 32) : BitVec 32 :=
  let prime : BitVec 32 := 4294967291#32
  if prime ≤ x then x
  else
    let residue : BitVec 32 :=
      ((x.setWidth 64 * x.setWidth 64).umod (prime.setWidth 64)).setWidth 32
    if x ≤ prime.udiv 2#32 then residue else prime - residue

/-- `InitRandom` — `/repo/src/WBMatrix/random.c:15-20`. -/
def InitRandom (seedBase : BitVec 32) : CM Unit :=
  modify fun w =>
    let seedOffset := seedBase + 1#32
    { w with
      m_index := permuteQPR (permuteQPR seedBase + 0x682f0161#32)
      m_intermediateOffset := permuteQPR (permuteQPR seedOffset + 0x46790905#32) }

/-- `cus_random` — `/repo/src/WBMatrix/random.c:22-25`. -/
def cus_random : CM (BitVec 32) :=
  modifyGet fun w =>
    (permuteQPR ((permuteQPR w.m_index + w.m_intermediateOffset) ^^^ 0x5bf03635#32),
     { w with m_index := w.m_index + 1#32 })

/-- `SetRandSeed` — `/repo/src/WBMatrix/WBMatrix.c:42-45`. -/
def SetRandSeed (seed : BitVec 32) : CM Unit :=
  modify fun w => { w with randseed := seed }

/-- The expression `(randseed++)`: the value is the old counter, the counter is increased
(`unsigned int`, wraps around). -/
def randseedPostInc : CM (BitVec 32) :=
  modifyGet fun w => (w.randseed, { w with randseed := w.randseed + 1#32 })

/-- The expression `(unsigned int)time(NULL)`. -/
def timeNow : CM (BitVec 32) :=
  modifyGet fun w => (w.clock w.now, { w with now := w.now + 1 })

/-- The statement `InitRandom((randseed++) ^ ((unsigned int)time(NULL)));` that starts most
random functions (e.g. `/repo/src/WBMatrix/WBMatrix.c:142`). -/
def reseed : CM Unit := do
  InitRandom ((← randseedPostInc) ^^^ (← timeNow))

/-- Run a computation that does not use the global variables. -/
def liftC {α : Type} (x : C α) : CM α := fun w =>
  match x with
  | .ok a => .ok (a, w)
  | .error e => .error e

/-! ## Output -/

/-- An argument of `printf` after the default argument promotions. `uint8_t` and `uint16_t` arguments
are promoted to `int`; their values are not negative, so they may be printed with `%x` and are passed as
`u32` here. `uint64_t` is taken to be `unsigned long long`. -/
inductive Arg where
  | i32 (v : BitVec 32)
  | u32 (v : BitVec 32)
  | u64 (v : BitVec 64)

/-- The text `printf` produces, for formats with the conversions `%d`, `%x` and `%llx`. A conversion
without a matching argument is undefined behaviour. -/
def fmtOut : List Char → List Arg → C (List Char)
  | '%' :: 'd' :: rest, .i32 v :: args => do pure (v.toInt.repr.toList ++ (← fmtOut rest args))
  | '%' :: 'x' :: rest, .u32 v :: args => do pure (Nat.toDigits 16 v.toNat ++ (← fmtOut rest args))
  | '%' :: 'l' :: 'l' :: 'x' :: rest, .u64 v :: args => do
    pure (Nat.toDigits 16 v.toNat ++ (← fmtOut rest args))
  | '%' :: _, _ => .error .badFormat
  | c :: rest, args => do pure (c :: (← fmtOut rest args))
  | [], _ => pure []

/-- `printf(format, args...)`: append the text to the standard output. -/
def printf (format : String) (args : List Arg) : CM Unit := do
  let s ← liftC (fmtOut format.toList args)
  modify fun w => { w with out := w.out ++ s }

/-! ## State of the pair generators -/

/-- Local variables of the `genMatpairM*` functions that live across its loops
(e.g. `/repo/src/WBMatrix/WBMatrix.c:2454-2460`) together with the output `*Mat_inv`.
`times` is a C `int` that only ever counts up from 0; `invertible` is used as a boolean. -/
structure GenSt (α : Type) (t : Nat) where
  tempMat : α
  Mat_inv : α
  trail : Vector (Vector (BitVec 8) 3) t
  times : Nat
  invertible : Bool

/-- The statements `trail[times][0] = op; trail[times][1] = a; trail[times][2] = b; times++;`
(e.g. `/repo/src/WBMatrix/WBMatrix.c:2478-2481`).  The `int` indices are converted to
`uint8_t`. -/
def GenSt.record {α : Type} {t : Nat} (s : GenSt α t) (op : BitVec 8) (a b : Nat) :
    C (GenSt α t) := do
  let trail ← wr2 s.trail s.times 0 op
  let trail ← wr2 trail s.times 1 (BitVec.ofNat 8 a)
  let trail ← wr2 trail s.times 2 (BitVec.ofNat 8 b)
  pure { s with trail := trail, times := s.times + 1 }

end WB
