#!/usr/bin/env python3
"""Generates lean/Verif/Model/Basic.lean (types, tables, generator)."""
from genlib import *
o=[]
w=o.append
w('''import Verif.C

/-!
# Data types, constant tables and the random number generator

Generated once by `tools/gen_basic.py` (the tables are copied from the C text).
C structs with a single member are modelled by that member.
-/
namespace WB

/-! ## Types — `/repo/include/WBMatrix/structure.h` -/
''')
for n in (4,8,16,32,64):
    b=max(8,n)
    w(f'/-- `M{n}`: `uint{b}_t M[{n}]`; row `i` is the word `M[i]`. -/\nabbrev M{n} := Vector (BitVec {b}) {n}')
    w(f'/-- `V{n}`: `uint{b}_t V`. -/\nabbrev V{n} := BitVec {b}')
for n in (128,256):
    w(f'/-- `M{n}`: `uint64_t M[{n}][{n//64}]`. -/\nabbrev M{n} := Vector (Vector (BitVec 64) {n//64}) {n}')
    w(f'/-- `V{n}`: `uint64_t V[{n//64}]`. -/\nabbrev V{n} := Vector (BitVec 64) {n//64}')
for n in (4,8,16,32,64,128,256):
    w(f'/-- `Aff{n}`: an affine map `x ↦ Mat·x + Vec`. -/\nstructure Aff{n} where\n  Mat : M{n}\n  Vec : V{n}')
w('\n/-! ## Tables -/\n')
def wrap(xs,k=16):
    return ',\n    '.join(', '.join(xs[i:i+k]) for i in range(0,len(xs),k))
for c,l,doc in (('xor','xorTab','8-bit parity table `xor[]`'),('HW','hwTab','8-bit Hamming weight table `HW[]`')):
    t,a,b=table(c)
    assert len(t)==256, len(t)
    w(f"set_option maxRecDepth 4096 in")
    w(f'/-- {doc} — `/repo/src/WBMatrix/WBMatrix.c:{a}-{b}`. -/\ndef {l} : Vector Int 256 :=\n  #v[{wrap(t,32)}]\n')
for n in (4,8,16,32,64):
    t,a,b=table('idM%d'%n)
    assert len(t)==n
    bb=max(8,n)
    w(f'/-- `idM{n}[]` — `/repo/src/WBMatrix/WBMatrix.c:{a}-{b}`. -/\ndef idM{n} : Vector (BitVec {bb}) {n} :=\n  #v[{wrap(t,8)}]\n')
w('''/-! ## Random numbers — `/repo/src/WBMatrix/random.c` -/

/-- `permuteQPR` — `/repo/src/WBMatrix/random.c:6-13`.
The product is computed in `unsigned long long` (64 bits), the result is converted back to
`unsigned int`. -/
def permuteQPR (x : BitVec 32) : BitVec 32 :=
  let prime : BitVec 32 := 4294967291#32
  if prime ≤ x then x
  else
    let residue : BitVec 32 :=
      ((x.setWidth 64 * x.setWidth 64).umod (prime.setWidth 64)).setWidth 32
    if x ≤ prime.udiv 2#32 then residue else prime - residue

/-- `InitRandom` — `/repo/src/WBMatrix/random.c:15-20`. -/
def InitRandom (seedBase : BitVec 32) : CM Unit :=
  modify fun w =>
    let seedOffset := seedBase + 1#32
    { w with
      m_index := permuteQPR (permuteQPR seedBase + 0x682f0161#32)
      m_intermediateOffset := permuteQPR (permuteQPR seedOffset + 0x46790905#32) }

/-- `cus_random` — `/repo/src/WBMatrix/random.c:22-25`. -/
def cus_random : CM (BitVec 32) :=
  modifyGet fun w =>
    (permuteQPR ((permuteQPR w.m_index + w.m_intermediateOffset) ^^^ 0x5bf03635#32),
     { w with m_index := w.m_index + 1#32 })

/-- `SetRandSeed` — `/repo/src/WBMatrix/WBMatrix.c:42-45`. -/
def SetRandSeed (seed : BitVec 32) : CM Unit :=
  modify fun w => { w with randseed := seed }

/-- The expression `(randseed++)`: the value is the old counter, the counter is increased
(`unsigned int`, wraps around). -/
def randseedPostInc : CM (BitVec 32) :=
  modifyGet fun w => (w.randseed, { w with randseed := w.randseed + 1#32 })

/-- The expression `(unsigned int)time(NULL)`. -/
def timeNow : CM (BitVec 32) :=
  modifyGet fun w => (w.clock w.now, { w with now := w.now + 1 })

/-- The statement `InitRandom((randseed++) ^ ((unsigned int)time(NULL)));` that starts most
random functions (e.g. `/repo/src/WBMatrix/WBMatrix.c:142`). -/
def reseed : CM Unit := do
  InitRandom ((← randseedPostInc) ^^^ (← timeNow))

/-- Run a computation that does not use the global variables. -/
def liftC {α : Type} (x : C α) : CM α := fun w =>
  match x with
  | .ok a => .ok (a, w)
  | .error e => .error e

/-! ## Output -/

/-- An argument of `printf` after the default argument promotions. `uint8_t` and `uint16_t` arguments
are promoted to `int`; their values are not negative, so they may be printed with `%x` and are passed as
`u32` here. `uint64_t` is taken to be `unsigned long long`. -/
inductive Arg where
  | i32 (v : BitVec 32)
  | u32 (v : BitVec 32)
  | u64 (v : BitVec 64)

/-- The text `printf` produces, for formats with the conversions `%d`, `%x` and `%llx`. A conversion
without a matching argument is undefined behaviour. -/
def fmtOut : List Char → List Arg → C (List Char)
  | '%' :: 'd' :: rest, .i32 v :: args => do pure (v.toInt.repr.toList ++ (← fmtOut rest args))
  | '%' :: 'x' :: rest, .u32 v :: args => do pure (Nat.toDigits 16 v.toNat ++ (← fmtOut rest args))
  | '%' :: 'l' :: 'l' :: 'x' :: rest, .u64 v :: args => do
    pure (Nat.toDigits 16 v.toNat ++ (← fmtOut rest args))
  | '%' :: _, _ => .error .badFormat
  | c :: rest, args => do pure (c :: (← fmtOut rest args))
  | [], _ => pure []

/-- `printf(format, args...)`: append the text to the standard output. -/
def printf (format : String) (args : List Arg) : CM Unit := do
  let s ← liftC (fmtOut format.toList args)
  modify fun w => { w with out := w.out ++ s }

/-! ## State of the pair generators -/

/-- Local variables of the `genMatpairM*` functions that live across its loops
(e.g. `/repo/src/WBMatrix/WBMatrix.c:2454-2460`) together with the output `*Mat_inv`.
`times` is a C `int` that only ever counts up from 0; `invertible` is used as a boolean. -/
structure GenSt (α : Type) (t : Nat) where
  tempMat : α
  Mat_inv : α
  trail : Vector (Vector (BitVec 8) 3) t
  times : Nat
  invertible : Bool

/-- The statements `trail[times][0] = op; trail[times][1] = a; trail[times][2] = b; times++;`
(e.g. `/repo/src/WBMatrix/WBMatrix.c:2478-2481`).  The `int` indices are converted to
`uint8_t`. -/
def GenSt.record {α : Type} {t : Nat} (s : GenSt α t) (op : BitVec 8) (a b : Nat) :
    C (GenSt α t) := do
  let trail ← wr2 s.trail s.times 0 op
  let trail ← wr2 trail s.times 1 (BitVec.ofNat 8 a)
  let trail ← wr2 trail s.times 2 (BitVec.ofNat 8 b)
  pure { s with trail := trail, times := s.times + 1 }

end WB''')
open('/verif/lean/Verif/Model/Basic.lean','w').write('\n'.join(o)+'\n')
