import Verif.Model.M4
import Verif.Model.M8
import Verif.Model.M16
import Verif.Model.M32
import Verif.Model.M64
import Verif.Model.M128
import Verif.Model.M256

/-!
# The LowMC method — `/repo/test/LowMCMethod_text.cpp`

Generated by `tools/gen_lowmc.py`.  The program keeps the state of its bit generator in a static
variable of type `std::bitset<80>` (zero when the program starts).  Loops without a bound are given up
after `fuel` evaluations of their condition; running out is the outcome `Fault.diverge`.

Local matrices are not initialised before bits are xored onto them.  Their contents are `env.junk…`
(strictly, reading them is undefined in C++; the model describes what a program that goes on does).
The timing code in `main` is not modelled.
-/
namespace WB.lowmc

/-- Computations with the static variable `state` of `getrandbit`. -/
abbrev LM := StateT (BitVec 80) (Except Fault)

/-- The statements `tmp = state[0] ^ … ^ state[62]; state >>= 1; state[79] = tmp;` —
`/repo/test/LowMCMethod_text.cpp:39-42, 50-53, 55-58`. -/
def clock : LM Bool := do
  let state ← get
  let tmp := state.getLsbD 0 ^^ state.getLsbD 13 ^^ state.getLsbD 23 ^^ state.getLsbD 38 ^^
    state.getLsbD 51 ^^ state.getLsbD 62
  set ((state >>> 1) ||| ((BitVec.ofBool tmp).setWidth 80 <<< 79))
  pure tmp

/-- The loop `do { … } while (! choice);` — `/repo/test/LowMCMethod_text.cpp:47-59`. -/
def pairLoop : Nat → LM Bool
  | 0 => throw .diverge
  | fuel + 1 => do
    let choice ← clock
    let tmp ← clock
    if !choice then pairLoop fuel else pure tmp

/-- `getrandbit` — `/repo/test/LowMCMethod_text.cpp:29-61`. -/
def getrandbit (fuel : Nat) : LM Bool := do
  if (← get) = 0 then
    set (BitVec.allOnes 80)
    forUp 0 160 () fun _ _ => do
      let _ ← clock
      pure ()
  pairLoop fuel

/-- `while(cond) s = body(s);`, given up after `fuel` evaluations of the condition. -/
def whileL {σ : Type} (cond : σ → C Bool) (body : σ → LM σ) : Nat → σ → LM σ
  | 0, _ => throw .diverge
  | fuel + 1, s => do
    if ← cond s then
      let s ← body s
      whileL cond body fuel s
    else pure s

/-- `identM4` — `/repo/test/LowMCMethod_text.cpp:63`. -/
def identM4 : Vector (BitVec 8) 4 := #v[
  0x8, 0x4, 0x2, 0x1]

/-- `identM8` — `/repo/test/LowMCMethod_text.cpp:64`. -/
def identM8 : Vector (BitVec 8) 8 := #v[
  0x80, 0x40, 0x20, 0x10, 0x8, 0x4, 0x2, 0x1]

/-- `identM16` — `/repo/test/LowMCMethod_text.cpp:65`. -/
def identM16 : Vector (BitVec 16) 16 := #v[
  0x8000, 0x4000, 0x2000, 0x1000, 0x800, 0x400, 0x200, 0x100, 0x80, 0x40, 0x20, 0x10, 0x8, 0x4, 0x2,
  0x1]

/-- `identM32` — `/repo/test/LowMCMethod_text.cpp:66`. -/
def identM32 : Vector (BitVec 32) 32 := #v[
  0x80000000, 0x40000000, 0x20000000, 0x10000000, 0x8000000, 0x4000000, 0x2000000, 0x1000000,
  0x800000, 0x400000, 0x200000, 0x100000, 0x80000, 0x40000, 0x20000, 0x10000, 0x8000, 0x4000,
  0x2000, 0x1000, 0x800, 0x400, 0x200, 0x100, 0x80, 0x40, 0x20, 0x10, 0x8, 0x4, 0x2, 0x1]

/-- `identM64` — `/repo/test/LowMCMethod_text.cpp:67-68`. -/
def identM64 : Vector (BitVec 64) 64 := #v[
  0x8000000000000000, 0x4000000000000000, 0x2000000000000000, 0x1000000000000000, 0x800000000000000,
  0x400000000000000, 0x200000000000000, 0x100000000000000, 0x80000000000000, 0x40000000000000,
  0x20000000000000, 0x10000000000000, 0x8000000000000, 0x4000000000000, 0x2000000000000,
  0x1000000000000, 0x800000000000, 0x400000000000, 0x200000000000, 0x100000000000, 0x80000000000,
  0x40000000000, 0x20000000000, 0x10000000000, 0x8000000000, 0x4000000000, 0x2000000000,
  0x1000000000, 0x800000000, 0x400000000, 0x200000000, 0x100000000, 0x80000000, 0x40000000,
  0x20000000, 0x10000000, 0x8000000, 0x4000000, 0x2000000, 0x1000000, 0x800000, 0x400000, 0x200000,
  0x100000, 0x80000, 0x40000, 0x20000, 0x10000, 0x8000, 0x4000, 0x2000, 0x1000, 0x800, 0x400, 0x200,
  0x100, 0x80, 0x40, 0x20, 0x10, 0x8, 0x4, 0x2, 0x1]

/-- `RandbitMatM4` — `/repo/test/LowMCMethod_text.cpp:70-80`. -/
def RandbitMatM4 (fuel : Nat) (Mat : M4) : LM M4 :=
  forUp 0 4 Mat fun i Mat =>
    forUp 0 4 Mat fun j Mat => do
      if ← getrandbit fuel then wr Mat i ((← rd Mat i) ^^^ (← rd identM4 j)) else pure Mat

/-- `InvTMatM4` — `/repo/test/LowMCMethod_text.cpp:81-90`; the loop is given up after `tries` tests. -/
def InvTMatM4 (env : Env) (fuel tries : Nat) (Mat : M4) : LM M4 := do
  let temp ← RandbitMatM4 fuel (env.junkArr 8 4)
  let temp ← whileL (fun temp => do pure ((← isinvertM4 temp) == 0)) (RandbitMatM4 fuel) tries temp
  copyM4 temp Mat

/-- `RandbitMatM8` — `/repo/test/LowMCMethod_text.cpp:91-101`. -/
def RandbitMatM8 (fuel : Nat) (Mat : M8) : LM M8 :=
  forUp 0 8 Mat fun i Mat =>
    forUp 0 8 Mat fun j Mat => do
      if ← getrandbit fuel then wr Mat i ((← rd Mat i) ^^^ (← rd identM8 j)) else pure Mat

/-- `InvTMatM8` — `/repo/test/LowMCMethod_text.cpp:102-111`; the loop is given up after `tries` tests. -/
def InvTMatM8 (env : Env) (fuel tries : Nat) (Mat : M8) : LM M8 := do
  let temp ← RandbitMatM8 fuel (env.junkArr 8 8)
  let temp ← whileL (fun temp => do pure ((← isinvertM8 temp) == 0)) (RandbitMatM8 fuel) tries temp
  copyM8 temp Mat

/-- `RandbitMatM16` — `/repo/test/LowMCMethod_text.cpp:112-122`. -/
def RandbitMatM16 (fuel : Nat) (Mat : M16) : LM M16 :=
  forUp 0 16 Mat fun i Mat =>
    forUp 0 16 Mat fun j Mat => do
      if ← getrandbit fuel then wr Mat i ((← rd Mat i) ^^^ (← rd identM16 j)) else pure Mat

/-- `InvTMatM16` — `/repo/test/LowMCMethod_text.cpp:123-132`; the loop is given up after `tries` tests. -/
def InvTMatM16 (env : Env) (fuel tries : Nat) (Mat : M16) : LM M16 := do
  let temp ← RandbitMatM16 fuel (env.junkArr 16 16)
  let temp ← whileL (fun temp => do pure ((← isinvertM16 temp) == 0)) (RandbitMatM16 fuel) tries temp
  copyM16 temp Mat

/-- `RandbitMatM32` — `/repo/test/LowMCMethod_text.cpp:133-143`. -/
def RandbitMatM32 (fuel : Nat) (Mat : M32) : LM M32 :=
  forUp 0 32 Mat fun i Mat =>
    forUp 0 32 Mat fun j Mat => do
      if ← getrandbit fuel then wr Mat i ((← rd Mat i) ^^^ (← rd identM32 j)) else pure Mat

/-- `InvTMatM32` — `/repo/test/LowMCMethod_text.cpp:144-153`; the loop is given up after `tries` tests. -/
def InvTMatM32 (env : Env) (fuel tries : Nat) (Mat : M32) : LM M32 := do
  let temp ← RandbitMatM32 fuel (env.junkArr 32 32)
  let temp ← whileL (fun temp => do pure ((← isinvertM32 temp) == 0)) (RandbitMatM32 fuel) tries temp
  copyM32 temp Mat

/-- `RandbitMatM64` — `/repo/test/LowMCMethod_text.cpp:154-164`. -/
def RandbitMatM64 (fuel : Nat) (Mat : M64) : LM M64 :=
  forUp 0 64 Mat fun i Mat =>
    forUp 0 64 Mat fun j Mat => do
      if ← getrandbit fuel then wr Mat i ((← rd Mat i) ^^^ (← rd identM64 j)) else pure Mat

/-- `InvTMatM64` — `/repo/test/LowMCMethod_text.cpp:165-174`; the loop is given up after `tries` tests. -/
def InvTMatM64 (env : Env) (fuel tries : Nat) (Mat : M64) : LM M64 := do
  let temp ← RandbitMatM64 fuel (env.junkArr 64 64)
  let temp ← whileL (fun temp => do pure ((← isinvertM64 temp) == 0)) (RandbitMatM64 fuel) tries temp
  copyM64 temp Mat

/-- The statement `if(getrandbit()) (*Mat).M[i][k] ^= identM64[j];` —
`/repo/test/LowMCMethod_text.cpp:182-183, 204-207`. -/
def bitInto {l n : Nat} (fuel : Nat) (Mat : Vector (Vector (BitVec 64) l) n) (i j k : Nat) :
    LM (Vector (Vector (BitVec 64) l) n) := do
  if ← getrandbit fuel then wr2 Mat i k ((← rd2 Mat i k) ^^^ (← rd identM64 j)) else pure Mat

/-- `RandbitMatM128` — `/repo/test/LowMCMethod_text.cpp:175-186`. -/
def RandbitMatM128 (fuel : Nat) (Mat : M128) : LM M128 :=
  forUp 0 128 Mat fun i Mat =>
    forUp 0 64 Mat fun j Mat => do
      let Mat ← bitInto fuel Mat i j 0
      bitInto fuel Mat i j 1

/-- `InvTMatM128` — `/repo/test/LowMCMethod_text.cpp:187-196`; the loop is given up after `tries` tests. -/
def InvTMatM128 (env : Env) (fuel tries : Nat) (Mat : M128) : LM M128 := do
  let temp ← RandbitMatM128 fuel (env.junkArr2 64 2 128)
  let temp ← whileL (fun temp => do pure ((← isinvertM128 temp) == 0)) (RandbitMatM128 fuel) tries temp
  copyM128 temp Mat

/-- `RandbitMatM256` — `/repo/test/LowMCMethod_text.cpp:197-210`. -/
def RandbitMatM256 (fuel : Nat) (Mat : M256) : LM M256 :=
  forUp 0 256 Mat fun i Mat =>
    forUp 0 64 Mat fun j Mat => do
      let Mat ← bitInto fuel Mat i j 0
      let Mat ← bitInto fuel Mat i j 1
      let Mat ← bitInto fuel Mat i j 2
      bitInto fuel Mat i j 3

/-- `InvTMatM256` — `/repo/test/LowMCMethod_text.cpp:211-220`; the loop is given up after `tries` tests. -/
def InvTMatM256 (env : Env) (fuel tries : Nat) (Mat : M256) : LM M256 := do
  let temp ← RandbitMatM256 fuel (env.junkArr2 64 4 256)
  let temp ← whileL (fun temp => do pure ((← isinvertM256 temp) == 0)) (RandbitMatM256 fuel) tries temp
  copyM256 temp Mat

end WB.lowmc
