#!/usr/bin/env python3
"""Generates lean/Verif/Model/M{4,8,16,32,64}.lean: the single-word matrix sizes.

The C text of these five sizes is identical up to the size (checked by tools/check_uniform.py),
except for the nibble masks of the 4-bit versions and the sub-word stores of the 64-bit random
functions; the generator reproduces exactly these differences."""
from genlib import *
MASKS={4:['0x5','0x3'],8:['0x55','0x33','0x0f'],16:['0x5555','0x3333','0x0f0f','0x00ff'],
 32:['0x55555555','0x33333333','0x0f0f0f0f','0x00ff00ff','0x0000ffff'],
 64:['0x5555555555555555','0x3333333333333333','0x0f0f0f0f0f0f0f0f','0x00ff00ff00ff00ff','0x0000ffff0000ffff','0x00000000ffffffff']}
TOP={4:'0x08',8:'0x80',16:'0x8000',32:'0x80000000',64:'0x8000000000000000'}
def parg(n, v):
    if n == 64: return f'.u64 {v}'
    if n == 32: return f'.u32 {v}'
    return f'.u32 ({v}.setWidth 32)'

def gen(n):
    b=max(8,n); o=[]; w=o.append
    M=f'M{n}'; V=f'V{n}'; I=f'idM{n}'; L=len(MASKS[n]); nib=' &&& 0x0f' if n==4 else ''
    def d(f,extra=''): w('/-- '+cite(f)+((' '+extra) if extra else '')+' -/')
    w(f'''import Verif.Model.Basic

/-!
# {n}-bit functions of `/repo/src/WBMatrix/WBMatrix.c`

Generated once by `tools/gen_small.py`; kept under version control as source.
A parameter that is an output pointer in C carries the old contents of its target and the
function returns the new contents.
-/
namespace WB
''')
    d(f'init{M}'); w(f'def init{M} (Mat : {M}) : C {M} :=\n  forUp 0 {n} Mat fun i Mat => wr Mat i 0\n')
    d(f'init{V}'); w(f'def init{V} (_Vec : {V}) : C {V} := pure 0\n')
    if n<=32:
        val = '((← cus_random) &&& 0x0f).setWidth 8' if n==4 else (f'((← cus_random).setWidth {n})' if n!=32 else '(← cus_random)')
        val = f'({val})' if n==4 else val
        d(f'rand{M}'); w(f'''def rand{M} (Mat : {M}) : CM {M} := do
  reseed
  forUp 0 {n} Mat fun i Mat => do
    let r ← cus_random
    liftC (wr Mat i ({'(r &&& 0x0f).setWidth 8' if n==4 else ('r' if n==32 else f'r.setWidth {n}')}))
''')
        d(f'rand{V}'); w(f'''def rand{V} (_Vec : {V}) : CM {V} := do
  reseed
  let r ← cus_random
  pure ({'(r &&& 0x0f).setWidth 8' if n==4 else ('r' if n==32 else f'r.setWidth {n}')})
''')
    else:
        d(f'rand{M}','The `uint32_t*` pointer `m` writes first the cell `m + 1`, then the cell `m`.')
        w(f'''def rand{M} (env : Env) (Mat : {M}) : CM {M} := do
  reseed
  forUp 0 {n} Mat fun i Mat => do
    let r ← cus_random
    let Mat ← liftC do wr Mat i (← env.stSub (← rd Mat i) 1 r)
    let r ← cus_random
    liftC do wr Mat i (← env.stSub (← rd Mat i) 0 r)
''')
        d(f'rand{V}','There is no `InitRandom` in this function.')
        w(f'''def rand{V} (env : Env) (Vec : {V}) : CM {V} := do
  let r ← cus_random
  let Vec ← liftC (env.stSub Vec 1 r)
  let r ← cus_random
  liftC (env.stSub Vec 0 r)
''')
    d(f'identity{M}'); w(f'def identity{M} (Mat : {M}) : C {M} :=\n  forUp 0 {n} Mat fun i Mat => do wr Mat i (← rd {I} i)\n')
    d(f'print{M}'); w(f'''def print{M} (Mat : {M}) : CM Unit :=
  forUp 0 {n} () fun i _ => do
    printf "0x{"%llx" if n == 64 else "%x"}\\n" [{parg(n, "(← liftC (rd Mat i))")}]
''')
    d(f'print{V}'); w(f'''def print{V} (Vec : {V}) : CM Unit := do
  printf "0x{"%llx" if n == 64 else "%x"}\\n" [{parg(n, "Vec")}]
''')
    d(f'copy{M}'); w(f'def copy{M} (Mat1 Mat2 : {M}) : C {M} :=\n  forUp 0 {n} Mat2 fun i Mat2 => do wr Mat2 i (← rd Mat1 i)\n')
    d(f'isequal{M}'); w(f'''def isequal{M} (Mat1 Mat2 : {M}) : C Int := do
  let r ← forRet (ρ := Int) 0 {n} () fun i _ => do
    if (← rd Mat1 i) != (← rd Mat2 i) then pure (.stop 0) else pure (.next ())
  match r with
  | .stop r => pure r
  | .next _ => pure 1
''')
    d(f'isequal{V}'); w(f'''def isequal{V} (Vec1 Vec2 : {V}) : C Int :=
  if Vec1 != Vec2 then pure 0 else pure 1
''')
    d(f'readbit{M}'); w(f'''def readbit{M} (Mat : {M}) (i j : Int) : C Int := do
  let x ← rdI Mat i
  let m ← rdI {I} j
  if x &&& m == m then pure 1 else pure 0
''')
    d(f'flipbit{M}'); w(f'''def flipbit{M} (Mat : {M}) (i j : Int) : C {M} := do
  wrI Mat i ((← rdI Mat i) ^^^ (← rdI {I} j))
''')
    d(f'setbit{M}'); w(f'''def setbit{M} (Mat : {M}) (i j bit : Int) : C {M} := do
  if (← readbit{M} Mat i j) == bit then pure Mat else flipbit{M} Mat i j
''')
    d(f'isinvert{M}','`Mat` is a by-value copy that the function destroys.')
    w(f'''def isinvert{M} (Mat : {M}) : C Int := do
  let r ← forRet (ρ := Int) 0 {n} Mat fun i Mat => do
    if ← hasBit Mat i {I} i then
      let Mat ← forUp (i + 1) {n} Mat fun j Mat => do
        if ← hasBit Mat j {I} i then xorRow Mat j i else pure Mat
      pure (.next Mat)
    else
      let (Mat, flag) ← forBrk (i + 1) {n} (Mat, true) fun j (Mat, flag) => do
        if ← hasBit Mat j {I} i then
          let Mat ← swapRow Mat i j
          pure (.stop (Mat, false))
        else pure (.next (Mat, flag))
      if flag then pure (.stop 0)
      else
        let Mat ← forUp (i + 1) {n} Mat fun k Mat => do
          if ← hasBit Mat k {I} i then xorRow Mat k i else pure Mat
        pure (.next Mat)
  match r with
  | .stop r => pure r
  | .next Mat => do
    if (← rd Mat {n-1}) == (← rd {I} {n-1}) then pure 1 else pure 0
''')
    d(f'invs{M}','`Mat` is a by-value copy that the function destroys.')
    w(f'''def invs{M} (Mat Mat_inv : {M}) : C {M} := do
  let Mat_inv ← identity{M} Mat_inv
  let s ← forUp 0 {n} (Mat, Mat_inv) fun i (Mat, Mat_inv) => do
    if ← hasBit Mat i {I} i then
      forUp (i + 1) {n} (Mat, Mat_inv) fun j (Mat, Mat_inv) => do
        if ← hasBit Mat j {I} i then
          let Mat ← xorRow Mat j i
          let Mat_inv ← xorRow Mat_inv j i
          pure (Mat, Mat_inv)
        else pure (Mat, Mat_inv)
    else
      let s ← forBrk (i + 1) {n} (Mat, Mat_inv) fun j (Mat, Mat_inv) => do
        if ← hasBit Mat j {I} i then
          let Mat ← swapRow Mat i j
          let Mat_inv ← swapRow Mat_inv i j
          pure (.stop (Mat, Mat_inv))
        else pure (.next (Mat, Mat_inv))
      forUp (i + 1) {n} s fun k (Mat, Mat_inv) => do
        if ← hasBit Mat k {I} i then
          let Mat ← xorRow Mat k i
          let Mat_inv ← xorRow Mat_inv k i
          pure (Mat, Mat_inv)
        else pure (Mat, Mat_inv)
  let s ← forDown {n} 0 s fun i s =>
    forDown i 0 s fun j (Mat, Mat_inv) => do
      if ← hasBit Mat j {I} i then
        let Mat ← xorRow Mat j i
        let Mat_inv ← xorRow Mat_inv j i
        pure (Mat, Mat_inv)
      else pure (Mat, Mat_inv)
  pure s.2
''')
    # xor / HW
    if n<=8:
        d(f'xorU{n}'); w(f'''def xorU{n} (_env : Env) (n : BitVec 8) : C Int := do
  if (← rd xorTab n.toNat) != 0 then pure 1 else pure 0
''')
        d(f'HWU{n}'); w(f'''def HWU{n} (_env : Env) (n : BitVec 8) : C Int := do
  rd hwTab n.toNat
''')
    else:
        h=n//2
        d(f'xorU{n}'); w(f'''def xorU{n} (env : Env) (n : BitVec {n}) : C Int := do
  let temp := (← env.ldSub n {h} 0) ^^^ (← env.ldSub n {h} 1)
  if (← xorU{h} env temp) != 0 then pure 1 else pure 0
''')
        d(f'HWU{n}'); w(f'''def HWU{n} (env : Env) (n : BitVec {n}) : C Int := do
  pure ((← HWU{h} env (← env.ldSub n {h} 0)) + (← HWU{h} env (← env.ldSub n {h} 1)))
''')
    if n in (8,16,32):
        d(f'printU{n}'); w(f'''def printU{n} (n : BitVec {n}) : CM Unit := do
  printf "0x%x\\n" [{parg(n, "n")}]
''')
    if n==64:
        d(f'printU64'); w('''def printU64 (n : BitVec 64) : CM Unit :=
  printf "0llx%x\\n" [.u64 n]
''')
    d(f'printbit{M}'); w(f'''def printbit{M} (Mat : {M}) : CM Unit := do
  forUp 0 {n} () fun i _ => do
    let temp ← liftC (rd Mat i)
    let _ ← forUp 0 {n} temp fun _j temp => do
      if temp &&& {TOP[n]} != 0 then printf "%d " [.i32 1] else printf "%d " [.i32 0]
      pure (temp <<< 1)
    printf "\\n" []
  printf "\\n" []
''')
    d(f'VecAddVec{V}'); w(f'def VecAddVec{V} (Vec1 Vec2 _Vec : {V}) : C {V} := pure (Vec1 ^^^ Vec2)\n')
    d(f'MatMulNum{M}'); w(f'''def MatMulNum{M} (env : Env) (Mat : {M}) (n : BitVec {b}) : C (BitVec {b}) :=
  forUp 0 {n} 0 fun i temp => do
    if (← xorU{n} env ((← rd Mat i) &&& n{nib})) != 0 then pure (temp ^^^ (← rd {I} i))
    else pure temp
''')
    d(f'MatMulVec{M}'); w(f'''def MatMulVec{M} (env : Env) (Mat : {M}) (Vec : {V}) (ans : {V}) : C {V} := do
  let ans ← init{V} ans
  forUp 0 {n} ans fun i ans => do
    if (← xorU{n} env ((← rd Mat i) &&& Vec{nib})) != 0 then pure (ans ^^^ (← rd {I} i))
    else pure ans
''')
    d(f'affineU{n}'); w(f'''def affineU{n} (env : Env) (aff : Aff{n}) (arr : BitVec {b}) : C (BitVec {b}) := do
  let ans_vec ← MatMulVec{M} env aff.Mat arr (env.junk {b} 0)
  pure (ans_vec ^^^ aff.Vec)
''')
    # transposition
    ms='\n'.join(f'  let mask ← wr mask {i} {m}' for i,m in enumerate(MASKS[n]))
    pre,post=(('(',') &&& 0x0f') if n==4 else ('',''))
    d(f'Mattrans{M}','`k`, `k2`, `l` are small unsigned numbers (`l < %d`), modelled by `Nat`.'%n)
    w(f'''def Mattrans{M} (env : Env) (Mat Mat_trans : {M}) : C {M} := do
  let mask := env.junkArr {b} {L}
{ms}
  let Mat ← forUp 0 {L} Mat fun j Mat => do
    let k := 1 <<< j
    let k2 := k * 2
    forUp 0 {n//2} Mat fun i Mat => do
      let l := (k2 * i) % {n-1}
      let temp := {pre}((← rd Mat l) &&& ~~~(← rd mask j)) ^^^ (((← rd Mat (l + k)) &&& ~~~(← rd mask j)) >>> k){post}
      let Mat ← wr Mat (l + k) ({pre}((← rd Mat (l + k)) &&& (← rd mask j)) ^^^ (((← rd Mat l) &&& (← rd mask j)) <<< k){post})
      wr Mat l temp
  copy{M} Mat Mat_trans
''')
    d(f'MatAddMat{M}'); w(f'''def MatAddMat{M} (Mat1 Mat2 Mat : {M}) : C {M} :=
  forUp 0 {n} Mat fun i Mat => do wr Mat i ((← rd Mat1 i) ^^^ (← rd Mat2 i))
''')
    d(f'MatMulMat{M}'); w(f'''def MatMulMat{M} (env : Env) (Mat1 Mat2 Mat : {M}) : C {M} := do
  let Mat ← init{M} Mat
  let Mat2_trans ← Mattrans{M} env Mat2 (env.junkArr {b} {n})
  forUp 0 {n} Mat fun i Mat =>
    forUp 0 {n} Mat fun j Mat => do
      if (← xorU{n} env ((← rd Mat1 i) &&& (← rd Mat2_trans j){nib})) != 0 then
        wr Mat i ((← rd Mat i) ^^^ (← rd {I} j))
      else pure Mat
''')
    # genMatpair
    e = 'env ' if n==64 else ''
    d(f'genMatpair{M}','`Mat` and `Mat_inv` are assumed to point to different objects. The unused local `q` is omitted.')
    w(f'''def genMatpair{M} (env : Env) (Mat Mat_inv : {M}) : CM ({M} × {M}) := do
  reseed
  let Mat ← liftC (identity{M} Mat)
  let Mat_inv ← liftC (identity{M} Mat_inv)
  let tempMat ← rand{M} {e}(env.junkArr {b} {n})
  let resultMat ← liftC (copy{M} tempMat (env.junkArr {b} {n}))
  let s : GenSt {M} {n*n} :=
    {{ tempMat, Mat_inv, trail := env.junkArr2 8 3 {n*n}, times := 0, invertible := true }}
  let s ← forUp 0 {n} s fun i s => do
    if ← liftC (hasBit s.tempMat i {I} i) then
      liftC <| forUp (i + 1) {n} s fun j s => do
        if ← hasBit s.tempMat j {I} i then
          let tempMat ← xorRow s.tempMat j i
          let Mat_inv ← xorRow s.Mat_inv j i
          GenSt.record {{ s with tempMat, Mat_inv }} 1 j i
        else pure s
    else
      let (s, flag) ← liftC <| forBrk (i + 1) {n} (s, true) fun j (s, flag) => do
        if ← hasBit s.tempMat j {I} i then
          let tempMat ← swapRow s.tempMat i j
          let Mat_inv ← swapRow s.Mat_inv i j
          let s ← GenSt.record {{ s with tempMat, Mat_inv }} 0 j i
          pure (.stop (s, false))
        else pure (.next (s, flag))
      if flag then
        let s := {{ s with invertible := false }}
        if i < {n-1} then
          let r ← cus_random
          let s ← liftC do
            let p := i + 1 + (← umod r (BitVec.ofNat 32 ({n-1} - i))).toNat
            let tempMat ← swapRow s.tempMat p i
            let Mat_inv ← swapRow s.Mat_inv p i
            GenSt.record {{ s with tempMat, Mat_inv }} 0 p i
          forUp (i + 1) {n} s fun t s => do
            let r ← cus_random
            liftC do
              if (← umod r 2) != 0 then
                let tempMat ← xorRow s.tempMat t i
                let Mat_inv ← xorRow s.Mat_inv t i
                GenSt.record {{ s with tempMat, Mat_inv }} 1 t i
              else pure s
        else pure s
      else
        liftC <| forUp (i + 1) {n} s fun k s => do
          if ← hasBit s.tempMat k {I} i then
            let tempMat ← xorRow s.tempMat k i
            let Mat_inv ← xorRow s.Mat_inv k i
            GenSt.record {{ s with tempMat, Mat_inv }} 1 k i
          else pure s
  liftC do
    if !s.invertible then
      let s ← forDown {n} 0 s fun t s =>
        forDown t 0 s fun j s => do
          if ← hasBit s.tempMat j {I} t then
            let tempMat ← xorRow s.tempMat j t
            let Mat_inv ← xorRow s.Mat_inv j t
            GenSt.record {{ s with tempMat, Mat_inv }} 1 j t
          else pure s
      let Mat ← forDown s.times 0 Mat fun j Mat => do
        if (← rd2 s.trail j 0) != 0 then
          xorRow Mat (← rd2 s.trail j 1).toNat (← rd2 s.trail j 2).toNat
        else
          swapRow Mat (← rd2 s.trail j 1).toNat (← rd2 s.trail j 2).toNat
      pure (Mat, s.Mat_inv)
    else
      let s ← forDown {n} 0 (s.tempMat, s.Mat_inv) fun i s =>
        forDown i 0 s fun j (tempMat, Mat_inv) => do
          if ← hasBit tempMat j {I} i then
            let tempMat ← xorRow tempMat j i
            let Mat_inv ← xorRow Mat_inv j i
            pure (tempMat, Mat_inv)
          else pure (tempMat, Mat_inv)
      let Mat ← copy{M} resultMat Mat
      pure (Mat, s.2)
''')
    d(f'genaffinepair{M}'); w(f'''def genaffinepair{M} (env : Env) (aff aff_inv : Aff{n}) : CM (Aff{n} × Aff{n}) := do
  let (Mat, Mat_inv) ← genMatpair{M} env aff.Mat aff_inv.Mat
  let Vec ← rand{V} {e}aff.Vec
  let Vec_inv ← liftC (MatMulVec{M} env Mat_inv Vec aff_inv.Vec)
  pure (⟨Mat, Vec⟩, ⟨Mat_inv, Vec_inv⟩)
''')
    d(f'affinemix{M}'); w(f'''def affinemix{M} (env : Env) (aff preaff_inv mixaff : Aff{n}) : C Aff{n} := do
  let Mat ← MatMulMat{M} env aff.Mat preaff_inv.Mat mixaff.Mat
  let Vec ← MatMulVec{M} env aff.Mat preaff_inv.Vec mixaff.Vec
  pure ⟨Mat, Vec ^^^ aff.Vec⟩
''')
    w('end WB')
    t='\n'.join(o)+'\n'
    if n>=16:
        t=t.replace('import Verif.Model.Basic',f'import Verif.Model.M{n//2}')
    open(f'/verif/lean/Verif/Model/M{n}.lean','w').write(t)
if __name__=="__main__":
    for n in (4,8,16,32,64): gen(n)
