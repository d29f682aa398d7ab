#!/usr/bin/env python3
"""Generates lean/Verif/Model/M{128,256}.lean: the multi-word matrix sizes.
tools/check_uniform.py checks that the C text has exactly this phase structure."""
from genlib import *
from gen_small import MASKS
def gen(n):
    W=n//64; o=[]; w=o.append
    M=f'M{n}'; V=f'V{n}'
    ALL='['+', '.join(str(k) for k in range(W))+']'
    def FROM(p): return '['+', '.join(str(k) for k in range(p,W))+']'
    def ix(i,p): return i if p==0 else f'({i} - {64*p})'
    def d(f,extra=''): w('/-- '+cite(f)+((' '+extra) if extra else '')+' -/')
    def lines(fmt,ind,ks=range(W)): return '\n'.join(' '*ind+fmt.format(k=k) for k in ks)
    w(f'''import Verif.Model.M64

/-!
# {n}-bit functions of `/repo/src/WBMatrix/WBMatrix.c`

Generated once by `tools/gen_big.py`; kept under version control as source.
A row is an array of {W} 64-bit words; the elimination functions are split into {W} phases, one
per word, that skip the words to the left (which are zero at that point).
A parameter that is an output pointer in C carries the old contents of its target and the
function returns the new contents.
-/
namespace WB
''')
    d(f'init{M}'); w(f'def init{M} (Mat : {M}) : C {M} :=\n  forUp 0 {n} Mat fun i Mat => do\n'+lines('let Mat ← wr2 Mat i {k} 0',4)+'\n    pure Mat\n')
    d(f'init{V}'); w(f'def init{V} (Vec : {V}) : C {V} := do\n'+lines('let Vec ← wr Vec {k} 0',2)+'\n  pure Vec\n')
    d(f'rand{M}','The `uint32_t*` pointer `m` writes, for each word, first the cell `m + 1`, then `m`.')
    w(f'def rand{M} (env : Env) (Mat : {M}) : CM {M} := do\n  reseed\n  forUp 0 {n} Mat fun i Mat => do')
    for k in range(W):
        for c in (1,0):
            w(f'    let r ← cus_random\n    let Mat ← liftC do wr2 Mat i {k} (← env.stSub (← rd2 Mat i {k}) {c} r)')
    w('    pure Mat\n')
    d(f'rand{V}')
    w(f'def rand{V} (env : Env) (Vec : {V}) : CM {V} := do\n  reseed')
    for k in range(W):
        for c in (1,0):
            w(f'  let r ← cus_random\n  let Vec ← liftC do wr Vec {k} (← env.stSub (← rd Vec {k}) {c} r)')
    w('  pure Vec\n')
    d(f'identity{M}')
    w(f'def identity{M} (Mat : {M}) : C {M} := do')
    for p in range(W):
        w(f'  let Mat ← forUp {64*p} {64*p+64} Mat fun i Mat => do')
        for k in range(W):
            w(f'    let Mat ← wr2 Mat i {k} '+(f'(← rd idM64 {ix("i",p)})' if k==p else '0'))
        w('    pure Mat')
    w('  pure Mat\n')
    d(f'print{M}')
    w(f'def print{M} (Mat : {M}) : CM Unit :=\n  forUp 0 {n} () fun i _ => do')
    for k in range(W):
        w(f'    printf "0x%llx{" " if k<W-1 else chr(92)+"n"}" [.u64 (← liftC (rd2 Mat i {k}))]')
    w('')
    d(f'print{V}')
    w(f'def print{V} (Vec : {V}) : CM Unit := do')
    for k in range(W):
        w(f'  printf "0x%llx{" " if k<W-1 else chr(92)+"n"}" [.u64 (← liftC (rd Vec {k}))]')
    w('')
    d(f'copy{M}'); w(f'def copy{M} (Mat1 Mat2 : {M}) : C {M} :=\n  forUp 0 {n} Mat2 fun i Mat2 => do\n'+lines('let Mat2 ← wr2 Mat2 i {k} (← rd2 Mat1 i {k})',4)+'\n    pure Mat2\n')
    d(f'isequal{M}')
    w(f'def isequal{M} (Mat1 Mat2 : {M}) : C Int := do\n  let r ← forRet (ρ := Int) 0 {n} () fun i _ => do')
    for k in range(W):
        w(f'    if (← rd2 Mat1 i {k}) != (← rd2 Mat2 i {k}) then return .stop 0')
    w('''    return .next ()
  match r with
  | .stop r => pure r
  | .next _ => pure 1
''')
    cmpw = [0,1] if n==128 else [0,1,1,1]
    d(f'isequal{V}','' if n==128 else 'The source compares word 1 three times.')
    w(f'def isequal{V} (Vec1 Vec2 : {V}) : C Int := do')
    for k in cmpw:
        w(f'  if (← rd Vec1 {k}) != (← rd Vec2 {k}) then return 0')
    w('  return 1\n')
    def cases(body,ind):
        r=''
        for p in range(W):
            head = f'if j < {64*p+64} then' if p==0 else (f'else if j < {64*p+64} then' if p<W-1 else 'else')
            r+=' '*ind+head+'\n'+body(p,ind+2)
        return r
    d(f'readbit{M}')
    w(f'def readbit{M} (Mat : {M}) (i j : Int) : C Int := do')
    w(cases(lambda p,ind: ' '*ind+f'let x ← rdI2 Mat i {p}\n'+' '*ind+f'let m ← rdI idM64 {ix("j",p)}\n'+' '*ind+'if x &&& m == m then pure 1 else pure 0\n',2))
    d(f'flipbit{M}')
    w(f'def flipbit{M} (Mat : {M}) (i j : Int) : C {M} := do')
    w(cases(lambda p,ind: ' '*ind+f'wrI2 Mat i {p} ((← rdI2 Mat i {p}) ^^^ (← rdI idM64 {ix("j",p)}))\n',2))
    d(f'setbit{M}'); w(f'''def setbit{M} (Mat : {M}) (i j bit : Int) : C {M} := do
  if (← readbit{M} Mat i j) == bit then pure Mat else flipbit{M} Mat i j
''')
    d(f'isinvert{M}','`Mat` is a by-value copy that the function destroys.')
    w(f'def isinvert{M} (Mat : {M}) : C Int := do')
    ind='  '
    for p in range(W):
        w(f'''{ind}let r ← forRet (ρ := Int) {64*p} {64*p+64} Mat fun i Mat => do
{ind}  if ← hasBit2 Mat i {p} idM64 {ix("i",p)} then
{ind}    let Mat ← forUp (i + 1) {n} Mat fun j Mat => do
{ind}      if ← hasBit2 Mat j {p} idM64 {ix("i",p)} then xorWords {FROM(p)} Mat j i else pure Mat
{ind}    pure (.next Mat)
{ind}  else
{ind}    let (Mat, flag) ← forBrk (i + 1) {n} (Mat, true) fun j (Mat, flag) => do
{ind}      if ← hasBit2 Mat j {p} idM64 {ix("i",p)} then
{ind}        let Mat ← swapWords {FROM(p)} Mat i j
{ind}        pure (.stop (Mat, false))
{ind}      else pure (.next (Mat, flag))
{ind}    if flag then pure (.stop 0)
{ind}    else
{ind}      let Mat ← forUp (i + 1) {n} Mat fun k Mat => do
{ind}        if ← hasBit2 Mat k {p} idM64 {ix("i",p)} then xorWords {FROM(p)} Mat k i else pure Mat
{ind}      pure (.next Mat)
{ind}match r with
{ind}| .stop r => pure r
{ind}| .next Mat => do''')
        ind+='  '
    w(f'''{ind}if (← rd2 Mat {n-1} {W-1}) == (← rd idM64 63) then pure 1 else pure 0
''')
    d(f'invs{M}','`Mat` is a by-value copy that the function destroys.')
    w(f'def invs{M} (Mat Mat_inv : {M}) : C {M} := do\n  let Mat_inv ← identity{M} Mat_inv\n  let s := (Mat, Mat_inv)')
    for p in range(W):
        w(f'''  let s ← forUp {64*p} {64*p+64} s fun i (Mat, Mat_inv) => do
    if ← hasBit2 Mat i {p} idM64 {ix("i",p)} then
      forUp (i + 1) {n} (Mat, Mat_inv) fun j (Mat, Mat_inv) => do
        if ← hasBit2 Mat j {p} idM64 {ix("i",p)} then
          let Mat ← xorWords {FROM(p)} Mat j i
          let Mat_inv ← xorWords {ALL} Mat_inv j i
          pure (Mat, Mat_inv)
        else pure (Mat, Mat_inv)
    else
      let s ← forBrk (i + 1) {n} (Mat, Mat_inv) fun j (Mat, Mat_inv) => do
        if ← hasBit2 Mat j {p} idM64 {ix("i",p)} then
          let Mat ← swapWords {FROM(p)} Mat i j
          let Mat_inv ← swapWords {ALL} Mat_inv i j
          pure (.stop (Mat, Mat_inv))
        else pure (.next (Mat, Mat_inv))
      forUp (i + 1) {n} s fun k (Mat, Mat_inv) => do
        if ← hasBit2 Mat k {p} idM64 {ix("i",p)} then
          let Mat ← xorWords {FROM(p)} Mat k i
          let Mat_inv ← xorWords {ALL} Mat_inv k i
          pure (Mat, Mat_inv)
        else pure (Mat, Mat_inv)''')
    for p in reversed(range(W)):
        w(f'''  let s ← forDown {64*p+64} {64*p} s fun i s =>
    forDown i 0 s fun j (Mat, Mat_inv) => do
      if ← hasBit2 Mat j {p} idM64 {ix("i",p)} then
        let Mat ← xorWords [{p}] Mat j i
        let Mat_inv ← xorWords {ALL} Mat_inv j i
        pure (Mat, Mat_inv)
      else pure (Mat, Mat_inv)''')
    w('  pure s.2\n')
    xs=' ^^^ '.join(f'(← rd n {k})' for k in range(W))
    d(f'xorU{n}'); w(f'''def xorU{n} (env : Env) (n : Vector (BitVec 64) {W}) : C Int := do
  let temp := {xs}
  if (← xorU64 env temp) != 0 then pure 1 else pure 0
''')
    if n==128:
        d('HWU128'); w('''def HWU128 (env : Env) (n : Vector (BitVec 64) 2) : C Int := do
  pure ((← HWU64 env (← rd n 0)) + (← HWU64 env (← rd n 1)))
''')
        d('printU128')
        w('def printU128 (n : Vector (BitVec 64) 2) : CM Unit := do')
        for k in range(W):
            w(f'  printf "0llx%x{" " if k<W-1 else chr(92)+"n"}" [.u64 (← liftC (rd n {k}))]')
        w('')
        d('printbitM128'); w('''def printbitM128 (Mat : M128) : CM Unit := do
  forUp 0 128 () fun i _ => do
    let temp ← liftC (rd2 Mat i 0)
    let _ ← forUp 0 64 temp fun _j temp => do
      if temp &&& 0x8000000000000000 != 0 then printf "%d " [.i32 1] else printf "%d " [.i32 0]
      pure (temp <<< 1)
    let temp ← liftC (rd2 Mat i 1)
    let _ ← forUp 0 64 temp fun _j temp => do
      if temp &&& 0x8000000000000000 != 0 then printf "%d " [.i32 1] else printf "%d " [.i32 0]
      pure (temp <<< 1)
    printf "\\n" []
  printf "\\n" []
''')
    else:
        d('printU256')
        w('def printU256 (n : Vector (BitVec 64) 4) : CM Unit := do')
        for k in range(W):
            w(f'  printf "0x%llx{" " if k<W-1 else chr(92)+"n"}" [.u64 (← liftC (rd n {k}))]')
        w('')
    d(f'VecAddVec{V}'); w(f'def VecAddVec{V} (Vec1 Vec2 Vec : {V}) : C {V} := do\n'+lines('let Vec ← wr Vec {k} ((← rd Vec1 {k}) ^^^ (← rd Vec2 {k}))',2)+'\n  pure Vec\n')
    d(f'MatMulVec{M}')
    w(f'def MatMulVec{M} (env : Env) (Mat : {M}) (Vec : {V}) (ans : {V}) : C {V} := do\n  let ans ← init{V} ans\n  let s := (ans, env.junkArr 64 {W})')
    for p in range(W):
        w(f'  let s ← forUp {64*p} {64*p+64} s fun i (ans, temp) => do')
        w(lines('let temp ← wr temp {k} ((← rd2 Mat i {k}) &&& (← rd Vec {k}))',4))
        w(f'''    if (← xorU{n} env temp) != 0 then
      let ans ← wr ans {p} ((← rd ans {p}) ^^^ (← rd idM64 {ix("i",p)}))
      pure (ans, temp)
    else pure (ans, temp)''')
    w('  pure s.1\n')
    if n==128:
        d('affineU128','`arr` is read completely before `ans` is written, so the function is also correct when both point to the same array.')
        w('''def affineU128 (env : Env) (aff : Aff128) (arr ans : Vector (BitVec 64) 2) :
    C (Vector (BitVec 64) 2) := do
  let mul_vec ← wr (env.junkArr 64 2) 0 (← rd arr 0)
  let mul_vec ← wr mul_vec 1 (← rd arr 1)
  let ans_vec ← MatMulVecM128 env aff.Mat mul_vec (env.junkArr 64 2)
  let ans ← wr ans 0 ((← rd ans_vec 0) ^^^ (← rd aff.Vec 0))
  let ans ← wr ans 1 ((← rd ans_vec 1) ^^^ (← rd aff.Vec 1))
  pure ans
''')
    ms='\n'.join(f'  let mask ← wr mask {i} {m}' for i,m in enumerate(MASKS[64]))
    d(f'Mattrans{M}','`k`, `k2`, `l` are small unsigned numbers, modelled by `Nat`.')
    w(f'''def Mattrans{M} (env : Env) (Mat Mat_trans : {M}) : C {M} := do
  let mask := env.junkArr 64 6
{ms}
  let Mat ← forUp 0 6 Mat fun j Mat => do
    let k := 1 <<< j
    let k2 := k * 2
    forUp 0 {n//2} Mat fun i Mat => do
      let l := (k2 * i) % {n-1}''')
    for k in range(W):
        w(f'''      let temp := ((← rd2 Mat l {k}) &&& ~~~(← rd mask j)) ^^^ (((← rd2 Mat (l + k) {k}) &&& ~~~(← rd mask j)) >>> k)
      let Mat ← wr2 Mat (l + k) {k} (((← rd2 Mat (l + k) {k}) &&& (← rd mask j)) ^^^ (((← rd2 Mat l {k}) &&& (← rd mask j)) <<< k))
      let Mat ← wr2 Mat l {k} temp''')
    w('      pure Mat')
    def blk(a,ka,b,kb):
        A=f'(i + {a})' if a else 'i'; B=f'(i + {b})' if b else 'i'
        return f'''    let temp ← rd2 Mat {A} {ka}
    let Mat ← wr2 Mat {A} {ka} (← rd2 Mat {B} {kb})
    let Mat ← wr2 Mat {B} {kb} temp'''
    if n==128:
        w('  let Mat ← forUp 0 64 Mat fun i Mat => do'); w(blk(64,0,0,1)); w('    pure Mat')
    else:
        w('  let Mat ← forUp 0 64 Mat fun i Mat => do')
        for t in ((64,0,0,1),(64,2,0,3),(192,0,128,1),(192,2,128,3)): w(blk(*t))
        w('    pure Mat')
        w('  let Mat ← forUp 0 128 Mat fun i Mat => do')
        for t in ((128,0,0,2),(128,1,0,3)): w(blk(*t))
        w('    pure Mat')
    w(f'  copy{M} Mat Mat_trans\n')
    d(f'MatAddMat{M}'); w(f'def MatAddMat{M} (Mat1 Mat2 Mat : {M}) : C {M} :=\n  forUp 0 {n} Mat fun i Mat => do\n'+lines('let Mat ← wr2 Mat i {k} ((← rd2 Mat1 i {k}) ^^^ (← rd2 Mat2 i {k}))',4)+'\n    pure Mat\n')
    d(f'MatMulMat{M}')
    w(f'''def MatMulMat{M} (env : Env) (Mat1 Mat2 Mat : {M}) : C {M} := do
  let Mat ← init{M} Mat
  let Mat2_trans ← Mattrans{M} env Mat2 (env.junkArr2 64 {W} {n})
  let s ← forUp 0 {n} (Mat, env.junkArr 64 {W}) fun i s => do''')
    for p in range(W):
        w(f'    let s ← forUp {64*p} {64*p+64} s fun j (Mat, temp) => do')
        w(lines('let temp ← wr temp {k} ((← rd2 Mat1 i {k}) &&& (← rd2 Mat2_trans j {k}))',6))
        w(f'''      if (← xorU{n} env temp) != 0 then
        let Mat ← wr2 Mat i {p} ((← rd2 Mat i {p}) ^^^ (← rd idM64 {ix("j",p)}))
        pure (Mat, temp)
      else pure (Mat, temp)''')
    w('    pure s\n  pure s.1\n')
    d(f'genMatpair{M}','`Mat` and `Mat_inv` are assumed to point to different objects. The unused local `q` is omitted.')
    w(f'''def genMatpair{M} (env : Env) (Mat Mat_inv : {M}) : CM ({M} × {M}) := do
  reseed
  let Mat ← liftC (identity{M} Mat)
  let Mat_inv ← liftC (identity{M} Mat_inv)
  let tempMat ← rand{M} env (env.junkArr2 64 {W} {n})
  let resultMat ← liftC (copy{M} tempMat (env.junkArr2 64 {W} {n}))
  let s : GenSt {M} {n*n} :=
    {{ tempMat, Mat_inv, trail := env.junkArr2 8 3 {n*n}, times := 0, invertible := true }}''')
    for p in range(W):
        last = p==W-1
        q = '  ' if last else ''
        w(f'''  let s ← forUp {64*p} {64*p+64} s fun i s => do
    if ← liftC (hasBit2 s.tempMat i {p} idM64 {ix("i",p)}) then
      liftC <| forUp (i + 1) {n} s fun j s => do
        if ← hasBit2 s.tempMat j {p} idM64 {ix("i",p)} then
          let tempMat ← xorWords {FROM(p)} s.tempMat j i
          let Mat_inv ← xorWords {ALL} s.Mat_inv j i
          GenSt.record {{ s with tempMat, Mat_inv }} 1 j i
        else pure s
    else
      let (s, flag) ← liftC <| forBrk (i + 1) {n} (s, true) fun j (s, flag) => do
        if ← hasBit2 s.tempMat j {p} idM64 {ix("i",p)} then
          let tempMat ← swapWords {FROM(p)} s.tempMat i j
          let Mat_inv ← swapWords {ALL} s.Mat_inv i j
          let s ← GenSt.record {{ s with tempMat, Mat_inv }} 0 j i
          pure (.stop (s, false))
        else pure (.next (s, flag))
      if flag then
        let s := {{ s with invertible := false }}''')
        if last: w(f'        if i < {n-1} then')
        w(f'''{q}        let r ← cus_random
{q}        let s ← liftC do
{q}          let p := i + 1 + (← umod r (BitVec.ofNat 32 ({n-1} - i))).toNat
{q}          let tempMat ← swapWords {FROM(p)} s.tempMat p i
{q}          let Mat_inv ← swapWords {ALL} s.Mat_inv p i
{q}          GenSt.record {{ s with tempMat, Mat_inv }} 0 p i
{q}        forUp (i + 1) {n} s fun t s => do
{q}          let r ← cus_random
{q}          liftC do
{q}            if (← umod r 2) != 0 then
{q}              let tempMat ← xorWords {FROM(p)} s.tempMat t i
{q}              let Mat_inv ← xorWords {ALL} s.Mat_inv t i
{q}              GenSt.record {{ s with tempMat, Mat_inv }} 1 t i
{q}            else pure s''')
        if last: w('        else pure s')
        w(f'''      else
        liftC <| forUp (i + 1) {n} s fun k s => do
          if ← hasBit2 s.tempMat k {p} idM64 {ix("i",p)} then
            let tempMat ← xorWords {FROM(p)} s.tempMat k i
            let Mat_inv ← xorWords {ALL} s.Mat_inv k i
            GenSt.record {{ s with tempMat, Mat_inv }} 1 k i
          else pure s''')
    w('  liftC do\n    if !s.invertible then')
    for p in reversed(range(W)):
        w(f'''      let s ← forDown {64*p+64} {64*p} s fun t s =>
        forDown t 0 s fun j s => do
          if ← hasBit2 s.tempMat j {p} idM64 {ix("t",p)} then
            let tempMat ← xorWords [{p}] s.tempMat j t
            let Mat_inv ← xorWords {ALL} s.Mat_inv j t
            GenSt.record {{ s with tempMat, Mat_inv }} 1 j t
          else pure s''')
    w(f'''      let Mat ← forDown s.times 0 Mat fun j Mat => do
        if (← rd2 s.trail j 0) != 0 then
          xorWords {ALL} Mat (← rd2 s.trail j 1).toNat (← rd2 s.trail j 2).toNat
        else
          swapWords {ALL} Mat (← rd2 s.trail j 1).toNat (← rd2 s.trail j 2).toNat
      pure (Mat, s.Mat_inv)
    else
      let s := (s.tempMat, s.Mat_inv)''')
    for p in reversed(range(W)):
        w(f'''      let s ← forDown {64*p+64} {64*p} s fun i s =>
        forDown i 0 s fun j (tempMat, Mat_inv) => do
          if ← hasBit2 tempMat j {p} idM64 {ix("i",p)} then
            let tempMat ← xorWords [{p}] tempMat j i
            let Mat_inv ← xorWords {ALL} Mat_inv j i
            pure (tempMat, Mat_inv)
          else pure (tempMat, Mat_inv)''')
    w(f'''      let Mat ← copy{M} resultMat Mat
      pure (Mat, s.2)
''')
    if n==128:
        d('genaffinepairM128'); w('''def genaffinepairM128 (env : Env) (aff aff_inv : Aff128) : CM (Aff128 × Aff128) := do
  let (Mat, Mat_inv) ← genMatpairM128 env aff.Mat aff_inv.Mat
  let Vec ← randV128 env aff.Vec
  let Vec_inv ← liftC (MatMulVecM128 env Mat_inv Vec aff_inv.Vec)
  pure (⟨Mat, Vec⟩, ⟨Mat_inv, Vec_inv⟩)
''')
        d('affinemixM128'); w('''def affinemixM128 (env : Env) (aff preaff_inv mixaff : Aff128) : C Aff128 := do
  let Mat ← MatMulMatM128 env aff.Mat preaff_inv.Mat mixaff.Mat
  let Vec ← MatMulVecM128 env aff.Mat preaff_inv.Vec mixaff.Vec
  let Vec ← wr Vec 0 ((← rd Vec 0) ^^^ (← rd aff.Vec 0))
  let Vec ← wr Vec 1 ((← rd Vec 1) ^^^ (← rd aff.Vec 1))
  pure ⟨Mat, Vec⟩
''')
    w('end WB')
    open(f'/verif/lean/Verif/Model/M{n}.lean','w').write('\n'.join(o)+'\n')
for n in (128,256): gen(n)
