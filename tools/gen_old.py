#!/usr/bin/env python3
"""Writes Model/Old.lean: the functions of the library version 3.1.1 bundled with the demos
(/repo/test/WBSM4/WBMatrix/src/WBMatrix, same text in /repo/test/WBAES) whose text differs from the current version."""
import re, os
root = os.path.dirname(os.path.dirname(os.path.abspath(__file__)))
SRC = '/repo/test/WBSM4/WBMatrix/src/WBMatrix/WBMatrix.c'
src = open(SRC, errors='replace').read().replace('\r', '').split('\n')
def cite(name):
    a = next(i for i, l in enumerate(src) if re.match(r'^\w+ %s\(' % name, l))
    b = next(i for i in range(a, len(src)) if src[i].startswith('}'))
    return '`/repo/test/WBSM4/WBMatrix/src/WBMatrix/WBMatrix.c:%d-%d`' % (a + 1, b + 1)
o = []
o.append('''import Verif.Model.M4
import Verif.Model.M8
import Verif.Model.M16
import Verif.Model.M32
import Verif.Model.M64
import Verif.Model.M128

/-!
# The older library bundled with the demos

Version 3.1.1, `/repo/test/WBSM4/WBMatrix/src/WBMatrix` (the copy in `/repo/test/WBAES` has the same text up to white
space).  Only the functions whose text differs from the current version by more than the place where loop variables are
declared; `random.c` is the same file.  The other functions share the definitions of the current library.
-/
namespace WB.old

''')
MAT = {128: 'M128'}
for n in (4, 8, 16, 32, 64, 128):
    m = open(root + '/lean/Verif/Model/M%d.lean' % n).read()
    def body(name):
        a = m.index('def %s ' % name)
        e = re.search(r'\n\n(?=/--|end )', m[a:])
        return m[a:a + e.start()]
    W = n >= 128
    w = 8 if n == 4 else n
    # isequal
    if not W:
        o.append(f'''/-- {cite(f'isequalM{n}')} -/
def isequalM{n} (Mat1 Mat2 : M{n}) : C Int :=
  forBrk 0 {n} (1 : Int) fun i flag => do
    if (← rd Mat1 i) != (← rd Mat2 i) then pure (.stop 0) else pure (.next flag)

/-- {cite(f'isequalV{n}')} -/
def isequalV{n} (Vec1 Vec2 : V{n}) : C Int := do
  let flag := 1
  let flag := if Vec1 != Vec2 then 0 else flag
  pure flag

/-- {cite(f'MattransM{n}')} -/
def MattransM{n} (Mat Mat_trans : M{n}) : C M{n} := do
  let Mat_trans ← initM{n} Mat_trans
  forUp 0 {n} Mat_trans fun i Mat_trans =>
    forUp 0 {n} Mat_trans fun j Mat_trans => do
      if ((← rd Mat i) &&& (← rd idM{n} j)) != 0 then
        wr Mat_trans j ((← rd Mat_trans j) ^^^ (← rd idM{n} i))
      else pure Mat_trans

''')
    else:
        o.append(f'''/-- {cite(f'isequalM{n}')} -/
def isequalM{n} (Mat1 Mat2 : M{n}) : C Int :=
  forBrk 0 {n} (1 : Int) fun i flag => do
    if (← rd2 Mat1 i 0) != (← rd2 Mat2 i 0) then return .stop 0
    if (← rd2 Mat1 i 1) != (← rd2 Mat2 i 1) then return .stop 0
    return .next flag

/-- {cite(f'isequalV{n}')} -/
def isequalV{n} (Vec1 Vec2 : V{n}) : C Int := do
  let flag := 1
  let flag := if (← rd Vec1 0) != (← rd Vec2 0) then 0 else flag
  let flag := if (← rd Vec1 1) != (← rd Vec2 1) then 0 else flag
  pure flag

/-- The statement `if(Mat.M[i][k] & idM64[j]) (*Mat_trans).M[r][p] ^= idM64[q];` -/
def flipIf (Mat : M128) (i k j : Nat) (Mat_trans : M128) (r p q : Nat) : C M128 := do
  if ((← rd2 Mat i k) &&& (← rd idM64 j)) != 0 then
    wr2 Mat_trans r p ((← rd2 Mat_trans r p) ^^^ (← rd idM64 q))
  else pure Mat_trans

/-- {cite(f'MattransM{n}')} -/
def MattransM{n} (Mat Mat_trans : M{n}) : C M{n} := do
  let Mat_trans ← initM{n} Mat_trans
  let Mat_trans ← forUp 0 64 Mat_trans fun i Mat_trans =>
    forUp 0 64 Mat_trans fun j Mat_trans => do
      let Mat_trans ← flipIf Mat i 0 j Mat_trans j 0 i
      flipIf Mat i 1 j Mat_trans (j + 64) 0 i
  forUp 64 128 Mat_trans fun i Mat_trans =>
    forUp 0 64 Mat_trans fun j Mat_trans => do
      let Mat_trans ← flipIf Mat i 0 j Mat_trans j 1 (i - 64)
      flipIf Mat i 1 j Mat_trans (j + 64) 1 (i - 64)

''')
    t = body(f'MatMulMatM{n}')
    assert f'MattransM{n} env Mat2' in t
    o.append(f'/-- {cite(f"MatMulMatM{n}")} -/\n' + t.replace(f'MattransM{n} env Mat2', f'old.MattransM{n} Mat2') + '\n\n')
    if n == 32:
        o.append(f'''/-- {cite('randV32')}; the 32-bit results are converted to `uint16_t` -/
def randV32 (env : Env) (Vec : V32) : CM V32 := do
  reseed
  let r ← cus_random
  let Vec ← liftC (env.stSub Vec 1 (r.setWidth 16))
  let r ← cus_random
  liftC (env.stSub Vec 0 (r.setWidth 16))

''')
    if n == 64:
        o.append(f'''/-- {cite('randV64')} -/
def randV64 (env : Env) (Vec : V64) : CM V64 := do
  reseed
  let r ← cus_random
  let Vec ← liftC (env.stSub Vec 3 (r.setWidth 16))
  let r ← cus_random
  let Vec ← liftC (env.stSub Vec 2 (r.setWidth 16))
  let r ← cus_random
  let Vec ← liftC (env.stSub Vec 1 (r.setWidth 16))
  let r ← cus_random
  liftC (env.stSub Vec 0 (r.setWidth 16))

''')
    if n == 128:
        o.append(f'/-- {cite("randV128")} -/\ndef randV128 (env : Env) (Vec : V128) : CM V128 := do\n  reseed\n')
        for k in (0, 1):
            for q in (3, 2, 1, 0):
                last = (k, q) == (1, 0)
                o.append('  let r ← cus_random\n  ' + ('' if last else 'let Vec ← ') +
                         f'liftC do wr Vec {k} (← env.stSub (← rd Vec {k}) {q} (r.setWidth 16))\n')
        o.append('\n')
    t = body(f'genMatpairM{n}')
    h = f'''  reseed
  let Mat ← liftC (identityM{n} Mat)
  let Mat_inv ← liftC (identityM{n} Mat_inv)
'''
    assert h in t
    t = t.replace(h, f'''  let Mat ← liftC (identityM{n} Mat)
  let Mat_inv ← liftC (identityM{n} Mat_inv)
  reseed
''')
    o.append(f'/-- {cite(f"genMatpairM{n}")}. `Mat` and `Mat_inv` are assumed to point to different objects. -/\n' + t + '\n\n')
    t = body(f'genaffinepairM{n}').replace(f'← genMatpairM{n}', f'← old.genMatpairM{n}')
    if n == 32: t = t.replace('← randV32 aff', '← old.randV32 env aff')
    if n > 32: t = t.replace(f'← randV{n}', f'← old.randV{n}')
    o.append(f'/-- {cite(f"genaffinepairM{n}")} -/\n' + t + '\n\n')
    t = body(f'affinemixM{n}').replace(f'← MatMulMatM{n}', f'← old.MatMulMatM{n}')
    o.append(f'/-- {cite(f"affinemixM{n}")} -/\n' + t + '\n\n')
o.append('end WB.old\n')
open(root + '/lean/Verif/Model/Old.lean', 'w').write(''.join(o))
