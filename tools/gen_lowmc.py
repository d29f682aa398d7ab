#!/usr/bin/env python3
"""Generate lean/Verif/Model/LowMC.lean from /repo/test/LowMCMethod_text.cpp (tables and line numbers
are taken from the file; the functions of the different sizes are checked to have the expected text)."""
import os, re
SRC = '/repo/test/LowMCMethod_text.cpp'
text = open(SRC).read()
lines = text.split('\n')

def span(start, n=None):
    """line numbers of the function starting at the line that begins with `start`"""
    i = next(k for k, l in enumerate(lines) if l.startswith(start))
    j = next(k for k in range(i, len(lines)) if lines[k].startswith('}'))
    return i + 1, j + 1

o = ['''import Verif.Model.M4
import Verif.Model.M8
import Verif.Model.M16
import Verif.Model.M32
import Verif.Model.M64
import Verif.Model.M128
import Verif.Model.M256

/-!
# The LowMC method — `/repo/test/LowMCMethod_text.cpp`

Generated by `tools/gen_lowmc.py`.  The program keeps the state of its bit generator in a static
variable of type `std::bitset<80>` (zero when the program starts).  Loops without a bound are given up
after `fuel` evaluations of their condition; running out is the outcome `Fault.diverge`.

Local matrices are not initialised before bits are xored onto them.  Their contents are `env.junk…`
(strictly, reading them is undefined in C++; the model describes what a program that goes on does).
The timing code in `main` is not modelled.
-/
namespace WB.lowmc

/-- Computations with the static variable `state` of `getrandbit`. -/
abbrev LM := StateT (BitVec 80) (Except Fault)

/-- The statements `tmp = state[0] ^ … ^ state[62]; state >>= 1; state[79] = tmp;` —
`/repo/test/LowMCMethod_text.cpp:39-42, 50-53, 55-58`. -/
def clock : LM Bool := do
  let state ← get
  let tmp := state.getLsbD 0 ^^ state.getLsbD 13 ^^ state.getLsbD 23 ^^ state.getLsbD 38 ^^
    state.getLsbD 51 ^^ state.getLsbD 62
  set ((state >>> 1) ||| ((BitVec.ofBool tmp).setWidth 80 <<< 79))
  pure tmp

/-- The loop `do { … } while (! choice);` — `/repo/test/LowMCMethod_text.cpp:47-59`. -/
def pairLoop : Nat → LM Bool
  | 0 => throw .diverge
  | fuel + 1 => do
    let choice ← clock
    let tmp ← clock
    if !choice then pairLoop fuel else pure tmp

/-- `getrandbit` — `/repo/test/LowMCMethod_text.cpp:29-61`. -/
def getrandbit (fuel : Nat) : LM Bool := do
  if (← get) = 0 then
    set (BitVec.allOnes 80)
    forUp 0 160 () fun _ _ => do
      let _ ← clock
      pure ()
  pairLoop fuel

/-- `while(cond) s = body(s);`, given up after `fuel` evaluations of the condition. -/
def whileL {σ : Type} (cond : σ → C Bool) (body : σ → LM σ) : Nat → σ → LM σ
  | 0, _ => throw .diverge
  | fuel + 1, s => do
    if ← cond s then
      let s ← body s
      whileL cond body fuel s
    else pure s
''']
for (a, b) in ((39, 42), (50, 53), (55, 58)):
    blk = re.sub(r'\s+', '', '\n'.join(lines[a - 1:b]))
    assert blk == 'tmp=state[0]^state[13]^state[23]^state[38]^state[51]^state[62];state>>=1;state[79]=tmp;', blk
for n in (4, 8, 16, 32, 64):
    m = re.search(r'(uint\d+_t) identM%d\[(\d+)\] = \{(.*?)\};' % n, text, re.S)
    w = max(n, 8)
    assert m.group(1) == f'uint{w}_t' and int(m.group(2)) == n
    vals = [int(x, 16) for x in re.findall(r'0x[0-9a-fA-F]+', m.group(3))]
    assert len(vals) == n
    ln = text[:m.start()].count('\n') + 1
    ln2 = text[:m.end()].count('\n') + 1
    v = ', '.join('0x%x' % x for x in vals)
    out, line = [], ' '
    for x in vals:
        tk = ' 0x%x,' % x
        if len(line) + len(tk) > 100:
            out.append(line); line = ' '
        line += tk
    out.append(line.rstrip(','))
    rng = f'{ln}' if ln == ln2 else f'{ln}-{ln2}'
    o.append(f'''
/-- `identM{n}` — `/repo/test/LowMCMethod_text.cpp:{rng}`. -/
def identM{n} : Vector (BitVec {w}) {n} := #v[
''' + '\n'.join(out) + ']\n')
for n in (4, 8, 16, 32, 64, 128, 256):
    a, b = span(f'void RandbitMatM{n}(')
    body = re.sub(r'\s+', '', '\n'.join(lines[a - 1:b]))
    if n <= 64:
        exp = f'voidRandbitMatM{n}(M{n}*Mat){{inti,j;for(i=0;i<{n};i++){{for(j=0;j<{n};j++){{if(getrandbit())(*Mat).M[i]^=identM{n}[j];}}}}}}'
        inner = f'''  forUp 0 {n} Mat fun i Mat =>
    forUp 0 {n} Mat fun j Mat => do
      if ← getrandbit fuel then wr Mat i ((← rd Mat i) ^^^ (← rd identM{n} j)) else pure Mat'''
    else:
        l = n // 64
        st = ''.join(f'if(getrandbit())(*Mat).M[i][{k}]^=identM64[j];' for k in range(l))
        exp = f'voidRandbitMatM{n}(M{n}*Mat){{inti,j;for(i=0;i<{n};i++){{for(j=0;j<64;j++){{{st}}}}}}}'
        sl = '\n'.join(f'      let Mat ← bitInto fuel Mat i j {k}' for k in range(l - 1))
        inner = f'''  forUp 0 {n} Mat fun i Mat =>
    forUp 0 64 Mat fun j Mat => do
{sl}
      bitInto fuel Mat i j {l - 1}'''
    assert body == exp, (body, exp)
    if n == 128:
        o.append('''
/-- The statement `if(getrandbit()) (*Mat).M[i][k] ^= identM64[j];` —
`/repo/test/LowMCMethod_text.cpp:182-183, 204-207`. -/
def bitInto {l n : Nat} (fuel : Nat) (Mat : Vector (Vector (BitVec 64) l) n) (i j k : Nat) :
    LM (Vector (Vector (BitVec 64) l) n) := do
  if ← getrandbit fuel then wr2 Mat i k ((← rd2 Mat i k) ^^^ (← rd identM64 j)) else pure Mat
''')
    w = max(n, 8)
    junk = f'env.junkArr {w} {n}' if n <= 64 else f'env.junkArr2 64 {n // 64} {n}'
    o.append(f'''
/-- `RandbitMatM{n}` — `/repo/test/LowMCMethod_text.cpp:{a}-{b}`. -/
def RandbitMatM{n} (fuel : Nat) (Mat : M{n}) : LM M{n} :=
{inner}
''')
    a, b = span(f'void InvTMatM{n}(')
    body = re.sub(r'\s+', '', '\n'.join(lines[a - 1:b]))
    exp = f'voidInvTMatM{n}(M{n}*Mat)//generate{n}*{n}invertiblematrix{{M{n}temp;RandbitMatM{n}(&temp);while(!isinvertM{n}(temp)){{RandbitMatM{n}(&temp);}}copyM{n}(temp,Mat);}}'
    assert body == exp, (body, exp)
    o.append(f'''
/-- `InvTMatM{n}` — `/repo/test/LowMCMethod_text.cpp:{a}-{b}`; the loop is given up after `tries` tests. -/
def InvTMatM{n} (env : Env) (fuel tries : Nat) (Mat : M{n}) : LM M{n} := do
  let temp ← RandbitMatM{n} fuel ({junk})
  let temp ← whileL (fun temp => do pure ((← isinvertM{n} temp) == 0)) (RandbitMatM{n} fuel) tries temp
  copyM{n} temp Mat
''')
o.append('\nend WB.lowmc\n')
open(os.path.join(os.path.dirname(os.path.abspath(__file__)), '../lean/Verif/Model/LowMC.lean'), 'w').write(''.join(o))
