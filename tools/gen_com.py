#!/usr/bin/env python3
"""Generates lean/Verif/Model/Com.lean: diagonal concatenation functions."""
from genlib import *
import re
o=[]; w=o.append
w('''import Verif.Model.M128

/-!
# Concatenation functions of `/repo/src/WBMatrix/WBMatrix.c`

Generated once by `tools/gen_com.py`; kept under version control as source.
The pointer `m` (resp. `v`) is a sub-word pointer into the current row; `*(m + c) = x` is a
sub-word store, whose place inside the word depends on the byte order `env.endian`.
`j` is the C `int` counting the rows of the result.
-/
namespace WB
''')
for a,b in ((8,32),(16,64),(8,64),(32,128),(8,128),(16,128)):
    k=b//a; big=b>64; per=(64 if big else b)//a
    ms=[f'm{i+1}' for i in range(k)]; vs=[f'v{i+1}' for i in range(k)]; fs=[f'aff{i+1}' for i in range(k)]
    f=f'MatrixcomM{a}to{b}'
    w(f'/-- {cite(f)} -/')
    w(f'def {f} (env : Env) ({" ".join(ms)} : M{a}) (mat : M{b}) : C M{b} := do\n  let mat ← initM{b} mat\n  let s := (mat, 0)')
    for t in range(k):
        c=per-1-t%per; word=t//per
        if big:
            st=f'wr2 mat j {word} (← env.stSub (← rd2 mat j {word}) {c} (← rd {ms[t]} i))'
        else:
            st=f'wr mat j (← env.stSub (← rd mat j) {c} (← rd {ms[t]} i))'
        w(f'  let s ← forUp 0 {a} s fun i (mat, j) => do\n    let mat ← {st}\n    pure (mat, j + 1)')
    w('  pure s.1\n')
    f=f'VectorcomV{a}to{b}'
    w(f'/-- {cite(f)} -/')
    w(f'def {f} (env : Env) ({" ".join(vs)} : V{a}) (vec : V{b}) : C V{b} := do')
    for t in range(k):
        c=per-1-t%per; word=t//per
        if big: w(f'  let vec ← wr vec {word} (← env.stSub (← rd vec {word}) {c} {vs[t]})')
        else: w(f'  let vec ← env.stSub vec {c} {vs[t]}')
    w('  pure vec\n')
    f=f'affinecomM{a}to{b}'
    w(f'/-- {cite(f)} -/')
    w(f'''def {f} (env : Env) ({" ".join(fs)} : Aff{a}) (aff : Aff{b}) : C Aff{b} := do
  let Mat ← MatrixcomM{a}to{b} env {" ".join(x+".Mat" for x in fs)} aff.Mat
  let Vec ← VectorcomV{a}to{b} env {" ".join(x+".Vec" for x in fs)} aff.Vec
  pure ⟨Mat, Vec⟩
''')
w('end WB')
open('/verif/lean/Verif/Model/Com.lean','w').write('\n'.join(o)+'\n')
# text check of the C source
for a,b in ((8,32),(16,64),(8,64),(32,128),(8,128),(16,128)):
    k=b//a; big=b>64; per=(64 if big else b)//a
    t=f'inti;intj=0;uint{a}_t*m;initM{b}(mat);'
    v=f'uint{a}_t*v;'
    for x in range(k):
        c=per-1-x%per; word=x//per
        dst=f'*(m+{c})' if c else '*m'
        t+='for(i=0;i<%d;i++){m=(uint%d_t*)&(*mat).M[j]%s;%s=m%d.M[i];j++;}'%(a,a,f'[{word}]' if big else '',dst,x+1)
        if x%per==0: v+='v=(uint%d_t*)&(*vec).V%s;'%(a,f'[{word}]' if big else '')
        v+=('*(v+%d)'%c if c else '*v')+'=v%d.V;'%(x+1)
    g=lambda f: re.sub(r'\s+','',re.sub(r'//.*','',re.search(r'^void %s\([^)]*\)[^\n]*\n\{\n(.*?)^\}'%f,src,re.M|re.S).group(1)))
    assert g(f'MatrixcomM{a}to{b}')==t,(a,b)
    assert g(f'VectorcomV{a}to{b}')==v,(a,b)
print('concatenation functions match the assumed shape')
