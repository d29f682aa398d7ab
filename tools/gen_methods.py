"""Generate the models of the matrix generation programs in /repo/test:
RGEMethod_test.c, RLUDMethod_test.c, WBGEMethod_test.c, BasisMatrixMethod_test.c."""
import re
OUT='/verif/lean/Verif/Model/'
SIZES=[4,8,16,32,64,128,256]
W={4:8,8:8,16:16,32:32,64:64,128:64,256:64}
L={n:(1 if n<=64 else n//64) for n in SIZES}
def src(f): return open('/repo/test/'+f).read().split('\n')
def lines(f,name):
    t=src(f)
    for i,l in enumerate(t):
        if re.match(r'(void|int|uint\d+_t)\s+'+name+r'\(',l):
            for j in range(i,len(t)):
                if t[j].startswith('}'): return f'/repo/test/{f}:{i+1}-{j+1}'
    raise Exception(name)
def junk(n): return f'(env.junkArr {W[n]} {n})' if L[n]==1 else f'(env.junkArr2 64 {L[n]} {n})'

seed='''import Verif.Model.M4
import Verif.Model.M8
import Verif.Model.M16
import Verif.Model.M32
import Verif.Model.M64
import Verif.Model.M128
import Verif.Model.M256

/-!
# Statements shared by the matrix generation programs in `/repo/test`

Generated by `tools/gen_methods.py`.  The programs declare `int randseed;` (e.g.
`/repo/test/RGEMethod_test.c:17`) although the library defines `unsigned int randseed;`.  Both
are tentative definitions of one name with external linkage; a linker that merges them (common
symbols) makes them one object, and that is what is modelled.
-/
namespace WB

/-- The expression `randseed++` where `randseed` is declared `int`: the increment of the
largest `int` overflows. -/
def randseedPostIncInt : CM (BitVec 32) := fun w =>
  if w.randseed = 0x7fffffff#32 then .error .overflow
  else .ok (w.randseed, { w with randseed := w.randseed + 1#32 })

/-- The statement `InitRandom((randseed++) ^ time(NULL));` with `int randseed` (e.g.
`/repo/test/RGEMethod_test.c:38`).  The operands are converted to the type of `time_t`, the
result to `unsigned int`. -/
def reseedInt : CM Unit := do
  InitRandom ((← randseedPostIncInt) ^^^ (← timeNow))

/-- `while(cond) s = body(s);`, given up after `fuel` evaluations of the condition. -/
def whileM {σ : Type} (cond : σ → C Bool) (body : σ → CM σ) : Nat → σ → CM σ
  | 0, _ => fun _ => .error .diverge
  | fuel + 1, s => do
    if ← liftC (cond s) then
      let s ← body s
      whileM cond body fuel s
    else pure s

end WB
'''
open(OUT+'Seed.lean','w').write(seed)

# ---------------------------------------------------------------- RGE
F='RGEMethod_test.c'
o='''import Verif.Model.Seed

/-!
# Reverse Gaussian elimination — `/repo/test/RGEMethod_test.c`

Generated by `tools/gen_methods.py`.
-/
namespace WB.rge
'''
for n in SIZES:
    l=L[n]
    o+=f'\n/-- `InvTMatM{n}` — `{lines(F,f"InvTMatM{n}")}`. -/\n'
    o+=f'def InvTMatM{n} (Mat : M{n}) : CM M{n} := do\n'
    o+=f'  let Mat ← liftC (identityM{n} Mat)\n  reseedInt\n'
    o+=f'  forDown {n} 0 Mat fun i Mat => do\n'
    o+=f'    let Mat ← forUp 0 {n} Mat fun j Mat => do\n'
    o+=f'      if j ≠ i then\n        let r ← cus_random\n'
    add='xorRow Mat j i' if l==1 else f'xorWords {list(range(l))} Mat j i'
    o+=f'        liftC do if (← umod r 2) != 0 then {add} else pure Mat\n      else pure Mat\n'
    o+=f'    if i < {n-1} then\n      let r ← cus_random\n      liftC do\n'
    o+=f'        let p := i + 1 + (← umod r (BitVec.ofNat 32 ({n-1} - i))).toNat\n'
    if l==1: o+='        swapRow Mat i p\n'
    else:
        for k in range(l): o+=f'        let temp{k} ← rd2 Mat i {k}\n'
        for k in range(l): o+=f'        let Mat ← wr2 Mat i {k} (← rd2 Mat p {k})\n'
        for k in range(l): o+=(f'        let Mat ← wr2 Mat p {k} temp{k}\n' if k<l-1 else f'        wr2 Mat p {k} temp{k}\n')
    o+='    else pure Mat\n'
o+='\nend WB.rge\n'
open(OUT+'RGE.lean','w').write(o)

# ---------------------------------------------------------------- RLUD
F='RLUDMethod_test.c'
T='\n'.join(src(F))
o='''import Verif.Model.Seed

/-!
# Reverse LU decomposition — `/repo/test/RLUDMethod_test.c`

Generated by `tools/gen_methods.py`.
-/
namespace WB.rlud
'''
for n in [4,8,16,32,64]:
    m=re.search(r'uint\d+_t identM%d\[%d\] = \{(.*?)\};'%(n,n),T,re.S)
    a=T[:m.start()].count('\n')+1; b=T[:m.end()].count('\n')+1
    ws=re.findall(r'0x[0-9a-fA-F]+',m.group(1)); assert len(ws)==n
    ls=[', '.join(ws[i:i+8]) for i in range(0,n,8)]
    o+=f'\n/-- `identM{n}[]` — `/repo/test/{F}:{a}-{b}`. -/\ndef identM{n} : Vector (BitVec {W[n]}) {n} :=\n  #v['+',\n    '.join(ls)+']\n'
o+='''
/-- The statement `if(cus_random()%2) M[i] ^= id[j];`. -/
def flip {w n m : Nat} (M : Vector (BitVec w) n) (i : Nat) (id : Vector (BitVec w) m) (j : Nat) :
    CM (Vector (BitVec w) n) := do
  let r ← cus_random
  liftC do if (← umod r 2) != 0 then wr M i ((← rd M i) ^^^ (← rd id j)) else pure M

/-- The statement `if(cus_random()%2) M[i][k] ^= id[j];`. -/
def flip2 {w n l m : Nat} (M : Vector (Vector (BitVec w) l) n) (i k : Nat)
    (id : Vector (BitVec w) m) (j : Nat) : CM (Vector (Vector (BitVec w) l) n) := do
  let r ← cus_random
  liftC do if (← umod r 2) != 0 then wr2 M i k ((← rd2 M i k) ^^^ (← rd id j)) else pure M

/-- How a machine executes an access `M[i][k]` to an array `M[n][l]` when `k` is not below `l`. -/
inductive Rows
  /-- as ISO C says: undefined behaviour -/
  | strict
  /-- the rows follow each other in memory, so that the access reaches into the next row -/
  | flat
  deriving DecidableEq

/-- `flip2` with a column index that may be out of range, see `Rows`. -/
def flip2X {w n l m : Nat} (rows : Rows) (M : Vector (Vector (BitVec w) l) n) (i k : Nat)
    (id : Vector (BitVec w) m) (j : Nat) : CM (Vector (Vector (BitVec w) l) n) :=
  match rows with
  | .strict => flip2 M i k id j
  | .flat => flip2 M (i + k / l) (k % l) id j
'''
for n in [4,8,16,32,64]:
    for nm,lo,hi in (('low','0','i'),('up','(i + 1)',str(n))):
        o+=f'\n/-- `{nm}M{n}` — `{lines(F,f"{nm}M{n}")}`. -/\n'
        o+=f'def {nm}M{n} (Mat : M{n}) : CM M{n} := do\n  reseedInt\n  forUp 0 {n} Mat fun i Mat => do\n'
        o+=f'    let Mat ← liftC do wr Mat i (← rd identM{n} i)\n'
        o+=f'    forUp {lo} {hi} Mat fun j Mat => flip Mat i identM{n} j\n'
def blk(o_, k, lo, hi, x, last=False, ext=False):
    sub=f'(j - {64*k})' if k else 'j'
    f = f'flip2 Mat i {k} identM64 {sub}' if not ext else f'flip2X rows Mat i {k+1} identM64 {sub}'
    return f'    {"let Mat ← " if not last else ""}forUp {lo} {hi} Mat fun j Mat => {f}\n'
for n in [128,256]:
    l=L[n]
    # low
    o+=f'\n/-- `lowM{n}` — `{lines(F,f"lowM{n}")}`. -/\n'
    o+=f'def lowM{n} (Mat : M{n}) : CM M{n} := do\n  reseedInt\n'
    for b in range(l):
        fin = b==l-1
        o+=f'  {"let Mat ← " if not fin else ""}forUp {64*b} {64*b+64} Mat fun i Mat => do\n'
        sub='i' if b==0 else f'(i - {64*b})'
        o+=f'    let Mat ← liftC do wr2 Mat i {b} (← rd identM64 {sub})\n'
        o+=blk(o,b,64*b,'i','',last=(fin and b==0))
        for k in range(b-1,-1,-1):
            o+=blk(o,k,64*k,64*k+64,'',last=(fin and k==0))
        for k in range(b+1,l):
            o+=f'    {"let Mat ← " if k<l-1 else ""}liftC (wr2 Mat i {k} 0)\n'
    # up
    o+=f'\n/-- `upM{n}` — `{lines(F,f"upM{n}")}`.'
    if n==256: o+='  Line 347 accesses `M[i][4]`.'
    o+=' -/\n'
    o+=f'def upM{n} {"(rows : Rows) " if n==256 else ""}(Mat : M{n}) : CM M{n} := do\n  reseedInt\n'
    for b in range(l):
        fin = b==l-1
        o+=f'  {"let Mat ← " if not fin else ""}forUp {64*b} {64*b+64} Mat fun i Mat => do\n'
        sub='i' if b==0 else f'(i - {64*b})'
        if n==256:
            for k in range(b): o+=f'    let Mat ← liftC (wr2 Mat i {k} 0)\n'
        o+=f'    let Mat ← liftC do wr2 Mat i {b} (← rd identM64 {sub})\n'
        ext=(n==256 and b==3)
        lastf = (b==l-1) and n==256
        o+=blk(o,b,'(i + 1)',64*b+64,'',last=lastf,ext=ext)
        for k in range(b+1,l):
            if n==128: o+='    forUp 0 64 Mat fun j Mat => flip2 Mat i 1 identM64 j\n'
            else: o+=blk(o,k,64*k,64*k+64,'',last=(k==l-1))
        if n==128 and b==1: o+='    liftC (wr2 Mat i 0 0)\n'
for n in SIZES:
    l=L[n]
    o+=f'\n/-- `InvTMatM{n}` — `{lines(F,f"InvTMatM{n}")}`. -/\n'
    x='(rows : Rows) ' if n==256 else ''; y='rows ' if n==256 else ''
    o+=f'def InvTMatM{n} (env : Env) {x}(Mat : M{n}) : CM M{n} := do\n  reseedInt\n'
    o+=f'  let mat1 ← lowM{n} {junk(n)}\n  let mat2 ← upM{n} {y}{junk(n)}\n'
    o+=f'  let mat3 ← liftC (MatMulMatM{n} env mat1 mat2 {junk(n)})\n'
    o+=f'  let mat3 ← forUp 0 {n-1} mat3 fun i mat3 => do\n    let r ← cus_random\n    liftC do\n'
    o+=f'      let randpivot := i + 1 + (← umod r (BitVec.ofNat 32 ({n-1} - i))).toNat\n'
    o+=('      swapRow mat3 i randpivot\n' if l==1 else f'      swapWords {list(range(l))} mat3 i randpivot\n')
    o+=f'  liftC (copyM{n} mat3 Mat)\n'
o+='\nend WB.rlud\n'
open(OUT+'RLUD.lean','w').write(o)

# ---------------------------------------------------------------- WBGE
F='WBGEMethod_test.c'
o='''import Verif.Model.Seed

/-!
# Rejection sampling — `/repo/test/WBGEMethod_test.c`

Generated by `tools/gen_methods.py`.
-/
namespace WB.wbge
'''
for n in SIZES:
    ev = '' if n<=32 else 'env '
    o+=f'\n/-- `InvTMatM{n}` — `{lines(F,f"InvTMatM{n}")}`, given up after `fuel` draws. -/\n'
    o+=f'def InvTMatM{n} (env : Env) (fuel : Nat) (Mat : M{n}) : CM M{n} := do\n'
    o+=f'  let temp ← randM{n} {ev}{junk(n)}\n'
    o+=f'  let temp ← whileM (fun temp => do pure ((← isinvertM{n} temp) == 0)) (fun temp => randM{n} {ev}temp) fuel temp\n'
    o+=f'  liftC (copyM{n} temp Mat)\n'
    o+=f'\n/-- `MatrixpairM{n}` — `{lines(F,f"MatrixpairM{n}")}`. -/\n'
    o+=f'def MatrixpairM{n} (env : Env) (fuel : Nat) (Mat Mat_inv : M{n}) : CM (M{n} × M{n}) := do\n'
    o+=f'  let Mat ← InvTMatM{n} env fuel Mat\n  let Mat_inv ← liftC (invsM{n} Mat Mat_inv)\n  pure (Mat, Mat_inv)\n'
o+='\nend WB.wbge\n'
open(OUT+'WBGE.lean','w').write(o)
