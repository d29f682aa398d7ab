import re
src=open('/repo/test/WBSM4/WBMatrix/src/wbsm4_gen.c').read()
hd=open('/repo/test/WBSM4/WBMatrix/include/sbox.h').read()
sb=re.findall(r'0x[0-9a-fA-F]+',hd[hd.index('SBOX'):]); assert len(sb)==256,len(sb)
csl=re.findall(r'0x[0-9a-fA-F]+',re.search(r'csl_xor_matrix\[32\] = \{(.*?)\}',src).group(1)); assert len(csl)==32
idm=re.findall(r'0x[0-9a-fA-F]+',re.search(r'identM32\[32\]=\{(.*?)\}',src).group(1)); assert len(idm)==32
def rows(l,n): return ",\n   ".join(", ".join(l[i:i+n]) for i in range(0,len(l),n))
out=f'''import Verif.Model.SM4
import Verif.Model.Com
import Verif.Model.M8
import Verif.Model.M32

/-!
# Model of the white-box SM4 demo

`/repo/test/WBSM4/WBMatrix/src/wbsm4_gen.c` (table generation) and `/repo/test/WBSM4/WBMatrix/test/main.c` (encryption
with the tables).  The demo calls the matrix library; the library functions it uses are collected in a record `Lib`, so
that the same model runs on the current library (`/repo/src/WBMatrix`) and on the older copy bundled with the demo
(`/repo/test/WBSM4/WBMatrix/src/WBMatrix`).

Not modelled: `main` (timing loops around the modelled functions), `printstate`.
-/
namespace WB.wbsm4
open sm4

/-- The functions of the matrix library that the demo calls (output pointers carry the old contents). -/
structure Lib where
  genaffinepairM32 : Aff32 → Aff32 → CM (Aff32 × Aff32)
  genaffinepairM8 : Aff8 → Aff8 → CM (Aff8 × Aff8)
  affinecomM8to32 : Aff8 → Aff8 → Aff8 → Aff8 → Aff32 → C Aff32
  affinemixM32 : Aff32 → Aff32 → Aff32 → C Aff32
  MatMulMatM32 : M32 → M32 → M32 → C M32
  affineU8 : Aff8 → BitVec 8 → C (BitVec 8)
  affineU32 : Aff32 → BitVec 32 → C (BitVec 32)
  xorU8 : BitVec 8 → C Int

/-- The current library. -/
def Lib.current (env : Env) : Lib where
  genaffinepairM32 := WB.genaffinepairM32 env
  genaffinepairM8 := WB.genaffinepairM8 env
  affinecomM8to32 := WB.affinecomM8to32 env
  affinemixM32 := WB.affinemixM32 env
  MatMulMatM32 := WB.MatMulMatM32 env
  affineU8 := WB.affineU8 env
  affineU32 := WB.affineU32 env
  xorU8 := WB.xorU8 env

/-- The global variables, `/repo/test/WBSM4/WBMatrix/include/wbsm4.h:5-10` -/
structure Globals where
  P : Vector (Vector Aff32 2) 36
  E : Vector (Vector (Vector Aff8 2) 4) 36
  EC : Vector (Vector Aff32 2) 36
  Q : Vector (Vector Aff32 2) 36
  skbox_enc : Vector (Vector (Vector (BitVec 8) 256) 4) 32

/-- `/repo/test/WBSM4/WBMatrix/include/wbsm4.h:12-23` -/
structure Sm4Whitebox where
  M : Vector (Vector Aff32 3) 32
  C : Vector Aff32 32
  D : Vector Aff32 32
  SE : Vector Aff32 4
  FE : Vector Aff32 4
  Table : Vector (Vector (Vector (BitVec 32) 256) 4) 32

set_option maxRecDepth 4096 in
/-- `/repo/test/WBSM4/WBMatrix/include/sbox.h:2-35` -/
def SBOX : Vector (BitVec 8) 256 :=
  #v[{rows(sb,16)}]

/-- `/repo/test/WBSM4/WBMatrix/src/wbsm4_gen.c:4` -/
def identM32 : Vector (BitVec 32) 32 :=
  #v[{rows(idm,8)}]

variable {{W : Nat}}

/-- `/repo/test/WBSM4/WBMatrix/src/wbsm4_gen.c:5` (elements are `unsigned long`) -/
def sm4_csl_xor_matrix : Vector (BitVec W) 32 :=
  #v[{rows(csl,8)}]

/-- `a[x][y][z]` -/
def rd3 {{α : Type}} {{n m l : Nat}} (a : Vector (Vector (Vector α l) m) n) (x y z : Nat) : C α := do
  rd (← rd (← rd a x) y) z

/-- `a[x][y][z] = v` -/
def wr3 {{α : Type}} {{n m l : Nat}} (a : Vector (Vector (Vector α l) m) n) (x y z : Nat) (v : α) :
    C (Vector (Vector (Vector α l) m) n) := do
  wr a x (← wr (← rd a x) y (← wr (← rd (← rd a x) y) z v))

/-- `p[k]` where `p` is a flat pointer to the first element of an array `[n][4][256]` -/
def rdFlat {{α : Type}} {{n : Nat}} (a : Vector (Vector (Vector α 256) 4) n) (k : Nat) : C α :=
  rd3 a (k / 1024) (k / 256 % 4) (k % 256)

/-- `p[k] = v` for such a pointer -/
def wrFlat {{α : Type}} {{n : Nat}} (a : Vector (Vector (Vector α 256) 4) n) (k : Nat) (v : α) :
    C (Vector (Vector (Vector α 256) 4) n) :=
  wr3 a (k / 1024) (k / 256 % 4) (k % 256) v

/-- `/repo/test/WBSM4/WBMatrix/src/wbsm4_gen.c:6-12`; `W` is the width of `unsigned long` -/
def initMatrixL (W : Nat) (csl_matrix : M32) : C M32 :=
  forUp 0 32 csl_matrix fun i csl => do
    wr csl i (BitVec.setWidth 32 (← rd (sm4_csl_xor_matrix (W := W)) i))

/-- `/repo/test/WBSM4/WBMatrix/src/wbsm4_gen.c:13-31`; `sst` is a flat pointer into `skbox_enc`, advanced by 1024 per
iteration -/
def sm4_wb_gen_secrect_sbox (env : Env) (sm4_key : sm4_context W) (g : Globals) : C Globals := do
  let key := env.junkArr 32 32
  let key ← forUp 0 32 key fun i key => do wr key i (BitVec.setWidth 32 (← rd sm4_key.sk i))
  let skbox_enc ← forUp 0 32 g.skbox_enc fun i sk =>
    forUp 0 256 sk fun j sk => do
      let rk ← rd key i
      let jj := BitVec.ofNat 32 j
      let sk ← wrFlat sk (1024 * i + (0 + j)) (← rd SBOX (jj ^^^ (rk >>> 24 &&& 0xff)).toNat)
      let sk ← wrFlat sk (1024 * i + (256 + j)) (← rd SBOX (jj ^^^ (rk >>> 16 &&& 0xff)).toNat)
      let sk ← wrFlat sk (1024 * i + (512 + j)) (← rd SBOX (jj ^^^ (rk >>> 8 &&& 0xff)).toNat)
      wrFlat sk (1024 * i + (768 + j)) (← rd SBOX (jj ^^^ (rk &&& 0xff)).toNat)
  pure {{ g with skbox_enc := skbox_enc }}

/-- `/repo/test/WBSM4/WBMatrix/src/wbsm4_gen.c:32-53` -/
def sm4_wb_gen_affine (lib : Lib) (g : Globals) : CM Globals :=
  forUp 0 36 g fun i g => do
    let (p0, p1) ← lib.genaffinepairM32 (← liftC (rd2 g.P i 0)) (← liftC (rd2 g.P i 1))
    let P ← liftC (wr2 g.P i 0 p0)
    let P ← liftC (wr2 P i 1 p1)
    let E ← forUp 0 4 g.E fun j E => do
      let (e0, e1) ← lib.genaffinepairM8 (← liftC (rd3 E i j 0)) (← liftC (rd3 E i j 1))
      let E ← liftC (wr3 E i j 0 e0)
      liftC (wr3 E i j 1 e1)
    let ec ← liftC do
      lib.affinecomM8to32 (← rd3 E i 0 1) (← rd3 E i 1 1) (← rd3 E i 2 1) (← rd3 E i 3 1) (← rd2 g.EC i 1)
    let EC ← liftC (wr2 g.EC i 1 ec)
    let (q0, q1) ← lib.genaffinepairM32 (← liftC (rd2 g.Q i 0)) (← liftC (rd2 g.Q i 1))
    let Q ← liftC (wr2 g.Q i 0 q0)
    let Q ← liftC (wr2 Q i 1 q1)
    pure {{ g with P := P, E := E, EC := EC, Q := Q }}

/-- `/repo/test/WBSM4/WBMatrix/src/wbsm4_gen.c:70-75`: the four matrices `QLi`, each holding one byte of every row -/
def splitQL (env : Env) (QL : M32) : C (Vector M32 4) :=
  let QLi : Vector M32 4 := Vector.ofFn fun j => Vector.ofFn fun i => env.junk 32 (32 * j.val + i.val)
  forUp 0 4 QLi fun j QLi =>
    forUp 0 32 QLi fun ii QLi => do
      wr2 QLi j ii (((((← rd QL ii) >>> (8 * j)).setWidth 8 : BitVec 8)).setWidth 32)

/-- `/repo/test/WBSM4/WBMatrix/src/wbsm4_gen.c:80-101`: the lookup tables of round `i` -/
def roundTables (lib : Lib) (g : Globals) (i : Nat) (QLi : Vector M32 4) (r : BitVec 32)
    (Table : Vector (Vector (Vector (BitVec 32) 256) 4) 32) : C (Vector (Vector (Vector (BitVec 32) 256) 4) 32) :=
  forUp 0 256 Table fun k Table => do
    let Table ← forUp 0 4 Table fun d Table => do
      let kd ← lib.affineU8 (← rd3 g.E i d 0) (BitVec.ofNat 8 k)
      let kd ← rd3 g.skbox_enc i d kd.toNat
      let temp ← forUp 0 32 (0 : BitVec 32) fun ii temp => do
        if (← lib.xorU8 (((← rd2 QLi (3 - d) ii).setWidth 8) &&& kd)) != 0 then pure (temp ^^^ (← rd identM32 ii))
        else pure temp
      wr3 Table i d k temp
    wr3 Table i 3 k ((← rd3 Table i 3 k) ^^^ r)

/-- `/repo/test/WBSM4/WBMatrix/src/wbsm4_gen.c:54-125` -/
def sm4_wb_combine_tables (env : Env) (lib : Lib) (g : Globals) (csl_matrix : M32) (ctx : Sm4Whitebox) :
    C Sm4Whitebox := do
  let ctx ← forUp 0 32 ctx fun i ctx => do
    let M ← wr2 ctx.M i 0 (← lib.affinemixM32 (← rd2 g.EC i 1) (← rd2 g.P (i + 1) 1) (← rd2 ctx.M i 0))
    let M ← wr2 M i 1 (← lib.affinemixM32 (← rd2 g.EC i 1) (← rd2 g.P (i + 2) 1) (← rd2 M i 1))
    let M ← wr2 M i 2 (← lib.affinemixM32 (← rd2 g.EC i 1) (← rd2 g.P (i + 3) 1) (← rd2 M i 2))
    let QL ← lib.MatMulMatM32 (← rd2 g.Q i 0).Mat csl_matrix (env.junkArr 32 32)
    let QLi ← splitQL env QL
    let r := (← rd2 g.Q i 0).Vec
    let Table ← roundTables lib g i QLi r ctx.Table
    let Cm ← wr ctx.C i (← lib.affinemixM32 (← rd2 g.P (i + 4) 0) (← rd2 g.P i 1) (← rd ctx.C i))
    let D ← wr ctx.D i (← lib.affinemixM32 (← rd2 g.P (i + 4) 0) (← rd2 g.Q i 1) (← rd ctx.D i))
    let d ← rd D i
    let D ← wr D i {{ d with Vec := d.Vec ^^^ (← rd2 g.P (i + 4) 0).Vec }}
    pure {{ ctx with M := M, Table := Table, C := Cm, D := D }}
  forUp 0 4 ctx fun i ctx => do
    let SE ← wr ctx.SE i (← rd2 g.P i 0)
    let FE ← wr ctx.FE i (← rd2 g.P (32 + i) 1)
    pure {{ ctx with SE := SE, FE := FE }}

/-- The contents of the uninitialised local `sm4_context ctx`. -/
def junkCtx (env : Env) (W : Nat) : sm4_context W := ⟨(env.junk 32 0).toInt, env.junkArr W 32⟩

/-- `/repo/test/WBSM4/WBMatrix/src/wbsm4_gen.c:126-135` -/
def sm4_wb_gen_tables (W : Nat) (env : Env) (lib : Lib) (key : Vector (BitVec 8) 16) (g : Globals)
    (sm4_wb_ctx : Sm4Whitebox) : CM (Globals × Sm4Whitebox) := do
  let ctx ← liftC (sm4_setkey_enc env key (junkCtx env W))
  let g ← liftC (sm4_wb_gen_secrect_sbox env ctx g)
  let g ← sm4_wb_gen_affine lib g
  let csl_matrix ← liftC (initMatrixL W (env.junkArr 32 32))
  let sm4_wb_ctx ← liftC (sm4_wb_combine_tables env lib g csl_matrix sm4_wb_ctx)
  pure (g, sm4_wb_ctx)

/-- `/repo/test/WBSM4/WBMatrix/test/main.c:25-29` -/
def GET32 (pc : Vector (BitVec 8) 16) (i : Nat) : C (BitVec 32) := do
  pure ((← rd pc i).setWidth 32 <<< 24 ^^^ (← rd pc (i + 1)).setWidth 32 <<< 16 ^^^
    (← rd pc (i + 2)).setWidth 32 <<< 8 ^^^ (← rd pc (i + 3)).setWidth 32)

/-- `/repo/test/WBSM4/WBMatrix/test/main.c:31-35` -/
def PUT32 (st : BitVec 32) (ct : Vector (BitVec 8) 16) (i : Nat) : C (Vector (BitVec 8) 16) := do
  let ct ← wr ct i ((st >>> 24).setWidth 8)
  let ct ← wr ct (i + 1) ((st >>> 16).setWidth 8)
  let ct ← wr ct (i + 2) ((st >>> 8).setWidth 8)
  wr ct (i + 3) (st.setWidth 8)

/-- `/repo/test/WBSM4/WBMatrix/test/main.c:37-41`; `skbox` is a flat pointer into `Table`, given by its offset -/
def SK32 (Table : Vector (Vector (Vector (BitVec 32) 256) 4) 32) (skbox : Nat) (A : BitVec 32) : C (BitVec 32) := do
  let a ← rdFlat Table (skbox + (0 + (A >>> 24 &&& 0xff).toNat))
  let b ← rdFlat Table (skbox + (256 + (A >>> 16 &&& 0xff).toNat))
  let c ← rdFlat Table (skbox + (512 + (A >>> 8 &&& 0xff).toNat))
  let d ← rdFlat Table (skbox + (768 + (A &&& 0xff).toNat))
  pure (a ^^^ b ^^^ c ^^^ d)

/-- `/repo/test/WBSM4/WBMatrix/test/main.c:44-53`: the value of `x4` computed by the macro `sm4round` in round `i`
(where `skbox` points to `Table + 1024 i`) -/
def sm4round (lib : Lib) (ctx : Sm4Whitebox) (i : Nat) (x0 x1 x2 x3 : BitVec 32) : C (BitVec 32) := do
  let xt1 ← lib.affineU32 (← rd2 ctx.M i 0) x1
  let xt2 ← lib.affineU32 (← rd2 ctx.M i 1) x2
  let xt3 ← lib.affineU32 (← rd2 ctx.M i 2) x3
  let x4 := xt1 ^^^ xt2 ^^^ xt3
  let x4 ← SK32 ctx.Table (1024 * i) x4
  let xt0 ← lib.affineU32 (← rd ctx.C i) x0
  let xt4 ← lib.affineU32 (← rd ctx.D i) x4
  pure (xt0 ^^^ xt4)

/-- `/repo/test/WBSM4/WBMatrix/test/main.c:56-98` -/
def sm4_wb_enc (lib : Lib) (IN OUT : Vector (BitVec 8) 16) (ctx : Sm4Whitebox) : C (Vector (BitVec 8) 16) := do
  let x0 ← GET32 IN 0
  let x1 ← GET32 IN 4
  let x2 ← GET32 IN 8
  let x3 ← GET32 IN 12
  let x0 ← lib.affineU32 (← rd ctx.SE 0) x0
  let x1 ← lib.affineU32 (← rd ctx.SE 1) x1
  let x2 ← lib.affineU32 (← rd ctx.SE 2) x2
  let x3 ← lib.affineU32 (← rd ctx.SE 3) x3
  let (x0, x1, x2, x3) ← forUp 0 32 (x0, x1, x2, x3) fun i (x0, x1, x2, x3) => do
    let x4 ← sm4round lib ctx i x0 x1 x2 x3
    pure (x1, x2, x3, x4)
  let x4 := x2
  let x2 := x0
  let x0 := x3
  let x3 := x1
  let x0 ← lib.affineU32 (← rd ctx.FE 3) x0
  let x4 ← lib.affineU32 (← rd ctx.FE 2) x4
  let x3 ← lib.affineU32 (← rd ctx.FE 1) x3
  let x2 ← lib.affineU32 (← rd ctx.FE 0) x2
  let OUT ← PUT32 x0 OUT 0
  let OUT ← PUT32 x4 OUT 4
  let OUT ← PUT32 x3 OUT 8
  PUT32 x2 OUT 12

end WB.wbsm4
'''
open('/verif/lean/Verif/Model/WBSM4.lean','w').write(out)
