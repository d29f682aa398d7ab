import Verif.Model.AffineM4ri
import Verif.Model.WBSM4

/-!
# Model of the white-box SM4 demo that uses M4RI

`/repo/test/WBSM4/M4RI/src/matrixlib/wbsm4_gen.c` (table generation, cited as `wbsm4_gen.c`) and
`/repo/test/WBSM4/M4RI/test/main.c` (encryption with the tables, cited as `main.c`).  The files `sm4.c`, `sm4.h` and `sbox.h`
of this demo are those of `/repo/test/WBSM4/WBMatrix` (up to line ends and include paths), so their model is used; likewise
the macros `GET32`, `PUT32` and `SK32` of `main.c:26-42`.  `unsigned long` has 64 bits.

Not modelled: the timing and the output of `main`, `printstate`.
-/
namespace WB.m4ri.sm4
open WB.sm4 WB.wbsm4

/-- The global variables, `/repo/test/WBSM4/M4RI/include/matrixlib/wbsm4.h:5-9` -/
structure Globals where
  P : Vector (Vector AffineTransform 2) 36
  E : Vector (Vector (Vector AffineTransform 2) 5) 36
  Q : Vector (Vector AffineTransform 2) 36
  skbox_enc : Vector (Vector (Vector (BitVec 8) 256) 4) 32

/-- `/repo/test/WBSM4/M4RI/include/matrixlib/wbsm4.h:11-22` -/
structure Sm4Whitebox where
  M : Vector (Vector AffineTransform 3) 32
  C : Vector AffineTransform 32
  D : Vector AffineTransform 32
  SE : Vector AffineTransform 4
  FE : Vector AffineTransform 4
  Table : Vector (Vector (Vector (BitVec 32) 256) 4) 32

/-- `wbsm4_gen.c:5-8` -/
def initMatrixL (csl_matrix : Nat) : MM Unit :=
  InitMatrixFromBitArray (sm4_csl_xor_matrix (W := 64)).toList csl_matrix

/-- `wbsm4_gen.c:9-27`; `sst` is a flat pointer into `skbox_enc`, advanced by 1024 per iteration -/
def sm4_wb_gen_secrect_sbox (env : Env) (sm4_key : sm4_context 64) (skbox_enc : Vector (Vector (Vector (BitVec 8) 256) 4) 32) :
    WB.C (Vector (Vector (Vector (BitVec 8) 256) 4) 32) := do
  let key := env.junkArr 32 32
  let key ← forUp 0 32 key fun i key => do wr key i (BitVec.setWidth 32 (← rd sm4_key.sk i))
  forUp 0 32 skbox_enc fun i sk =>
    forUp 0 256 sk fun j sk => do
      let rk ← rd key i
      let jj := BitVec.ofNat 32 j
      let sk ← wrFlat sk (1024 * i + (0 + j)) (← rd SBOX (jj ^^^ (rk >>> 24 &&& 0xff)).toNat)
      let sk ← wrFlat sk (1024 * i + (256 + j)) (← rd SBOX (jj ^^^ (rk >>> 16 &&& 0xff)).toNat)
      let sk ← wrFlat sk (1024 * i + (512 + j)) (← rd SBOX (jj ^^^ (rk >>> 8 &&& 0xff)).toNat)
      wrFlat sk (1024 * i + (768 + j)) (← rd SBOX (jj ^^^ (rk &&& 0xff)).toNat)

/-- `wbsm4_gen.c:48-51`: the vector of `E[i][4][0]` -/
def concatE (e : Vector (Vector AffineTransform 2) 5) : MM Nat := do
  let v0 ← GenMatGf2 32 1
  forUp 0 32 () fun j _ => do
    MatGf2Set v0 j 0 (if ← MatGf2Get (← liftC (rd2 e (j / 8) 0)).vector_translation (j % 8) 0 then 1 else 0)
  pure v0

/-- `wbsm4_gen.c:42-53`: the 32-bit transforms `E[i][4][0]` and `E[i][4][1]` made of the 8-bit transforms `E[i][0..3][0]`;
`T` and `S` are returned because they are freed later -/
def combineE (lib : M4ri) (e : Vector (Vector AffineTransform 2) 5) :
    MM (AffineTransform × AffineTransform × Nat × Nat) := do
  let T ← MatGf2Diag (← liftC (rd2 e 0 0)).linear_map (← liftC (rd2 e 1 0)).linear_map 0
  let S ← MatGf2Diag T (← liftC (rd2 e 2 0)).linear_map 0
  let l0 ← GenMatGf2Diag S (← liftC (rd2 e 3 0)).linear_map
  let l1 ← GenMatGf2Inv lib l0
  let v0 ← concatE e
  let v1 ← MatGf2Mul lib l1 v0 0
  pure (⟨l0, v0⟩, ⟨l1, v1⟩, T, S)

/-- `wbsm4_gen.c:33-60`, the body of the loop -/
def affineRow (lib : M4ri) (fuel i : Nat) (g : Globals) : MM Globals := do
  let (p0, p1) ← GenRandomAffineTransform lib fuel 32
  let P ← liftC (wr2 g.P i 0 p0)
  let P ← liftC (wr2 P i 1 p1)
  let E ← forUp 0 4 g.E fun j E => do
    let (e0, e1) ← GenRandomAffineTransform lib fuel 8
    let E ← liftC (wr3 E i j 0 e0)
    liftC (wr3 E i j 1 e1)
  let (e0, e1, T, S) ← combineE lib (← liftC (rd E i))
  let E ← liftC (wr3 E i 4 0 e0)
  let E ← liftC (wr3 E i 4 1 e1)
  let (q0, q1) ← GenRandomAffineTransform lib fuel 32
  let Q ← liftC (wr2 g.Q i 0 q0)
  let Q ← liftC (wr2 Q i 1 q1)
  MatGf2Free T
  MatGf2Free S
  pure { g with P := P, E := E, Q := Q }

/-- `wbsm4_gen.c:28-63` (`temp` stays null) -/
def sm4_wb_gen_affine (lib : M4ri) (fuel : Nat) (g : Globals) : MM Globals := do
  let g ← forUp 0 36 g fun i g => affineRow lib fuel i g
  MatGf2Free 0
  pure g

/-- `wbsm4_gen.c:74-76`, `78-80` and `82-84` with the arguments `a = E[i][4][1]`, `b = P[i + 1][1]` and so on; the second
component of the result is the new value of `temp` -/
def mixM (lib : M4ri) (a b : AffineTransform) (temp : Nat) : MM (AffineTransform × Nat) := do
  let l ← GenMatGf2Mul lib a.linear_map b.linear_map
  let temp ← MatGf2Mul lib a.linear_map b.vector_translation temp
  let v ← GenMatGf2Add temp a.vector_translation
  pure (⟨l, v⟩, temp)

/-- `wbsm4_gen.c:133-137` and `139-143` with the arguments `a = P[i + 4][0]`, `b = P[i][1]` and `b = Q[i][1]` -/
def mixCD (lib : M4ri) (a b : AffineTransform) (temp : Nat) : MM (AffineTransform × Nat) := do
  let l ← GenMatGf2Mul lib a.linear_map b.linear_map
  let temp ← MatGf2Mul lib a.linear_map b.vector_translation temp
  let v ← GenMatGf2Add a.vector_translation temp
  pure (⟨l, v⟩, temp)

/-- `wbsm4_gen.c:93-98`: the matrix `QLi[j]` -/
def sliceQL (QL j : Nat) : MM Nat := do
  let q ← GenMatGf2 32 8
  forUp 0 32 () fun ii _ => forUp 0 8 () fun jj _ => do
    MatGf2Set q ii jj (if ← MatGf2Get QL ii (j * 8 + jj) then 1 else 0)
  pure q

/-- The local variables `temp`, `kv` and `dest` of `sm4_wb_combine_tables`. -/
structure Locals where
  temp : Nat
  kv : Nat
  dest : Nat

/-- `wbsm4_gen.c:107-117`: the value stored at `Table[i][d][k]`, where `e = E[i][d][0]`, `sk = skbox_enc[i][d]` and
`q = QLi[d]` -/
def tableEntry (lib : M4ri) (e : AffineTransform) (sk : Vector (BitVec 8) 256) (q k : Nat) (v : Locals) :
    MM (BitVec 32 × Locals) := do
  let kv ← ReAllocatedMatGf2 8 1 v.kv
  InitVecFromBit (BitVec.ofNat 64 k) kv
  let temp ← MatGf2Mul lib e.linear_map kv v.temp
  let kv ← MatGf2Add temp e.vector_translation kv
  let kd ← liftC (rd sk (← getDigitalFromVec kv).toNat)
  InitVecFromBit (kd.setWidth 64) kv
  let dest ← MatGf2Mul lib q kv v.dest
  let result ← get32FromVec dest
  pure (result, ⟨temp, kv, dest⟩)

/-- `wbsm4_gen.c:104-123`: the entries of the lookup tables of round `i` -/
def roundTables (lib : M4ri) (g : Globals) (i : Nat) (QLi : Vector Nat 4) (r : BitVec 32)
    (Table : Vector (Vector (Vector (BitVec 32) 256) 4) 32) (v : Locals) :
    MM (Vector (Vector (Vector (BitVec 32) 256) 4) 32 × Locals) :=
  forUp 0 256 (Table, v) fun k (Table, v) => do
    let (Table, v) ← forUp 0 4 (Table, v) fun d (Table, v) => do
      let e ← liftC (rd3 g.E i d 0)
      let sk ← liftC (rd2 g.skbox_enc i d)
      let q ← liftC (rd QLi d)
      let (result, v) ← tableEntry lib e sk q k v
      let Table ← liftC (wr3 Table i d k result)
      pure (Table, v)
    let t ← liftC (rd3 Table i 3 k)
    let Table ← liftC (wr3 Table i 3 k (t ^^^ r))
    pure (Table, v)

/-- `wbsm4_gen.c:87-129`: the lookup tables of round `i` with the matrices `QL` and `QLi` -/
def encTables (lib : M4ri) (g : Globals) (csl_matrix i : Nat) (Table : Vector (Vector (Vector (BitVec 32) 256) 4) 32)
    (v : Locals) : MM (Vector (Vector (Vector (BitVec 32) 256) 4) 32 × Locals) := do
  let QL ← GenMatGf2Mul lib (← liftC (rd2 g.Q i 0)).linear_map csl_matrix
  let q0 ← sliceQL QL 0
  let q1 ← sliceQL QL 1
  let q2 ← sliceQL QL 2
  let q3 ← sliceQL QL 3
  let r ← get32FromVec (← liftC (rd2 g.Q i 0)).vector_translation
  let (Table, v) ← roundTables lib g i #v[q0, q1, q2, q3] r Table v
  MatGf2Free QL
  MatGf2Free q0
  MatGf2Free q1
  MatGf2Free q2
  MatGf2Free q3
  pure (Table, v)

/-- `wbsm4_gen.c:71-150`, the body of the loop -/
def combineRound (lib : M4ri) (g : Globals) (csl_matrix i : Nat) (ctx : Sm4Whitebox) (v : Locals) :
    MM (Sm4Whitebox × Locals) := do
  let (m0, temp) ← mixM lib (← liftC (rd3 g.E i 4 1)) (← liftC (rd2 g.P (i + 1) 1)) v.temp
  let M ← liftC (wr2 ctx.M i 0 m0)
  let (m1, temp) ← mixM lib (← liftC (rd3 g.E i 4 1)) (← liftC (rd2 g.P (i + 2) 1)) temp
  let M ← liftC (wr2 M i 1 m1)
  let (m2, temp) ← mixM lib (← liftC (rd3 g.E i 4 1)) (← liftC (rd2 g.P (i + 3) 1)) temp
  let M ← liftC (wr2 M i 2 m2)
  let (Table, v) ← encTables lib g csl_matrix i ctx.Table { v with temp := temp }
  let (c, temp) ← mixCD lib (← liftC (rd2 g.P (i + 4) 0)) (← liftC (rd2 g.P i 1)) v.temp
  let Cm ← liftC (wr ctx.C i c)
  let (d, temp) ← mixCD lib (← liftC (rd2 g.P (i + 4) 0)) (← liftC (rd2 g.Q i 1)) temp
  let dv ← MatGf2Add (← liftC (rd2 g.P (i + 4) 0)).vector_translation d.vector_translation d.vector_translation
  let D ← liftC (wr ctx.D i { d with vector_translation := dv })
  pure ({ ctx with M := M, Table := Table, C := Cm, D := D }, { v with temp := temp })

/-- `GenMatGf2Copy` of both matrices, `wbsm4_gen.c:156-157` and `159-160` -/
def copyAffine (a : AffineTransform) : MM AffineTransform := do
  let l ← GenMatGf2Copy a.linear_map
  let v ← GenMatGf2Copy a.vector_translation
  pure ⟨l, v⟩

/-- `wbsm4_gen.c:64-167` -/
def sm4_wb_combine_tables (lib : M4ri) (g : Globals) (ctx : Sm4Whitebox) (csl_matrix : Nat) : MM Sm4Whitebox := do
  let (ctx, v) ← forUp 0 32 (ctx, (⟨0, 0, 0⟩ : Locals)) fun i (ctx, v) => combineRound lib g csl_matrix i ctx v
  let ctx ← forUp 0 4 ctx fun i ctx => do
    let se ← copyAffine (← liftC (rd2 g.P i 0))
    let SE ← liftC (wr ctx.SE i se)
    let fe ← copyAffine (← liftC (rd2 g.P (32 + i) 1))
    let FE ← liftC (wr ctx.FE i fe)
    pure { ctx with SE := SE, FE := FE }
  MatGf2Free v.temp
  MatGf2Free v.kv
  MatGf2Free v.dest
  pure ctx

/-- `wbsm4_gen.c:168-179` -/
def sm4_wb_gen_tables (lib : M4ri) (fuel : Nat) (env : Env) (key : Vector (BitVec 8) 16) (g : Globals)
    (sm4_wb_ctx : Sm4Whitebox) : MM (Globals × Sm4Whitebox) := do
  let ctx ← liftC (sm4_setkey_enc env key (junkCtx env 64))
  let skbox_enc ← liftC (sm4_wb_gen_secrect_sbox env ctx g.skbox_enc)
  let g ← sm4_wb_gen_affine lib fuel { g with skbox_enc := skbox_enc }
  let csl_matrix ← GenMatGf2 32 32
  initMatrixL csl_matrix
  let sm4_wb_ctx ← sm4_wb_combine_tables lib g sm4_wb_ctx csl_matrix
  MatGf2Free csl_matrix
  pure (g, sm4_wb_ctx)

/-- `main.c:45-54`: the value of `x4` computed by the macro `sm4round` in round `i` (where `skbox` points to
`Table + 1024 i`) -/
def sm4round (lib : M4ri) (ctx : Sm4Whitebox) (i : Nat) (x0 x1 x2 x3 : BitVec 32) : MM (BitVec 32) := do
  let xt1 ← ApplyAffineToU32 lib (← liftC (rd2 ctx.M i 0)) x1
  let xt2 ← ApplyAffineToU32 lib (← liftC (rd2 ctx.M i 1)) x2
  let xt3 ← ApplyAffineToU32 lib (← liftC (rd2 ctx.M i 2)) x3
  let x4 := xt1 ^^^ xt2 ^^^ xt3
  let x4 ← liftC (SK32 ctx.Table (1024 * i) x4)
  let xt0 ← ApplyAffineToU32 lib (← liftC (rd ctx.C i)) x0
  let xt4 ← ApplyAffineToU32 lib (← liftC (rd ctx.D i)) x4
  pure (xt0 ^^^ xt4)

/-- `main.c:57-96` -/
def sm4_wb_enc (lib : M4ri) (IN OUT : Vector (BitVec 8) 16) (ctx : Sm4Whitebox) : MM (Vector (BitVec 8) 16) := do
  let x0 ← liftC (GET32 IN 0)
  let x1 ← liftC (GET32 IN 4)
  let x2 ← liftC (GET32 IN 8)
  let x3 ← liftC (GET32 IN 12)
  let x0 ← ApplyAffineToU32 lib (← liftC (rd ctx.SE 0)) x0
  let x1 ← ApplyAffineToU32 lib (← liftC (rd ctx.SE 1)) x1
  let x2 ← ApplyAffineToU32 lib (← liftC (rd ctx.SE 2)) x2
  let x3 ← ApplyAffineToU32 lib (← liftC (rd ctx.SE 3)) x3
  let (x0, x1, x2, x3) ← forUp 0 32 (x0, x1, x2, x3) fun i (x0, x1, x2, x3) => do
    let x4 ← sm4round lib ctx i x0 x1 x2 x3
    pure (x1, x2, x3, x4)
  let x4 := x2
  let x2 := x0
  let x0 := x3
  let x3 := x1
  let x0 ← ApplyAffineToU32 lib (← liftC (rd ctx.FE 3)) x0
  let x4 ← ApplyAffineToU32 lib (← liftC (rd ctx.FE 2)) x4
  let x3 ← ApplyAffineToU32 lib (← liftC (rd ctx.FE 1)) x3
  let x2 ← ApplyAffineToU32 lib (← liftC (rd ctx.FE 0)) x2
  let OUT ← liftC (PUT32 x0 OUT 0)
  let OUT ← liftC (PUT32 x4 OUT 4)
  let OUT ← liftC (PUT32 x3 OUT 8)
  liftC (PUT32 x2 OUT 12)

/-- `main.c:106-142` for `TEST = n`: the calls of the modelled functions -/
def main (lib : M4ri) (fuel : Nat) (env : Env) (n : Nat) (g : Globals) (ctx : Sm4Whitebox)
    (OUT : Vector (BitVec 8) 16) : MM (Globals × Sm4Whitebox × Vector (BitVec 8) 16) := do
  let IN : Vector (BitVec 8) 16 := Vector.ofFn fun i => BitVec.ofNat 8 i
  let key : Vector (BitVec 8) 16 := Vector.replicate 16 0#8
  let (g, ctx) ← forUp 0 n (g, ctx) fun _ (g, ctx) => sm4_wb_gen_tables lib fuel env key g ctx
  let OUT ← forUp 0 n OUT fun _ OUT => sm4_wb_enc lib IN OUT ctx
  pure (g, ctx, OUT)

end WB.m4ri.sm4
