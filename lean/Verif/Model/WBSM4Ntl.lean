import Verif.Model.Ntl
import Verif.Model.WBSM4M4ri

/-!
# Model of the white-box SM4 demo that uses NTL

`/repo/test/WBSM4/NTL/src/matrixlib/wbsm4_gen.cpp` (table generation, cited as `wbsm4_gen.cpp`) and
`/repo/test/WBSM4/NTL/test/main.cpp` (encryption with the tables, cited as `main.cpp`).  The files `sm4.cpp`, `sm4.h` and
`sbox.h` of this demo are those of `/repo/test/WBSM4/WBMatrix` (up to line ends and include paths) and
`sm4_wb_gen_secrect_sbox` is that of the M4RI demo, so their models are used; likewise the macros `GET32`, `PUT32` and `SK32`
of `main.cpp:25-41`.  The numbers in `sm4_csl_xor_matrix` (`wbsm4_gen.cpp:11`, elements of type `long`) are the same, too.
`long` has `W = 64` bits.

Not modelled: the timing and the output of `main`, `printstate`.
-/
namespace WB.ntl.sm4
open WB.sm4 WB.wbsm4

/-- The global variables, `wbsm4_gen.cpp:5-9` -/
structure Globals where
  P : Vector (Vector Affine 2) 36
  E : Vector (Vector (Vector Affine 2) 5) 36
  Q : Vector (Vector Affine 2) 36
  skbox_enc : Vector (Vector (Vector (BitVec 8) 256) 4) 32

/-- `/repo/test/WBSM4/NTL/include/matrixlib/wbsm4.h:8-19` -/
structure Sm4Whitebox where
  M : Vector (Vector Affine 3) 32
  C : Vector Affine 32
  D : Vector Affine 32
  SE : Vector Affine 4
  FE : Vector Affine 4
  Table : Vector (Vector (Vector (BitVec 32) 256) 4) 32

/-- `wbsm4_gen.cpp:12-16` -/
def initMatrixL (stale : Nat → Nat → ZMod 2) (csl_matrix : MatGF2) : WB.C MatGF2 :=
  initMatrixFromBit (csl_matrix.SetDims stale 32 32) (sm4_csl_xor_matrix (W := 64)).toList

/-- The macro `RANDOM_AFFINE_MAT`, `wbsm4_gen.cpp:36-37`; the arguments are the old transforms -/
def randomAffine (stale : Nat → Nat → ZMod 2) (fuel : Nat) (x xi : Affine) (d : Nat) : NM (Affine × Affine) := do
  let (l, li, v) ← genRandomAffineMatrix stale fuel x.linearMap xi.linearMap d
  let vi ← liftC (mulVec li v)
  pure (⟨l, v⟩, ⟨li, vi⟩)

/-- `wbsm4_gen.cpp:55-58`: the vector of `E[i][4][0]`, whose old value is `v` -/
def concatE (e : Vector (Vector Affine 2) 5) (v : VecGF2) : WB.C VecGF2 :=
  forUp 0 32 (v.SetLength 32) fun j v => do
    v.put j (← (← rd2 e (j / 8) 0).vectorTranslation.get (j % 8))

/-- `wbsm4_gen.cpp:50-59`: the new values of `E[i][4][0]` and `E[i][4][1]` -/
def combineE (stale : Nat → Nat → ZMod 2) (e : Vector (Vector Affine 2) 5) : WB.C (Affine × Affine) := do
  let T ← combineDiagMat stale default (← rd2 e 0 0).linearMap (← rd2 e 1 0).linearMap
  let S ← combineDiagMat stale default T (← rd2 e 2 0).linearMap
  let l0 ← combineDiagMat stale (← rd2 e 4 0).linearMap S (← rd2 e 3 0).linearMap
  let l1 ← inv l0
  let v0 ← concatE e (← rd2 e 4 0).vectorTranslation
  let v1 ← mulVec l1 v0
  pure (⟨l0, v0⟩, ⟨l1, v1⟩)

/-- `wbsm4_gen.cpp:44-62`, the body of the loop -/
def affineRow (stale : Nat → Nat → ZMod 2) (fuel i : Nat) (g : Globals) : NM Globals := do
  let (p0, p1) ← randomAffine stale fuel (← liftC (rd2 g.P i 0)) (← liftC (rd2 g.P i 1)) 32
  let P ← liftC (wr2 g.P i 0 p0)
  let P ← liftC (wr2 P i 1 p1)
  let E ← forUp 0 4 g.E fun j E => do
    let (e0, e1) ← randomAffine stale fuel (← liftC (rd3 E i j 0)) (← liftC (rd3 E i j 1)) 8
    let E ← liftC (wr3 E i j 0 e0)
    liftC (wr3 E i j 1 e1)
  let (e0, e1) ← liftC (do combineE stale (← rd E i))
  let E ← liftC (wr3 E i 4 0 e0)
  let E ← liftC (wr3 E i 4 1 e1)
  let (q0, q1) ← randomAffine stale fuel (← liftC (rd2 g.Q i 0)) (← liftC (rd2 g.Q i 1)) 32
  let Q ← liftC (wr2 g.Q i 0 q0)
  let Q ← liftC (wr2 Q i 1 q1)
  pure { g with P := P, E := E, Q := Q }

/-- `wbsm4_gen.cpp:39-64` -/
def sm4_wb_gen_affine (stale : Nat → Nat → ZMod 2) (fuel : Nat) (g : Globals) : NM Globals :=
  forUp 0 36 g fun i g => affineRow stale fuel i g

/-- `wbsm4_gen.cpp:72-74`, `76-78` and `80-82` with `a = E[i][4][1]`, `b = P[i + 1][1]` and so on -/
def mixM (a b : Affine) : WB.C Affine := do
  let l ← mulMat a.linearMap b.linearMap
  let v ← addVec (← mulVec a.linearMap b.vectorTranslation) a.vectorTranslation
  pure ⟨l, v⟩

/-- `wbsm4_gen.cpp:124-128` and `130-134` with `a = P[i + 4][0]`, `b = P[i][1]` and `b = Q[i][1]` -/
def mixCD (a b : Affine) : WB.C Affine := do
  let l ← mulMat a.linearMap b.linearMap
  let v ← addVec a.vectorTranslation (← mulVec a.linearMap b.vectorTranslation)
  pure ⟨l, v⟩

/-- `wbsm4_gen.cpp:91-96`: the matrix `QLi[j]` -/
def sliceQL (stale : Nat → Nat → ZMod 2) (QL : MatGF2) (j : Nat) : WB.C MatGF2 :=
  forUp 0 32 ((default : MatGF2).SetDims stale 32 8) fun ii q => forUp 0 8 q fun jj q => do
    q.put ii jj (← QL.get ii (j * 8 + jj))

/-- `wbsm4_gen.cpp:105-114`: the value stored at `Table[i][d][k]`, where `e = E[i][d][0]`, `sk = skbox_enc[i][d]` and
`q = QLi[d]` -/
def tableEntry (e : Affine) (sk : Vector (BitVec 8) 256) (q : MatGF2) (k : Nat) : WB.C (BitVec 32) := do
  let kv ← initVecFromBit default (BitVec.ofNat 64 k) 8
  let kv ← addVec (← mulVec e.linearMap kv) e.vectorTranslation
  let kd ← rd sk (← getDigitalFromVec kv).toNat
  let kv ← initVecFromBit kv (kd.setWidth 64) 8
  let dest ← mulVec q kv
  get32FromVec dest

/-- `wbsm4_gen.cpp:102-120`: the entries of the lookup tables of round `i` -/
def roundTables (g : Globals) (i : Nat) (QLi : Vector MatGF2 4) (r : BitVec 32)
    (Table : Vector (Vector (Vector (BitVec 32) 256) 4) 32) : WB.C (Vector (Vector (Vector (BitVec 32) 256) 4) 32) :=
  forUp 0 256 Table fun k Table => do
    let Table ← forUp 0 4 Table fun d Table => do
      let result ← tableEntry (← rd3 g.E i d 0) (← rd2 g.skbox_enc i d) (← rd QLi d) k
      wr3 Table i d k result
    wr3 Table i 3 k ((← rd3 Table i 3 k) ^^^ r)

/-- `wbsm4_gen.cpp:86-120`: the lookup tables of round `i` with the matrices `QL` and `QLi` -/
def encTables (stale : Nat → Nat → ZMod 2) (g : Globals) (csl_matrix : MatGF2) (i : Nat)
    (Table : Vector (Vector (Vector (BitVec 32) 256) 4) 32) : WB.C (Vector (Vector (Vector (BitVec 32) 256) 4) 32) := do
  let QL ← mulMat (← rd2 g.Q i 0).linearMap csl_matrix
  let q0 ← sliceQL stale QL 0
  let q1 ← sliceQL stale QL 1
  let q2 ← sliceQL stale QL 2
  let q3 ← sliceQL stale QL 3
  let r ← get32FromVec (← rd2 g.Q i 0).vectorTranslation
  roundTables g i #v[q0, q1, q2, q3] r Table

/-- `wbsm4_gen.cpp:71-137`, the body of the loop -/
def combineRound (stale : Nat → Nat → ZMod 2) (g : Globals) (csl_matrix : MatGF2) (i : Nat) (ctx : Sm4Whitebox) :
    WB.C Sm4Whitebox := do
  let M ← wr2 ctx.M i 0 (← mixM (← rd3 g.E i 4 1) (← rd2 g.P (i + 1) 1))
  let M ← wr2 M i 1 (← mixM (← rd3 g.E i 4 1) (← rd2 g.P (i + 2) 1))
  let M ← wr2 M i 2 (← mixM (← rd3 g.E i 4 1) (← rd2 g.P (i + 3) 1))
  let Table ← encTables stale g csl_matrix i ctx.Table
  let Cm ← wr ctx.C i (← mixCD (← rd2 g.P (i + 4) 0) (← rd2 g.P i 1))
  let d ← mixCD (← rd2 g.P (i + 4) 0) (← rd2 g.Q i 1)
  let dv ← addVec (← rd2 g.P (i + 4) 0).vectorTranslation d.vectorTranslation
  let D ← wr ctx.D i { d with vectorTranslation := dv }
  pure { ctx with M := M, Table := Table, C := Cm, D := D }

/-- `wbsm4_gen.cpp:65-150` -/
def sm4_wb_combine_tables (stale : Nat → Nat → ZMod 2) (g : Globals) (ctx : Sm4Whitebox) (csl_matrix : MatGF2) :
    WB.C Sm4Whitebox := do
  let ctx ← forUp 0 32 ctx fun i ctx => combineRound stale g csl_matrix i ctx
  forUp 0 4 ctx fun i ctx => do
    let SE ← wr ctx.SE i (← rd2 g.P i 0)
    let FE ← wr ctx.FE i (← rd2 g.P (32 + i) 1)
    pure { ctx with SE := SE, FE := FE }

/-- `wbsm4_gen.cpp:151-160` -/
def sm4_wb_gen_tables (stale : Nat → Nat → ZMod 2) (fuel : Nat) (env : Env) (key : Vector (BitVec 8) 16) (g : Globals)
    (sm4_wb_ctx : Sm4Whitebox) : NM (Globals × Sm4Whitebox) := do
  let ctx ← liftC (sm4_setkey_enc env key (junkCtx env 64))
  let skbox_enc ← liftC (m4ri.sm4.sm4_wb_gen_secrect_sbox env ctx g.skbox_enc)
  let g ← sm4_wb_gen_affine stale fuel { g with skbox_enc := skbox_enc }
  let csl_matrix ← liftC (initMatrixL stale default)
  let sm4_wb_ctx ← liftC (sm4_wb_combine_tables stale g sm4_wb_ctx csl_matrix)
  pure (g, sm4_wb_ctx)

/-- `main.cpp:44-53`: the value of `x4` computed by the macro `sm4round` in round `i` (where `skbox` points to
`Table + 1024 i`) -/
def sm4round (ctx : Sm4Whitebox) (i : Nat) (x0 x1 x2 x3 : BitVec 32) : WB.C (BitVec 32) := do
  let xt1 ← applyAffineToU32 64 (← rd2 ctx.M i 0) x1
  let xt2 ← applyAffineToU32 64 (← rd2 ctx.M i 1) x2
  let xt3 ← applyAffineToU32 64 (← rd2 ctx.M i 2) x3
  let x4 := xt1 ^^^ xt2 ^^^ xt3
  let x4 ← SK32 ctx.Table (1024 * i) x4
  let xt0 ← applyAffineToU32 64 (← rd ctx.C i) x0
  let xt4 ← applyAffineToU32 64 (← rd ctx.D i) x4
  pure (xt0 ^^^ xt4)

/-- `main.cpp:56-95` -/
def sm4_wb_enc (IN OUT : Vector (BitVec 8) 16) (ctx : Sm4Whitebox) : WB.C (Vector (BitVec 8) 16) := do
  let x0 ← GET32 IN 0
  let x1 ← GET32 IN 4
  let x2 ← GET32 IN 8
  let x3 ← GET32 IN 12
  let x0 ← applyAffineToU32 64 (← rd ctx.SE 0) x0
  let x1 ← applyAffineToU32 64 (← rd ctx.SE 1) x1
  let x2 ← applyAffineToU32 64 (← rd ctx.SE 2) x2
  let x3 ← applyAffineToU32 64 (← rd ctx.SE 3) x3
  let (x0, x1, x2, x3) ← forUp 0 32 (x0, x1, x2, x3) fun i (x0, x1, x2, x3) => do
    let x4 ← sm4round ctx i x0 x1 x2 x3
    pure (x1, x2, x3, x4)
  let x4 := x2
  let x2 := x0
  let x0 := x3
  let x3 := x1
  let x0 ← applyAffineToU32 64 (← rd ctx.FE 3) x0
  let x4 ← applyAffineToU32 64 (← rd ctx.FE 2) x4
  let x3 ← applyAffineToU32 64 (← rd ctx.FE 1) x3
  let x2 ← applyAffineToU32 64 (← rd ctx.FE 0) x2
  let OUT ← PUT32 x0 OUT 0
  let OUT ← PUT32 x4 OUT 4
  let OUT ← PUT32 x3 OUT 8
  PUT32 x2 OUT 12

/-- `main.cpp:105-142` for `TEST = n`: the calls of the modelled functions -/
def main (stale : Nat → Nat → ZMod 2) (fuel : Nat) (env : Env) (n : Nat) (g : Globals) (ctx : Sm4Whitebox)
    (OUT : Vector (BitVec 8) 16) : NM (Globals × Sm4Whitebox × Vector (BitVec 8) 16) := do
  let IN : Vector (BitVec 8) 16 := Vector.ofFn fun i => BitVec.ofNat 8 i
  let key : Vector (BitVec 8) 16 := Vector.replicate 16 0#8
  let (g, ctx) ← forUp 0 n (g, ctx) fun _ (g, ctx) => sm4_wb_gen_tables stale fuel env key g ctx
  let OUT ← liftC (forUp 0 n OUT fun _ OUT => sm4_wb_enc IN OUT ctx)
  pure (g, ctx, OUT)

end WB.ntl.sm4
