import Mathlib.LinearAlgebra.Matrix.Adjugate
import Mathlib.Data.ZMod.Basic
import Verif.C

/-!
# Model of the matrix layer on top of NTL

`/repo/test/NTL/src/RandMat.cpp` (cited as `RandMat.cpp`; `/repo/test/WBAES/NTL/src/RandMat.cpp` has the same `init` and
`operator<<`) and `/repo/test/WBSM4/NTL/src/matrixlib/MatrixUtils.cpp` (cited as `MatrixUtils.cpp`).

NTL itself is not modelled but described: `mat_GF2` and `vec_GF2` are values over GF(2) with their sizes.

* An index out of range is the outcome `oob` (undefined, or an error if NTL has been built with range checks).
* Operands whose sizes do not fit, the determinant of a matrix that is not square and the inverse of a singular matrix make
  NTL end the program, outcome `abort`.
* `SetDims` keeps the elements if the number of columns stays the same; rows that are added may then hold anything, which is
  the parameter `stale`.
* `random_GF2` returns the next bit of an arbitrary sequence of bits, `random(x, n)` of NTL returns the next `n` bits.

`W` is the number of bits of `long`.  References to the same object are not considered (the demos never pass one).
-/
namespace WB.ntl

/-! ## What is used of NTL -/

/-- `NTL::vec_GF2` -/
structure VecGF2 where
  len : Nat
  v : Fin len → ZMod 2

/-- `NTL::mat_GF2` -/
structure MatGF2 where
  r : Nat
  c : Nat
  m : Matrix (Fin r) (Fin c) (ZMod 2)

/-- A default constructed vector. -/
instance : Inhabited VecGF2 := ⟨⟨0, fun _ => 0⟩⟩

/-- A default constructed matrix. -/
instance : Inhabited MatGF2 := ⟨⟨0, 0, fun _ _ => 0⟩⟩

/-- `x.get(i)` and `x[i]` -/
def VecGF2.get (x : VecGF2) (i : Nat) : C (ZMod 2) := if h : i < x.len then .ok (x.v ⟨i, h⟩) else .error .oob

/-- `x.put(i, a)` and `x[i] = a` -/
def VecGF2.put (x : VecGF2) (i : Nat) (a : ZMod 2) : C VecGF2 :=
  if i < x.len then .ok ⟨x.len, fun k => if k.val = i then a else x.v k⟩ else .error .oob

/-- `x.SetLength(n)` -/
def VecGF2.SetLength (x : VecGF2) (n : Nat) : VecGF2 := ⟨n, fun i => if h : i.val < x.len then x.v ⟨i, h⟩ else 0⟩

/-- `x.get(i, j)` and `x[i][j]` -/
def MatGF2.get (x : MatGF2) (i j : Nat) : C (ZMod 2) :=
  if h : i < x.r ∧ j < x.c then .ok (x.m ⟨i, h.1⟩ ⟨j, h.2⟩) else .error .oob

/-- `x.put(i, j, a)` and `x[i][j] = a` -/
def MatGF2.put (x : MatGF2) (i j : Nat) (a : ZMod 2) : C MatGF2 :=
  if i < x.r ∧ j < x.c then .ok ⟨x.r, x.c, fun k l => if k.val = i ∧ l.val = j then a else x.m k l⟩ else .error .oob

/-- `x.SetDims(n, m)` -/
def MatGF2.SetDims (stale : Nat → Nat → ZMod 2) (x : MatGF2) (n m : Nat) : MatGF2 :=
  ⟨n, m, fun i j => if h : m = x.c then (if h' : i.val < x.r then x.m ⟨i, h'⟩ (Fin.cast h j) else stale i j) else 0⟩

/-- `A * B` for matrices -/
def mulMat (A B : MatGF2) : C MatGF2 :=
  if h : A.c = B.r then .ok ⟨A.r, B.c, A.m * B.m.submatrix (Fin.cast h) id⟩ else .error .abort

/-- `A * x` for a matrix and a vector; the same as `mul(y, A, x)` -/
def mulVec (A : MatGF2) (x : VecGF2) : C VecGF2 :=
  if h : A.c = x.len then .ok ⟨A.r, A.m.mulVec fun j => x.v (Fin.cast h j)⟩ else .error .abort

/-- `x + y` for vectors -/
def addVec (x y : VecGF2) : C VecGF2 :=
  if h : x.len = y.len then .ok ⟨x.len, fun i => x.v i + y.v (Fin.cast h i)⟩ else .error .abort

/-- `determinant(A)` -/
def determinant (A : MatGF2) : C (ZMod 2) :=
  if h : A.r = A.c then .ok (A.m.submatrix id (Fin.cast h)).det else .error .abort

/-- `inv(A)`; the same as `inv(X, A)` -/
def inv (A : MatGF2) : C MatGF2 := do
  if (← determinant A) = 0 then .error .abort
  else if h : A.r = A.c then pure ⟨A.r, A.r, (A.m.submatrix id (Fin.cast h)).adjugate⟩ else .error .abort

/-- `inv(d, Y, A)`: the new value of `Y`, which stays the same if `A` is singular -/
def invTo (Y A : MatGF2) : C MatGF2 := do if (← determinant A) = 0 then pure Y else inv A

/-- The random bits: the sequence and the number of bits used so far. -/
structure Rnd where
  bits : Nat → ZMod 2
  pos : Nat

/-- Functions that use random bits. -/
abbrev NM := StateT Rnd (Except Fault)

/-- A function that uses no random bits. -/
def liftC {α : Type} (x : C α) : NM α := fun s => x.map fun a => (a, s)

/-- `random_GF2()` -/
def random_GF2 : NM (ZMod 2) := fun s => .ok (s.bits s.pos, { s with pos := s.pos + 1 })

/-- `random(x, n)` of NTL -/
def randomVec (n : Nat) : NM VecGF2 := fun s => .ok (⟨n, fun i => s.bits (s.pos + i)⟩, { s with pos := s.pos + n })

/-! ## RandMat.cpp -/

/-- `RandMat.cpp:16-22` and `55-61`, `MatrixUtils.cpp:12-18`: the bits of row `i`; the second component is `hw` -/
def fillRow (L : MatGF2) (i n2 : Nat) : NM (MatGF2 × Nat) :=
  forUp 0 n2 (L, 0) fun j (L, hw) => do
    let L ← liftC (L.put i j (← random_GF2))
    if (← liftC (L.get i j)) = 1 then pure (L, hw + 1) else pure (L, hw)

/-- `RandMat.cpp:14-23` and `52-61`, `MatrixUtils.cpp:10-19`: row `i` is drawn again as long as `hw == 1`; at most `fuel`
times here -/
def drawRow (L : MatGF2) (i n2 : Nat) : Nat → NM MatGF2
  | 0 => liftC (.error .diverge)
  | fuel + 1 => do
    let (L, hw) ← fillRow L i n2
    if hw = 1 then drawRow L i n2 fuel else pure L

/-- `RandMat.cpp:12-24` and `50-62`, `MatrixUtils.cpp:8-20` -/
def fillMat (fuel : Nat) (L : MatGF2) (n1 n2 : Nat) : NM MatGF2 :=
  forUp 0 n1 L fun i L => drawRow L i n2 fuel

/-- The loops `RandMat.cpp:11-29` and `49-63` for `is_mb ≠ 0`: the matrix is drawn again as long as its determinant is 0; at
most `fuel` times here -/
def drawMat (fuel0 : Nat) (mat : MatGF2) (dim : Nat) : Nat → NM MatGF2
  | 0 => liftC (.error .diverge)
  | fuel + 1 => do
    let mat ← fillMat fuel0 mat dim dim
    if (← liftC (determinant mat)) = 0 then drawMat fuel0 mat dim fuel else pure mat

/-- `/repo/test/NTL/include/RandMat.h:11-19` -/
structure RandMat where
  dim : Nat
  mat : MatGF2
  invMat : MatGF2

instance : Inhabited RandMat := ⟨⟨0, default, default⟩⟩

/-- `RandMat.cpp:5-32`; `self` is the object before the call -/
def RandMat.init (stale : Nat → Nat → ZMod 2) (fuel : Nat) (self : RandMat) (dim : Nat) (is_mb : Bool := true) :
    NM RandMat := do
  let mat := (default : MatGF2).SetDims stale dim dim
  if is_mb then
    let mat ← drawMat fuel mat dim fuel
    pure ⟨dim, mat, ← liftC (inv mat)⟩
  else
    let mat ← fillMat fuel mat dim dim
    pure { self with dim := dim, mat := mat }

/-- `RandMat.cpp:34-43` -/
def initVec (dim : Nat) : NM VecGF2 := do
  let vec := (default : VecGF2).SetLength dim
  forUp 0 dim vec fun j vec => do liftC (vec.put j (← random_GF2))

/-- `RandMat.cpp:44-65` -/
def InvTMat (stale : Nat → Nat → ZMod 2) (fuel dim : Nat) : NM MatGF2 := do
  drawMat fuel ((default : MatGF2).SetDims stale dim dim) dim fuel

/-- What has been written to `cout` and to another stream. -/
structure Out where
  cout : List Char
  stream : List Char

/-- `cout << s` -/
def toCout (s : String) : StateT Out (Except Fault) Unit := fun o => .ok ((), { o with cout := o.cout ++ s.toList })

/-- `RandMat.cpp:69-76` and `83-90` -/
def printMat (dim : Nat) (mat : MatGF2) : StateT Out (Except Fault) Unit :=
  forUp 0 dim () fun i _ => do
    forUp 0 dim () fun j _ => do
      let b : ZMod 2 ← (fun o => (mat.get i j).map fun a => (a, o) : StateT Out (Except Fault) (ZMod 2))
      toCout (if b = 1 then "1" else "0")
      toCout " "
    toCout "\n"

/-- `RandMat.cpp:66-93`: `operator<<` called with another stream than `cout` -/
def RandMat.print (rMat : RandMat) : StateT Out (Except Fault) Unit := do
  toCout "Dim="
  toCout (toString rMat.dim)
  toCout "\n"
  printMat rMat.dim rMat.mat
  toCout "\n"
  let d : ZMod 2 ← (fun o => (determinant rMat.mat).map fun a => (a, o) : StateT Out (Except Fault) (ZMod 2))
  if d = 0 then pure () else printMat rMat.dim rMat.invMat

/-! ## MatrixUtils.cpp -/

variable {W : Nat}

/-- The element of GF(2) that `put` stores for an integer. -/
def gf2 (x : BitVec W) : ZMod 2 := if x.getLsbD 0 then 1 else 0

/-- `MatrixUtils.cpp:4-21` -/
def random (stale : Nat → Nat → ZMod 2) (fuel : Nat) (L : MatGF2) (n1 n2 : Nat) : NM MatGF2 :=
  fillMat fuel (L.SetDims stale n1 n2) n1 n2

/-- `MatrixUtils.cpp:47-50`, `83-86`, `94-97` and `106-109`: draws until the determinant is not 0, at most `fuel` times here -/
def randomInvertible (stale : Nat → Nat → ZMod 2) (fuel0 : Nat) (L : MatGF2) (n : Nat) : Nat → NM MatGF2
  | 0 => liftC (.error .diverge)
  | fuel + 1 => do
    let L ← random stale fuel0 L n n
    if (← liftC (determinant L)) = 0 then randomInvertible stale fuel0 L n fuel else pure L

/-- `MatrixUtils.cpp:22-34`; `data` are the elements of the array -/
def initMatrixFromBit (M : MatGF2) (data : List (BitVec W)) : C MatGF2 :=
  forUp 0 M.r M fun i M' => do
    let t ← (data[i]?.elim (.error .oob) .ok : C (BitVec W))
    let (M', _) ← forDown M.c 0 (M', t) fun j (M', t) => do
      let M' ← M'.put i j (gf2 t)
      pure (M', t.sshiftRight 1)
    pure M'

/-- `MatrixUtils.cpp:36-44` -/
def initVecFromBit (M : VecGF2) (data : BitVec W) (len : Nat) : C VecGF2 := do
  let (M, _) ← forDown len 0 (M.SetLength len, data) fun i (M, data) => do
    let M ← M.put i (gf2 data)
    pure (M, data.sshiftRight 1)
  pure M

/-- `MatrixUtils.cpp:57-72`: the matrix with the linear map `L`, the translation `tran` and the last row `0 … 0 1` -/
def augment (stale : Nat → Nat → ZMod 2) (X L : MatGF2) (tran : VecGF2) (n : Nat) : C MatGF2 := do
  let X := X.SetDims stale (n + 1) (n + 1)
  let X ← forUp 0 n X fun i X => forUp 0 n X fun j X => do X.put i j (← L.get i j)
  let X ← forUp 0 n X fun j X => X.put n j 0
  let X ← X.put n n 1
  forUp 0 n X fun i X => do X.put i n (← tran.get i)

/-- `MatrixUtils.cpp:45-80`; `LINV` is computed and not used -/
def genRandomAffineAugmentedMatrix (stale : Nat → Nat → ZMod 2) (fuel : Nat) (X Y : MatGF2) (n : Nat) :
    NM (MatGF2 × MatGF2) := do
  let L ← randomInvertible stale fuel default n fuel
  let _LINV ← liftC (inv L)
  let tran ← randomVec n
  let X ← liftC (augment stale X L tran n)
  let Y ← liftC (invTo Y X)
  pure (X, Y)

/-- `MatrixUtils.cpp:82-91` -/
def genRandomAffineMatrix (stale : Nat → Nat → ZMod 2) (fuel : Nat) (X Y : MatGF2) (n : Nat) :
    NM (MatGF2 × MatGF2 × VecGF2) := do
  let X ← randomInvertible stale fuel X n fuel
  let Y ← liftC (invTo Y X)
  let V ← randomVec n
  pure (X, Y, V)

/-- `MatrixUtils.cpp:93-103` -/
def genRandomAffineMatrix2 (stale : Nat → Nat → ZMod 2) (fuel : Nat) (x inv_x : MatGF2) (n : Nat) :
    NM (MatGF2 × MatGF2 × VecGF2 × VecGF2) := do
  let x ← randomInvertible stale fuel x n fuel
  let inv_x ← liftC (invTo inv_x x)
  let v ← randomVec n
  let inv_v ← liftC (mulVec inv_x v)
  pure (x, inv_x, v, inv_v)

/-- `MatrixUtils.cpp:105-113` -/
def genRandomInvMatrix (stale : Nat → Nat → ZMod 2) (fuel : Nat) (x inv_x : MatGF2) (n : Nat) : NM (MatGF2 × MatGF2) := do
  let x ← randomInvertible stale fuel x n fuel
  let inv_x ← liftC (invTo inv_x x)
  pure (x, inv_x)

/-- `d <<= 1; d += (s.get(i) == 1) ? 1 : 0;` for the elements 0 to `m - 1` of the vector -/
def digits (w : Nat) (s : VecGF2) (m : Nat) : C (BitVec w) :=
  forUp 0 m (0 : BitVec w) fun i d => do
    pure (d <<< 1 + (if (← s.get i) = 1 then 1 else 0))

/-- `MatrixUtils.cpp:116-125` -/
def getDigitalFromVec (s : VecGF2) : C (BitVec 32) := digits 32 s s.len

/-- `MatrixUtils.cpp:128-136` -/
def get32FromVec (s : VecGF2) : C (BitVec 32) := digits 32 s 32

/-- `MatrixUtils.cpp:138-146` -/
def get8FromVec (s : VecGF2) : C (BitVec 8) := digits 8 s 8

/-- `MatrixUtils.cpp:149-157` -/
def getVecFrom32 (d : VecGF2) (s : BitVec 32) : C VecGF2 := do
  let (d, _) ← forDown 32 0 (d.SetLength 32, s) fun i (d, s) => do
    let d ← d.put i (gf2 s)
    pure (d, s >>> 1)
  pure d

/-- `MatrixUtils.cpp:159-168` -/
def getAugmentedVecFrom32 (d : VecGF2) (s : BitVec 32) : C VecGF2 := do
  let (d, _) ← forDown 32 0 (d.SetLength 33, s) fun i (d, s) => do
    let d ← d.put i (gf2 s)
    pure (d, s >>> 1)
  d.put 32 1

/-- `MatrixUtils.cpp:170-192` -/
def combineDiagMat (stale : Nat → Nat → ZMod 2) (d s1 s2 : MatGF2) : C MatGF2 := do
  let n1 := s1.c
  let n2 := s2.c
  let d := d.SetDims stale (n1 + n2) (n1 + n2)
  let d ← forUp 0 n1 d fun i d => do
    let d ← forUp 0 n1 d fun j d => do d.put i j (← s1.get i j)
    forUp 0 n2 d fun j d => d.put i (n1 + j) 0
  forUp 0 n2 d fun i d => do
    let d ← forUp 0 n1 d fun j d => d.put (n1 + i) j 0
    forUp 0 n2 d fun j d => do d.put (n1 + i) (n1 + j) (← s2.get i j)

/-- `/repo/test/WBSM4/NTL/include/matrixlib/MatrixUtils.h:9-12` -/
structure Affine where
  linearMap : MatGF2
  vectorTranslation : VecGF2

instance : Inhabited Affine := ⟨⟨default, default⟩⟩

/-- `MatrixUtils.cpp:194-201` -/
def applyAffineToU32 (W : Nat) (aff : Affine) (data : BitVec 32) : C (BitVec 32) := do
  let a ← initVecFromBit default (data.setWidth W) 32
  let b ← addVec (← mulVec aff.linearMap a) aff.vectorTranslation
  get32FromVec b

/-- `MatrixUtils.cpp:203-210` -/
def applyAffineToU8 (W : Nat) (aff : Affine) (data : BitVec 8) : C (BitVec 8) := do
  let a ← initVecFromBit default (data.setWidth W) 8
  let b ← addVec (← mulVec aff.linearMap a) aff.vectorTranslation
  pure ((← getDigitalFromVec b).setWidth 8)

/-- `MatrixUtils.cpp:212-217` -/
def applyMatToU8 (W : Nat) (mat : MatGF2) (data : BitVec 8) : C (BitVec 8) := do
  let a ← initVecFromBit default (data.setWidth W) 8
  let b ← mulVec mat a
  pure ((← getDigitalFromVec b).setWidth 8)

/-- `MatrixUtils.cpp:219-224` -/
def applyMatToU32 (W : Nat) (mat : MatGF2) (data : BitVec 32) : C (BitVec 32) := do
  let a ← initVecFromBit default (data.setWidth W) 32
  let b ← mulVec mat a
  getDigitalFromVec b

/-- `MatrixUtils.cpp:226-231` -/
def addVecToU32 (W : Nat) (vec : VecGF2) (data : BitVec 32) : C (BitVec 32) := do
  let a ← initVecFromBit default (data.setWidth W) 32
  let b ← addVec vec a
  getDigitalFromVec b

/-- `MatrixUtils.cpp:233-238` -/
def addVecToU8 (W : Nat) (vec : VecGF2) (data : BitVec 8) : C (BitVec 8) := do
  let a ← initVecFromBit default (data.setWidth W) 8
  let b ← addVec vec a
  pure ((← getDigitalFromVec b).setWidth 8)

/-- `MatrixUtils.cpp:241-250` -/
def genIndMatrix (stale : Nat → Nat → ZMod 2) (mat : MatGF2) (size : Nat) : C MatGF2 :=
  forUp 0 size (mat.SetDims stale size size) fun i mat =>
    forUp 0 size mat fun j mat => mat.put i j (if i = j then 1 else 0)

/-- `MatrixUtils.cpp:252-259` -/
def genZeroVec (vec : VecGF2) (size : Nat) : C VecGF2 :=
  forUp 0 size (vec.SetLength size) fun i vec => vec.put i 0

end WB.ntl
