import Verif.Model.MatGf2

/-!
# Model of the affine transforms of the M4RI based SM4 demo

`/repo/test/WBSM4/M4RI/src/matrixlib/affine_transform.c`.  A matrix is a pointer (a number, see `Verif/Model/MatGf2.lean`);
a function that writes to an `AffineTransform` or to a `MatGf2` through a pointer returns the new value.
-/
namespace WB.m4ri

/-- `/repo/test/WBSM4/M4RI/include/matrixlib/affine_transform.h:6-9` -/
structure AffineTransform where
  linear_map : Nat
  vector_translation : Nat
  deriving Inhabited

/-- `affine_transform.c:2-19`; the result is the new value of `*at` and of `*at_inv`, `fuel` bounds the number of rounds of
the loop -/
def GenRandomAffineTransform (lib : M4ri) (fuel dim : Nat) : MM (AffineTransform × AffineTransform) := do
  let l ← GenMatGf2 dim dim
  let v ← GenMatGf2 dim 1
  let li ← GenMatGf2 dim dim
  let vi ← GenMatGf2 dim 1
  RandomMatGf2 lib l
  drawInvertible lib l fuel
  RandomMatGf2 lib v
  let li ← MatGf2Inv lib l li
  let vi ← MatGf2Mul lib li v vi
  pure (⟨l, v⟩, ⟨li, vi⟩)

/-- `affine_transform.c:21-28` -/
def GenIndAffineTransform (dim : Nat) : MM (AffineTransform × AffineTransform) := do
  let l ← GenIndMatrix dim
  let v ← GenMatGf2 dim 1
  let li ← GenIndMatrix dim
  let vi ← GenMatGf2 dim 1
  pure (⟨l, v⟩, ⟨li, vi⟩)

/-- `affine_transform.c:31-37`; `dst` is the old value of `*dst`, the result the new one -/
def ApplyAffineTransform (lib : M4ri) (aff : AffineTransform) (mat dst : Nat) : MM Nat := do
  let dst ← MatGf2Mul lib aff.linear_map mat dst
  MatGf2Add aff.vector_translation dst dst

/-- `affine_transform.c:39-47` -/
def ApplyAffineToU32 (lib : M4ri) (aff : AffineTransform) (x : BitVec 32) : MM (BitVec 32) := do
  let mat_x ← ReAllocatedMatGf2 32 1 0
  InitVecFromBit (x.setWidth 64) mat_x
  let mat_x ← MatGf2Mul lib aff.linear_map mat_x mat_x
  let mat_x ← MatGf2Add mat_x aff.vector_translation mat_x
  let result ← get32FromVec mat_x
  MatGf2Free mat_x
  pure result

/-- `affine_transform.c:49-57` -/
def ApplyAffineToU16 (lib : M4ri) (aff : AffineTransform) (x : BitVec 16) : MM (BitVec 16) := do
  let mat_x ← ReAllocatedMatGf2 16 1 0
  InitVecFromBit (x.setWidth 64) mat_x
  let mat_x ← MatGf2Mul lib aff.linear_map mat_x mat_x
  let mat_x ← MatGf2Add mat_x aff.vector_translation mat_x
  let result := (← getDigitalFromVec mat_x).setWidth 16
  MatGf2Free mat_x
  pure result

/-- `affine_transform.c:59-67` -/
def ApplyAffineToU8 (lib : M4ri) (aff : AffineTransform) (data : BitVec 8) : MM (BitVec 8) := do
  let mat_x ← ReAllocatedMatGf2 8 1 0
  InitVecFromBit (data.setWidth 64) mat_x
  let mat_x ← MatGf2Mul lib aff.linear_map mat_x mat_x
  let mat_x ← MatGf2Add mat_x aff.vector_translation mat_x
  let result := (← getDigitalFromVec mat_x).setWidth 8
  MatGf2Free mat_x
  pure result

/-- `affine_transform.c:69-75` -/
def AffineTransformFree (aff : AffineTransform) : MM AffineTransform := do
  MatGf2Free aff.linear_map
  MatGf2Free aff.vector_translation
  pure ⟨0, 0⟩

/-- `*(uint32_t *)p` where `p` points to these bytes -/
def peek32 (e : Endian) (p : List (BitVec 8)) : MM (BitVec 32) :=
  match p with
  | a0 :: a1 :: a2 :: a3 :: _ => pure (word32 e a0 a1 a2 a3)
  | _ => fail (.c .oob)

/-- `memcpy` of `n` bytes from `src` -/
def copyBytes (src : List (BitVec 8)) (n : Nat) : MM (List (BitVec 8)) :=
  if n ≤ src.length then pure (src.take n) else fail (.c .oob)

/-- `affine_transform.c:77-100`; the products of the sizes are computed in `unsigned int` and stored in an `int`, which is
taken to be not negative; the result is the byte array (the caller frees it) -/
def ExportAffineToStr (e : Endian) (aff : AffineTransform) : MM (List (BitVec 8)) := do
  let a ← ExportMatGf2ToStr e aff.linear_map
  let b ← ExportMatGf2ToStr e aff.vector_translation
  let sza := (← peek32 e a) * (← peek32 e (a.drop 4))
  let szb := (← peek32 e b) * (← peek32 e (b.drop 4))
  let size := 20 + sza.toNat + szb.toNat
  let a ← copyBytes a (sza.toNat + 8)
  let b ← copyBytes b (szb.toNat + 8)
  pure (bytes32 e (BitVec.ofNat 32 size) ++ a ++ b)

/-- `affine_transform.c:102-114` -/
def ImportAffineFromStr (e : Endian) (source : List (BitVec 8)) : MM AffineTransform := do
  let source := source.drop 4
  let linear_map ← ImportMatGf2FromStr e source
  let sza := (← peek32 e source) * (← peek32 e (source.drop 4))
  let vector_translation ← ImportMatGf2FromStr e (source.drop (sza.toNat + 8))
  pure ⟨linear_map, vector_translation⟩

end WB.m4ri
