import Verif.Model.M4riWord

/-!
# M4RI: transposition

`/repo/test/github1_M4RI/src/m4ri/mzd.c:353-1414`.  The routines that transpose one word of each of up to 64 rows are called
with pointers to the first word of the source and of the destination; here they are given the row and the word.  They read
the words of the source into an array, work on it and write the words of the destination (the sources sometimes work in the
destination itself; source and destination do not overlap).  Loops that are unrolled or written as a `switch` over the powers
of two are written as loops.  Matrices that occupy more than one block of memory (more than 2^26 words) are not modelled: for
them the result is that of the parameter `mb`.
-/
namespace WB.m4w

open WB.cmp (Mem Mem2)

/-- `t[k] = *wks; wks += rowstride_src` for the first `n` rows -/
def loadCol (t : Mem Word) (A : Mzd) (row word n : Nat) : C (Mem Word) :=
  forUp 0 n t fun k t => do t.put k (← A.get (row + k) word)

/-- `*wk = t[k]; wk += rowstride_dst` for the first `n` rows -/
def storeCol (D : Mzd) (row word n : Nat) (t : Mem Word) : C Mzd :=
  forUp 0 n D fun k D => do D.put (row + k) word (← t.get k)

/-- `while (k < 64) t[k++] = 0` -/
def fillZero (t : Mem Word) (n m : Nat) : C (Mem Word) := forUp n m t fun k t => t.put k 0#64

/-- The exchange of two `j` x `j` matrices in the words `k` and `k + j`, `/repo/test/github1_M4RI/src/m4ri/mzd.c:406-408`,
`556-558` -/
def swapPair (j : Nat) (m : Word) (t : Mem Word) (k : Nat) : C (Mem Word) := do
  let a ← t.get k
  let b ← t.get (k + j)
  let x := ((a >>> j) ^^^ b) &&& m
  let t ← t.put k (a ^^^ (x <<< j))
  t.put (k + j) (b ^^^ x)

/-- One value of `j`: all pairs of words in the first `nb` groups of `2 * j` words -/
def swapStage (j nb : Nat) (m : Word) (t : Mem Word) : C (Mem Word) :=
  forUp 0 nb t fun b t => forUp 0 j t fun i t => swapPair j m t (2 * j * b + i)

/-- `_mzd_copy_transpose_64x64` on an array, `/repo/test/github1_M4RI/src/m4ri/mzd.c:353-412` -/
def transpose64 (t : Mem Word) : C (Mem Word) := do
  let m := 0xFFFFFFFF#64
  let t ← swapStage 32 1 m t
  let m := m ^^^ (m <<< 16)
  let t ← swapStage 16 2 m t
  let m := m ^^^ (m <<< 8)
  let t ← swapStage 8 4 m t
  let m := m ^^^ (m <<< 4)
  let t ← swapStage 4 8 m t
  let m := m ^^^ (m <<< 2)
  let t ← swapStage 2 16 m t
  let m := m ^^^ (m <<< 1)
  swapStage 1 32 m t

/-- `_mzd_copy_transpose_64x64(dst, src, …)` -/
def copy_transpose_64x64 (D : Mzd) (rd wd : Nat) (A : Mzd) (rs ws : Nat) : C Mzd := do
  let t ← loadCol ⟨64, fun _ => 0#64⟩ A rs ws 64
  let t ← transpose64 t
  storeCol D rd wd 64 t

/-- `_mzd_copy_transpose_64x64_2`, `/repo/test/github1_M4RI/src/m4ri/mzd.c:430-494`.  The two destinations are different words;
the interleaved computations are written one after the other. -/
def copy_transpose_64x64_2 (D : Mzd) (rd1 wd1 rd2 wd2 : Nat) (A : Mzd) (rs1 ws1 rs2 ws2 : Nat) : C Mzd := do
  let D ← copy_transpose_64x64 D rd1 wd1 A rs1 ws1
  copy_transpose_64x64 D rd2 wd2 A rs2 ws2

/-- `log2_ceil(n)`, `/repo/test/github1_M4RI/src/m4ri/mzd.c:496-510` -/
def log2_ceil (n : Nat) : C Nat :=
  if n = 0 ∨ 64 < n then .error .oob
  else pure (#[0, 1, 2, 2, 3, 3, 3, 3,
    4, 4, 4, 4, 4, 4, 4, 4,
    5, 5, 5, 5, 5, 5, 5, 5,
    5, 5, 5, 5, 5, 5, 5, 5,
    6, 6, 6, 6, 6, 6, 6, 6,
    6, 6, 6, 6, 6, 6, 6, 6,
    6, 6, 6, 6, 6, 6, 6, 6,
    6, 6, 6, 6, 6, 6, 6, 6].getD (n - 1) 0)

/-- `transpose_mask`, `/repo/test/github1_M4RI/src/m4ri/mzd.c:512-519` -/
def transpose_mask (mi : Nat) : C Word :=
  if mi = 0 then pure 0x5555555555555555#64
  else if mi = 1 then pure 0x3333333333333333#64
  else if mi = 2 then pure 0x0F0F0F0F0F0F0F0F#64
  else if mi = 3 then pure 0x00FF00FF00FF00FF#64
  else if mi = 4 then pure 0x0000FFFF0000FFFF#64
  else if mi = 5 then pure 0x00000000FFFFFFFF#64
  else .error .oob

/-- `_mzd_transpose_Nxjx64(t, n)` from the point where `j == 2^mi`, `/repo/test/github1_M4RI/src/m4ri/mzd.c:535-570`.  The loop
ends after at most `fuel - 1` rounds; `mi == 6` would be outside of `transpose_mask`. -/
def transposeN (n : Nat) : Nat → Nat → Mem Word → C (Nat × Mem Word)
  | 0, _, _ => .error .diverge
  | fuel + 1, mi, t =>
    if 2 ^ mi < n then do
      let m ← transpose_mask mi
      let t ← swapStage (2 ^ mi) ((n + 2 * 2 ^ mi - 1) / (2 * 2 ^ mi)) m t
      transposeN n fuel (mi + 1) t
    else pure (mi, t)

/-- `_mzd_transpose_Nxjx64(t, n)` -/
def transpose_Nxjx64 (t : Mem Word) (n : Nat) : C (Nat × Mem Word) := transposeN n 8 0 t

/-- `_mzd_copy_transpose_lt64x64`, `/repo/test/github1_M4RI/src/m4ri/mzd.c:587-708`; `junk` is the uninitialised array `t`. -/
def copy_transpose_lt64x64 (junk : Nat → Word) (D : Mzd) (rd wd : Nat) (A : Mzd) (rs ws n : Nat) : C Mzd := do
  let t ← loadCol ⟨64, junk⟩ A rs ws n
  if 32 < n then do
    let t ← fillZero t n 64
    let t ← transpose64 t
    storeCol D rd wd 64 t
  else do
    let (log2j, t) ← transpose_Nxjx64 t n
    let m := leftMask n
    let j := 2 ^ log2j
    forUp 0 j D fun k D => do
      let tk ← t.get k
      forUp 0 (64 / j) D fun g D => D.put (rd + (g * j + k)) wd ((tk >>> (g * j)) &&& m)

/-- `_mzd_copy_transpose_64xlt64`, `/repo/test/github1_M4RI/src/m4ri/mzd.c:725-829` -/
def copy_transpose_64xlt64 (junk : Nat → Word) (D : Mzd) (rd wd : Nat) (A : Mzd) (rs ws n : Nat) : C Mzd := do
  let log2j ← log2_ceil n
  if log2j = 6 then do
    let t ← loadCol ⟨64, junk⟩ A rs ws 64
    let t ← transpose64 t
    storeCol D rd wd n t
  else do
    let j := 2 ^ log2j
    let t ← forUp 0 j (⟨64, junk⟩ : Mem Word) fun k t => do
      let t ← t.put k (← A.get (rs + k) ws)
      forUp 1 (64 / j) t fun g t => do t.put k ((← t.get k) ||| ((← A.get (rs + (g * j + k)) ws) <<< (g * j)))
    let (_, t) ← transpose_Nxjx64 t j
    storeCol D rd wd n t

/-- `_mzd_copy_transpose_le8xle8`, `/repo/test/github1_M4RI/src/m4ri/mzd.c:847-876`; the state of the second loop is
`(w, w7, mask)` and round `q` has `shift == 7 * q`. -/
def copy_transpose_le8xle8 (D : Mzd) (rd wd : Nat) (A : Mzd) (rs ws n m maxsize : Nat) : C Mzd := do
  let w ← A.get rs ws
  let w ← forUp 1 n w fun i w => do pure (w ||| ((← A.get (rs + i) ws) <<< (8 * i)))
  let s ← forUp 1 (max 2 maxsize) (w, w >>> 7, 0x80402010080402#64) fun q (s : Word × Word × Word) =>
    let x := (s.1 ^^^ s.2.1) &&& s.2.2
    pure ((s.1 ^^^ (x <<< (7 * q))) ^^^ x, s.2.1 >>> 7, s.2.2 >>> 8)
  forDown m 0 D fun k D => D.put (rd + k) wd ((s.1 >>> (8 * k)) &&& 0xff#64)

/-- `_mzd_copy_transpose_le16xle16`, `/repo/test/github1_M4RI/src/m4ri/mzd.c:894-991`; round `q` of the second loop has
`shift == 12 * q` and `mask == 0xF0000F0000F0 >> (16 * (q - 1))`. -/
def copy_transpose_le16xle16 (D : Mzd) (rd wd : Nat) (A : Mzd) (rs ws n m maxsize : Nat) : C Mzd := do
  let t ← forUp 0 n (⟨4, fun _ => 0#64⟩ : Mem Word) fun k t => do
    t.put (k % 4) ((← t.get (k % 4)) ||| ((← A.get (rs + k) ws) <<< (16 * (k / 4))))
  let t ← forUp 1 (max 2 ((3 * maxsize + 11) / 12)) t fun q t => forUp 0 4 t fun i t => do
    let a ← t.get i
    let x := (a ^^^ (a >>> (12 * q))) &&& (0xF0000F0000F0#64 >>> (16 * (q - 1)))
    t.put i ((a ^^^ (x <<< (12 * q))) ^^^ x)
  let (_, t) ← transpose_Nxjx64 t 4
  forUp 0 m D fun k D => do D.put (rd + k) wd (((← t.get (k % 4)) >>> (16 * (k / 4))) &&& 0xffff#64)

/-- `_mzd_copy_transpose_le32xle32`, `/repo/test/github1_M4RI/src/m4ri/mzd.c:1009-1062` -/
def copy_transpose_le32xle32 (D : Mzd) (rd wd : Nat) (A : Mzd) (rs ws n m : Nat) : C Mzd := do
  let t ← (if 16 < n then do
      let t ← loadCol ⟨16, fun _ => 0#64⟩ A rs ws 16
      forUp 0 (n - 16) t fun j t => do t.put j ((← t.get j) ||| ((← A.get (rs + (16 + j)) ws) <<< 32))
    else do
      let t ← loadCol ⟨16, fun _ => 0#64⟩ A rs ws n
      fillZero t n 16)
  let (_, t) ← transpose_Nxjx64 t 16
  let D ← forUp 0 (min m 16) D fun j D => do
    let x ← t.get j
    D.put (rd + j) wd ((x &&& 0xFFFF#64) ||| ((x >>> 16) &&& 0xFFFF0000#64))
  forUp 16 m D fun j D => do
    let x ← t.get (j - 16)
    D.put (rd + j) wd (((x >>> 16) &&& 0xFFFF#64) ||| ((x >>> 32) &&& 0xFFFF0000#64))

/-- `_mzd_copy_transpose_le64xle64`, `/repo/test/github1_M4RI/src/m4ri/mzd.c:1064-1082` -/
def copy_transpose_le64xle64 (junk : Nat → Word) (D : Mzd) (rd wd : Nat) (A : Mzd) (rs ws n m : Nat) : C Mzd := do
  let t ← loadCol ⟨64, junk⟩ A rs ws n
  let t ← fillZero t n 64
  let t ← transpose64 t
  storeCol D rd wd m t

/-- The remaining corner, `/repo/test/github1_M4RI/src/m4ri/mzd.c:1219-1235` -/
def transposeCorner (junk : Nat → Word) (D : Mzd) (rd wd : Nat) (A : Mzd) (rs ws n m : Nat) : C Mzd :=
  let maxsize := max n m
  if maxsize ≤ 8 then copy_transpose_le8xle8 D rd wd A rs ws n m maxsize
  else if maxsize ≤ 16 then copy_transpose_le16xle16 D rd wd A rs ws n m maxsize
  else if maxsize ≤ 32 then copy_transpose_le32xle32 D rd wd A rs ws n m
  else copy_transpose_le64xle64 junk D rd wd A rs ws n m

/-- The variables of the loop over the whole 64 x 64 matrices: the destination, `even` and the matrix that waits for a
partner, given by its block of rows and its word -/
structure TrState where
  D : Mzd
  even : Bool
  delayed : Nat × Nat

/-- One whole 64 x 64 matrix, `/repo/test/github1_M4RI/src/m4ri/mzd.c:1158-1166`: rows `64 * b, …` and word `j` of `A` -/
def transposeOne (A : Mzd) (b j : Nat) (s : TrState) : C TrState :=
  if ¬ s.even then pure ⟨s.D, true, (b, j)⟩
  else do
    let D ← copy_transpose_64x64_2 s.D (64 * s.delayed.2) s.delayed.1 (64 * j) b A (64 * s.delayed.1) s.delayed.2 (64 * b) j
    pure ⟨D, false, s.delayed⟩

/-- The rows in groups of 64, `/repo/test/github1_M4RI/src/m4ri/mzd.c:1118-1179` -/
def transposeBands (junk : Nat → Word) (D A : Mzd) : C Mzd := do
  let js := if A.ncols &&& A.nrows &&& 64 ≠ 0 then 1 else 0
  let D ← (if js = 1 then copy_transpose_64x64 D 0 0 A 0 0 else pure D)
  let whole := A.ncols / 64
  let s ← forUp 0 (A.nrows / 64) (⟨D, false, (0, 0)⟩ : TrState) fun b s => do
    let s ← forUp (if b = 0 then js else 0) whole s fun j s => transposeOne A b j s
    if A.ncols % 64 ≠ 0 then do
      let D ← copy_transpose_64xlt64 junk s.D (64 * whole) b A (64 * b) whole (A.ncols % 64)
      pure { s with D := D }
    else pure s
  pure s.D

/-- `A->rowstride`, `/repo/test/github1_M4RI/src/m4ri/mzd.c:158` -/
def rowstride (width : Nat) : Nat := if width < 1 ∨ width % 2 = 0 then width else width + 1

/-- The number of rows in a block of memory, `/repo/test/github1_M4RI/src/m4ri/mzd.c:166-170` -/
def blockrows (width : Nat) : Nat := 2 ^ Nat.log2 (2 ^ 27 / rowstride width)

/-- More than one block of memory, `/repo/test/github1_M4RI/src/m4ri/mzd.c:173-174`, or blocks that the assertion of `_mzd_transpose`
refuses, `1091` -/
def bigBlocks (r c : Nat) : Prop := blockrows ((c + 63) / 64) < r ∨ blockrows ((c + 63) / 64) < 64

instance (r c : Nat) : Decidable (bigBlocks r c) := inferInstanceAs (Decidable (_ ∨ _))

/-- `_mzd_transpose`, `/repo/test/github1_M4RI/src/m4ri/mzd.c:1086-1239` -/
def _mzd_transpose (junk : Nat → Word) (mb : Mzd → Mzd → C Mzd) (D A : Mzd) : C Mzd :=
  if bigBlocks A.nrows A.ncols ∨ bigBlocks A.ncols A.nrows then mb D A
  else if 64 ≤ max A.nrows A.ncols then do
    let B := A.nrows / 64
    let W := A.ncols / 64
    let D ← (if 64 ≤ A.nrows then transposeBands junk D A else pure D)
    if (64 ≤ A.nrows ∧ A.ncols &&& A.nrows &&& 64 ≠ 0 ∧ A.nrows ||| A.ncols = 64) ∨ A.nrows % 64 = 0 then pure D
    else do
      let D ← forUp 0 W D fun w D => copy_transpose_lt64x64 junk D (64 * w) B A (64 * B) w (A.nrows % 64)
      if A.ncols % 64 = 0 then pure D
      else transposeCorner junk D (64 * W) B A (64 * B) W (A.nrows % 64) (A.ncols % 64)
  else transposeCorner junk D 0 0 A 0 0 A.nrows A.ncols

/-- `mzd_transpose(NULL, A)` for a matrix that is not a window, `/repo/test/github1_M4RI/src/m4ri/mzd.c:1385-1399` -/
def mzd_transpose (junk : Nat → Word) (mb : Mzd → Mzd → C Mzd) (A : Mzd) : C Mzd :=
  let D := mzd_init A.ncols A.nrows
  if A.nrows = 0 ∨ A.ncols = 0 then mzd_copy D A
  else _mzd_transpose junk mb D A

end WB.m4w
