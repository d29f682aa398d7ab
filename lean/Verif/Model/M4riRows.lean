import Verif.Model.M4riWord

/-!
# M4RI: clearing and copying a row, and the test for equality

`/repo/test/github1_M4RI/src/m4ri/mzd.c:288-306`, `1601-1621` and `2010-2029`, on words, in the same configuration as `M4riWord`.
-/
namespace WB.m4w

/-- `mzd_row_clear_offset(M, row, coloffset)`, `/repo/test/github1_M4RI/src/m4ri/mzd.c:288-306`.  The macro `__M4RI_RIGHT_BITMASK(m4ri_radix - coloffset)`
(`/repo/test/github1_M4RI/include/m4ri/misc.h:296`) shifts by `coloffset`, which is out of range from 64 on. -/
def mzd_row_clear_offset (M : Mzd) (row coloffset : Nat) : C Mzd := do
  let startblock := coloffset / 64
  let temp ← (if coloffset % 64 ≠ 0 then do
      let temp ← M.get row startblock
      if 64 ≤ coloffset then .error .overflow else pure (temp &&& (ffff <<< coloffset))
    else pure 0#64 : C Word)
  let M ← M.put row startblock temp
  forUp (startblock + 1) M.width M fun i M => M.put row i 0#64

/-- `mzd_copy_row(B, i, A, j)`, `/repo/test/github1_M4RI/src/m4ri/mzd.c:2010-2029`; the assertion is compiled in.  Without columns the last word has the index -1. -/
def mzd_copy_row (B : Mzd) (i : Nat) (A : Mzd) (j : Nat) : C Mzd :=
  if B.ncols < A.ncols then .error .abort
  else if min B.width A.width = 0 then .error .oob
  else do
    let width := min B.width A.width - 1
    let mask_end := leftMask (A.ncols % 64)
    if width ≠ 0 then do
      let B ← forUp 0 width B fun k B => do B.put i k (← A.get j k)
      let b ← B.get i width
      let a ← A.get j width
      B.put i width ((b &&& ~~~mask_end) ||| (a &&& mask_end))
    else do
      let a ← A.get j 0
      let b ← B.get i 0
      B.put i 0 ((a &&& mask_end) ||| (b &&& ~~~mask_end))

/-- A loop over `n` values from `i` on that returns 0 as soon as the test fails. -/
def allUp (f : Nat → C Bool) : Nat → Nat → C Bool
  | 0, _ => pure true
  | n + 1, i => do if ← f i then allUp f n (i + 1) else pure false

/-- `mzd_equal(A, B)`, `/repo/test/github1_M4RI/src/m4ri/mzd.c:1601-1621`; `same` says whether the pointers are equal.  Without columns the last word has the index -1. -/
def mzd_equal (same : Bool) (A B : Mzd) : C Bool :=
  if A.nrows ≠ B.nrows then pure false
  else if A.ncols ≠ B.ncols then pure false
  else if same then pure true
  else do
    let eq ← allUp (fun i => allUp (fun j => do pure (decide ((← A.get i j) = (← B.get i j)))) (A.width - 1) 0) A.nrows 0
    if eq then
      allUp (fun i => if A.width = 0 then .error .oob else do
        pure (decide (((← A.get i (A.width - 1)) ^^^ (← B.get i (A.width - 1))) &&& A.high = 0#64))) A.nrows 0
    else pure false

end WB.m4w
