import Verif.Model.M4riEch

/-!
# M4RI: functions that move bits, and elimination row by row

`/repo/test/github1_M4RI/src/m4ri/{mzd,io,misc}.c`, `include/m4ri/mzd.h`, on words, in the same configuration as `M4riWord`.  These are the
functions that `test/github1_M4RI/src/matrixlib/matrix_gf2.c` uses besides the product, the inverse and the transpose; in
`Verif/Model/MatGf2.lean` they are modelled on bits.  Where the destination is `NULL`, a new matrix is made by `mzd_init`.
-/
namespace WB.m4w

open WB.cmp (Mem Mem2)

/-- `_mzd_add(C, A, B)` for three different matrices, `/repo/test/github1_M4RI/src/m4ri/mzd.c:1770-1860` and `mzd_combine_even`,
`include/m4ri/mzd.h:1120-1173`.  The cases for one to eight words are unrolled in the source. -/
def _mzd_add (C' A B : Mzd) : C Mzd :=
  if A.width = 0 then pure C'
  else forUp 0 (min (min A.nrows B.nrows) C'.nrows) C' fun i C' => do
    let C' ← forUp 0 (A.width - 1) C' fun j C' => do C'.put i j ((← A.get i j) ^^^ (← B.get i j))
    let a ← A.get i (A.width - 1)
    let b ← B.get i (A.width - 1)
    let c ← C'.get i (A.width - 1)
    C'.put i (A.width - 1) (c ^^^ ((a ^^^ b ^^^ c) &&& C'.high))

/-- `mzd_add(NULL, left, right)`, `/repo/test/github1_M4RI/src/m4ri/mzd.c:1756-1768` -/
def mzd_add (A B : Mzd) : C Mzd :=
  if A.nrows ≠ B.nrows ∨ A.ncols ≠ B.ncols then .error .abort
  else _mzd_add (mzd_init A.nrows A.ncols) A B

/-- The words of the rows of `A` are copied to the rows of `C` from row `r` on, `/repo/test/github1_M4RI/src/m4ri/mzd.c:1687-1693`,
`1716-1730` -/
def copyRows (C' A : Mzd) (r : Nat) : C Mzd :=
  forUp 0 A.nrows C' fun i C' => forUp 0 A.width C' fun j C' => do C'.put (r + i) j (← A.get i j)

/-- `mzd_concat(NULL, A, B)`, `/repo/test/github1_M4RI/src/m4ri/mzd.c:1676-1703` -/
def mzd_concat (A B : Mzd) : C Mzd :=
  if A.nrows ≠ B.nrows then .error .abort
  else do
    let C' ← copyRows (mzd_init A.nrows (A.ncols + B.ncols)) A 0
    forUp 0 B.nrows C' fun i C' => forUp 0 B.ncols C' fun j C' => do mzd_write_bit C' i (j + A.ncols) (← mzd_read_bit B i j)

/-- `mzd_stack(NULL, A, B)`, `/repo/test/github1_M4RI/src/m4ri/mzd.c:1705-1734` -/
def mzd_stack (A B : Mzd) : C Mzd :=
  if A.ncols ≠ B.ncols then .error .abort
  else do
    let C' ← copyRows (mzd_init (A.nrows + B.nrows) A.ncols) A 0
    copyRows C' B A.nrows

/-- `mzd_copy(NULL, P)`, `/repo/test/github1_M4RI/src/m4ri/mzd.c:1651-1673` -/
def mzd_copy_new (P : Mzd) : C Mzd := mzd_copy (mzd_init P.nrows P.ncols) P

/-- `mzd_from_str(m, n, str)`, `/repo/test/github1_M4RI/src/m4ri/io.c:365-374`; the state is the matrix and `idx`. -/
def mzd_from_str (m n : Nat) (str : List (BitVec 8)) : C Mzd := do
  let s ← forUp 0 m (mzd_init m n, 0) fun i s => forUp 0 n s fun j (s : Mzd × Nat) => do
    match str[s.2]? with
    | none => .error .oob
    | some ch => do pure (← mzd_write_bit s.1 i j (ch == 49#8), s.2 + 1)
  pure s.1

/-- `m4ri_random_word`, `/repo/test/github1_M4RI/src/m4ri/misc.c:58-74` (not for `_MSC_VER`), from the results of three calls of `random`. -/
def m4ri_random_word (a0 a1 a2 : BitVec 31) : Word := a0.setWidth 64 ^^^ (a1.setWidth 64 <<< 24) ^^^ (a2.setWidth 64 <<< 48)

/-- `mzd_randomize`, `/repo/test/github1_M4RI/src/m4ri/mzd.c:1554-1564`; `rnd n` is the result of call number `n` of `m4ri_random_word`. -/
def mzd_randomize (rnd : Nat → Word) (A : Mzd) : C Mzd := do
  let s ← forUp 0 A.nrows (A, 0) fun i s => do
    let s ← forUp 0 (A.width - 1) s fun j (s : Mzd × Nat) => do pure (← s.1.put i j (rnd s.2), s.2 + 1)
    let a ← s.1.get i (A.width - 1)
    pure (← s.1.put i (A.width - 1) (a ^^^ ((a ^^^ rnd s.2) &&& A.high)), s.2 + 1)
  pure s.1

/-- One row in `mzd_cmp`, `/repo/test/github1_M4RI/src/m4ri/mzd.c:1635-1647` -/
def cmpRow (A B : Mzd) (i : Nat) : C (Step Int Unit) := do
  let a := (← A.get i (A.width - 1)) &&& A.high
  let b := (← B.get i (A.width - 1)) &&& A.high
  if a < b then pure (.stop (-1))
  else if b < a then pure (.stop 1)
  else iterStop (fun j (_ : Unit) => do
    let a ← A.get i j
    let b ← B.get i j
    if a < b then pure (.stop (-1)) else if b < a then pure (.stop 1) else pure (.next ())) (List.range (A.width - 1)).reverse ()

/-- `mzd_cmp`, `/repo/test/github1_M4RI/src/m4ri/mzd.c:1623-1649` -/
def mzd_cmp (A B : Mzd) : C Int :=
  if A.nrows < B.nrows then pure (-1)
  else if B.nrows < A.nrows then pure 1
  else if A.ncols < B.ncols then pure (-1)
  else if B.ncols < A.ncols then pure 1
  else do
    match ← forRet 0 A.nrows () fun i _ => cmpRow A B i with
    | .stop x => pure x
    | .next _ => pure 0

/-! ## Elimination row by row -/

/-- The other rows, `/repo/test/github1_M4RI/src/m4ri/mzd.c:317-323` -/
def gaussElim (M : Mzd) (lo startrow i : Nat) : C Mzd :=
  forUp lo M.nrows M fun ii M =>
    if ii ≠ startrow then do
      if ← mzd_read_bit M ii i then mzd_row_add_offset M ii startrow i else pure M
    else pure M

/-- `mzd_gauss_delayed`, `/repo/test/github1_M4RI/src/m4ri/mzd.c:308-333`; the state is the matrix, `startrow` and `pivots`. -/
def mzd_gauss_delayed (M : Mzd) (startcol : Nat) (full : Bool) : C (Mzd × Nat) := do
  let s ← forUp startcol M.ncols (M, startcol, 0) fun i (s : Mzd × Nat × Nat) =>
    forBrk s.2.1 s.1.nrows s fun j (s : Mzd × Nat × Nat) => do
      if ← mzd_read_bit s.1 j i then do
        let M ← mzd_row_swap s.1 s.2.1 j
        let M ← gaussElim M (if full then 0 else s.2.1 + 1) s.2.1 i
        pure (.stop (M, s.2.1 + 1, s.2.2 + 1))
      else pure (.next s)
  pure (s.1, s.2.2)

/-- `mzd_echelonize_naive`, `/repo/test/github1_M4RI/src/m4ri/mzd.c:335-337` -/
def mzd_echelonize_naive (M : Mzd) (full : Bool) : C (Mzd × Nat) := mzd_gauss_delayed M 0 full

/-- `mzd_submatrix(NULL, M, startrow, startcol, endrow, endcol)`, `/repo/test/github1_M4RI/src/m4ri/mzd.c:1863-1905`; `memcpy` as a loop over
the words. -/
def mzd_submatrix (M : Mzd) (startrow startcol endrow endcol : Nat) : C Mzd :=
  let nrows := endrow - startrow
  let ncols := endcol - startcol
  let S := mzd_init nrows ncols
  if startcol % 64 = 0 then do
    let S ← forUp 0 nrows S fun i S => forUp 0 (ncols / 64) S fun j S => do S.put i j (← M.get (startrow + i) (startcol / 64 + j))
    if ncols % 64 ≠ 0 then
      forUp 0 nrows S fun i S => do S.put i (ncols / 64) ((← M.get (startrow + i) (startcol / 64 + ncols / 64)) &&& leftMask (ncols % 64))
    else pure S
  else
    forUp 0 nrows S fun i S => do
      let S ← forUp 0 (ncols / 64) S fun q S => do S.put i q (← mzd_read_bits M (startrow + i) (startcol + 64 * q) 64)
      let S ← S.put i (ncols / 64) ((← S.get i (ncols / 64)) &&& ~~~S.high)
      let x ← mzd_read_bits M (startrow + i) (startcol + 64 * (ncols / 64)) (ncols % 64)
      S.put i (ncols / 64) ((← S.get i (ncols / 64)) ||| (x &&& S.high))

/-- `mzd_invert_naive(NULL, A, I)`, `/repo/test/github1_M4RI/src/m4ri/mzd.c:1736-1754`; `none` is a null pointer. -/
def mzd_invert_naive (A I : Mzd) : C (Option Mzd) := do
  let H ← mzd_concat A I
  let x ← mzd_echelonize_naive H true
  if x.2 = 0 then pure none
  else do pure (some (← mzd_submatrix x.1 0 A.ncols A.nrows (2 * A.ncols)))

end WB.m4w
