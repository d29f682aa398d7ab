import Verif.Model.M4riTrsm
import Verif.Model.M4riPerm

/-!
# M4RI: systems of linear equations from a PLUQ factorisation

`/repo/test/github1_M4RI/src/m4ri/solve.c`, on words, in the same configuration as `M4riWord`.  `A`, `B`, `P` and `Q` do not share memory.
-/
namespace WB.m4w

open WB.cmp (Mem Mem2)

/-- `mzd_is_zero`, the rows from `i` on, `/repo/test/github1_M4RI/src/m4ri/mzd.c:2000-2007`; `k` rows are left.  In a matrix without columns the last word has the index -1. -/
def isZeroFrom (A : Mzd) : Nat → Nat → Word → C Bool
  | 0, _, status => pure (status == 0#64)
  | k + 1, i, status =>
    if A.width = 0 then .error .oob
    else do
      let status ← forUp 0 (A.width - 1) status fun j status => do pure (status ||| (← A.get i j))
      let last ← A.get i (A.width - 1)
      let status := status ||| (last &&& A.high)
      if status ≠ 0#64 then pure false else isZeroFrom A k (i + 1) status

/-- `mzd_is_zero(A)`, `/repo/test/github1_M4RI/src/m4ri/mzd.c:1997-2008` -/
def mzd_is_zero (A : Mzd) : C Bool := isZeroFrom A A.nrows 0 0#64

/-- `mzd_clear_bits(M, x, y, n)`, `/repo/test/github1_M4RI/include/m4ri/mzd.h:640-650` -/
def mzd_clear_bits (M : Mzd) (x y n : Nat) : C Mzd :=
  if ¬ (0 < n ∧ n ≤ 64) then .error .abort
  else do
    let values := ffff >>> (64 - n)
    let spot := y % 64
    let block := y / 64
    let M ← M.put x block ((← M.get x block) &&& ~~~(values <<< spot))
    let space := 64 - spot
    if space < n then M.put x (block + 1) ((← M.get x (block + 1)) &&& ~~~(values >>> space)) else pure M

/-- The rows from `rank` on are cleared, `/repo/test/github1_M4RI/src/m4ri/solve.c:105-109` -/
def clearFrom (rank : Nat) (B : Mzd) : C Mzd :=
  forUp rank B.nrows B fun i B => forUp 0 ((B.ncols + 63) / 64) B fun t B => mzd_clear_bits B i (64 * t) (min 64 (B.ncols - 64 * t))

/-- What the calls of `_mzd_pluq_solve_left` depend on besides their arguments. -/
structure SolveEnv where
  lower : List Nat → TrsmEnv
  mul : List Nat → MulEnv
  upper : List Nat → TrsmEnv

/-- The rows of `B` that `A` does not have are set to zero, `/repo/test/github1_M4RI/src/m4ri/solve.c:80-84` -/
def zeroBelow (m : Nat) (B : Mzd) : C Mzd := if m < B.nrows then onWindow B m 0 B.nrows B.ncols fun W => mzd_set_ui W 0 else pure B

/-- The update with the lower part of `L` and the test whether the rows below are zero, `/repo/test/github1_M4RI/src/m4ri/solve.c:75-94` -/
def checkRest (tr : Bool → Mzd → C Mzd) (dflt cutoff : Nat) (e : List Nat → MulEnv) (A : Mzd) (rank : Nat) (B : Mzd) : C (Mzd × Int) := do
  let B ← zeroBelow A.nrows B
  let B ← onWindow B rank 0 A.nrows B.ncols fun W => mzd_addmul tr e true dflt cutoff W (mzd_window A rank 0 A.nrows rank) (mzd_window B 0 0 rank B.ncols)
  let zero ← mzd_is_zero (mzd_window B rank 0 A.nrows B.ncols)
  pure (B, if zero then 0 else -1)

/-- `_mzd_pluq_solve_left(A, rank, P, Q, B, cutoff, inconsistency_check)` for `0 ≤ cutoff`, `/repo/test/github1_M4RI/src/m4ri/solve.c:50-118` -/
def _mzd_pluq_solve_left (tr : Bool → Mzd → C Mzd) (bs dflt cutoff : Nat) (e : SolveEnv) (check : Bool) (A : Mzd) (rank : Nat) (P Q : Mem Nat) (B : Mzd) : C (Mzd × Int) := do
  let B ← mzd_apply_p_left B P
  let B ← onWindow B 0 0 rank B.ncols fun W => mzd_trsm_lower_left tr bs dflt cutoff e.lower (mzd_window A 0 0 rank rank) W
  let s ← (if check then checkRest tr dflt cutoff e.mul A rank B else pure (B, 0) : C (Mzd × Int))
  let B ← onWindow s.1 0 0 rank s.1.ncols fun W => mzd_trsm_upper_left tr bs cutoff e.upper (mzd_window A 0 0 rank rank) W
  let B ← (if check then pure B else clearFrom rank B : C Mzd)
  let B ← mzd_apply_p_left_trans B Q
  pure (B, s.2)

/-- `mzd_pluq_solve_left`, `/repo/test/github1_M4RI/src/m4ri/solve.c:37-48` -/
def mzd_pluq_solve_left (tr : Bool → Mzd → C Mzd) (bs dflt cutoff : Nat) (e : SolveEnv) (check : Bool) (A : Mzd) (rank : Nat) (P Q : Mem Nat) (B : Mzd) : C (Mzd × Int) :=
  if B.nrows < A.ncols then .error .abort
  else if P.size ≠ A.nrows then .error .abort
  else if Q.size ≠ A.ncols then .error .abort
  else _mzd_pluq_solve_left tr bs dflt cutoff e check A rank P Q B

/-! ## The kernel -/

/-- `mzd_xor_bits(M, x, y, n, values)`, `/repo/test/github1_M4RI/include/m4ri/mzd.h:598-606` -/
def mzd_xor_bits (M : Mzd) (x y n : Nat) (values : Word) : C Mzd := do
  let spot := y % 64
  let block := y / 64
  let M ← M.put x block ((← M.get x block) ^^^ (values <<< spot))
  let space := 64 - spot
  if space < n then M.put x (block + 1) ((← M.get x (block + 1)) ^^^ (values >>> space)) else pure M

/-- The columns of `A` from `r` on are added to `RU`, `/repo/test/github1_M4RI/src/m4ri/solve.c:164-169` -/
def fillKernel (A : Mzd) (r : Nat) (RU : Mzd) : C Mzd :=
  forUp 0 r RU fun i RU => forUp 0 ((RU.ncols + 63) / 64) RU fun t RU => do
    let values ← mzd_read_bits A i (r + 64 * t) (min 64 (RU.ncols - 64 * t))
    mzd_xor_bits RU i (64 * t) (min 64 (RU.ncols - 64 * t)) values

/-- `mzd_kernel_left_pluq` after the factorisation, `/repo/test/github1_M4RI/src/m4ri/solve.c:152-184`; `none` stands for `NULL`. -/
def kernelOf (tr : Bool → Mzd → C Mzd) (bs cutoff : Nat) (e : List Nat → TrsmEnv) (A : Mzd) (r : Nat) (Q : Mem Nat) : C (Option Mzd) :=
  if r = A.ncols then pure none
  else do
    let R := mzd_init A.ncols (A.ncols - r)
    let R ← onWindow R 0 0 r R.ncols fun W => fillKernel A r W
    let R ← onWindow R 0 0 r R.ncols fun W => mzd_trsm_upper_left tr bs cutoff e (mzd_window A 0 0 r r) W
    let R ← forUp 0 R.ncols R fun i R => mzd_write_bit R (r + i) i true
    let R ← mzd_apply_p_left_trans R Q
    pure (some R)

end WB.m4w
