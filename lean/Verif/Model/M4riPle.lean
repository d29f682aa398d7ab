import Verif.Model.M4riPerm

/-!
# M4RI: the naive PLUQ and PLE factorisations

`/repo/test/github1_M4RI/src/m4ri/ple.c:190-293`, on words, in the same configuration as `M4riPerm`.
-/
namespace WB.m4w

open WB.cmp (Mem Mem2)

/-- The matrix and the two permutations -/
structure Ple where
  A : Mzd
  P : Mem Nat
  Q : Mem Nat

/-- The search for a pivot, `/repo/test/github1_M4RI/src/m4ri/ple.c:195-205`, `243-253`: column by column from `col` on, in the rows from `row` on; `some (i, j)` if `found`. -/
def searchPivot (A : Mzd) (row col : Nat) : C (Option (Nat × Nat)) :=
  forUp col A.ncols none fun j found => match found with
    | some p => pure (some p)
    | none => forUp row A.nrows none fun i found => match found with
      | some p => pure (some p)
      | none => do if ← mzd_read_bit A i j then pure (some (i, j)) else pure none

/-- The rows below the pivot, `/repo/test/github1_M4RI/src/m4ri/ple.c:214-220`, `261-267` -/
def clearBelow (A : Mzd) (row col : Nat) : C Mzd :=
  if col + 1 < A.ncols then forUp (row + 1) A.nrows A fun l A => do
    if ← mzd_read_bit A l col then mzd_row_add_offset A l row (col + 1) else pure A
  else pure A

/-- `V->values[i] = i` for `i` from `from_` to `to_ - 1` -/
def fillRest (V : Mem Nat) (from_ to_ : Nat) : C (Mem Nat) := forUp from_ to_ V fun i V => V.put i i

/-- The loop of `_mzd_pluq_naive`, `/repo/test/github1_M4RI/src/m4ri/ple.c:192-225`; the first argument bounds the number of rounds. -/
def pluqLoop : Nat → Nat → Ple → C (Ple × Nat)
  | 0, _, _ => .error .diverge
  | fuel + 1, curr_pos, s =>
    if curr_pos < s.A.ncols then do
      match ← searchPivot s.A curr_pos curr_pos with
      | some (i, j) => do
        let P ← s.P.put curr_pos i
        let Q ← s.Q.put curr_pos j
        let A ← mzd_row_swap s.A curr_pos i
        let A ← mzd_col_swap A curr_pos j
        let A ← clearBelow A curr_pos curr_pos
        pluqLoop fuel (curr_pos + 1) ⟨A, P, Q⟩
      | none => pure (s, curr_pos)
    else pure (s, curr_pos)

/-- `_mzd_pluq_naive`, `/repo/test/github1_M4RI/src/m4ri/ple.c:190-236`: what `A`, `P` and `Q` are afterwards and the value returned. -/
def _mzd_pluq_naive (A : Mzd) (P Q : Mem Nat) : C (Ple × Nat) := do
  let (s, curr_pos) ← pluqLoop (A.ncols + 1) 0 ⟨A, P, Q⟩
  let P ← fillRest s.P curr_pos s.A.nrows
  let Q ← fillRest s.Q curr_pos s.A.ncols
  pure (⟨s.A, P, Q⟩, curr_pos)

/-- The loop of `_mzd_ple_naive`, `/repo/test/github1_M4RI/src/m4ri/ple.c:242-273`; the first argument bounds the number of rounds. -/
def pleLoop : Nat → Nat → Nat → Ple → C (Ple × Nat)
  | 0, _, _, _ => .error .diverge
  | fuel + 1, row_pos, col_pos, s =>
    if row_pos < s.A.nrows ∧ col_pos < s.A.ncols then do
      match ← searchPivot s.A row_pos col_pos with
      | some (i, j) => do
        let P ← s.P.put row_pos i
        let Q ← s.Q.put row_pos j
        let A ← mzd_row_swap s.A row_pos i
        let A ← clearBelow A row_pos j
        pleLoop fuel (row_pos + 1) (j + 1) ⟨A, P, Q⟩
      | none => pure (s, row_pos)
    else pure (s, row_pos)

/-- "Now compressing L", `/repo/test/github1_M4RI/src/m4ri/ple.c:279-285` -/
def compressL (A : Mzd) (Q : Mem Nat) (row_pos : Nat) : C Mzd :=
  forUp 0 row_pos A fun j A => do
    let v ← Q.get j
    if j < v then mzd_col_swap_in_rows A v j j A.nrows else pure A

/-- `_mzd_ple_naive`, `/repo/test/github1_M4RI/src/m4ri/ple.c:238-293` -/
def _mzd_ple_naive (A : Mzd) (P Q : Mem Nat) : C (Ple × Nat) := do
  let (s, row_pos) ← pleLoop (A.nrows + 1) 0 0 ⟨A, P, Q⟩
  let P ← fillRest s.P row_pos s.A.nrows
  let Q ← fillRest s.Q row_pos s.A.ncols
  let A ← compressL s.A Q row_pos
  pure (⟨A, P, Q⟩, row_pos)

end WB.m4w
