import Verif.Model.M4riEch

/-!
# M4RI: permutations

`/repo/test/github1_M4RI/src/m4ri/mzp.c`, on words, in the same configuration as `M4riWord`; assertions are on.

A permutation `mzp_t` is the block of memory `P->values`, whose size is `P->length` (`mzp_init`); its elements are natural numbers.
`l1` is `__M4RI_CPU_L1_CACHE`.  All rows of a matrix lie in one block.
-/
namespace WB.m4w

open WB.cmp (Mem Mem2)

/-- `mzp_set_ui(P, 1)`, `/repo/test/github1_M4RI/src/m4ri/mzp.c:62-67` -/
def mzp_set_ui (P : Mem Nat) : C (Mem Nat) := forUp 0 P.size P fun i P => P.put i i

/-- `mzp_init`, `/repo/test/github1_M4RI/src/m4ri/mzp.c:27-35`; `junk` is what the memory contains before. -/
def mzp_init (junk : Nat → Nat) (length : Nat) : C (Mem Nat) := forUp 0 length ⟨length, junk⟩ fun i P => P.put i i

/-- `mzp_copy(P, Q)`, `/repo/test/github1_M4RI/src/m4ri/mzp.c:54-60` -/
def mzp_copy (P Q : Mem Nat) : C (Mem Nat) := forUp 0 Q.size P fun i P => do P.put i (← Q.get i)

/-- The body of the loops over a permutation: `assert(P->values[i] >= i)` and an exchange. -/
def checked (P : Mem Nat) (i : Nat) (f : Nat → C Mzd) : C Mzd := do
  let v ← P.get i
  if v < i then .error .abort else f v

/-- `mzd_apply_p_left`, `/repo/test/github1_M4RI/src/m4ri/mzp.c:69-77` -/
def mzd_apply_p_left (A : Mzd) (P : Mem Nat) : C Mzd :=
  if A.ncols = 0 then pure A
  else forUp 0 (min P.size A.nrows) A fun i A => checked P i fun v => mzd_row_swap A i v

/-- `mzd_apply_p_left_trans`, `/repo/test/github1_M4RI/src/m4ri/mzp.c:79-87` -/
def mzd_apply_p_left_trans (A : Mzd) (P : Mem Nat) : C Mzd :=
  if A.ncols = 0 then pure A
  else forDown (min P.size A.nrows) 0 A fun i A => checked P i fun v => mzd_row_swap A i v

/-! ## Columns -/

/-- The bits of one word, `/repo/test/github1_M4RI/src/m4ri/mzp.c:103-183`; `words[k]`, `bits[k]` and `bitmasks[k]` are computed where they are used. -/
def gatherBits (B : Mzd) (perm : Mem Nat) (i todo r : Nat) : C Word :=
  forDown todo 0 0#64 fun k value => do
    let colb ← perm.get (i + k)
    let w ← B.get r (colb / 64)
    pure (value ||| (((w &&& (1#64 <<< (colb % 64))) >>> (colb % 64)) <<< k))

/-- `mzd_write_col_to_rows_blockd`, `/repo/test/github1_M4RI/src/m4ri/mzp.c:91-193`; the loop variable is `i / m4ri_radix`. -/
def mzd_write_col_to_rows_blockd (A B : Mzd) (perm : Mem Nat) (mask : Mem Word) (start_row stop_row length : Nat) : C Mzd :=
  forUp 0 ((length + 63) / 64) A fun a_word A => do
    if (← mask.get a_word) = ffff then pure A
    else forUp start_row stop_row A fun r A => do
      let value ← gatherBits B perm (64 * a_word) (min 64 (length - 64 * a_word)) (r - start_row)
      A.put r a_word ((← A.get r a_word) ||| value)

/-- The exchange of two elements, `/repo/test/github1_M4RI/src/m4ri/mzp.c:217-219`, `223-225` -/
def swapPerm (perm : Mem Nat) (i v : Nat) : C (Mem Nat) := do
  let t ← perm.get i
  let perm ← perm.put i (← perm.get v)
  perm.put v t

/-- `permutation`, `/repo/test/github1_M4RI/src/m4ri/mzp.c:211-227` -/
def permArray (n length : Nat) (P : Mem Nat) (start_col : Nat) (notrans : Bool) : C (Mem Nat) := do
  let perm ← forUp 0 n (⟨n, fun _ => 0⟩ : Mem Nat) fun i perm => perm.put i i
  if !notrans then forUp start_col length perm fun i perm => do swapPerm perm i (← P.get i)
  else forUp start_col length perm fun i perm => do swapPerm perm (length - i - 1) (← P.get (length - i - 1))

/-- `write_mask`, `/repo/test/github1_M4RI/src/m4ri/mzp.c:230-239`; the loop variable is `i / m4ri_radix`. -/
def writeMask (A : Mzd) (perm : Mem Nat) : C (Mem Word) := do
  let mask ← forUp 0 ((A.ncols + 63) / 64) (⟨A.width, fun _ => 0#64⟩ : Mem Word) fun q mask =>
    forUp 0 (min 64 (A.ncols - 64 * q)) mask fun k mask => do
      if (← perm.get (64 * q + k)) = 64 * q + k then mask.put q ((← mask.get q) ||| (1#64 <<< k)) else pure mask
  mask.put (A.width - 1) ((← mask.get (A.width - 1)) ||| ~~~A.high)

/-- Some rows are copied to `B`, and the bits that will be written are cleared, `/repo/test/github1_M4RI/src/m4ri/mzp.c:243-252` -/
def takeRows (A B : Mzd) (mask : Mem Word) (i step : Nat) : C (Mzd × Mzd) :=
  forUp 0 step (A, B) fun k s => forUp 0 A.width s fun j (s : Mzd × Mzd) => do
    let B ← s.2.put k j (← s.1.get (i + k) j)
    let A ← s.1.put (i + k) j ((← s.1.get (i + k) j) &&& (← mask.get j))
    pure (A, B)

/-- The loop over the rows, `/repo/test/github1_M4RI/src/m4ri/mzp.c:241-255`; the first argument bounds the number of rounds. -/
def permRows (perm : Mem Nat) (mask : Mem Word) (length : Nat) : Nat → Nat → Nat → Mzd → Mzd → C Mzd
  | 0, _, _, _, _ => .error .diverge
  | fuel + 1, i, step, A, B =>
    if i < A.nrows then do
      let step := min step (A.nrows - i)
      let s ← takeRows A B mask i step
      let A ← mzd_write_col_to_rows_blockd s.1 s.2 perm mask i (i + step) length
      permRows perm mask length fuel (i + step) step A s.2
    else pure A

/-- `_mzd_apply_p_right_even`, `/repo/test/github1_M4RI/src/m4ri/mzp.c:198-261`, for `start_row ≤ A->nrows` -/
def _mzd_apply_p_right_even (l1 : Nat) (A : Mzd) (P : Mem Nat) (start_row start_col : Nat) (notrans : Bool) : C Mzd :=
  if A.nrows - start_row = 0 then pure A
  else if A.width = 0 then .error .divZero
  else do
    let length := min P.size A.ncols
    let step := min (A.nrows - start_row) (max (l1 / 8 / A.width) 1)
    let perm ← permArray A.ncols length P start_col notrans
    let mask ← writeMask A perm
    permRows perm mask length (A.nrows + 1) start_row step A (mzd_init step A.ncols)

/-- `mzd_apply_p_right_trans`, `/repo/test/github1_M4RI/src/m4ri/mzp.c:304-308` -/
def mzd_apply_p_right_trans (l1 : Nat) (A : Mzd) (P : Mem Nat) : C Mzd :=
  if A.nrows = 0 then pure A else _mzd_apply_p_right_even l1 A P 0 0 false

/-- `mzd_apply_p_right`, `/repo/test/github1_M4RI/src/m4ri/mzp.c:310-314` -/
def mzd_apply_p_right (l1 : Nat) (A : Mzd) (P : Mem Nat) : C Mzd :=
  if A.nrows = 0 then pure A else _mzd_apply_p_right_even l1 A P 0 0 true

/-- `mzd_apply_p_right_trans_even_capped`, `/repo/test/github1_M4RI/src/m4ri/mzp.c:316-320` -/
def mzd_apply_p_right_trans_even_capped (l1 : Nat) (A : Mzd) (P : Mem Nat) (start_row start_col : Nat) : C Mzd :=
  if A.nrows = 0 then pure A else _mzd_apply_p_right_even l1 A P start_row start_col false

/-- `mzd_apply_p_right_even_capped`, `/repo/test/github1_M4RI/src/m4ri/mzp.c:322-326` -/
def mzd_apply_p_right_even_capped (l1 : Nat) (A : Mzd) (P : Mem Nat) (start_row start_col : Nat) : C Mzd :=
  if A.nrows = 0 then pure A else _mzd_apply_p_right_even l1 A P start_row start_col true

/-! ## Column by column -/

/-- One row in `mzd_col_swap_in_rows`, `/repo/test/github1_M4RI/include/m4ri/mzd.h:475-539` -/
def colSwapRow (M : Mzd) (cola colb r : Nat) : C Mzd :=
  let min_bit := min (cola % 64) (colb % 64)
  let offset := max (cola % 64) (colb % 64) - min_bit
  let mask := 1#64 <<< min_bit
  if cola / 64 = colb / 64 then do
    let w ← M.get r (cola / 64)
    let x := (w ^^^ (w >>> offset)) &&& mask
    M.put r (cola / 64) (w ^^^ (x ||| (x <<< offset)))
  else do
    let minw := if min_bit = cola % 64 then cola / 64 else colb / 64
    let maxw := if min_bit = cola % 64 then colb / 64 else cola / 64
    let x := ((← M.get r minw) ^^^ ((← M.get r maxw) >>> offset)) &&& mask
    let M ← M.put r minw ((← M.get r minw) ^^^ x)
    M.put r maxw ((← M.get r maxw) ^^^ (x <<< offset))

/-- `mzd_col_swap_in_rows`, `/repo/test/github1_M4RI/include/m4ri/mzd.h:449-543`; the sources do four rows at a time. -/
def mzd_col_swap_in_rows (M : Mzd) (cola colb start_row stop_row : Nat) : C Mzd :=
  if cola = colb then pure M
  else forUp start_row stop_row M fun r M => colSwapRow M cola colb r

/-- `mzd_col_swap`, `/repo/test/github1_M4RI/src/m4ri/mzd.c:1903-1995` -/
def mzd_col_swap (M : Mzd) (cola colb : Nat) : C Mzd :=
  if cola = colb then pure M
  else if M.nrows = 0 then .error .abort
  else forUp 0 M.nrows M fun r M => colSwapRow M cola colb r

/-- `_mzd_apply_p_right_trans`, `/repo/test/github1_M4RI/src/m4ri/mzp.c:263-281`; the loop variable is `j / step_size`. -/
def _mzd_apply_p_right_trans (l1 : Nat) (A : Mzd) (P : Mem Nat) : C Mzd :=
  if A.nrows = 0 then pure A
  else if A.width = 0 then .error .divZero
  else
    let step := max (l1 / 8 / A.width) 1
    forUp 0 ((A.nrows + step - 1) / step) A fun q A =>
      forUp 0 (min P.size A.ncols) A fun i A => checked P i fun v => mzd_col_swap_in_rows A i v (q * step) (min (q * step + step) A.nrows)

/-- `_mzd_apply_p_right`, `/repo/test/github1_M4RI/src/m4ri/mzp.c:283-301` -/
def _mzd_apply_p_right (l1 : Nat) (A : Mzd) (P : Mem Nat) : C Mzd :=
  if A.nrows = 0 then pure A
  else if A.width = 0 then .error .divZero
  else
    let step := max (l1 / 8 / A.width) 1
    forUp 0 ((A.nrows + step - 1) / step) A fun q A =>
      forDown P.size 0 A fun i A => checked P i fun v => mzd_col_swap_in_rows A i v (q * step) (min (q * step + step) A.nrows)

/-- `mzd_apply_p_right_trans_tri`, `/repo/test/github1_M4RI/src/m4ri/mzp.c:336-349` -/
def mzd_apply_p_right_trans_tri (l1 : Nat) (A : Mzd) (P : Mem Nat) : C Mzd :=
  if P.size ≠ A.ncols then .error .abort
  else if A.width = 0 then .error .divZero
  else
    let step := max (l1 / 4 / A.width) 1
    forUp 0 ((A.nrows + step - 1) / step) A fun q A =>
      forUp 0 A.ncols A fun i A => checked P i fun v => mzd_col_swap_in_rows A i v (q * step) (min (min (q * step + step) A.nrows) i)

end WB.m4w
