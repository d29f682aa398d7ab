import Verif.Model.Cmp

/-!
# M4RI: where the rows of matrices and windows lie in memory

`/repo/test/github1_M4RI/src/m4ri/mzd.c:149-269`, `1897-1993` and `include/m4ri/mzd.h:196-308`, `450-554`.  A matrix owns an array of blocks of at most 2^27 words;
a window of a matrix uses the blocks of the matrix.  An address is a pair: the number of a block in the array of the matrix that owns it, and a number of words
from its start.  Pointers are not limited to their block before they are used.  Assertions are on: a failed one is the fault `abort`.
-/
namespace WB.m4l

abbrev Addr := Nat × Int

/-- The fields of `mzd_t` that say where the rows lie; `base` is the position of `blocks[0]` in the array of blocks of the matrix that owns it, `size` the words of
each block of that array. -/
structure Lay where
  nrows : Nat
  ncols : Nat
  width : Nat
  rowstride : Nat
  offv : Int
  roff : Nat
  multi : Bool
  blog : Nat
  base : Nat
  size : Nat → Nat
  rows : Nat → Addr

/-- Sums and products of type `int` -/
def i32 (x : Int) : C Int := if -2 ^ 31 ≤ x ∧ x < 2 ^ 31 then pure x else .error .overflow

/-- `while(blockrows >>= 1) A->blockrows_log++`, `/repo/test/github1_M4RI/src/m4ri/mzd.c:168-169` -/
def blockLog (b : Nat) : Nat := if h : b / 2 = 0 then 0 else blockLog (b / 2) + 1
termination_by b
decreasing_by omega

/-- The sizes of the blocks, `/repo/test/github1_M4RI/src/m4ri/mzd.c:177-183` -/
def blockSizes (nblocks last full : Nat) : Nat → Nat :=
  ((List.range nblocks).reverse.foldl (fun (s : (Nat → Nat) × Nat) i => (fun k => if k = i then s.2 else s.1 k, full)) (fun _ => 0, last)).1

/-- `mzd_init`, `/repo/test/github1_M4RI/src/m4ri/mzd.c:149-194`, for matrices with rows and columns -/
def mzd_init (r c : Nat) : C Lay := do
  let width := (← i32 (c + 63)).toNat / 64
  let rowstride := if width < 1 ∨ width % 2 = 0 then width else width + 1
  let _ ← i32 (r + 1)
  let blog := blockLog (2 ^ 27 / rowstride)
  let blockrows : Nat := 2 ^ blog
  let nblocks := ((← i32 (r + blockrows)).toNat - 1) / blockrows
  pure { nrows := r, ncols := c, width := width, rowstride := rowstride, offv := 0, roff := 0, multi := decide (1 < nblocks), blog := blog, base := 0,
         size := blockSizes nblocks ((r - (nblocks - 1) * blockrows) * rowstride) (blockrows * rowstride),
         rows := fun i => (i >>> blog, (((i &&& (blockrows - 1)) * rowstride : Nat) : Int)) }

/-- `mzd_init_window`, `/repo/test/github1_M4RI/src/m4ri/mzd.c:231-269`; `lowr` ≤ `highr`, `lowr` ≤ `M->nrows`, `lowc` ≤ `highc`. -/
def mzd_init_window (M : Lay) (lowr lowc highr highc : Nat) : C Lay :=
  if lowc % 64 ≠ 0 then .error .abort
  else
    let nrows := min (highr - lowr) (M.nrows - lowr)
    let ncols := highc - lowc
    let skipped := (M.roff + lowr) >>> M.blog
    if ¬(skipped = 0 ∨ M.multi = true) then .error .abort
    else
      let roff := (M.roff + lowr) &&& (2 ^ M.blog - 1)
      let wrd := lowc / 64
      let W : Lay := { nrows := nrows, ncols := ncols, width := (ncols + 63) / 64, rowstride := M.rowstride,
                       offv := M.offv + wrd + ((roff : Int) - M.roff) * M.rowstride, roff := roff,
                       multi := decide (0 < ((roff : Int) + nrows - 1) >>> M.blog) && M.multi, blog := M.blog, base := M.base + skipped, size := M.size,
                       rows := fun i => ((M.rows (lowr + i)).1, (M.rows (lowr + i)).2 + wrd) }
      if nrows = 0 ∨ (W.base, W.offv) = W.rows 0 then pure W else .error .abort

/-- `mzd_first_row`, `/repo/test/github1_M4RI/include/m4ri/mzd.h:204-208` -/
def mzd_first_row (M : Lay) : C Addr := if M.nrows = 0 ∨ (M.base, M.offv) = M.rows 0 then pure (M.base, M.offv) else .error .abort

/-- `mzd_first_row_next_block`, `/repo/test/github1_M4RI/include/m4ri/mzd.h:220-223` -/
def mzd_first_row_next_block (M : Lay) (n : Nat) : Addr := (M.base + n, M.offv - M.roff * M.rowstride)

/-- `mzd_row_to_block`, `/repo/test/github1_M4RI/include/m4ri/mzd.h:234` -/
def mzd_row_to_block (M : Lay) (row : Nat) : Nat := (M.roff + row) >>> M.blog

/-- `mzd_rows_in_block`, `/repo/test/github1_M4RI/include/m4ri/mzd.h:249-262` -/
def mzd_rows_in_block (M : Lay) (n : Nat) : Int :=
  if M.multi then
    if n = 0 then 2 ^ M.blog - M.roff
    else if n < mzd_row_to_block M (M.nrows - 1) then 2 ^ M.blog
    else M.nrows + M.roff - n * 2 ^ M.blog
  else if n ≠ 0 then 0 else M.nrows

/-- `mzd_remaining_rows_in_block`, `/repo/test/github1_M4RI/include/m4ri/mzd.h:273-288` -/
def mzd_remaining_rows_in_block (M : Lay) (row : Nat) : Int :=
  let n := mzd_row_to_block M row
  let r : Int := row - n * 2 ^ M.blog
  if M.multi then
    if n = 0 then 2 ^ M.blog - M.roff - r
    else if n < mzd_row_to_block M (M.nrows - 1) then 2 ^ M.blog - r
    else M.nrows + M.roff - n * 2 ^ M.blog - r
  else if n ≠ 0 then 0 else M.nrows - r

/-- `mzd_row`, `/repo/test/github1_M4RI/include/m4ri/mzd.h:299-308` -/
def mzd_row (M : Lay) (row : Nat) : C Addr := do
  let t ← i32 (row * M.rowstride)
  let big ← i32 (M.offv + t)
  let n := (M.roff + row) >>> M.blog
  let res : Addr := if M.multi then (M.base + n, big - n * M.size M.base) else (M.base, big)
  if res = M.rows row then pure res else .error .abort

/-- The words `a_word` and `b_word` of `count` rows from an address on, `/repo/test/github1_M4RI/include/m4ri/mzd.h:481-514`, `531-537`: the addresses of the rows.
A word that is not in the block is the fault `oob`. -/
def visit (M : Lay) (aw bw : Nat) (ptr : Addr) : Nat → C (List Addr)
  | 0 => pure []
  | k + 1 =>
    if 0 ≤ ptr.2 ∧ ptr.2 + aw < M.size ptr.1 ∧ ptr.2 + bw < M.size ptr.1 then do
      pure (ptr :: (← visit M aw bw (ptr.1, ptr.2 + M.rowstride) k))
    else .error .oob

/-- The loop over the blocks, `/repo/test/github1_M4RI/include/m4ri/mzd.h:478-522`, `528-550`; the first argument bounds the number of rounds. -/
def swapLoop (M : Lay) (aw bw : Nat) : Nat → Nat → Addr → Int → Int → C (List Addr)
  | 0, _, _, _, _ => .error .diverge
  | fuel + 1, block, ptr, count, remaining => do
    let here ← visit M aw bw ptr count.toNat
    let c := min (mzd_rows_in_block M (block + 1)) (remaining - count)
    if c ≤ 0 then pure here
    else pure (here ++ (← swapLoop M aw bw fuel (block + 1) (mzd_first_row_next_block M (block + 1)) c (remaining - count)))

/-- The rows that `mzd_col_swap_in_rows` changes, `/repo/test/github1_M4RI/include/m4ri/mzd.h:449-554`; `a_word` and `b_word` are the words of the two columns. -/
def mzd_col_swap_in_rows (M : Lay) (cola colb start stop : Nat) : C (List Addr) :=
  if cola = colb then pure []
  else do
    let ptr ← mzd_row M start
    let count := min (mzd_remaining_rows_in_block M start) ((stop : Int) - start)
    if count ≤ 0 then pure [] else swapLoop M (cola / 64) (colb / 64) (stop + 1) (mzd_row_to_block M start) ptr count ((stop : Int) - start)

/-- The loop over the blocks, `/repo/test/github1_M4RI/src/m4ri/mzd.c:1924-1966`, `1976-1990` -/
def swapAll (M : Lay) (aw bw : Nat) : Nat → Nat → Addr → Int → C (List Addr)
  | 0, _, _, _ => .error .diverge
  | fuel + 1, block, ptr, count => do
    let here ← visit M aw bw ptr count.toNat
    let c := mzd_rows_in_block M (block + 1)
    if c ≤ 0 then pure here else pure (here ++ (← swapAll M aw bw fuel (block + 1) (mzd_first_row_next_block M (block + 1)) c))

/-- The rows that `mzd_col_swap` changes, `/repo/test/github1_M4RI/src/m4ri/mzd.c:1903-1993` -/
def mzd_col_swap (M : Lay) (cola colb : Nat) : C (List Addr) :=
  if cola = colb then pure []
  else do
    let ptr ← mzd_first_row M
    let count := mzd_rows_in_block M 0
    if count ≤ 0 then .error .abort else swapAll M (cola / 64) (colb / 64) (M.nrows + 1) 0 ptr count

end WB.m4l
