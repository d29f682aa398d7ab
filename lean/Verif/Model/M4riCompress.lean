import Verif.Model.M4riSolve
import Verif.Model.M4riPerm

/-!
# M4RI: the compression of `L` in the block recursive PLE factorisation

`/repo/test/github1_M4RI/src/m4ri/mzp.c:351-461`, on words, in the same configuration as `M4riWord`.
-/
namespace WB.m4w

/-- The columns are exchanged in the rows with pivots, `/repo/test/github1_M4RI/src/m4ri/mzp.c:397-399` -/
def compressTop (r1 n1 r2 : Nat) (A : Mzd) : C Mzd :=
  forUp 0 r2 A fun t A => mzd_col_swap_in_rows A (r1 + t) (n1 + t) (r1 + t) (r1 + r2)

/-- The words between the first and the last one that are written, `/repo/test/github1_M4RI/src/m4ri/mzp.c:416-432`; `w` is `j / m4ri_radix`. -/
def compressWords (r1 n1 r2 i : Nat) (A : Mzd) : C Mzd :=
  let rest := 64 - r1 % 64
  let j := r1 + rest
  let block := (n1 + j - r1) / 64
  forUp (j / 64) ((r1 + r2) / 64) A fun w A =>
    if rest % 64 = 0 then do A.put i w (← A.get i (block + (w - j / 64)))
    else do
      let x ← A.get i (block + (w - j / 64))
      let y ← A.get i (block + (w - j / 64) + 1)
      A.put i w ((x >>> rest) ||| (y <<< (64 - rest)))

/-- The remaining bits, `/repo/test/github1_M4RI/src/m4ri/mzp.c:434-441`; after the words `j` is the first multiple of 64 above `r1` that is more than `r1 + r2 - 64`. -/
def compressLast (r1 n1 r2 i : Nat) (A : Mzd) : C Mzd :=
  let j := max (r1 + (64 - r1 % 64)) (64 * ((r1 + r2) / 64))
  if j < r1 + r2 then do A.put i (j / 64) (← mzd_read_bits A i (n1 + j - r1) (r1 + r2 - j)) else pure A

/-- A row without a pivot, `/repo/test/github1_M4RI/src/m4ri/mzp.c:404-456` -/
def compressRow (r1 n1 r2 i : Nat) (A : Mzd) : C Mzd := do
  let rest := 64 - r1 % 64
  let tmp ← mzd_read_bits A i n1 rest
  let A ← mzd_clear_bits A i r1 rest
  let A ← mzd_xor_bits A i r1 rest tmp
  let A ← compressWords r1 n1 r2 i A
  let A ← compressLast r1 n1 r2 i A
  let A ← mzd_clear_bits A i (r1 + r2) (64 - (r1 + r2) % 64)
  forUp ((r1 + r2) / 64 + 1) ((n1 + r2 + 63) / 64) A fun w A => A.put i w 0#64

/-- `_mzd_compress_l(A, r1, n1, r2)`, `/repo/test/github1_M4RI/src/m4ri/mzp.c:351-461` -/
def _mzd_compress_l (A : Mzd) (r1 n1 r2 : Nat) : C Mzd :=
  if r1 = n1 then pure A
  else do
    let A ← compressTop r1 n1 r2 A
    forUp (r1 + r2) A.nrows A fun i A => compressRow r1 n1 r2 i A

end WB.m4w
