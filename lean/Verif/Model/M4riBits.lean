import Verif.Model.M4riSolve

/-!
# M4RI: groups of bits combined with `and`, and the hash of a matrix

`/repo/test/github1_M4RI/include/m4ri/mzd.h:618-629` and `1300-1306`, `/repo/test/github1_M4RI/include/m4ri/debug_dump.h:27-37`, on words, in the same configuration as `M4riWord`.
-/
namespace WB.m4w

/-- `mzd_and_bits(M, x, y, n, values)`, `/repo/test/github1_M4RI/include/m4ri/mzd.h:618-629`.  The first shift is out of range unless `0 < n` and `n ≤ 64`. -/
def mzd_and_bits (M : Mzd) (x y n : Nat) (values : Word) : C Mzd :=
  if ¬ (0 < n ∧ n ≤ 64) then .error .overflow
  else do
    let values := values >>> (64 - n)
    let spot := y % 64
    let block := y / 64
    let M ← M.put x block ((← M.get x block) &&& (values <<< spot))
    let space := 64 - spot
    if space < n then M.put x (block + 1) ((← M.get x (block + 1)) &&& (values >>> space)) else pure M

/-- `rotate_word(w, shift)`, `/repo/test/github1_M4RI/include/m4ri/debug_dump.h:35-37`, with `shift` below 64.  The second shift is by `m4ri_radix - w`, not by `m4ri_radix - shift`; it is computed
as an unsigned word and out of range unless `w` is between 1 and 64. -/
def rotate_word (w : Word) (shift : Nat) : C Word :=
  if 1 ≤ w.toNat ∧ w.toNat ≤ 64 then pure ((w <<< shift) ||| (w >>> (64 - w.toNat))) else .error .overflow

/-- `calculate_hash(A->rows[r], A->width)`, `/repo/test/github1_M4RI/include/m4ri/debug_dump.h:27-33` -/
def calculate_hash (A : Mzd) (r : Nat) : C Word := forUp 0 A.width 0#64 fun j hash => do pure (hash ^^^ (← A.get r j))

/-- `mzd_hash(A)`, `/repo/test/github1_M4RI/include/m4ri/mzd.h:1300-1306` -/
def mzd_hash (A : Mzd) : C Word := forUp 0 A.nrows 0#64 fun r hash => do
  pure (hash ^^^ (← rotate_word (← calculate_hash A r) (r % 64)))

end WB.m4w
