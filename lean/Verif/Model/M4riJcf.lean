import Verif.Model.M4riWord

/-!
# M4RI: reading a matrix in JCF format

`/repo/test/github1_M4RI/src/m4ri/io.c:307-363`.  A file is what `fscanf` returns: the numbers of the header, if there are four of them, and the list of numbers that follow.  The numbers of rows and
columns are not negative; memory is always available.  What is printed is not modelled.
-/
namespace WB.m4w

/-- One number, `/repo/test/github1_M4RI/src/m4ri/io.c:345-352`; `s` is the matrix and `i`.  `-j` overflows for the smallest `long`; row -1 is out of bounds and a shift by column -1 is negative. -/
def jcfStep (s : Mzd × Int) (j : Int) : C (Mzd × Int) :=
  if j ≤ -2 ^ 63 then .error .overflow
  else
    let i := if j < 0 then s.2 + 1 else s.2
    let j := if j < 0 then -j else j
    if (s.1.ncols : Int) ≤ j - 1 ∨ (s.1.nrows : Int) ≤ i then .error .abort
    else if i < 0 then .error .oob
    else if j - 1 < 0 then .error .overflow
    else do pure (← mzd_write_bit s.1 i.toNat (j - 1).toNat true, i)

/-- `mzd_from_jcf(fn, verbose)`, `/repo/test/github1_M4RI/src/m4ri/io.c:307-363`; `none` as the header is a file that cannot be opened or without four numbers, otherwise it is `m`, `n` and `p`.
`none` as the result is `NULL`. -/
def mzd_from_jcf (header : Option (Nat × Nat × Int)) (entries : List Int) : C (Option Mzd) :=
  match header with
  | none => pure none
  | some (m, n, p) =>
    if p ≠ 2 then pure none
    else do
      let s ← entries.foldlM jcfStep (mzd_init m n, -1)
      pure (some s.1)

end WB.m4w
