import Verif.Model.M4riWord

/-!
# M4RI: the density of a matrix

`/repo/test/github1_M4RI/src/m4ri/mzd.c:2151-2205`, on words, in the same configuration as `M4riWord`.  The functions return a quotient as a `double`; here they return the two numbers that are
divided.
-/
namespace WB.m4w

/-- `MASK(c)`, `/repo/test/github1_M4RI/src/m4ri/mzd.c:2151` -/
def cntMask (c : Nat) : Word := BitVec.ofNat 64 ((2 ^ 64 - 1) / (2 ^ 2 ^ c + 1))

/-- `COUNT(x, c)`, `/repo/test/github1_M4RI/src/m4ri/mzd.c:2152` -/
def cntStep (x : Word) (c : Nat) : Word := (x &&& cntMask c) + ((x >>> 2 ^ c) &&& cntMask c)

/-- `m4ri_bitcount(w)`, `/repo/test/github1_M4RI/src/m4ri/mzd.c:2154-2163` -/
def m4ri_bitcount (n : Word) : Nat :=
  let n := cntStep n 0
  let n := cntStep n 1
  let n := cntStep n 2
  let n := cntStep n 3
  let n := cntStep n 4
  let n := cntStep n 5
  n.toNat

/-- Entries that are counted one by one, `/repo/test/github1_M4RI/src/m4ri/mzd.c:2172-2174`, `2185-2187`, `2194-2196` -/
def countBits (A : Mzd) (i off lo hi count : Nat) : C Nat :=
  forUp lo hi count fun j count => do if ← mzd_read_bit A i (off + j) then pure (count + 1) else pure count

/-- A row, `/repo/test/github1_M4RI/src/m4ri/mzd.c:2183-2198`; `s` is `count` and `total`.  The second loop runs from `max 1 (c / 64)` in steps of `res`. -/
def densityRow (A : Mzd) (res c i : Nat) (s : Nat × Nat) : C (Nat × Nat) := do
  let count ← countBits A i 0 c 64 s.1
  let total := s.2 + 64
  let j0 := max 1 (c / 64)
  let steps := (A.width - 1 - j0 + (res - 1)) / res
  let count ← forUp 0 steps count fun t count => do pure (count + m4ri_bitcount (← A.get i (j0 + t * res)))
  let total := total + 64 * steps
  let count ← countBits A i (64 * (A.ncols / 64)) 0 (A.ncols % 64) count
  pure (count, total + A.ncols % 64)

/-- `_mzd_density(A, res, r, c)`, `/repo/test/github1_M4RI/src/m4ri/mzd.c:2166-2201`; a negative `res` is like 1. -/
def _mzd_density (A : Mzd) (res r c : Nat) : C (Nat × Nat) :=
  if A.width = 1 then do
    let count ← forUp r A.nrows 0 fun i count => countBits A i 0 c A.ncols count
    pure (count, A.ncols * A.nrows)
  else
    let res := if res = 0 then A.width / 100 else res
    let res := if res < 1 then 1 else res
    forUp r A.nrows (0, 0) fun i s => densityRow A res c i s

/-- `mzd_density(A, res)`, `/repo/test/github1_M4RI/src/m4ri/mzd.c:2203-2205` -/
def mzd_density (A : Mzd) (res : Nat) : C (Nat × Nat) := _mzd_density A res 0 0

end WB.m4w
