import Verif.Model.M4riSolve
import Verif.Model.M4riPle
import Verif.Model.M4riMove

/-!
# M4RI: the last row that is not zero, triangular parts and the echelon form from a PLE factorisation

`/repo/test/github1_M4RI/src/m4ri/mzd.c:2207-2257` and `/repo/test/github1_M4RI/src/m4ri/echelonform.c:38-138`, on words, in the same configuration as `M4riWord`.
-/
namespace WB.m4w

open WB.cmp (Mem Mem2)

/-- The words of row `i` in one word, `/repo/test/github1_M4RI/src/m4ri/mzd.c:2213-2217`.  In a matrix without columns the last word has the index -1. -/
def rowOr (A : Mzd) (i : Nat) : C Word :=
  if A.width = 0 then .error .oob
  else do
    let tmp ← A.get i 0
    let tmp ← forUp 1 (A.width - 1) tmp fun j tmp => do pure (tmp ||| (← A.get i j))
    let last ← A.get i (A.width - 1)
    pure (tmp ||| (last &&& leftMask (A.ncols % 64)))

/-- The loop of `mzd_first_zero_row` from row `i - 1` downwards, `/repo/test/github1_M4RI/src/m4ri/mzd.c:2212-2224` -/
def lastRowFrom (A : Mzd) : Nat → C Nat
  | 0 => pure 0
  | i + 1 => do
    let tmp ← rowOr A i
    if tmp ≠ 0#64 then pure (i + 1) else lastRowFrom A i

/-- `mzd_first_zero_row(A)`, `/repo/test/github1_M4RI/src/m4ri/mzd.c:2207-2225` -/
def mzd_first_zero_row (A : Mzd) : C Nat := lastRowFrom A A.nrows

/-- The matrix that `mzd_extract_u` and `mzd_extract_l` change, `/repo/test/github1_M4RI/src/m4ri/mzd.c:2228-2232`, `2243-2247`; `none` stands for `NULL`. -/
def triBase (U : Option Mzd) (A : Mzd) : C Mzd :=
  match U with
  | none => mzd_submatrix A 0 0 (min A.nrows A.ncols) (min A.nrows A.ncols)
  | some U => if U.nrows = min A.nrows A.ncols ∧ U.ncols = min A.nrows A.ncols then pure U else .error .abort

/-- `mzd_extract_u(U, A)`, `/repo/test/github1_M4RI/src/m4ri/mzd.c:2227-2240` -/
def mzd_extract_u (U : Option Mzd) (A : Mzd) : C Mzd := do
  let U ← triBase U A
  forUp 1 U.nrows U fun i U => do
    let U ← forUp 0 (i / 64) U fun j U => U.put i j 0#64
    if i % 64 ≠ 0 then mzd_clear_bits U i (i / 64 * 64) (i % 64) else pure U

/-- `mzd_extract_l(L, A)`, `/repo/test/github1_M4RI/src/m4ri/mzd.c:2242-2257`; `m4ri_radix - (i + 1) % m4ri_radix` is never 0. -/
def mzd_extract_l (L : Option Mzd) (A : Mzd) : C Mzd := do
  let L ← triBase L A
  forUp 0 (L.nrows - 1) L fun i L => do
    let L ← mzd_clear_bits L i (i + 1) (64 - (i + 1) % 64)
    forUp (i / 64 + 1) L.width L fun j L => L.put i j 0#64

/-- `L` is cleared and the leading ones are written, `/repo/test/github1_M4RI/src/m4ri/echelonform.c:117-123` -/
def clearL (r : Nat) (Q : Mem Nat) (A : Mzd) : C Mzd :=
  forUp 0 r A fun i A => do
    let A ← forUp 0 (i / 64 + 1) A fun t A => mzd_clear_bits A i (64 * t) (min 64 (i - 64 * t + 1))
    let v ← Q.get i
    mzd_write_bit A i v true

/-- The rows from `r` on are set to zero, `/repo/test/github1_M4RI/src/m4ri/echelonform.c:126-130` -/
def zeroRest (r : Nat) (A : Mzd) : C Mzd := if r ≠ A.nrows then onWindow A r 0 A.nrows A.ncols fun W => mzd_set_ui W 0 else pure A

/-- `mzd_echelonize_pluq(A, 0)`, `/repo/test/github1_M4RI/src/m4ri/echelonform.c:38-138`: what `A` is afterwards and the value returned.  `ple` stands for `mzd_ple`, `junk` is what the
memory of the permutations contains before. -/
def mzd_echelonize_pluq0 (ple : Mzd → Mem Nat → Mem Nat → C (Ple × Nat)) (junk : Nat → Nat) (A : Mzd) : C (Mzd × Nat) := do
  let P ← mzp_init junk A.nrows
  let Q ← mzp_init junk A.ncols
  let s ← ple A P Q
  let A ← clearL s.2 s.1.Q s.1.A
  let A ← zeroRest s.2 A
  pure (A, s.2)

end WB.m4w
