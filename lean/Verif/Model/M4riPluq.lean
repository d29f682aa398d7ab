import Verif.Model.M4riPle
import Verif.Model.M4riSolve

/-!
# M4RI: the PLUQ factorisation from a PLE factorisation, and what is built on it

`/repo/test/github1_M4RI/src/m4ri/ple.c:42-62` and `/repo/test/github1_M4RI/src/m4ri/solve.c:30-35`, `120-184`, on words, in the same configuration as `M4riWord`.  `ple` stands for `_mzd_ple`
with its cutoff, `l1` for `__M4RI_CPU_L1_CACHE`.
-/
namespace WB.m4w

open WB.cmp (Mem Mem2)

/-- The columns of the upper part are exchanged, `/repo/test/github1_M4RI/src/m4ri/ple.c:54-60` -/
def triPart (l1 r : Nat) (A : Mzd) (Q : Mem Nat) : C Mzd :=
  if r ≠ 0 ∧ r < A.nrows then onWindow A 0 0 r A.ncols fun W => mzd_apply_p_right_trans_tri l1 W Q else mzd_apply_p_right_trans_tri l1 A Q

/-- `_mzd_pluq`, `/repo/test/github1_M4RI/src/m4ri/ple.c:52-62` -/
def _mzd_pluq (ple : Mzd → Mem Nat → Mem Nat → C (Ple × Nat)) (l1 : Nat) (A : Mzd) (P Q : Mem Nat) : C (Ple × Nat) := do
  let s ← ple A P Q
  let A ← triPart l1 s.2 s.1.A s.1.Q
  pure (⟨A, s.1.P, s.1.Q⟩, s.2)

/-- `mzd_pluq`, `/repo/test/github1_M4RI/src/m4ri/ple.c:42-49` -/
def mzd_pluq (ple : Mzd → Mem Nat → Mem Nat → C (Ple × Nat)) (l1 : Nat) (A : Mzd) (P Q : Mem Nat) : C (Ple × Nat) :=
  if P.size ≠ A.nrows then .error .abort
  else if Q.size ≠ A.ncols then .error .abort
  else _mzd_pluq ple l1 A P Q

/-- `_mzd_solve_left`, `/repo/test/github1_M4RI/src/m4ri/solve.c:120-144`; `junk'` is what the memory of the permutations contains before. -/
def _mzd_solve_left (ple : Mzd → Mem Nat → Mem Nat → C (Ple × Nat)) (l1 : Nat) (junk' : Nat → Nat) (tr : Bool → Mzd → C Mzd) (bs dflt cutoff : Nat) (e : SolveEnv) (check : Bool) (A B : Mzd) :
    C (Mzd × Int) := do
  let P ← mzp_init junk' A.nrows
  let Q ← mzp_init junk' A.ncols
  let s ← _mzd_pluq ple l1 A P Q
  mzd_pluq_solve_left tr bs dflt cutoff e check s.1.A s.2 s.1.P s.1.Q B

/-- `mzd_solve_left`, `/repo/test/github1_M4RI/src/m4ri/solve.c:30-35`: what `B` is afterwards and the value returned. -/
def mzd_solve_left (ple : Mzd → Mem Nat → Mem Nat → C (Ple × Nat)) (l1 : Nat) (junk' : Nat → Nat) (tr : Bool → Mzd → C Mzd) (bs dflt cutoff : Nat) (e : SolveEnv) (check : Bool) (A B : Mzd) :
    C (Mzd × Int) :=
  if B.nrows < A.ncols then .error .abort
  else _mzd_solve_left ple l1 junk' tr bs dflt cutoff e check A B

/-- `mzd_kernel_left_pluq`, `/repo/test/github1_M4RI/src/m4ri/solve.c:146-184`; `none` stands for `NULL`. -/
def mzd_kernel_left_pluq (ple : Mzd → Mem Nat → Mem Nat → C (Ple × Nat)) (l1 : Nat) (junk' : Nat → Nat) (tr : Bool → Mzd → C Mzd) (bs cutoff : Nat) (e : List Nat → TrsmEnv) (A : Mzd) :
    C (Option Mzd) := do
  let P ← mzp_init junk' A.nrows
  let Q ← mzp_init junk' A.ncols
  let s ← mzd_pluq ple l1 A P Q
  kernelOf tr bs cutoff e s.1.A s.2 s.1.Q

end WB.m4w
