import Verif.Model.M4riPluq
import Verif.Model.M4riTri

/-!
# M4RI: the reduced row echelon form from a PLUQ factorisation

`/repo/test/github1_M4RI/src/m4ri/echelonform.c:38-138` for `full` = 1, on words, in the same configuration as `M4riWord`.  The part for `#if 0` is not compiled.
-/
namespace WB.m4w

open WB.cmp (Mem Mem2)

/-- What is to the right of `U` is multiplied by its inverse, `/repo/test/github1_M4RI/src/m4ri/echelonform.c:67-103`.  `U` and the windows that are written to while it is used have no words in
common; `e` and `e'` are the environments of the two calls of `mzd_trsm_upper_left`. -/
def rightPart (tr : Bool → Mzd → C Mzd) (bs : Nat) (e e' : List Nat → TrsmEnv) (r : Nat) (A : Mzd) : C Mzd :=
  let U := mzd_window A 0 0 r r
  let t := 64 * (r / 64)
  if t = r ∧ r ≠ A.ncols then onWindow A 0 r r A.ncols fun B => mzd_trsm_upper_left tr bs 0 e U B
  else if t ≠ r ∧ r ≠ A.ncols then
    if t + 64 < A.ncols then do
      let B0 ← mzd_submatrix A 0 t r (t + 64)
      let B0 ← mzd_trsm_upper_left tr bs 0 e U B0
      let A ← onWindow A 0 (t + 64) r A.ncols fun B1 => mzd_trsm_upper_left tr bs 0 e' U B1
      onWindow A 0 t r (t + 64) fun W => mzd_copy W B0
    else do
      let B ← mzd_submatrix A 0 t r A.ncols
      let B ← mzd_trsm_upper_left tr bs 0 e U B
      onWindow A 0 t r A.ncols fun W => mzd_copy W B
  else pure A

/-- The columns are exchanged back, `/repo/test/github1_M4RI/src/m4ri/echelonform.c:108-112` -/
def permPart (l1 r : Nat) (Q : Mem Nat) (A : Mzd) : C Mzd :=
  if r ≠ 0 then onWindow A 0 0 r A.ncols fun W => mzd_apply_p_right l1 W Q else pure A

/-- `mzd_echelonize_pluq(A, 1)`, `/repo/test/github1_M4RI/src/m4ri/echelonform.c:38-138`: what `A` is afterwards and the value returned. -/
def mzd_echelonize_pluq1 (ple : Mzd → Mem Nat → Mem Nat → C (Ple × Nat)) (l1 : Nat) (junk' : Nat → Nat) (tr : Bool → Mzd → C Mzd) (bs : Nat) (e e' : List Nat → TrsmEnv) (A : Mzd) :
    C (Mzd × Nat) := do
  let P ← mzp_init junk' A.nrows
  let Q ← mzp_init junk' A.ncols
  let s ← mzd_pluq ple l1 A P Q
  let A ← rightPart tr bs e e' s.2 s.1.A
  let A ← onWindow A 0 0 s.2 s.2 fun W => mzd_set_ui W 1
  let A ← permPart l1 s.2 s.1.Q A
  let A ← zeroRest s.2 A
  pure (A, s.2)

end WB.m4w
