import Mathlib.GroupTheory.Perm.Basic
import Verif.SpecM4riWord

/-!
# Specification vocabulary for permutations in M4RI
-/
namespace WB.m4w

/-- The permutation of indices that belongs to the exchanges of `i` and `v i`, for the `i` in a list from the left to the right: after these
exchanges of columns, column `j` is what column `Walk v l j` has been before. -/
def Walk (v : Nat → Nat) (l : List Nat) : Equiv.Perm Nat := (l.map fun i => Equiv.swap i (v i)).prod

/-- The matrix of a permutation in LAPACK's format, for `n` rows or columns: the identity matrix after the exchanges of rows `i` and `v i`, for `i` from 0 to
`len - 1`. -/
def PMat (v : Nat → Nat) (len n : Nat) : Matrix (Fin n) (Fin n) (ZMod 2) := fun i j => if Walk v (List.range len) i = (j : Nat) then 1 else 0

end WB.m4w
