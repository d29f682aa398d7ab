import Mathlib.LinearAlgebra.Matrix.Block
import Mathlib.LinearAlgebra.Matrix.NonsingularInverse
import Mathlib.Data.ZMod.Basic

/-!
# Specification vocabulary: triangular matrices with ones on the diagonal
-/
namespace WB.m4w

/-- The entries of `A` below the diagonal, with ones on the diagonal and zeros above it. -/
def unitLower {n : Nat} (A : Matrix (Fin n) (Fin n) (ZMod 2)) : Matrix (Fin n) (Fin n) (ZMod 2) := fun i j => if i = j then 1 else if j < i then A i j else 0

/-- The entries of `A` above the diagonal, with ones on the diagonal and zeros below it. -/
def unitUpper {n : Nat} (A : Matrix (Fin n) (Fin n) (ZMod 2)) : Matrix (Fin n) (Fin n) (ZMod 2) := fun i j => if i = j then 1 else if i < j then A i j else 0

end WB.m4w
