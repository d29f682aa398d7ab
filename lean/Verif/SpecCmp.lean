import Mathlib.LinearAlgebra.Matrix.NonsingularInverse
import Verif.Model.Cmp

/-!
# Specification vocabulary for the programs that the library is compared with
-/
namespace WB.cmp

/-- The `n` by `n` matrix stored row by row in a block. -/
def Mem.toMat {α : Type} (a : Mem α) (n : Nat) : Matrix (Fin n) (Fin n) α := fun i j => a.cell (i * n + j)

/-- The upper left `n` by `n` part of a two-dimensional array. -/
def Mem2.toMat {α : Type} (a : Mem2 α) (n : Nat) : Matrix (Fin n) (Fin n) α := fun i j => a.cell i j

/-- A matrix of integers as a matrix of rational numbers. -/
def toRat {n : Nat} (A : Matrix (Fin n) (Fin n) Int) : Matrix (Fin n) (Fin n) ℚ := A.map fun x => (x : ℚ)

end WB.cmp
