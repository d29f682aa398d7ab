import Mathlib.LinearAlgebra.Matrix.Rank
import Mathlib.LinearAlgebra.Matrix.Block
import Mathlib.LinearAlgebra.Matrix.NonsingularInverse

/-! # The rank of a product of triangular matrices -/
namespace WB.m4w

open Matrix

/-- If some rows of `L` are a lower and some columns of `E` an upper unit triangular matrix, the rank of the product is the number in between. -/
theorem rank_of_factors {m n k : Nat} {L : Matrix (Fin m) (Fin k) (ZMod 2)} {E : Matrix (Fin k) (Fin n) (ZMod 2)} (f : Fin k → Fin m) (g : Fin k → Fin n)
    (h1 : ∀ i, L (f i) i = 1) (h2 : ∀ i j, i < j → L (f i) j = 0) (h3 : ∀ i, E i (g i) = 1) (h4 : ∀ i j, j < i → E i (g j) = 0) : (L * E).rank = k := by
  have dL : (L.submatrix f id).det = 1 := by
    have t : (L.submatrix f id).IsLowerTriangular := fun i j h => h2 i j (OrderDual.toDual_lt_toDual.1 h)
    rw [det_of_isLowerTriangular _ t]
    exact Finset.prod_eq_one fun i _ => h1 i
  have dE : (E.submatrix id g).det = 1 := by
    have t : (E.submatrix id g).IsUpperTriangular := fun i j h => h4 i j h
    rw [det_of_isUpperTriangular t]
    exact Finset.prod_eq_one fun i _ => h3 i
  refine le_antisymm ((rank_mul_le_left _ _).trans ((rank_le_width _).trans (by simp))) ?_
  have e : (L * E).submatrix f g = L.submatrix f id * E.submatrix id g := by
    rw [← submatrix_mul_equiv L E f (Equiv.refl _) g]
    rfl
  have r : ((L * E).submatrix f g).rank = k := by
    rw [rank_of_isUnit _ ((isUnit_iff_isUnit_det _).2 (by rw [e, det_mul, dL, dE, one_mul]; exact isUnit_one)), Fintype.card_fin]
  calc k = ((L * E).submatrix f g).rank := r.symm
    _ ≤ (L * E).rank := rank_submatrix_le _ _ _

/-- Factors that are invertible do not change the rank. -/
theorem rank_of_permuted {m n : Nat} {A X : Matrix (Fin m) (Fin n) (ZMod 2)} {P P' : Matrix (Fin m) (Fin m) (ZMod 2)} {Q Q' : Matrix (Fin n) (Fin n) (ZMod 2)} (hP : P' * P = 1) (hQ : Q * Q' = 1)
    (h : P * A * Q = X) : A.rank = X.rank := by
  refine le_antisymm ?_ ?_
  · have e : A = P' * X * Q' := by
      rw [← h, ← Matrix.mul_assoc, ← Matrix.mul_assoc, hP, Matrix.one_mul, Matrix.mul_assoc, hQ, Matrix.mul_one]
    rw [e]
    exact (rank_mul_le_left _ _).trans (rank_mul_le_right _ _)
  · rw [← h]
    exact (rank_mul_le_left _ _).trans (rank_mul_le_right _ _)

end WB.m4w
