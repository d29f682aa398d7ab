import Mathlib.LinearAlgebra.Matrix.Rank
import Mathlib.Data.ZMod.Basic

/-!
# Specification vocabulary: the reduced row echelon form
-/
namespace WB.m4w

/-- `R` is in reduced row echelon form: the rows from `k` on are zero, and each of the first `k` rows has a leading one, further to the
right than the one in the row before, which is the only non-zero entry of its column. -/
def IsRref {r c : Nat} (R : Matrix (Fin r) (Fin c) (ZMod 2)) (k : Nat) : Prop := ∃ (hk : k ≤ r) (p : Fin k → Fin c), StrictMono p ∧
  (∀ i a, R a (p i) = if a = Fin.castLE hk i then 1 else 0) ∧ (∀ i, ∀ j < p i, R (Fin.castLE hk i) j = 0) ∧ ∀ a : Fin r, k ≤ a → ∀ j, R a j = 0

/-- `R` is in row echelon form: the rows from `k` on are zero, and each of the first `k` rows has a leading one, further to the right than the one in
the row before. -/
def IsRef {r c : Nat} (R : Matrix (Fin r) (Fin c) (ZMod 2)) (k : Nat) : Prop := ∃ (hk : k ≤ r) (p : Fin k → Fin c), StrictMono p ∧
  (∀ i, R (Fin.castLE hk i) (p i) = 1) ∧ (∀ i, ∀ j < p i, R (Fin.castLE hk i) j = 0) ∧ ∀ a : Fin r, k ≤ a → ∀ j, R a j = 0

end WB.m4w
