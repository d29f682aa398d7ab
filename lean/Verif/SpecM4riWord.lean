import Mathlib.LinearAlgebra.Matrix.NonsingularInverse
import Verif.Model.M4riWord
import Verif.Spec

/-!
# Specification vocabulary for M4RI's own algorithms: what the words of a matrix denote
-/
namespace WB.m4w

/-- Word `j` of row `i`. -/
def Mzd.word (M : Mzd) (i j : Nat) : Word := M.mem.cell i (M.off + j)

/-- The bit in row `i` and column `j`; the columns from `M.ncols` on are the unused bits of the last word. -/
def Mzd.bit (M : Mzd) (i j : Nat) : Bool := (M.word i (j / 64)).getLsbD (j % 64)

/-- The words that belong to the matrix are allocated. -/
structure Mzd.Wf (M : Mzd) : Prop where
  rows : M.nrows ≤ M.mem.rows
  cols : M.off + M.width ≤ M.mem.cols

/-- The unused bits are zero. -/
def Mzd.Clean (M : Mzd) : Prop := ∀ i < M.nrows, ∀ j, M.ncols ≤ j → j < 64 * M.width → M.bit i j = false

/-- `M` is allocated and denotes the matrix `A` over GF(2). -/
structure Rep (M : Mzd) {r c : Nat} (A : Matrix (Fin r) (Fin c) (ZMod 2)) : Prop where
  wf : M.Wf
  nrows : M.nrows = r
  ncols : M.ncols = c
  bit : ∀ (i : Fin r) (j : Fin c), bitF (M.bit i j) = A i j

/-- A size for which a matrix and its transpose each lie in one block of memory (M4RI's blocks have `2^27` words). -/
def Fits (r c : Nat) : Prop := r ≤ 2 ^ 25 ∧ c ≤ 2 ^ 25 ∧ r * (c + 127) ≤ 2 ^ 32 ∧ c * (r + 127) ≤ 2 ^ 32

/-- `tr` transposes matrices that are not empty, that lie in one block and whose unused bits are zero. -/
def Transposes (tr : Mzd → C Mzd) : Prop := ∀ {M : Mzd} {r c : Nat} {A : Matrix (Fin r) (Fin c) (ZMod 2)}, 0 < r → 0 < c → Fits r c → Rep M A → M.Clean →
  ∃ N, tr M = .ok N ∧ Rep N A.transpose ∧ N.Clean

/-- The order of matrices of the same size in M4RI: rows with a small index and columns with a large index count most. -/
def Precedes {r c : Nat} (A B : Matrix (Fin r) (Fin c) (ZMod 2)) : Prop := ∃ i j, (∀ i' < i, ∀ j', A i' j' = B i' j') ∧ (∀ j' > j, A i j' = B i j') ∧ A i j = 0 ∧ B i j = 1

end WB.m4w
