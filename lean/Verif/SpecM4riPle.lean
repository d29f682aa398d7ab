import Verif.SpecM4riWord
import Verif.SpecM4riPerm
import Verif.Model.M4riPle

/-!
# Specification vocabulary: what a PLE factorisation is
-/
namespace WB.m4w

open WB.cmp (Mem)

/-- `N`, `Q` and `k` are a PLE factorisation of `A`: `A = V * L * E` for an invertible matrix `V` (a permutation of the rows), a lower triangular matrix `L` with `k` columns and ones on the
diagonal, and a matrix `E` with `k` rows whose row `i` begins with zeros and a one in column `Q i`, where `Q 0 < Q 1 < … < Q (k - 1)`.  `L` is what is below the diagonal in the first `k`
columns of `N`, row `i` of `E` is what is to the right of column `Q i` in `N`, and the entries of `N` to the right of the diagonal up to there are zero. -/
structure IsPle {m n : Nat} (A : Matrix (Fin m) (Fin n) (ZMod 2)) (N : Mzd) (Q : Mem Nat) (k : Nat) : Prop where
  wf : N.Wf
  nrows : N.nrows = m
  ncols : N.ncols = n
  rows : k ≤ m
  size : Q.size = n
  bounds : ∀ i < k, i ≤ Q.cell i ∧ Q.cell i < n
  increasing : ∀ i j, i < j → j < k → Q.cell i < Q.cell j
  gap : ∀ i < k, ∀ b, i < b → b ≤ Q.cell i → N.bit i b = false
  factors : ∃ (V : Matrix (Fin m) (Fin m) (ZMod 2)) (L : Matrix (Fin m) (Fin k) (ZMod 2)) (E : Matrix (Fin k) (Fin n) (ZMod 2)), IsUnit V ∧ A = V * (L * E) ∧
    (∀ a j, L a j = if (j : Nat) < a then bitF (N.bit a j) else if (j : Nat) = a then 1 else 0) ∧
    ∀ i b, E i b = if Q.cell i < b then bitF (N.bit i b) else if Q.cell i = b then 1 else 0

/-- `ple` factors every matrix and changes no bits behind its last column. -/
def Factors (ple : Mzd → Mem Nat → Mem Nat → C (Ple × Nat)) : Prop := ∀ {m n : Nat} {M : Mzd} {P Q : Mem Nat} {A : Matrix (Fin m) (Fin n) (ZMod 2)}, Rep M A → P.size = m → Q.size = n →
  ∃ N P' Q' k, ple M P Q = .ok (⟨N, P', Q'⟩, k) ∧ IsPle A N Q' k ∧ ∀ a b, n ≤ b → N.bit a b = M.bit a b

/-- A permutation of length `n` in LAPACK's format, as the library asserts it. -/
def IsPerm (P : Mem Nat) (n : Nat) : Prop := P.size = n ∧ ∀ i < n, i ≤ P.cell i ∧ P.cell i < n

/-- `N`, `P`, `Q` and `k` are a PLE factorisation of `A`, with the permutation `P` of the rows: `A = Pᵀ * L * E`.  Otherwise as `IsPle`; the entries of `N` below row `k` and to the right of
the first `k` columns are zero. -/
structure IsPlePerm {m n : Nat} (A : Matrix (Fin m) (Fin n) (ZMod 2)) (N : Mzd) (P Q : Mem Nat) (k : Nat) : Prop where
  wf : N.Wf
  nrows : N.nrows = m
  ncols : N.ncols = n
  rows : k ≤ m
  cols : k ≤ n
  permP : IsPerm P m
  permQ : IsPerm Q n
  increasing : ∀ i j, i < j → j < k → Q.cell i < Q.cell j
  gap : ∀ i < k, ∀ b, i < b → b ≤ Q.cell i → N.bit i b = false
  rest : ∀ a, k ≤ a → a < m → ∀ b, k ≤ b → b < n → N.bit a b = false
  factors : ∃ (L : Matrix (Fin m) (Fin k) (ZMod 2)) (E : Matrix (Fin k) (Fin n) (ZMod 2)), A = (PMat P.cell m m).transpose * (L * E) ∧
    (∀ a j, L a j = if (j : Nat) < a then bitF (N.bit a j) else if (j : Nat) = a then 1 else 0) ∧
    ∀ i b, E i b = if Q.cell i < b then bitF (N.bit i b) else if Q.cell i = b then 1 else 0

/-- `N`, `P`, `Q` and `k` are a PLUQ factorisation of `A`: `A = Pᵀ * L * U * Q`.  `L` is what is below the diagonal in the first `k` columns of `N`, `U` what is above it in the first `k`
rows; both have ones on the diagonal; the other entries are zero. -/
structure IsPluq {m n : Nat} (A : Matrix (Fin m) (Fin n) (ZMod 2)) (N : Mzd) (P Q : Mem Nat) (k : Nat) : Prop where
  wf : N.Wf
  nrows : N.nrows = m
  ncols : N.ncols = n
  rows : k ≤ m
  cols : k ≤ n
  permP : IsPerm P m
  permQ : IsPerm Q n
  rest : ∀ a, k ≤ a → a < m → ∀ b, k ≤ b → b < n → N.bit a b = false
  factors : ∃ (L : Matrix (Fin m) (Fin k) (ZMod 2)) (U : Matrix (Fin k) (Fin n) (ZMod 2)), A = (PMat P.cell m m).transpose * (L * U) * PMat Q.cell n n ∧
    (∀ a j, L a j = if (j : Nat) < a then bitF (N.bit a j) else if (j : Nat) = a then 1 else 0) ∧
    ∀ i b, U i b = if (i : Nat) < b then bitF (N.bit i b) else if (i : Nat) = b then 1 else 0

/-- `ple` factors every matrix as in `IsPlePerm` and changes no bits behind its last column. -/
def FactorsPerm (ple : Mzd → Mem Nat → Mem Nat → C (Ple × Nat)) : Prop := ∀ {m n : Nat} {M : Mzd} {P Q : Mem Nat} {A : Matrix (Fin m) (Fin n) (ZMod 2)}, Rep M A → P.size = m → Q.size = n →
  ∃ N P' Q' k, ple M P Q = .ok (⟨N, P', Q'⟩, k) ∧ IsPlePerm A N P' Q' k ∧ ∀ a b, n ≤ b → N.bit a b = M.bit a b

end WB.m4w
