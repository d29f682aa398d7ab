import Verif.Model.M4riLayout

/-!
# Specification vocabulary for the layout of M4RI's matrices
-/
namespace WB.m4l

/-- The matrices that programs make: new matrices, and windows of matrices that start at a row of the matrix and do not end behind its last column. -/
inductive Made : Lay → Prop
  | init {r c : Nat} {M : Lay} : 0 < r → 0 < c → mzd_init r c = .ok M → Made M
  | window {M W : Lay} {lowr lowc highr highc : Nat} : Made M → lowr ≤ highr → lowr ≤ M.nrows → lowc ≤ highc → highc ≤ M.ncols →
      mzd_init_window M lowr lowc highr highc = .ok W → Made W

/-- All words of a row are inside of their block. -/
def InBlock (M : Lay) (a : Addr) : Prop := 0 ≤ a.2 ∧ a.2 + M.width ≤ M.size a.1

/-- The number of rows from row `r` on that lie in block `n`, counted from the block of the first row. -/
def rowsFrom (M : Lay) (r n : Nat) : Nat := ((List.range M.nrows).filter fun i => decide (r ≤ i) && decide ((M.rows i).1 = M.base + n)).length

end WB.m4l
