import Verif.Model.M4riFree

/-!
# Specification vocabulary for the memory of M4RI's matrices: what programs may do with them
-/
namespace WB.m4a

/-- The states that a program can reach which makes matrices of any size and windows, frees each at most once and calls `m4ri_mmc_cleanup` when it likes, with the
list of the matrices and windows that are not freed. -/
inductive Runs (threshold : Nat) : Mmc → List Mat → Prop
  | start : Runs threshold .start []
  | init {s s' : Mmc} {l : List Mat} {A : Mat} (r c : Nat) : Runs threshold s l → mzd_init threshold r c s = (A, s') → Runs threshold s' (A :: l)
  | window {s s' : Mmc} {l : List Mat} {M W : Mat} (n skipped : Nat) : Runs threshold s l → M ∈ l → mzd_init_window threshold n skipped M s = (W, s') → Runs threshold s' (W :: l)
  | free {s s' : Mmc} {l l' : List Mat} {A : Mat} : Runs threshold s l → l.Perm (A :: l') → mzd_free threshold A s = .ok s' → Runs threshold s' l'
  | cleanup {s s' : Mmc} {l : List Mat} : Runs threshold s l → m4ri_mmc_cleanup s = .ok s' → Runs threshold s' l

end WB.m4a
