import Mathlib.MeasureTheory.Integral.Bochner.Set
import Mathlib.MeasureTheory.Measure.Lebesgue.Basic
import Mathlib.Analysis.SpecialFunctions.Log.Base
import Mathlib.Analysis.SpecialFunctions.Pow.Real
import Verif.SpecSp

/-!
# Specification vocabulary for the randomness tests: real numbers
-/
namespace WB.sp

/-- The distribution function of the standard normal distribution. -/
noncomputable def Phi (x : ℝ) : ℝ := (Real.sqrt (2 * Real.pi))⁻¹ * ∫ t in Set.Iic x, Real.exp (-t ^ 2 / 2)

/-- The distance of block `i` of `L` bits to the last block before it with the same bits, or `i + 1` if there is none. -/
noncomputable def gap (bits : List Nat) (L i : Nat) : Nat := sInf {d | 0 < d ∧ (d ≤ i → part bits L (i - d) = part bits L i)}

/-- The statistic of Maurer's test for the blocks from `Q` to `nblocks - 1` of `L` bits: the mean of the logarithms of the distances. -/
noncomputable def meanLog (bits : List Nat) (L Q nblocks : Nat) : ℝ :=
  (∑ i ∈ Finset.Ico Q nblocks, Real.logb 2 (gap bits L i)) / ((nblocks : ℝ) - Q)

end WB.sp
