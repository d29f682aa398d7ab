import Verif.Proof.Random
import Verif.Prop.Examples

/-!
# C25 — `permuteQPR` is a permutation
-/
namespace WB

/-- C25: `permuteQPR` is a bijection on the 32-bit unsigned integers. -/
theorem C25_permuteQPR : Function.Bijective permuteQPR := by
  exact ⟨fun _ _ h => permuteQPR_inj h, bv_surj fun _ _ h => permuteQPR_inj h⟩

example : permuteQPR 2147483645 = 1073741823 := by decide +kernel
example : permuteQPR 2147483646 = 3221225468 := by decide +kernel
example : ∃! x, permuteQPR x = 0xdeadbeef :=
  (Function.bijective_iff_existsUnique _).1 C25_permuteQPR _

end WB
